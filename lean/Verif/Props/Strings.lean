import Verif.StringTheory
import Verif.SpecString
import Verif.Order
import Verif.Ucd15Text
import Verif.Ucd15Start
import Verif.Tables.Gcb

/-!
# Properties of the string types (C01–C13, C50, C51, C53, C54, C58)

All statements are about `ucd15`, the Unicode data of the library.  `TextStr::from_text` is
`fromText (isBasicText ucd15)`, `TextSubstr::from_text` is `fromText (isBasicTextSubstr ucd15)`.
-/

namespace Verif
open Ucd Spec

/-- `TextString::from_text_lossy` of `chunks.flatten ++ last`, handed to the reader in those pieces, returns `t` without
panicking, when `read_to_string` reads with the buffer sizes `lens`. -/
def Converts (chunks : List (List Char)) (last : List Char) (lens : Nat → Nat) (t : List Char) : Prop :=
  ∃ n, ∀ m, n ≤ m → fromTextLossy ucd15 chunks last ((List.range m).map lens) = some t

theorem Converts.unique {chunks : List (List Char)} {last : List Char} {lens : Nat → Nat} {t t' : List Char}
    (h : Converts chunks last lens t) (h' : Converts chunks last lens t') : t = t' := by
  obtain ⟨n, h⟩ := h
  obtain ⟨n', h'⟩ := h'
  have h := h (n + n') (by omega)
  rw [h' (n + n') (by omega)] at h
  injection h with h
  exact h.symm

theorem no_err_in_script (chunks : List (List Char)) (last : List Char) : ∀ e ∈ script chunks last, e ≠ .err := by
  intro e he
  simp only [script, List.mem_append, List.mem_map, List.mem_singleton] at he
  rcases he with ⟨c, -, rfl⟩ | rfl <;> simp

theorem converts_of {chunks : List (List Char)} {last : List Char} {lens : Nat → Nat} (hl : ∀ i, normalizationBufferSize ≤ lens i) {t : List Char}
    (h : ∀ l text, readToEnd ucd15 l (.new false false) (script chunks last) = some text → fromTextLossy ucd15 chunks last l = some t) :
    Converts chunks last lens t := by
  obtain ⟨n, text, hn⟩ := readToEnd_total textLaws15 false false (no_err_in_script chunks last) lens hl
  exact ⟨n, fun m hm => h _ text (readToEnd_ge hm hn)⟩

theorem read_of_converts {chunks : List (List Char)} {last : List Char} {lens : Nat → Nat} {t : List Char} (h : Converts chunks last lens t) :
    ∃ m text, readToEnd ucd15 ((List.range m).map lens) (.new false false) (script chunks last) = some text ∧
      fromTextLossy ucd15 chunks last ((List.range m).map lens) = some t := by
  obtain ⟨n, h⟩ := h
  have h := h n (Nat.le_refl _)
  cases hr : readToEnd ucd15 ((List.range n).map lens) (.new false false) (script chunks last) with
  | none => rw [fromTextLossy] at h; rw [script] at hr; rw [hr] at h; simp at h
  | some text => exact ⟨n, text, hr, h⟩

theorem wj_start : isStart ucd15 WJ = true := by decide +kernel
theorem wj_assigned : isAssigned ucd15 WJ = true := by decide +kernel

theorem fromText_ok {valid : List Char → Bool} {s : List Char} (h : valid s = true) : fromText valid s = .ok s := by simp [fromText, h]

theorem fromText_ok_iff {valid : List Char → Bool} {s t : List Char} : fromText valid s = .ok t ↔ valid s = true ∧ t = s := by
  unfold fromText
  split
  · rename_i h; simp [h, eq_comm]
  · rename_i h
    simp only [h]
    split <;> simp

/-! ## C01 -/

/-- C01: `from_text_lossy` returns, whatever the string and however the reader is handed its bytes, and what it returns is
Basic Text. -/
theorem c01_lossy_total_valid (chunks : List (List Char)) (last : List Char) (hb : SliceReads chunks last) (lens : Nat → Nat)
    (hl : ∀ i, normalizationBufferSize ≤ lens i) :
    ∃ t, Converts chunks last lens t ∧ fromText (isBasicText ucd15) t = .ok t := by
  obtain ⟨n, text, hn⟩ := readToEnd_total textLaws15 false false (no_err_in_script chunks last) lens hl
  obtain ⟨t, h1, h2⟩ := lossy_valid textLaws15 wj_start hb hn
  refine ⟨t, ⟨n, fun m hm => ?_⟩, fromText_ok h2⟩
  obtain ⟨t', g1, -⟩ := lossy_valid textLaws15 wj_start hb (readToEnd_ge hm hn)
  have e1 : fromTextLossy ucd15 chunks last ((List.range n).map lens) = lossyFinish (chunks.flatten ++ last) text := by
    rw [script] at hn; rw [fromTextLossy, hn]
  have e2 : fromTextLossy ucd15 chunks last ((List.range m).map lens) = lossyFinish (chunks.flatten ++ last) text := by
    have := readToEnd_ge hm hn
    rw [script] at this; rw [fromTextLossy, this]
  rw [e2, ← e1, h1]

example : SliceReads [['﻿', '́'], ['\r']] ['\n', '\x1b', '[', 'm'] := Or.inl (by decide)

example : fromTextLossy ucd15 [['﻿', '́'], ['\r']] ['\n', '\x1b', '[', 'm'] [4096, 4096, 4096, 4096] = some ['⁠', '͏', '́', '\n'] := by
  decide +kernel

/-! ## C02 -/

/-- C02: valid Basic Text without unassigned scalars is left as it is. -/
theorem c02_lossy_fixes_valid (s : List Char) (hv : fromText (isBasicText ucd15) s = .ok s) (ha : ∀ c ∈ s, isAssigned ucd15 c = true)
    (chunks : List (List Char)) (last : List Char) (hs : chunks.flatten ++ last = s) (hb : SliceReads chunks last) (lens : Nat → Nat)
    (hl : ∀ i, normalizationBufferSize ≤ lens i) : Converts chunks last lens s := by
  subst hs
  have hv := (fromText_ok_iff.1 hv).1
  apply converts_of hl
  intro l text h
  rw [lossy_eq textLaws15 hb (clear_of textLaws15 (Or.inl ha)) h]
  obtain ⟨h1, h2, h3⟩ := lossyText_valid hv
  rw [h1, h2, h3, List.nil_append]
  congr 1
  rw [← normalize_spec textLaws15 (fun a c b h => ha c (by rw [h]; simp)),
    normChain_of_assigned textLaws15 (substr_iff.1 (text_substr hv)).2 ha]

example : fromText (isBasicText ucd15) ['q', '̣', '̇', '\n', 'x'] = .ok ['q', '̣', '̇', '\n', 'x'] := by decide +kernel

/-- Without the proviso it fails: U+0378 alone is accepted as Basic Text and comes back isolated. -/
theorem c02_refuted_unassigned : fromText (isBasicText ucd15) ['͸'] = .ok ['͸'] ∧
    fromTextLossy ucd15 [['͸']] [] [4096, 4096, 4096] = some ['͏', '͸', '͏'] := by decide +kernel

/-! ## C03 -/

/-- C03: converting the result again, handed over in one piece, gives the same result. -/
theorem c03_lossy_idempotent_whole (v : List Char) (t : List Char) (lens lens2 : Nat → Nat) (hl : ∀ i, normalizationBufferSize ≤ lens2 i)
    (h : Converts [v] [] lens t) : Converts [t] [] lens2 t := by
  obtain ⟨m, text, h1, h2⟩ := read_of_converts h
  apply converts_of hl
  intro l text2 h3
  exact lossy_idem_whole textLaws15 wj_start wj_assigned h1 h2 h3

/-- The same when the end is reported together with the text, for every cutting of the original. -/
theorem c03_lossy_idempotent_single (chunks : List (List Char)) (last : List Char) (hb : SliceReads chunks last) (t : List Char) (lens lens2 : Nat → Nat)
    (hl : ∀ i, normalizationBufferSize ≤ lens2 i) (h : Converts chunks last lens t) : Converts [] t lens2 t := by
  obtain ⟨m, text, h1, h2⟩ := read_of_converts h
  apply converts_of hl
  intro l text2 h3
  exact lossy_idem_single textLaws15 wj_start wj_assigned hb h1 h2 h3

/-- For every cutting of both: if no scalar of the result is unassigned. -/
theorem c03_lossy_idempotent_partial (chunks chunks2 : List (List Char)) (last last2 t : List Char) (hb : SliceReads chunks last)
    (hb2 : SliceReads chunks2 last2) (lens lens2 : Nat → Nat) (hl : ∀ i, normalizationBufferSize ≤ lens i)
    (hl2 : ∀ i, normalizationBufferSize ≤ lens2 i) (h : Converts chunks last lens t) (ht : chunks2.flatten ++ last2 = t)
    (ha : ∀ c ∈ t, isAssigned ucd15 c = true) : Converts chunks2 last2 lens2 t := by
  obtain ⟨t', h1, h2⟩ := c01_lossy_total_valid chunks last hb lens hl
  rw [h.unique h1] at *
  exact c02_lossy_fixes_valid t' h2 ha chunks2 last2 ht hb2 lens2 hl2

example : fromTextLossy ucd15 [['͸', 'a']] [] [4096, 4096, 4096] = some ['͏', '͸', '͏', 'a'] := by decide +kernel

/-- What is missing: a second conversion whose reader gets the text cut between U+034F and an unassigned scalar inserts
another U+034F. -/
theorem c03_refuted_cut : fromTextLossy ucd15 [['͸']] [] [4096, 4096, 4096] = some ['͏', '͸', '͏'] ∧
    fromTextLossy ucd15 [['͏'], ['͸', '͏']] [] [4096, 4096, 4096, 4096] = some ['͏', '͏', '͸', '͏'] := by
  decide +kernel

/-! ## C04 -/

/-- C04: the result is the documented conversion of the string, however it is cut up, unless it has U+034F directly before
an unassigned scalar, or ends with a newline that an escape sequence swallows. -/
theorem c04_lossy_algorithm_partial (v : List Char) (hn : Clear ucd15 false false v)
    (he : ESC ∉ v ∨ (v.getLast? ≠ some '\n' ∧ v.getLast? ≠ some '\r'))
    (chunks : List (List Char)) (last : List Char) (hs : chunks.flatten ++ last = v) (hb : SliceReads chunks last) (lens : Nat → Nat)
    (hl : ∀ i, normalizationBufferSize ≤ lens i) : Converts chunks last lens (Spec.string ucd15 v) := by
  subst hs
  exact converts_of hl (fun l text h => lossy_string textLaws15 hb hn he h)

example : Spec.string ucd15 ['﻿', '́', '\x0c', '\x0c', '\r', '\n', '͸', '\x1b', '[', '1', 'm', 'ﬁ', '‍'] =
    ['⁠', '͏', '́', '\n', '͏', '͸', '͏', 'f', 'i', '‍', '͏'] := by decide +kernel

/-- A newline swallowed by an escape sequence at the end of the string comes out nevertheless. -/
theorem c04_refuted_escape_newline : fromTextLossy ucd15 [['\x1b', ']', 'a', '\n']] [] [4096, 4096, 4096] = some ['\n'] ∧
    Spec.string ucd15 ['\x1b', ']', 'a', '\n'] = [] := by decide +kernel

/-- An unassigned scalar after a U+034F of the input does not get one after it, or gets another one before it. -/
theorem c04_refuted_isolation : fromTextLossy ucd15 [['͏', '͸', 'a', '\n']] [] [4096, 4096, 4096] = some ['͏', '͸', 'a', '\n'] ∧
    Spec.string ucd15 ['͏', '͸', 'a', '\n'] = ['͏', '͸', '͏', 'a', '\n'] ∧
    fromTextLossy ucd15 [['͏', '͸', 'a']] [] [4096, 4096, 4096] = some ['͏', '͏', '͸', '͏', 'a'] ∧
    Spec.string ucd15 ['͏', '͸', 'a'] = ['͏', '͸', '͏', 'a'] := by decide +kernel

/-! ## C05, C06 -/

theorem owned_ok_iff {s t : List Char} {valid : List Char → Bool} (h0 : valid [] = true) :
    fromTextOwned ucd15 valid s = .ok t ↔ Acceptable ucd15 s ∧ t = normChain ucd15 s := by
  obtain ⟨h1, h2⟩ := fromTextOwned_eq textLaws15 startLaws15 valid s
  by_cases h : Acceptable ucd15 s
  · rw [h1 h]; simp [h, eq_comm]
  · obtain ⟨n, hn, -⟩ := failAt_spec h0 s
    rw [h2 h, hn]; simp [h]

/-- C05: what `TextString::from_text` returns is Basic Text. -/
theorem c05_owned_valid (s t : List Char) (h : fromTextOwned ucd15 (isBasicText ucd15) s = .ok t) : fromText (isBasicText ucd15) t = .ok t := by
  obtain ⟨h1, rfl⟩ := (owned_ok_iff isBasicText_nil).1 h
  exact fromText_ok (normChain_valid textLaws15 h1)

/-- It is the normalization of what was given. -/
theorem c05_owned_normalizes (s t : List Char) (hn : ∀ a c b, s = a ++ CGJ :: c :: b → isAssigned ucd15 c = true)
    (h : fromTextOwned ucd15 (isBasicText ucd15) s = .ok t) : t = Spec.normalize ucd15 s := by
  obtain ⟨h1, rfl⟩ := (owned_ok_iff isBasicText_nil).1 h
  exact normalize_spec textLaws15 hn

/-- Exactly the strings that the checks of each scalar, of the first and of the last accept are accepted. -/
theorem c05_owned_accepts (s : List Char) : (∃ t, fromTextOwned ucd15 (isBasicText ucd15) s = .ok t) ↔
    (∀ c ∈ s, checkChar c = none ∧ c ≠ '\x1b') ∧ (∀ c ∈ s.head?, isStart ucd15 c = true) ∧ ∀ c ∈ s.getLast?, isEnd c = true := by
  constructor
  · rintro ⟨t, h⟩
    obtain ⟨⟨h1, h2, h3⟩, -⟩ := (owned_ok_iff isBasicText_nil).1 h
    exact ⟨fun c hc => okChar_check.1 (h1 c hc), h2, h3⟩
  · rintro ⟨h1, h2, h3⟩
    exact ⟨_, (owned_ok_iff isBasicText_nil).2 ⟨⟨fun c hc => okChar_check.2 (h1 c hc), h2, h3⟩, rfl⟩⟩

example : fromTextOwned ucd15 (isBasicText ucd15) ['e', '̇', '̣'] = .ok ['ẹ', '̇'] := by decide +kernel

/-- C06: Basic Text is accepted, and unchanged when no scalar is unassigned. -/
theorem c06_owned_accepts_valid (s : List Char) (h : fromText (isBasicText ucd15) s = .ok s) :
    (∃ t, fromTextOwned ucd15 (isBasicText ucd15) s = .ok t) ∧
    ((∀ c ∈ s, isAssigned ucd15 c = true) → fromTextOwned ucd15 (isBasicText ucd15) s = .ok s) := by
  have hv := (fromText_ok_iff.1 h).1
  refine ⟨⟨_, (owned_ok_iff isBasicText_nil).2 ⟨acceptable_of_valid hv, rfl⟩⟩, fun ha => ?_⟩
  exact (owned_ok_iff isBasicText_nil).2 ⟨acceptable_of_valid hv, (normChain_of_assigned textLaws15 (substr_iff.1 (text_substr hv)).2 ha).symm⟩

/-- With an unassigned scalar it may change. -/
theorem c06_refuted_unassigned : fromText (isBasicText ucd15) ['͸'] = .ok ['͸'] ∧
    fromTextOwned ucd15 (isBasicText ucd15) ['͸'] = .ok ['͏', '͸', '͏'] := by decide +kernel

/-! ## C07, C08 -/

/-- `n` is the length in bytes of a proper prefix of `s`, ending at a scalar boundary, that satisfies `valid`, while the
prefix one scalar longer does not. -/
def ErrorAt (valid : List Char → Bool) (s : List Char) (n : Nat) : Prop :=
  ∃ p c q, s = p ++ c :: q ∧ (encode p).length = n ∧ valid p = true ∧ valid (p ++ [c]) = false

theorem fromText_err {valid : List Char → Bool} (h0 : valid [] = true) {s : List Char} (h : valid s = false) :
    ∃ n, fromText valid s = .err n ∧ ErrorAt valid s n := by
  obtain ⟨p, c, q, h1, h2, h3, h4⟩ := validUpTo_invalid h0 h
  refine ⟨_, ?_, p, c, q, h1, rfl, h3, h4⟩
  simp [fromText, h, h2]

/-- C07: a string `TextStr::from_text` does not accept gets an error, not a panic or an endless search, and `valid_up_to` is
where it says. -/
theorem c07_valid_up_to_borrowed (s : List Char) (h : fromText (isBasicText ucd15) s ≠ .ok s) :
    ∃ n, fromText (isBasicText ucd15) s = .err n ∧ ErrorAt (isBasicText ucd15) s n := by
  refine fromText_err isBasicText_nil ?_
  cases hv : isBasicText ucd15 s with
  | false => rfl
  | true => exact absurd (fromText_ok hv) h

/-- The same for `TextString::from_text`. -/
theorem c07_valid_up_to_owned (s : List Char) (h : ∀ t, fromTextOwned ucd15 (isBasicText ucd15) s ≠ .ok t) :
    ∃ n, fromTextOwned ucd15 (isBasicText ucd15) s = .err n ∧ ErrorAt (isBasicText ucd15) s n := by
  have hn : ¬ Acceptable ucd15 s := fun ha => h _ ((owned_ok_iff isBasicText_nil).2 ⟨ha, rfl⟩)
  have hv : isBasicText ucd15 s = false := by
    cases hv : isBasicText ucd15 s with
    | false => rfl
    | true => exact absurd (acceptable_of_valid hv) hn
  obtain ⟨p, c, q, h1, h2, h3, h4⟩ := validUpTo_invalid isBasicText_nil hv
  refine ⟨(encode p).length, ?_, p, c, q, h1, rfl, h3, h4⟩
  rw [(fromTextOwned_eq textLaws15 startLaws15 _ s).2 hn]
  simp [failAt, h2]

/-- The position is a scalar boundary strictly inside the string. -/
theorem c07_error_inside (valid : List Char → Bool) (s : List Char) (n : Nat) (h : ErrorAt valid s n) :
    isCharBoundary s n = true ∧ n < (encode s).length ∧ ∃ p, sliceTo s n = some p ∧ valid p = true := by
  obtain ⟨p, c, q, rfl, rfl, h3, -⟩ := h
  have hs := sliceTo_append p (c :: q)
  refine ⟨?_, ?_, p, hs, h3⟩
  · unfold sliceTo at hs
    split at hs
    · assumption
    · simp at hs
  · rw [encode_append, List.length_append, encode_cons, List.length_append, encodeChar_length]
    have := utf8Len_pos c
    omega

example : fromText (isBasicText ucd15) ['é', '͸', '\x00', 'a'] = .err 4 := by decide +kernel
example : fromTextOwned ucd15 (isBasicText ucd15) ['é', '͸', '\x00', 'a'] = .err 4 := by decide +kernel

/-- It need not be the longest such prefix: after a scalar that may not end a text a longer prefix can be valid again. -/
theorem c07_refuted_longest : fromText (isBasicText ucd15) ['a', '‍', 'b', '\x00', 'x', 'x', 'x', 'x', 'x', 'x', 'x', 'x'] = .err 1 ∧
    isBasicText ucd15 ['a', '‍', 'b'] = true := by decide +kernel

/-- C08: `valid_up_to` of `TextSubstr::from_text` is the length of the longest valid prefix. -/
theorem c08_valid_up_to_exact (s : List Char) (h : fromText (isBasicTextSubstr ucd15) s ≠ .ok s) :
    ∃ p q, s = p ++ q ∧ fromText (isBasicTextSubstr ucd15) s = .err (encode p).length ∧ isBasicTextSubstr ucd15 p = true ∧
      ∀ p' q', s = p' ++ q' → (isBasicTextSubstr ucd15 p' = true ↔ p'.length ≤ p.length) := by
  have hv : isBasicTextSubstr ucd15 s = false := by
    cases hv : isBasicTextSubstr ucd15 s with
    | false => rfl
    | true => exact absurd (fromText_ok hv) h
  obtain ⟨n, h1, p, c, q, rfl, rfl, h3, h4⟩ := fromText_err isBasicTextSubstr_nil hv
  refine ⟨p, c :: q, rfl, h1, h3, ?_⟩
  intro p' q' hs
  constructor
  · intro hp
    apply Classical.byContradiction
    intro hlt
    have hpre : p ++ [c] <+: p' := by
      refine List.prefix_of_prefix_length_le (l₃ := p ++ c :: q) ⟨q, by simp⟩ ⟨q', hs.symm⟩ (by simp; omega)
    obtain ⟨x, rfl⟩ := hpre
    rw [substr_prefix textLaws15 hp] at h4
    simp at h4
  · intro hle
    obtain ⟨x, rfl⟩ := List.prefix_of_prefix_length_le (l₃ := p ++ c :: q) ⟨q', hs.symm⟩ ⟨_, rfl⟩ hle
    exact substr_prefix textLaws15 h3

example : fromText (isBasicTextSubstr ucd15) ['́', 'é', 'e', '́', 'x'] = .err 5 := by decide +kernel

/-! ## C09, C10 -/

/-- C09: every slice of a valid string is a valid substring. -/
theorem c09_slices_valid (s : List Char) (h : isBasicTextSubstr ucd15 s = true) (a b : Nat) (m : List Char) :
    (slice s a b = some m → fromText (isBasicTextSubstr ucd15) m = .ok m) ∧
    (sliceTo s b = some m → fromText (isBasicTextSubstr ucd15) m = .ok m) ∧
    (sliceFrom s a = some m → fromText (isBasicTextSubstr ucd15) m = .ok m) := by
  refine ⟨fun hs => ?_, fun hs => ?_, fun hs => ?_⟩
  · obtain ⟨p, q, rfl, -, -⟩ := slice_iff.1 hs
    exact fromText_ok (substr_infix textLaws15 h)
  · obtain ⟨q, rfl, -⟩ := sliceTo_iff.1 hs
    exact fromText_ok (substr_prefix textLaws15 h)
  · obtain ⟨q, rfl, -⟩ := sliceFrom_iff.1 hs
    exact fromText_ok (substr_suffix textLaws15 h)

/-- A `TextStr` is one, too. -/
theorem c09_text_is_substr (s : List Char) (h : fromText (isBasicText ucd15) s = .ok s) : fromText (isBasicTextSubstr ucd15) s = .ok s :=
  fromText_ok (text_substr (fromText_ok_iff.1 h).1)

example : slice ['x', '́', 'é', 'z'] 1 5 = some ['́', 'é'] := by decide +kernel

theorem slices_split {s : List Char} {mid : Nat} : (∃ a b, sliceTo s mid = some a ∧ sliceFrom s mid = some b ∧ s = a ++ b ∧ (encode a).length = mid) ∨
    (sliceTo s mid = none ∧ sliceFrom s mid = none ∧ isCharBoundary s mid = false) := by
  cases hb : isCharBoundary s mid with
  | true =>
    left
    obtain ⟨a, b, rfl, rfl⟩ := isCharBoundary_iff.1 hb
    exact ⟨a, b, sliceTo_append a b, sliceFrom_append a b, rfl, rfl⟩
  | false => right; simp [sliceTo, sliceFrom, hb]

/-- C10 for `TextSubstr`: it panics exactly when `mid` is not a scalar boundary; the halves are valid substrings and
concatenate to the original, the first being `mid` bytes long. -/
theorem c10_split_substr (s : List Char) (h : isBasicTextSubstr ucd15 s = true) (mid : Nat) :
    (splitAt (isBasicTextSubstr ucd15) s mid = none ↔ ¬ ∃ a b, s = a ++ b ∧ (encode a).length = mid) ∧
    ∀ a b, splitAt (isBasicTextSubstr ucd15) s mid = some (a, b) → s = a ++ b ∧ (encode a).length = mid ∧
      isBasicTextSubstr ucd15 a = true ∧ isBasicTextSubstr ucd15 b = true := by
  rcases slices_split (s := s) (mid := mid) with ⟨a, b, h1, h2, h3, h4⟩ | ⟨h1, h2, h3⟩
  · have ha : isBasicTextSubstr ucd15 a = true := substr_prefix textLaws15 (h3 ▸ h)
    have hb : isBasicTextSubstr ucd15 b = true := substr_suffix textLaws15 (h3 ▸ h)
    have e : splitAt (isBasicTextSubstr ucd15) s mid = some (a, b) := by
      simp [splitAt, h1, h2, fromText_ok ha, fromText_ok hb]
    rw [e]
    refine ⟨by simp only [reduceCtorEq, false_iff, Classical.not_not]; exact ⟨a, b, h3, h4⟩, ?_⟩
    intro a' b' he
    simp only [Option.some.injEq, Prod.mk.injEq] at he
    obtain ⟨rfl, rfl⟩ := he
    exact ⟨h3, h4, ha, hb⟩
  · have e : splitAt (isBasicTextSubstr ucd15) s mid = none := by simp [splitAt, h1, h2]
    rw [e]
    refine ⟨?_, by simp⟩
    simp only [true_iff]
    rintro ⟨a, b, rfl, rfl⟩
    rw [isCharBoundary_iff.2 ⟨a, b, rfl, rfl⟩] at h3
    simp at h3

/-- C10 for `TextStr`: it panics, or returns two Basic Text strings that concatenate to the original; it returns exactly when
`mid` is a scalar boundary and both halves are Basic Text. -/
theorem c10_split_text (s : List Char) (mid : Nat) (a b : List Char) :
    splitAt (isBasicText ucd15) s mid = some (a, b) ↔
      s = a ++ b ∧ (encode a).length = mid ∧ fromText (isBasicText ucd15) a = .ok a ∧ fromText (isBasicText ucd15) b = .ok b := by
  constructor
  · intro h
    unfold splitAt at h
    split at h
    · rename_i a' b' h1 h2
      split at h
      · rename_i x y h3 h4
        simp only [Option.some.injEq, Prod.mk.injEq] at h
        obtain ⟨rfl, rfl⟩ := h
        obtain ⟨v1, rfl⟩ := fromText_ok_iff.1 h3
        obtain ⟨v2, rfl⟩ := fromText_ok_iff.1 h4
        rcases slices_split (s := s) (mid := mid) with ⟨a, b, e1, e2, e3, e4⟩ | ⟨e1, -, -⟩
        · rw [h1] at e1
          rw [h2] at e2
          simp only [Option.some.injEq] at e1 e2
          subst e1 e2
          exact ⟨e3, e4, h3, h4⟩
        · rw [h1] at e1; simp at e1
      · simp at h
    · simp at h
  · rintro ⟨rfl, rfl, h3, h4⟩
    simp [splitAt, sliceTo_append, sliceFrom_append, h3, h4]

example : splitAt (isBasicText ucd15) ['é', 'x', '\n'] 3 = some (['é', 'x'], ['\n']) := by decide +kernel

/-- A `TextStr` panics at scalar boundaries, too: before a nonstarter. -/
theorem c10_refuted_text_boundary : fromText (isBasicText ucd15) ['x', '́'] = .ok ['x', '́'] ∧ isCharBoundary ['x', '́'] 1 = true ∧
    splitAt (isBasicText ucd15) ['x', '́'] 1 = none ∧ splitAt (isBasicTextSubstr ucd15) ['x', '́'] 1 = some (['x'], ['́']) := by decide +kernel

/-! ## C11 -/

/-- `t` is `s` without white space at the front (if `front`) and at the back (if `back`). -/
def Trimmed (front back : Bool) (s t : List Char) : Prop :=
  ∃ w w', s = w ++ t ++ w' ∧ (∀ c ∈ w ++ w', isWhite c = true) ∧
    (if front then ∀ c ∈ t.head?, isWhite c = false else w = []) ∧ (if back then ∀ c ∈ t.getLast?, isWhite c = false else w' = [])

/-- White space is the `White_Space` property of the Unicode data. -/
theorem c11_whitespace (c : Char) : isWhite c = inRanges Tables.whiteSpace c.toNat := by
  have hs : (c == ' ') = (c.toNat == 0x20) := by
    rw [Bool.eq_iff_iff, beq_iff_eq, beq_iff_eq, ← Char.toNat_inj]; rfl
  unfold isWhite between
  rw [hs, Bool.eq_iff_iff]
  simp only [inRanges, Tables.whiteSpace, List.any_cons, List.any_nil, Bool.or_eq_true, Bool.and_eq_true, beq_iff_eq,
    Bool.or_false, decide_eq_true_eq, Nat.ble_eq]
  omega

/-- C11: `trim` and its relatives remove white space at the ends, all of it, and nothing else. -/
theorem c11_trim_meaning (s : List Char) : Trimmed true true s (trim s) ∧ Trimmed true false s (trimStart s) ∧ Trimmed false true s (trimEnd s) := by
  refine ⟨?_, ?_, ?_⟩
  · obtain ⟨w, w', h1, h2, h3, h4⟩ := trim_spec s
    exact ⟨w, w', h1, h2, h3, h4⟩
  · obtain ⟨w, h1, h2, h3⟩ := trimStart_spec s
    exact ⟨w, [], by simpa using h1, by simpa using h2, h3, rfl⟩
  · obtain ⟨w, h1, h2, h3⟩ := trimEnd_spec s
    exact ⟨[], w, by simpa using h1, by simpa using h2, rfl, h3⟩

theorem trimmed_substr {front back : Bool} {s t : List Char} (h : Trimmed front back s t) (hs : isBasicTextSubstr ucd15 s = true) :
    isBasicTextSubstr ucd15 t = true := by
  obtain ⟨w, w', rfl, -⟩ := h
  exact substr_infix textLaws15 hs

/-- C11 for `TextSubstr`: trimming gives a valid substring. -/
theorem c11_trim_substr (s : List Char) (h : isBasicTextSubstr ucd15 s = true) : isBasicTextSubstr ucd15 (trim s) = true ∧
    isBasicTextSubstr ucd15 (trimStart s) = true ∧ isBasicTextSubstr ucd15 (trimEnd s) = true := by
  obtain ⟨h1, h2, h3⟩ := c11_trim_meaning s
  exact ⟨trimmed_substr h1 h, trimmed_substr h2 h, trimmed_substr h3 h⟩

/-- C11 for `TextStr`: the result of each is Basic Text exactly when its own first and last scalars may stand there; what is
missing is that they always may. -/
theorem c11_trim_text_partial (s : List Char) (h : isBasicText ucd15 s = true) (t : List Char) (ht : t = trim s ∨ t = trimStart s ∨ t = trimEnd s) :
    isBasicText ucd15 t = true ↔ (∀ c ∈ t.head?, isStart ucd15 c = true) ∧ ∀ c ∈ t.getLast?, isEnd c = true := by
  have hs : isBasicTextSubstr ucd15 t = true := by
    obtain ⟨h1, h2, h3⟩ := c11_trim_substr s (text_substr h)
    rcases ht with rfl | rfl | rfl <;> assumption
  rw [text_iff]
  exact ⟨fun h => ⟨h.1, h.2.1⟩, fun h => ⟨h.1, h.2, hs⟩⟩

theorem ascii_end {c : Char} (h : c.toNat < 0x80) : isEnd c = true := by
  have hr : ∀ B : List (Nat × Nat), B.all (fun r => Nat.ble 0x80 r.1) = true → inRanges B c.toNat = false := by
    intro B hB
    apply Bool.eq_false_iff.2
    intro hc
    obtain ⟨r, h1, h2, -⟩ := inRanges_iff.1 hc
    have := Nat.le_of_ble_eq_true (List.all_eq_true.1 hB r h1)
    omega
  unfold isEnd
  rw [hr _ (by decide), hr _ (by decide), hr _ (by decide)]
  have : Nat.beq c.toNat 0x200d = false := by apply Bool.eq_false_iff.2; intro hc; have := Nat.eq_of_beq_eq_true hc; omega
  rw [this]; rfl

/-- In particular when the scalar next to the white space is ASCII. -/
theorem c11_trim_ascii (s : List Char) (h : isBasicText ucd15 s = true) (t : List Char) (ht : t = trim s ∨ t = trimStart s ∨ t = trimEnd s)
    (h1 : ∀ c ∈ t.head?, c.toNat < 0x80) (h2 : ∀ c ∈ t.getLast?, c.toNat < 0x80) : isBasicText ucd15 t = true :=
  (c11_trim_text_partial s h t ht).2 ⟨fun c hc => textLaws15.start_ascii c (by have := h1 c hc; omega), fun c hc => ascii_end (h2 c hc)⟩

example : isBasicText ucd15 [' ', ' ', 'q', '́', 'b', '\n'] = true ∧ trim [' ', ' ', 'q', '́', 'b', '\n'] = ['q', '́', 'b'] := by decide +kernel

/-- `trim_start` of a `TextStr` can leave a nonstarter in front, `trim_end` a U+200D at the end. -/
theorem c11_refuted_trim_text :
    isBasicText ucd15 [' ', '́', 'a'] = true ∧ isBasicText ucd15 (trimStart [' ', '́', 'a']) = false ∧
    isBasicText ucd15 ['a', '‍', ' '] = true ∧ isBasicText ucd15 (trimEnd ['a', '‍', ' ']) = false := by decide +kernel

/-! ## C12, C13 -/

/-- C12: appending a `TextStr` that does not begin with a Hangul vowel or trailing jamo gives Basic Text. -/
theorem c12_push_valid_partial (a s : List Char) (ha : isBasicText ucd15 a = true) (hs : isBasicText ucd15 s = true)
    (hj : ∀ c ∈ s.head?, isJamoVT c = false) : isBasicText ucd15 (pushText a s) = true :=
  pushText_valid textLaws15 ha hs hj

theorem c12_extend_valid_partial (a : List Char) (l : List (List Char)) (ha : isBasicText ucd15 a = true) (hl : ∀ s ∈ l, isBasicText ucd15 s = true)
    (hj : ∀ s ∈ l, ∀ c ∈ s.head?, isJamoVT c = false) : isBasicText ucd15 (extendText a l) = true :=
  extendText_valid textLaws15 ha hl hj

/-- What is appended: the strings one after the other, but one U+034F for two that meet. -/
theorem c12_push_value (a s : List Char) :
    (a.getLast? = some CGJ ∧ s.head? = some CGJ → pushText a s = a.dropLast ++ s) ∧
    (¬ (a.getLast? = some CGJ ∧ s.head? = some CGJ) → pushText a s = a ++ s) := by
  rcases pushText_cases a s with ⟨a', r, rfl, rfl, h⟩ | ⟨hn, h⟩
  · exact ⟨fun _ => by rw [h]; simp, fun hn => absurd (by simp) hn⟩
  · exact ⟨fun hy => absurd hy hn, fun _ => h⟩

example : isBasicText ucd15 ['a', '‍', '͏'] = true ∧ isBasicText ucd15 ['͏', '́', 'b'] = true ∧
    pushText ['a', '‍', '͏'] ['͏', '́', 'b'] = ['a', '‍', '͏', '́', 'b'] := by decide +kernel

/-- Basic Text is not closed under concatenation: U+1100 and U+1161 compose. -/
theorem c12_refuted_jamo : isBasicText ucd15 ['ᄀ'] = true ∧ isBasicText ucd15 ['ᅡ'] = true ∧
    isBasicText ucd15 (pushText ['ᄀ'] ['ᅡ']) = false := by decide +kernel

/-- C13: repeating a `TextStr` that does not begin with a Hangul vowel or trailing jamo gives Basic Text. -/
theorem c13_repeat_text_partial (s : List Char) (h : isBasicText ucd15 s = true) (hj : ∀ c ∈ s.head?, isJamoVT c = false) (n : Nat) :
    isBasicText ucd15 (repeatText s n) = true :=
  repeat_valid textLaws15 h hj n

/-- Repeating a `TextSubstr` that begins like a Basic Text string gives a valid substring. -/
theorem c13_repeat_substr_partial (s : List Char) (h : isBasicTextSubstr ucd15 s = true)
    (hh : ∀ c ∈ s.head?, isStart ucd15 c = true ∧ isJamoVT c = false) (n : Nat) : isBasicTextSubstr ucd15 (repeatText s n) = true :=
  repeat_substr textLaws15 h hh n

example : repeatText ['a', '́'] 3 = ['a', '́', 'a', '́', 'a', '́'] := rfl

theorem c13_refuted_text : isBasicText ucd15 ['ᅡ', 'ᄀ'] = true ∧ isBasicText ucd15 (repeatText ['ᅡ', 'ᄀ'] 2) = false := by decide +kernel

/-- A `TextSubstr` of marks exceeds the Stream-Safe limit, or its marks get out of order. -/
theorem c13_refuted_substr : isBasicTextSubstr ucd15 ['́'] = true ∧ isBasicTextSubstr ucd15 (repeatText ['́'] 31) = false ∧
    isBasicTextSubstr ucd15 ['̣', '́'] = true ∧ isBasicTextSubstr ucd15 (repeatText ['̣', '́'] 2) = false := by decide +kernel

/-! ## C50 -/

/-- Scalar sequences in lexicographic order of the scalar values. -/
inductive ScalarLt : List Char → List Char → Prop where
  | short (d : Char) (t : List Char) : ScalarLt [] (d :: t)
  | here {c d : Char} (s t : List Char) : c.toNat < d.toNat → ScalarLt (c :: s) (d :: t)
  | later (c : Char) {s t : List Char} : ScalarLt s t → ScalarLt (c :: s) (c :: t)

/-- C50: comparing bytes is comparing scalars. -/
theorem c50_order (s t : List Char) : (cmpStr s t = .lt ↔ ScalarLt s t) ∧ (cmpStr s t = .gt ↔ ScalarLt t s) ∧ (cmpStr s t = .eq ↔ s = t) := by
  induction s generalizing t with
  | nil =>
    cases t with
    | nil =>
      have : cmpStr [] [] = .eq := rfl
      rw [this]
      refine ⟨⟨by simp, fun h => nomatch h⟩, ⟨by simp, fun h => nomatch h⟩, by simp⟩
    | cons d t =>
      rw [cmpStr_nil_cons]
      refine ⟨⟨fun _ => .short d t, fun _ => rfl⟩, ⟨by simp, fun h => nomatch h⟩, by simp⟩
  | cons c s ih =>
    cases t with
    | nil =>
      rw [cmpStr_cons_nil]
      refine ⟨⟨by simp, fun h => nomatch h⟩, ⟨fun _ => .short c s, fun _ => rfl⟩, by simp⟩
    | cons d t =>
      rw [cmpStr_cons]
      split
      · rename_i h
        refine ⟨⟨fun _ => .here s t h, fun _ => rfl⟩, ⟨by simp, fun h' => ?_⟩, ⟨by simp, fun h' => ?_⟩⟩
        · cases h' <;> omega
        · injection h' with h1 h2; rw [h1] at h; omega
      · split
        · rename_i h _ 
          rename_i h
          refine ⟨⟨by simp, fun h' => ?_⟩, ⟨fun _ => .here t s h, fun _ => rfl⟩, ⟨by simp, fun h' => ?_⟩⟩
          · cases h' <;> omega
          · injection h' with h1 h2; rw [h1] at h; omega
        · have : c = d := Char.toNat_inj.1 (by omega)
          subst this
          obtain ⟨h1, h2, h3⟩ := ih t
          refine ⟨?_, ?_, ?_⟩
          · rw [h1]
            exact ⟨fun h => .later c h, fun h => by cases h <;> first | assumption | omega⟩
          · rw [h2]
            exact ⟨fun h => .later c h, fun h => by cases h <;> first | assumption | omega⟩
          · rw [h3]; simp

example : cmpStr ['￿', 'a'] ['𐀀'] = .lt := by decide +kernel

/-! ## C51, C58 -/

/-- C51: bytes are accepted exactly if they encode an accepted string, and then that string is the result; for
`TextStr`/`TextSubstr` … -/
theorem c51_bytes_borrowed (valid : List Char → Bool) (b : Bytes) (t : List Char) :
    fromTextBytes valid b = .ok t ↔ ∃ s, b = encode s ∧ fromText valid s = .ok t := by
  unfold fromTextBytes
  cases h : fromUtf8 b with
  | none =>
    simp only [reduceCtorEq, false_iff]
    rintro ⟨s, rfl, -⟩
    rw [fromUtf8_encode] at h; simp at h
  | some s =>
    rw [fromUtf8_iff] at h
    subst h
    simp only
    constructor
    · intro h; exact ⟨s, rfl, h⟩
    · rintro ⟨s', h1, h2⟩; rw [encode_injective h1]; exact h2

/-- … and for `TextString`/`TextSubstring`. -/
theorem c51_bytes_owned (valid : List Char → Bool) (b : Bytes) (t : List Char) :
    fromTextVec ucd15 valid b = .ok t ↔ ∃ s, b = encode s ∧ fromTextOwned ucd15 valid s = .ok t := by
  unfold fromTextVec
  cases h : fromUtf8 b with
  | none =>
    simp only [reduceCtorEq, false_iff]
    rintro ⟨s, rfl, -⟩
    rw [fromUtf8_encode] at h; simp at h
  | some s =>
    rw [fromUtf8_iff] at h
    subst h
    simp only
    constructor
    · intro h; refine ⟨s, rfl, ?_⟩
      split at h <;> simp_all
    · rintro ⟨s', h1, h2⟩; rw [← encode_injective h1] at h2; rw [h2]

/-- A failing owned conversion hands back the bytes it was given; conversions of bytes fail where those of the string do. -/
theorem c51_bytes_errors (valid : List Char → Bool) (b : Bytes) (n : Nat) :
    (∀ x, fromTextVec ucd15 valid b = .err (n, x) → x = b) ∧
    (∀ s, b = encode s → (fromTextBytes valid b = .err n ↔ fromText valid s = .err n)) ∧
    (∀ s, b = encode s → (fromTextVec ucd15 valid b = .err (n, b) ↔ fromTextOwned ucd15 valid s = .err n)) := by
  refine ⟨?_, ?_, ?_⟩
  · intro x h
    unfold fromTextVec at h
    cases hb : fromUtf8 b with
    | none => rw [hb] at h; simp at h; exact h.2.symm
    | some s =>
      rw [hb] at h
      rw [fromUtf8_iff] at hb
      subst hb
      simp only at h
      split at h <;> simp at h
      exact h.2.symm
  · rintro s rfl
    simp [fromTextBytes, fromUtf8_encode]
  · rintro s rfl
    unfold fromTextVec
    rw [fromUtf8_encode]
    simp only
    cases fromTextOwned ucd15 valid s <;> simp

/-- On bytes that are not UTF-8 the position is the end of the longest prefix that is. -/
theorem c51_malformed_position (valid : List Char → Bool) (b : Bytes) (h : ∀ s, b ≠ encode s) :
    ∃ p r, b = encode p ++ r ∧ fromTextBytes valid b = .err (encode p).length ∧ fromTextVec ucd15 valid b = .err ((encode p).length, b) ∧
      ∀ p' r', b = encode p' ++ r' → ∃ t, p = p' ++ t := by
  have hn : fromUtf8 b = none := by
    cases hb : fromUtf8 b with
    | none => rfl
    | some s => exact absurd (fromUtf8_iff.1 hb) (h s)
  refine ⟨(decodePrefix b).1, (decodePrefix b).2, (decodePrefix_spec b).1.symm, ?_, ?_, ?_⟩
  · simp [fromTextBytes, hn, utf8ValidUpTo]
  · simp [fromTextVec, hn, utf8ValidUpTo]
  · rintro p' r' rfl
    exact decodePrefix_maximal p' r'

example : fromTextBytes (isBasicText ucd15) [0x61, 0xc3, 0xa9, 0xc3, 0x28] = .err 3 := by decide +kernel

theorem c51_encoding_unique (s t : List Char) (h : encode s = encode t) : s = t := encode_injective h

example : fromTextBytes (isBasicText ucd15) [0xc3, 0xa9] = .ok ['é'] := by decide +kernel
example : fromTextVec ucd15 (isBasicText ucd15) [0x61, 0xff] = .err (1, [0x61, 0xff]) := by decide +kernel

/-- C58: when the bytes are well-formed UTF-8 the prefix before `valid_up_to` of the error is Basic Text. -/
theorem c58_bytes_valid_up_to_partial (s : List Char) (n : Nat) (h : fromTextBytes (isBasicText ucd15) (encode s) = .err n) :
    ∃ p, sliceTo s n = some p ∧ isBasicText ucd15 p = true := by
  have h' := ((c51_bytes_errors (isBasicText ucd15) (encode s) n).2.1 s rfl).1 h
  obtain ⟨m, h1, h2⟩ := c07_valid_up_to_borrowed s (by rw [h']; simp)
  rw [h'] at h1
  injection h1 with h1
  subst h1
  exact (c07_error_inside _ _ _ h2).2.2

/-- When they are not, `valid_up_to` is that of the UTF-8 check, and the prefix need not be Basic Text; building a `TextStr`
from it without check, as the `arbitrary` support does (`src/text_string.rs`, `impl Arbitrary for &TextStr`), breaks the type. -/
theorem c58_refuted_malformed : fromTextBytes (isBasicText ucd15) [0x00, 0xff] = .err 1 ∧ isBasicText ucd15 ['\x00'] = false := by
  decide +kernel

/-! ## C53 -/

/-- C53: of the valid substrings `TextSubstring::from_text` accepts exactly those that are Basic Text. -/
theorem c53_substring_accepts_partial (s : List Char) (h : fromText (isBasicTextSubstr ucd15) s = .ok s) :
    (∃ t, fromTextOwned ucd15 (isBasicTextSubstr ucd15) s = .ok t) ↔ isBasicText ucd15 s = true := by
  have hv := (fromText_ok_iff.1 h).1
  constructor
  · rintro ⟨t, ht⟩
    obtain ⟨⟨h1, h2, h3⟩, -⟩ := (owned_ok_iff isBasicTextSubstr_nil).1 ht
    exact text_iff.2 ⟨h2, h3, hv⟩
  · intro hs
    exact ⟨_, (owned_ok_iff isBasicTextSubstr_nil).2 ⟨acceptable_of_valid hs, rfl⟩⟩

/-- What it accepts comes back as a valid substring. -/
theorem c53_substring_valid (s t : List Char) (h : fromTextOwned ucd15 (isBasicTextSubstr ucd15) s = .ok t) :
    fromText (isBasicTextSubstr ucd15) t = .ok t := by
  obtain ⟨h1, rfl⟩ := (owned_ok_iff isBasicTextSubstr_nil).1 h
  exact fromText_ok (text_substr (normChain_valid textLaws15 h1))

/-- A combining mark alone is a `TextSubstr` but `TextSubstring::from_text` rejects it, and reports as valid less than the
whole though the whole is valid. -/
theorem c53_refuted_mark : fromText (isBasicTextSubstr ucd15) ['̊'] = .ok ['̊'] ∧
    fromTextOwned ucd15 (isBasicTextSubstr ucd15) ['̊'] = .err 0 := by decide +kernel

/-! ## C54 -/

/-- C54: after `Ok`, the buffer holds the old content and the text read, and is Basic Text unless that begins with a Hangul
vowel or trailing jamo.  `text` is what a text reader gives until the end of the stream. -/
theorem c54_read_to_text_string_partial (buf text part : List Char) (hb : isBasicText ucd15 buf = true)
    (ht : isBasicTextSubstr ucd15 text = true) (he : ∀ c ∈ text.getLast?, isEnd c = true) (hj : ∀ c ∈ text.head?, isJamoVT c = false) (n : Nat)
    (h : (readToTextString ucd15 buf (some text) part).2 = .ok n) :
    (readToTextString ucd15 buf (some text) part).1 = buf ++ text ∧ n = (encode text).length ∧ isBasicText ucd15 (buf ++ text) = true := by
  have hs : ∀ c ∈ text.head?, isStart ucd15 c = true := by
    intro c hc
    simp only [readToTextString] at h
    rw [hc] at h
    simp only at h
    split at h
    · assumption
    · simp at h
  have hv : (readToTextString ucd15 buf (some text) part) = (buf ++ text, .ok (encode text).length) := by
    simp only [readToTextString]
    cases hq : text.head? with
    | none => rfl
    | some c => simp [hs c hq]
  rw [hv] at h ⊢
  simp only [Res.ok.injEq] at h
  refine ⟨rfl, h.symm, ?_⟩
  obtain ⟨b1, b2, b3⟩ := text_iff.1 hb
  refine text_iff.2 ⟨?_, ?_, substr_append textLaws15 b3 ht (fun c hc => ⟨hs c hc, hj c hc⟩)⟩
  · intro c hc
    rcases mem_head?_append hc with hc | hc
    · exact b1 c hc
    · exact hs c hc
  · intro c hc
    rcases mem_getLast?_append hc with hc | hc
    · exact b2 c hc
    · exact he c hc

example : readToTextString ucd15 ['a'] (some ['b', '\n']) [] = (['a', 'b', '\n'], .ok 2) := by decide +kernel

/-- After `Err` the text read so far, or a text that does not start properly, is left in the buffer. -/
theorem c54_refuted_error :
    readToTextString ucd15 ['a'] none ['b', '‍'] = (['a', 'b', '‍'], .err ()) ∧ isBasicText ucd15 ['a', 'b', '‍'] = false ∧
    readToTextString ucd15 [] (some ['́', '\n']) [] = (['́', '\n'], .err ()) ∧ isBasicText ucd15 ['́', '\n'] = false := by decide +kernel

/-- After `Ok`, too: a Hangul vowel after a leading consonant. -/
theorem c54_refuted_jamo : isBasicText ucd15 ['ᄀ'] = true ∧ isBasicText ucd15 ['ᅡ', '\n'] = true ∧
    readToTextString ucd15 ['ᄀ'] (some ['ᅡ', '\n']) [] = (['ᄀ', 'ᅡ', '\n'], .ok 4) ∧ isBasicText ucd15 ['ᄀ', 'ᅡ', '\n'] = false := by
  decide +kernel

end Verif
