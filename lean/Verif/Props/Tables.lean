import Verif.TableTheory
import Verif.IsolationTheory
import Verif.Props.Reader
import Verif.Props.Strings

/-!
# Properties of the scalar tables and of isolation (C46, C47, C48, C56, C57)

`checkChar c = none` is `check_basic_text_char(c) == Ok(())`; `replace c` is what `replace` queues for `c`.
-/

namespace Verif
open Ucd Spec Tables

/-! ## C46 -/

/-- C46: a scalar the checker accepts is left alone by the replacement. -/
theorem c46_accepted_unchanged (c : Char) (h : checkChar c = none) : replace c = [c] := replace_ok h

/-- A scalar the checker rejects does not survive the conversion: nothing of what comes out for it, in any text, is rejected. -/
theorem c46_rejected_changed (c : Char) (h : checkChar c ≠ none) (a b : List Char) (ha : ∀ d ∈ a, d ≠ ESC) (hb : ∀ d ∈ b, d ≠ ESC) :
    ∀ d ∈ normChain ucd15 ((a ++ c :: b).flatMap replace), checkChar d = none ∧ d ≠ c := by
  have hc : c ≠ ESC := by rintro rfl; exact h (by decide)
  have hok : ∀ d ∈ (a ++ c :: b).flatMap replace, okChar d = true ∨ isLegacy d = true := by
    intro d hd
    obtain ⟨e, he, hd⟩ := List.mem_flatMap.1 hd
    refine replace_mem ?_ hd
    simp only [List.mem_append, List.mem_cons] at he
    rcases he with he | rfl | he
    · exact ha e he
    · exact hc
    · exact hb e he
  intro d hd
  have := (okChar_check.1 (ok_normChain textLaws15 hok d hd)).1
  exact ⟨this, by rintro rfl; exact h this⟩

/-- A replacement is never empty, and consists of accepted scalars, except for the scalars `replace` leaves to normalization:
for those it is the scalar itself. -/
theorem c46_replacement (c : Char) : replace c ≠ [] ∧
    ((∀ d ∈ replace c, checkChar d = none) ∨ (replace c = [c] ∧ ucd15.isNfcStreamSafe [c] = false)) := by
  refine ⟨replace_ne_nil c, ?_⟩
  by_cases hE : c = ESC
  · subst hE; left; decide
  by_cases hs : replace c = [c]
  · rcases (replace_eq_self_iff c).1 hs with h | h
    · left; rw [hs]; simpa using h
    · right
      refine ⟨hs, ?_⟩
      have := textLaws15.legacy_no c h
      cases hn : ucd15.isNfcStreamSafe [c] with
      | false => rfl
      | true =>
        have h1 := norm3_of_nss textLaws15 hn
        have h2 := ok_normChain textLaws15 (s := [c]) (by simp [h])
        have ha : isAssigned ucd15 c = true := by
          cases ha : isAssigned ucd15 c with
          | true => rfl
          | false =>
            exfalso
            have hi := inert_of_not_assigned textLaws15 ha
            have hq : ucd15.qc c = .yes := hi.qc
            rw [this] at hq; simp at hq
        have h3 : normChain ucd15 [c] = [c] := by
          rw [normChain_eq, (isolate_eq_iff textLaws15).2 (pre_of_all (by simpa using ha)), h1]
        rw [h3] at h2
        have := h2 c (by simp)
        rw [legacy_not_ok h] at this; simp at this
  · left
    intro d hd
    rcases replace_mem hE hd with h | h
    · exact (okChar_check.1 h).1
    · exfalso
      rcases replace_cases c with ⟨-, v, hv, he⟩ | ⟨-, he⟩ | ⟨-, he⟩
      · have h2 := List.all_eq_true.1 multi_ok _ hv
        simp only [Bool.and_eq_true, List.all_eq_true] at h2
        rw [he, List.mem_map] at hd
        obtain ⟨n, hn, rfl⟩ := hd
        have := h2.1.1 n hn
        have h3 := legacy_not_ok h
        rw [okChar_iff, toNat_ofNat this.2, this.1] at h3
        simp at h3
      · rw [he] at hd; simp at hd; subst hd
        have h3 := legacy_not_ok h
        rw [okChar_iff] at h3
        exact absurd h3 (by rw [show REPL.toNat = 0xfffd from rfl, repl_ok]; simp)
      · exact hs he

example : checkChar 'ﬁ' ≠ none ∧ replace 'ﬁ' = ['f', 'i'] ∧ replace '\u212b' = ['\u212b'] ∧ normChain ucd15 ['\u212b'] = ['\u00c5'] := by
  decide +kernel

/-! ## C47 -/

/-- C47: what comes out of the lossy conversion has every unassigned scalar between two U+034F, however the text was handed
over, unless the text contains U+034F directly before an unassigned scalar. -/
theorem c47_lossy_isolated_partial (v : List Char) (hn : Clear ucd15 false false v)
    (chunks : List (List Char)) (last : List Char) (hs : chunks.flatten ++ last = v) (hb : SliceReads chunks last) (lens : Nat → Nat)
    (t : List Char) (h : Converts chunks last lens t) : Isolated ucd15 t := by
  subst hs
  obtain ⟨m, text, h1, h2⟩ := read_of_converts h
  rw [lossy_eq textLaws15 hb hn h1] at h2
  injection h2 with h2
  subst h2
  unfold bomPrefix
  split
  · exact (isolated_normalize textLaws15 _).cons (by decide +kernel)
  · exact isolated_normalize textLaws15 _

/-- The same for a whole stream. -/
theorem c47_reader_isolated_partial (nel lsps : Bool) (chunks : List (List Char)) (last : List Char) (hb : BomSafe chunks last)
    (hn : Clear ucd15 nel lsps (chunks.flatten ++ last)) (lens : List Nat)
    (h : Completes ucd15 nel lsps (script chunks last) lens) : Isolated ucd15 (output ucd15 nel lsps (script chunks last) lens) := by
  rw [output_stream textLaws15 hb hn h]
  exact isolated_normalize textLaws15 _

/-- The same for the checked conversion. -/
theorem c47_checked_isolated_partial (s t : List Char) (hn : ∀ a c b, s = a ++ CGJ :: c :: b → isAssigned ucd15 c = true)
    (h : fromTextOwned ucd15 (isBasicText ucd15) s = .ok t) : Isolated ucd15 t := by
  rw [c05_owned_normalizes s t hn h]
  exact isolated_normalize textLaws15 _

/-- For text that is otherwise normalized, the checked conversion only inserts U+034F, and taking out U+034F gives the text
(without its U+034F) back. -/
theorem c47_checked_only_inserts (s t : List Char) (hs : isBasicTextSubstr ucd15 s = true) (h : fromTextOwned ucd15 (isBasicText ucd15) s = .ok t) :
    s.Sublist t ∧ t.filter (· != CGJ) = s.filter (· != CGJ) := by
  obtain ⟨-, rfl⟩ := (owned_ok_iff isBasicText_nil).1 h
  rw [normChain_of_nss textLaws15 (substr_iff.1 hs).2]
  exact ⟨isolateGo_sublist s _ _, isolateGo_filter s _ _⟩

/-- In particular, if there was no U+034F, removing U+034F gives the text back. -/
theorem c47_checked_back (s t : List Char) (hs : isBasicTextSubstr ucd15 s = true) (hc : CGJ ∉ s)
    (h : fromTextOwned ucd15 (isBasicText ucd15) s = .ok t) : t.filter (· != CGJ) = s := by
  rw [(c47_checked_only_inserts s t hs h).2, List.filter_eq_self]
  intro c hm
  simp only [bne_iff_ne]
  rintro rfl; exact hc hm

/-- Text that is Basic Text by the full definition, isolation included, is accepted and left alone. -/
theorem c47_isolated_unchanged (s : List Char) (hv : isBasicText ucd15 s = true) (hi : Isolated ucd15 s) :
    fromTextOwned ucd15 (isBasicText ucd15) s = .ok s :=
  (owned_ok_iff isBasicText_nil).2 ⟨acceptable_of_valid hv, (normChain_isolated textLaws15 (substr_iff.1 (text_substr hv)).2 hi).symm⟩

example : isBasicTextSubstr ucd15 ['a', '͸', '͹', 'b'] = true ∧ CGJ ∉ ['a', '͸', '͹', 'b'] ∧
    fromTextOwned ucd15 (isBasicText ucd15) ['a', '͸', '͹', 'b'] = .ok ['a', '͏', '͸', '͏', '͹', '͏', 'b'] := by
  decide +kernel

/-- What is missing: after a U+034F of the input the scalar is not isolated. -/
theorem c47_refuted : (fromTextLossy ucd15 [['͏', '͸', 'a', '\n']] [] [4096, 4096, 4096] = some ['͏', '͸', 'a', '\n'] ∧
    fromTextOwned ucd15 (isBasicText ucd15) ['͏', '͸', 'a'] = .ok ['͏', '͸', 'a']) ∧
    ¬ Isolated ucd15 ['͏', '͸', 'a'] := by
  refine ⟨by decide +kernel, fun h => ?_⟩
  have := (h ['͏'] '͸' ['a'] rfl (by decide +kernel)).2
  exact absurd this (by decide)

/-! ## C48 -/

/-- C48 is false: the quick check says no to every valid substring. -/
theorem c48_refuted_valid (s : List Char) (h : isBasicTextSubstr ucd15 s = true) : isBasicTextSubstrQuick ucd15 s = some false := by
  unfold isBasicTextSubstrQuick
  unfold isBasicTextSubstr at h
  rw [Bool.and_eq_true] at h
  rw [if_pos h.1]

/-- And what it says yes to is never valid. -/
theorem c48_refuted_yes (s : List Char) (h : isBasicTextSubstrQuick ucd15 s = some true) : isBasicTextSubstr ucd15 s = false := by
  cases hv : isBasicTextSubstr ucd15 s with
  | false => rfl
  | true => rw [c48_refuted_valid s hv] at h; simp at h

example : isBasicTextSubstr ucd15 ['a'] = true ∧ isBasicTextSubstrQuick ucd15 ['\x1b'] = some true ∧
    isBasicTextSubstrQuick ucd15 ['\x00'] = some true ∧ isBasicTextSubstr ucd15 ['\x1b'] = false := by decide +kernel

/-- C48 (what holds): where the quick check gives an answer about text with forbidden scalars, "no" is right. -/
theorem c48_no_partial (s : List Char) (hf : ∃ c ∈ s, checkChar c ≠ none ∨ c = ESC) :
    isBasicTextSubstrQuick ucd15 s = some false → isBasicTextSubstr ucd15 s = false := by
  intro _
  obtain ⟨c, hc, h⟩ := hf
  apply Bool.eq_false_iff.2
  intro hv
  have := okChar_check.1 ((substr_iff.1 hv).1 c hc)
  rcases h with h | h
  · exact h this.1
  · exact this.2 h

/-- It leaves the question open exactly for text with forbidden scalars on which the normalization half is undecided, and says
yes exactly for text with forbidden scalars which that half accepts. -/
theorem c48_answers (s : List Char) :
    (isBasicTextSubstrQuick ucd15 s = none ↔ (∃ c ∈ s, checkChar c ≠ none ∨ c = ESC) ∧ ucd15.quick s = .maybe) ∧
    (isBasicTextSubstrQuick ucd15 s = some true ↔ (∃ c ∈ s, checkChar c ≠ none ∨ c = ESC) ∧ ucd15.quick s = .yes) := by
  have hany : (categorize s).any (fun c => c == SUB || c == ESC) = true ↔ ∃ c ∈ s, checkChar c ≠ none ∨ c = ESC := by
    rw [← Bool.not_eq_false, ← Bool.not_eq_true', categorize_clean]
    constructor
    · intro h
      apply Classical.byContradiction
      intro hn
      apply h
      intro c hc
      rw [okChar_check]
      exact ⟨Classical.byContradiction fun h => hn ⟨c, hc, Or.inl h⟩, fun h => hn ⟨c, hc, Or.inr h⟩⟩
    · rintro ⟨c, hc, h⟩ ha
      have := okChar_check.1 (ha c hc)
      rcases h with h | h
      · exact h this.1
      · exact h |> this.2
  unfold isBasicTextSubstrQuick
  cases hb : (categorize s).any (fun c => c == SUB || c == ESC) with
  | false =>
    have hn : ¬ ∃ c ∈ s, checkChar c ≠ none ∨ c = ESC := by rw [← hany, hb]; simp
    simp [hn]
  | true =>
    have hn : ∃ c ∈ s, checkChar c ≠ none ∨ c = ESC := hany.1 hb
    simp only [hn, true_and, Bool.not_true, Bool.false_eq_true, if_false]
    cases ucd15.quick s <;> simp

/-- With the test the right way round (`if any { return Some(false) }`) it would agree with the full check: on text without
forbidden scalars the normalization half answers correctly. -/
theorem c48_repaired_partial (s : List Char) (hf : ∀ c ∈ s, checkChar c = none ∧ c ≠ ESC) :
    (ucd15.quick s = .yes → isBasicTextSubstr ucd15 s = true) ∧ (ucd15.quick s = .no → isBasicTextSubstr ucd15 s = false) := by
  have hok : ∀ c ∈ s, okChar c = true := fun c hc => okChar_check.2 (hf c hc)
  constructor
  · intro h
    exact substr_iff.2 ⟨hok, by simp [isNfcStreamSafe, h]⟩
  · intro h
    apply Bool.eq_false_iff.2
    intro hv
    have := (substr_iff.1 hv).2
    simp [isNfcStreamSafe, h] at this

example : ucd15.quick ['é'] = .yes ∧ ucd15.quick ['\u212b'] = .no ∧ ucd15.quick ['q', '́'] = .maybe := by decide +kernel

/-! ## C56 -/

/-- C56: a scalar may not start Basic Text exactly if it is a Basic Text non-starter of the document: a normalization-form
non-starter, or Grapheme_Cluster_Break ZWJ, SpacingMark or Extend without being U+034F. -/
theorem c56_start (c : Char) : isStart ucd15 c = false ↔
    ucd15.ccc c ≠ 0 ∨ (c ≠ CGJ ∧ (c = ZWJ ∨ inRanges gcbSpacingMark c.toNat = true ∨ inRanges gcbExtend c.toNat = true)) := by
  have hg : c = CGJ ↔ c.toNat = 0x34f := by rw [← Char.toNat_inj]; rfl
  have hz : c = ZWJ ↔ c.toNat = 0x200d := by rw [← Char.toNat_inj]; rfl
  have ht := startTree_iff c.toNat
  have hl : c.toNat ≤ 0x7f → cccN c.toNat = 0 := fun h => ccc_low (Or.inl h)
  rw [isStart15, startN]
  simp only [ne_eq, hg, hz]
  show _ ↔ ¬ cccN c.toNat = 0 ∨ _
  cases h1 : (notStartTree.find c.toNat).isSome with
  | true =>
    have := ht.1 h1
    simp only [Bool.not_true, Bool.and_false, true_iff]
    right; grind
  | false =>
    have h2 : ¬ (c.toNat ≠ 0x34f ∧ (c.toNat = 0x200d ∨ inRanges gcbExtend c.toNat = true ∨ inRanges gcbSpacingMark c.toNat = true)) := by
      rw [← ht, h1]; simp
    simp only [Bool.not_false, Bool.and_true, Bool.or_eq_false_iff]
    constructor
    · rintro ⟨-, h⟩
      left
      intro hc
      rw [hc] at h
      simp at h
    · rintro (h | h)
      · have h3 : Nat.beq (cccN c.toNat) 0 = false := by
          cases hb : Nat.beq (cccN c.toNat) 0 with
          | false => rfl
          | true => exact absurd (beq_iff.1 hb) h
        refine ⟨?_, h3⟩
        cases hb : Nat.ble c.toNat 0x7f with
        | false => rfl
        | true => exact absurd (hl (ble_iff.1 hb)) h
      · exact absurd ⟨h.1, by grind⟩ h2

/-- C56: it may not end Basic Text exactly if its Grapheme_Cluster_Break is ZWJ or Prepend, except for U+0890 and U+0891. -/
theorem c56_end_partial (c : Char) (h1 : c ≠ '࢐') (h2 : c ≠ '࢑') :
    isEnd c = false ↔ c = ZWJ ∨ inRanges gcbPrepend c.toNat = true := by
  have hz : c = ZWJ ↔ c.toNat = 0x200d := by rw [← Char.toNat_inj]; rfl
  rw [hz]
  exact isEnd_iff c (fun h => h1 (Char.toNat_inj.1 h)) (fun h => h2 (Char.toNat_inj.1 h))

/-- These two are Prepend, and the code lets them end a text. -/
theorem c56_refuted_end : inRanges gcbPrepend '࢐'.toNat = true ∧ isEnd '࢐' = true ∧ inRanges gcbPrepend '࢑'.toNat = true ∧ isEnd '࢑' = true ∧
    fromText (isBasicText ucd15) ['࢐'] = .ok ['࢐'] := by decide +kernel

example : isStart ucd15 '́' = false ∧ isStart ucd15 '🏻' = false ∧ isStart ucd15 'ा' = false ∧ isStart ucd15 CGJ = true ∧ isStart ucd15 'a' = true ∧
    isEnd ZWJ = false ∧ isEnd '؀' = false ∧ isEnd 'a' = true := by decide +kernel

/-! ## C57 -/

/-- The row of the Sequence Table (`docs/BasicText.md:65-169`) for a single scalar. -/
def docRow (c : Char) : Option (List Char) :=
  match docRowN c.toNat with
  | some l => some (l.map Char.ofNat)
  | none => if inRanges docCjk c.toNat then some (ucd15.cjk c) else none

theorem docRow_isSome (c : Char) : (docRow c).isSome = inRanges docRanges c.toNat := by
  rw [Bool.eq_iff_iff, docRanges_iff]
  unfold docRow
  cases docRowN c.toNat with
  | some l => simp
  | none => cases inRanges docCjk c.toNat <;> simp

/-- C57: the check fails for a scalar exactly if it has a row (CR, FF and ESC belong to the rows for sequences). -/
theorem c57_check (c : Char) (h1 : c ≠ '\r') (h2 : c ≠ FF) (h3 : c ≠ ESC) : checkChar c ≠ none ↔ docRow c ≠ none := by
  have := check_doc c h1 h2 h3
  rw [← docRow_isSome] at this
  cases hc : checkChar c <;> cases hd : docRow c <;> simp_all

/-- CR and FF, which the reader turns into newlines and spaces, are rejected too; ESC passes the check of single scalars and
is rejected by the check of strings. -/
theorem c57_check_sequences : checkChar '\r' ≠ none ∧ checkChar FF ≠ none ∧ checkChar ESC = none ∧
    ∀ s, ESC ∈ s → isBasicTextSubstr ucd15 s = false := by
  refine ⟨by decide, by decide, by decide, fun s hs => Bool.eq_false_iff.2 fun hv => ?_⟩
  exact (okChar_check.1 ((substr_iff.1 hv).1 ESC hs)).2 rfl

/-- C57: a scalar without a row is not replaced. -/
theorem c57_no_row (c : Char) (h : docRow c = none) (h1 : c ≠ '\r') (h2 : c ≠ FF) (h3 : c ≠ ESC) : replace c = [c] := by
  apply replace_ok
  have := c57_check c h1 h2 h3
  cases hc : checkChar c with
  | none => rfl
  | some e => rw [hc] at this; exact absurd h (this.1 (by simp))

/-- C57: a scalar with a row comes out as the row says, except for U+FB03. -/
theorem c57_row_partial (c : Char) (l : List Char) (h : docRow c = some l) (h3 : c ≠ ESC) (h4 : c ≠ 'ﬃ') :
    normChain ucd15 (replace c) = normChain ucd15 l := by
  unfold docRow at h
  cases hr : docRowN c.toNat with
  | none =>
    rw [hr] at h
    simp only at h
    split at h
    · rename_i hc
      injection h with h
      subst h
      rw [(cjk_row hc).1, normChain_cjk hc]
    · simp at h
  | some v =>
    rw [hr] at h
    simp only [Option.some.injEq] at h
    subst h
    cases ho : oddRow c.toNat with
    | false =>
      rw [replace_map, row_replace hr ho (fun h => h3 (Char.toNat_inj.1 h))]
    | true =>
      simp only [oddRow, Bool.or_eq_true, ohmN_iff, beq_iff] at ho
      have hodd : c = 'ཷ' ∨ c = 'ཹ' ∨ c = '\u2126' ∨ c = '\u212a' ∨ c = '\u212b' := by
        simp only [← Char.toNat_inj]
        have : c.toNat ≠ 0xfb03 := fun h => h4 (Char.toNat_inj.1 h)
        show c.toNat = 0xf77 ∨ c.toNat = 0xf79 ∨ c.toNat = 0x2126 ∨ c.toNat = 0x212a ∨ c.toNat = 0x212b
        omega
      have hv : docRowN c.toNat = some v := hr
      rcases hodd with rfl | rfl | rfl | rfl | rfl
      · have : docRowN 'ཷ'.toNat = some [0xfb2, 0xf71, 0xf80] := by decide +kernel
        rw [this] at hv; injection hv with hv; subst hv; decide +kernel
      · have : docRowN 'ཹ'.toNat = some [0xfb3, 0xf71, 0xf80] := by decide +kernel
        rw [this] at hv; injection hv with hv; subst hv; decide +kernel
      · have : docRowN '\u2126'.toNat = some [0x3a9] := by decide +kernel
        rw [this] at hv; injection hv with hv; subst hv; decide +kernel
      · have : docRowN '\u212a'.toNat = some [0x4b] := by decide +kernel
        rw [this] at hv; injection hv with hv; subst hv; decide +kernel
      · have : docRowN '\u212b'.toNat = some [0xc5] := by decide +kernel
        rw [this] at hv; injection hv with hv; subst hv; decide +kernel

/-- Before normalization, too, the replacement is the row's, except for the scalars whose row normalization carries out. -/
theorem c57_row_exact_partial (c : Char) (l : List Char) (h : docRow c = some l) (h3 : c ≠ ESC) (hc : inRanges docCjk c.toNat = false)
    (ho : oddRow c.toNat = false) : replace c = l := by
  unfold docRow at h
  cases hr : docRowN c.toNat with
  | none => rw [hr, hc] at h; simp at h
  | some v =>
    rw [hr] at h
    simp only [Option.some.injEq] at h
    rw [← h, replace_map, row_replace hr ho (fun h => h3 (Char.toNat_inj.1 h))]

example : docRow 'ﬁ' = some ['f', 'i'] ∧ docRow '￾' = some ['�'] ∧ docRow '\uf900' = some ['\u8c48', '\ufe00'] ∧ docRow 'a' = none ∧
    docRow '﻿' = some ['⁠'] := by decide +kernel

/-- The row for U+FB03 says "fff"; the code, and the row's own error message, say "ffi". -/
theorem c57_refuted_ffi : docRow 'ﬃ' = some ['f', 'f', 'f'] ∧ replace 'ﬃ' = ['f', 'f', 'i'] := by decide +kernel

/-! ## C02 and C18 for text with unassigned scalars -/

/-- C02: Basic Text by the full definition, isolation included, is not changed by the lossy conversion, whether the end is
reported with the text or by a further read. -/
theorem c02_lossy_fixes_isolated (s : List Char) (h : fromText (isBasicText ucd15) s = .ok s) (hi : Isolated ucd15 s) (lens : Nat → Nat)
    (hl : ∀ i, normalizationBufferSize ≤ lens i) : Converts [s] [] lens s ∧ Converts [] s lens s := by
  have hv := (fromText_ok_iff.1 h).1
  constructor
  · apply converts_of hl
    intro l text h1
    refine lossy_fix_whole textLaws15 hv ((isolate_eq_iff textLaws15).1 (isolate_isolated hi)) ?_ h1
    intro a c b hs hc
    exact ⟨CGJ, List.mem_of_mem_head? (hi a c b hs hc).2, by decide⟩
  · apply converts_of hl
    intro l text h1
    obtain ⟨e1, e2, e3⟩ := lossyText_valid hv
    rw [lossy_single textLaws15 h1, e1, e2, e3, normChain_isolated textLaws15 (substr_iff.1 (text_substr hv)).2 hi]
    rfl

/-- C18: and a reader that gets it in one piece delivers it as it is. -/
theorem c18_reader_identity_isolated (nel lsps : Bool) (s : List Char) (lens : List Nat) (hv : isBasicText ucd15 s = true) (hi : Isolated ucd15 s)
    (hnl : s = [] ∨ s.getLast? = some '\n') (h : Completes ucd15 nel lsps (script [] s) lens) :
    output ucd15 nel lsps (script [] s) lens = s := by
  have hd := (lossyText_valid hv).1
  rw [output_single textLaws15 h, hd, translate_ok hv, if_pos hnl,
    normChain_isolated textLaws15 (substr_iff.1 (text_substr hv)).2 hi]

example : fromText (isBasicText ucd15) ['a', '\u034f', '\u0378', '\u034f', '\n'] = .ok ['a', '\u034f', '\u0378', '\u034f', '\n'] ∧
    Completes ucd15 false false (script [] ['a', '\u034f', '\u0378', '\u034f', '\n']) [136] :=
  ⟨by decide +kernel, completes_of (by decide +kernel)⟩

end Verif
