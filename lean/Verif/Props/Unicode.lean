import Verif.Props.Tables
import Verif.Props.Strings
import Verif.StreamForm
import Verif.NfcSpec

/-!
# Basic Text and Unicode (C61–C64)

The document's definition of a Basic Text string, with NFC, canonical equivalence and the Stream-Safe Text Format as the Unicode
Standard defines them, against what the library accepts and produces.
-/

namespace Verif
open Ucd Spec

namespace Spec

/-- The sequences of the Sequence Table (`docs/BasicText.md:53-169`). -/
inductive TableSeq : List Char → Prop
  | crlf : TableSeq ['\r', '\n']
  | cr : TableSeq ['\r']
  | ffCrlf (n : Nat) : TableSeq (List.replicate (n + 1) '\x0c' ++ ['\r', '\n'])
  | ffLf (n : Nat) : TableSeq (List.replicate (n + 1) '\x0c' ++ ['\n'])
  | ffCr (n : Nat) : TableSeq (List.replicate (n + 1) '\x0c' ++ ['\r'])
  | ff (n : Nat) : TableSeq (List.replicate (n + 1) '\x0c')
  | sgr (p : List Char) : (∀ c ∈ p, within 0x20 0x3f c = true) → TableSeq ('\x1b' :: '[' :: p ++ ['m'])
  | csi2 (n : Nat) (t : Option Char) : (∀ c ∈ t, within 0 0x7f c = true) → TableSeq (List.replicate (n + 1) '\x1b' ++ '[' :: '[' :: t.toList)
  | csi (n : Nat) (p : List Char) (t : Option Char) : (∀ c ∈ p, within 0x20 0x3f c = true) → (∀ c ∈ t, within 0x40 0x7e c = true) →
      TableSeq (List.replicate (n + 1) '\x1b' ++ '[' :: p ++ t.toList)
  | osc (n : Nat) (p : List Char) (t : Option Char) : (∀ c ∈ p, c ≠ '\x07' ∧ c ≠ '\x18' ∧ c ≠ '\x1b') → (∀ c ∈ t, c = '\x07' ∨ c = '\x18') →
      TableSeq (List.replicate (n + 1) '\x1b' ++ ']' :: p ++ t.toList)
  | esc1 (n : Nat) (c : Char) : within 0x40 0x7e c = true → TableSeq (List.replicate (n + 1) '\x1b' ++ [c])
  | esc (n : Nat) : TableSeq (List.replicate (n + 1) '\x1b')
  | row (c : Char) : docRow c ≠ none → TableSeq [c]

/-- `docs/BasicText.md:35-38`. -/
def NonStarter (c : Char) : Prop :=
  ucd15.ccc c ≠ 0 ∨ (c = '‍' ∨ inRanges Tables.gcbSpacingMark c.toNat = true ∨ inRanges Tables.gcbExtend c.toNat = true) ∧ c ≠ '͏'

/-- `docs/BasicText.md:43-44`. -/
def NonEnder (c : Char) : Prop := c = '‍' ∨ inRanges Tables.gcbPrepend c.toNat = true

/-- Normalization Form C: the string is the canonical composition of its canonical decomposition. -/
def InNfc (s : List Char) : Prop := ∃ d, CanonicalDecomposition ucd15 s d ∧ composeAll ucd15 d = s

/-- What makes a substring: Stream-Safe NFC, and none of the sequences. -/
structure BasicSubstring (s : List Char) : Prop where
  streamSafe : StreamSafe s
  nfc : InNfc s
  seqs : ∀ q, q <:+: s → ¬ TableSeq q

/-- A string in Basic Text form (`docs/BasicText.md:18-24`). -/
structure BasicText (s : List Char) : Prop extends BasicSubstring s where
  start : ∀ c ∈ s.head?, ¬ NonStarter c
  ends : ∀ c ∈ s.getLast?, ¬ NonEnder c
  isolated : ∀ a c b, s = a ++ c :: b → isAssigned ucd15 c = false → a.getLast? = some '͏' ∧ b.head? = some '͏'

end Spec

theorem inNfc_iff {s : List Char} : InNfc s ↔ ucd15.nfc s = s := by
  unfold InNfc
  constructor
  · rintro ⟨d, h1, h2⟩
    rw [nfc_spec lawful15, ← canonicalDecomposition_iff.1 h1]; exact h2
  · intro h
    exact ⟨_, canonicalDecomposition_iff.2 rfl, by rw [← nfc_spec lawful15]; exact h⟩

theorem seqs_iff {s : List Char} : (∀ q, q <:+: s → ¬ TableSeq q) ↔ ∀ c ∈ s, okChar c = true := by
  constructor
  · intro h c hc
    have hin : [c] <:+: s := by
      obtain ⟨a, b, rfl⟩ := List.append_of_mem hc
      exact ⟨a, b, by simp⟩
    have h1 : c ≠ '\r' := fun e => h _ hin (e ▸ .cr)
    have h2 : c ≠ FF := fun e => h _ hin (e ▸ .ff 0)
    have h3 : c ≠ ESC := fun e => h _ hin (e ▸ .esc 0)
    refine okChar_check.2 ⟨?_, h3⟩
    cases hk : checkChar c with
    | none => rfl
    | some e => exact absurd (.row c ((c57_check c h1 h2 h3).1 (by simp [hk]))) (h _ hin)
  · intro h q hq ht
    have bad : ∀ c ∈ q, okChar c = false → False := fun c hc hb => by rw [h c (hq.subset hc)] at hb; simp at hb
    have rep : ∀ (n : Nat) (c : Char) (r : List Char), c ∈ List.replicate (n + 1) c ++ r := by intro n c r; simp [List.replicate_succ]
    cases ht with
    | crlf => exact bad '\r' (by simp) (by decide)
    | cr => exact bad '\r' (by simp) (by decide)
    | ffCrlf n => exact bad '\x0c' (rep _ _ _) (by decide)
    | ffLf n => exact bad '\x0c' (rep _ _ _) (by decide)
    | ffCr n => exact bad '\x0c' (rep _ _ _) (by decide)
    | ff n => exact bad '\x0c' (by simp) (by decide)
    | sgr p _ => exact bad '\x1b' (by simp) (by decide)
    | csi2 n t _ => exact bad '\x1b' (rep _ _ _) (by decide)
    | csi n p t _ _ => exact bad '\x1b' (by rw [List.append_assoc]; exact rep _ _ _) (by decide)
    | osc n p t _ _ => exact bad '\x1b' (by rw [List.append_assoc]; exact rep _ _ _) (by decide)
    | esc1 n c _ => exact bad '\x1b' (rep _ _ _) (by decide)
    | esc n => exact bad '\x1b' (by simp) (by decide)
    | row c hc =>
      refine bad c (by simp) ?_
      by_cases h3 : c = ESC
      · rw [h3]; decide
      by_cases h1 : c = '\r'
      · rw [h1]; decide
      by_cases h2 : c = FF
      · rw [h2]; decide
      have := (c57_check c h1 h2 h3).2 hc
      rw [Bool.eq_false_iff]
      intro hk
      exact this (okChar_check.1 hk).1

theorem nonStarter_iff {c : Char} : NonStarter c ↔ isStart ucd15 c = false := by
  rw [c56_start]
  unfold NonStarter
  constructor
  · rintro (h | ⟨h1, h2⟩)
    · exact Or.inl h
    · exact Or.inr ⟨h2, h1⟩
  · rintro (h | ⟨h1, h2⟩)
    · exact Or.inl h
    · exact Or.inr ⟨h2, h1⟩

theorem substring_iff {s : List Char} : BasicSubstring s ↔ isBasicTextSubstr ucd15 s = true := by
  rw [substr_iff, isNfcStreamSafe_iff lawful15, ← streamSafe_iff, ← inNfc_iff, ← seqs_iff]
  exact ⟨fun h => ⟨h.seqs, h.streamSafe, h.nfc⟩, fun h => ⟨h.2.1, h.2.2, h.1⟩⟩

theorem nonEnder_of {c : Char} (h : isEnd c = false) : NonEnder c := by
  by_cases h1 : c = '࢐'
  · subst h1; exact Or.inr (by decide +kernel)
  by_cases h2 : c = '࢑'
  · subst h2; exact Or.inr (by decide +kernel)
  exact (c56_end_partial c h1 h2).1 h

/-! ## C61 -/

/-- C61: `TextSubstr::from_text` accepts exactly the strings in Stream-Safe NFC without sequences of the table. -/
theorem c61_substring (s : List Char) : fromText (isBasicTextSubstr ucd15) s = .ok s ↔ BasicSubstring s := by
  rw [substring_iff, fromText_ok_iff]; simp

/-- C61: every string in Basic Text form is accepted by `TextStr::from_text`. -/
theorem c61_basic_text_accepted (s : List Char) (h : BasicText s) : fromText (isBasicText ucd15) s = .ok s := by
  refine fromText_ok_iff.2 ⟨text_iff.2 ⟨fun c hc => ?_, fun c hc => ?_, substring_iff.1 h.toBasicSubstring⟩, rfl⟩
  · cases hs : isStart ucd15 c with
    | true => rfl
    | false => exact absurd (nonStarter_iff.2 hs) (h.start c hc)
  · cases hs : isEnd c with
    | true => rfl
    | false => exact absurd (nonEnder_of hs) (h.ends c hc)

/-- C61 (what holds of the converse): an accepted string is in Basic Text form if it does not end with U+0890 or U+0891 and its
unassigned scalars are isolated. -/
theorem c61_accepted_partial (s : List Char) (h : fromText (isBasicText ucd15) s = .ok s)
    (h1 : s.getLast? ≠ some '࢐') (h2 : s.getLast? ≠ some '࢑') (hi : Isolated ucd15 s) : BasicText s := by
  obtain ⟨h3, h4, h5⟩ := text_iff.1 (fromText_ok_iff.1 h).1
  refine { toBasicSubstring := substring_iff.2 h5, start := fun c hc hn => ?_, ends := fun c hc hn => ?_, isolated := hi }
  · have := h3 c hc
    rw [nonStarter_iff.1 hn] at this; simp at this
  · have := h4 c hc
    have he := (c56_end_partial c (fun e => h1 (e ▸ hc)) (fun e => h2 (e ▸ hc))).2 hn
    rw [he] at this; simp at this

/-- In particular one of assigned scalars. -/
theorem c61_accepted_assigned_partial (s : List Char) (h : fromText (isBasicText ucd15) s = .ok s)
    (h1 : s.getLast? ≠ some '࢐') (h2 : s.getLast? ≠ some '࢑') (ha : ∀ c ∈ s, isAssigned ucd15 c = true) : BasicText s :=
  c61_accepted_partial s h h1 h2 (isolated_of_assigned ha)

/-- Isolation is not checked. -/
theorem c61_refuted_isolation : fromText (isBasicText ucd15) ['͸'] = .ok ['͸'] ∧ ¬ BasicText ['͸'] := by
  refine ⟨by decide +kernel, fun h => ?_⟩
  have := (h.isolated [] '͸' [] rfl (by decide +kernel)).1
  simp at this

/-- Two non-enders are accepted. -/
theorem c61_refuted_ender : fromText (isBasicText ucd15) ['࢐'] = .ok ['࢐'] ∧ ¬ BasicText ['࢐'] := by
  refine ⟨by decide +kernel, fun h => ?_⟩
  exact h.ends '࢐' rfl (Or.inr (by decide +kernel))

/-- A string in Basic Text form, with a composite, a mark that stays, an isolated unassigned scalar and a newline. -/
example : BasicText ['é', 'q', '́', '͏', '͸', '͏', '\n'] :=
  c61_accepted_partial _ (by decide +kernel) (by decide) (by decide) (by
    intro a c b hs hc
    match a, hs with
    | [], hs => injection hs with h1 h2; subst h1; exact absurd hc (by decide +kernel)
    | [_], hs => injection hs with h1 h2; injection h2 with h2 h3; subst h2; exact absurd hc (by decide +kernel)
    | [_, _], hs => injection hs with _ h2; injection h2 with _ h2; injection h2 with h2 h3; subst h2; exact absurd hc (by decide +kernel)
    | [_, _, _], hs =>
      injection hs with _ h2; injection h2 with _ h2; injection h2 with _ h2; injection h2 with h2 h3; subst h2; exact absurd hc (by decide +kernel)
    | [_, _, _, x], hs =>
      injection hs with _ h2; injection h2 with _ h2; injection h2 with _ h2; injection h2 with h1 h2; injection h2 with h2 h3
      subst h1 h3; exact ⟨rfl, rfl⟩
    | [_, _, _, _, _], hs =>
      injection hs with _ h2; injection h2 with _ h2; injection h2 with _ h2; injection h2 with _ h2; injection h2 with _ h2
      injection h2 with h2 h3; subst h2; exact absurd hc (by decide +kernel)
    | [_, _, _, _, _, _], hs =>
      injection hs with _ h2; injection h2 with _ h2; injection h2 with _ h2; injection h2 with _ h2; injection h2 with _ h2
      injection h2 with _ h2; injection h2 with h2 h3; subst h2; exact absurd hc (by decide +kernel)
    | _ :: _ :: _ :: _ :: _ :: _ :: _ :: a, hs => have := congrArg List.length hs; simp at this)

example : ¬ BasicText ['e', '́'] ∧ ¬ BasicText ['́'] ∧ ¬ BasicText ['a', '\x1b', '[', 'm'] := by
  refine ⟨fun h => ?_, fun h => ?_, fun h => ?_⟩ <;> have := c61_basic_text_accepted _ h <;> revert this <;> decide +kernel

/-! ## C62 -/

/-- C62: two `TextSubstr`s (in particular two `TextStr`s) that are canonically equivalent are the same string. -/
theorem c62_equal_iff_equivalent (s t : List Char) (hs : fromText (isBasicTextSubstr ucd15) s = .ok s)
    (ht : fromText (isBasicTextSubstr ucd15) t = .ok t) : CanonicallyEquivalent ucd15 s t ↔ s = t := by
  rw [canonicallyEquivalent_iff]
  refine ⟨fun h => ?_, fun h => by rw [h]⟩
  have h1 := ((c61_substring s).1 hs).nfc
  have h2 := ((c61_substring t).1 ht).nfc
  rw [inNfc_iff] at h1 h2
  rw [← h1, ← h2, nfc, nfc, h]

/-- The same for `TextStr`. -/
theorem c62_text_equal_iff_equivalent (s t : List Char) (hs : fromText (isBasicText ucd15) s = .ok s)
    (ht : fromText (isBasicText ucd15) t = .ok t) : CanonicallyEquivalent ucd15 s t ↔ s = t :=
  c62_equal_iff_equivalent s t (c09_text_is_substr s hs) (c09_text_is_substr t ht)

example : CanonicallyEquivalent ucd15 ['e', '̣', '̇'] ['e', '̇', '̣'] ∧ CanonicallyEquivalent ucd15 ['Å'] ['A', '̊'] ∧
    ¬ CanonicallyEquivalent ucd15 ['͏'] [] := by
  refine ⟨canonicallyEquivalent_iff.2 (by decide +kernel), canonicallyEquivalent_iff.2 (by decide +kernel), fun h => ?_⟩
  have := canonicallyEquivalent_iff.1 h
  revert this; decide +kernel

/-! ## C63 -/

theorem cjk_of_ok {c : Char} (h : okChar c = true) : ucd15.cjk c = [c] := by
  rcases cjk15_cases c with ⟨h1, -⟩ | ⟨v, -, -, -, h1, -⟩
  · exact h1
  · rw [legacy_not_ok h1] at h; simp at h

theorem flatMap_cjk {s : List Char} (h : ∀ c ∈ s, okChar c = true) : s.flatMap ucd15.cjk = s := by
  induction s with
  | nil => rfl
  | cons c s ih => rw [List.flatMap_cons, cjk_of_ok (h c (by simp)), ih (fun d hd => h d (by simp [hd]))]; rfl

/-- For a stream-safe text of assigned scalars without table sequences the chain is NFC. -/
theorem normChain_nfc {s : List Char} (h : StreamSafe s) (ha : ∀ c ∈ s, isAssigned ucd15 c = true) (hk : ∀ c ∈ s, okChar c = true) :
    normChain ucd15 s = ucd15.nfc s := by
  have hc : ucd15.cjkVariants s = s := by
    unfold Ucd.cjkVariants
    exact flatMap_cjk hk
  unfold normChain
  rw [isolate_isolated (isolated_of_assigned ha), hc, streamSafe_of_chk (streamSafe_iff.1 h)]

/-- C63: `TextString::from_text` of a stream-safe string of assigned scalars returns its Normalization Form C. -/
theorem c63_owned_is_nfc (s t : List Char) (h : fromTextOwned ucd15 (isBasicText ucd15) s = .ok t) (hs : StreamSafe s)
    (ha : ∀ c ∈ s, isAssigned ucd15 c = true) (d : List Char) (hd : CanonicalDecomposition ucd15 s d) : t = composeAll ucd15 d := by
  obtain ⟨h1, rfl⟩ := (owned_ok_iff isBasicText_nil).1 h
  rw [normChain_nfc hs ha h1.1, nfc_spec lawful15, canonicalDecomposition_iff.1 hd]

/-- Every string has one canonical decomposition. -/
theorem c63_decomposition_unique (s : List Char) : ∃ d, CanonicalDecomposition ucd15 s d ∧ ∀ d', CanonicalDecomposition ucd15 s d' → d' = d :=
  ⟨ucd15.nfd s, canonicalDecomposition_iff.2 rfl, fun _ h => canonicalDecomposition_iff.1 h⟩

/-- C63: the conversion preserves the text up to canonical equivalence. -/
theorem c63_owned_equivalent (s t : List Char) (h : fromTextOwned ucd15 (isBasicText ucd15) s = .ok t) (hs : StreamSafe s)
    (ha : ∀ c ∈ s, isAssigned ucd15 c = true) : CanonicallyEquivalent ucd15 s t := by
  obtain ⟨h1, rfl⟩ := (owned_ok_iff isBasicText_nil).1 h
  rw [normChain_nfc hs ha h1.1, canonicallyEquivalent_iff, nfd_nfc lawful15]

/-- C63: two such strings convert to the same text exactly if they are canonically equivalent. -/
theorem c63_owned_same_iff (s s' t t' : List Char) (h : fromTextOwned ucd15 (isBasicText ucd15) s = .ok t)
    (h' : fromTextOwned ucd15 (isBasicText ucd15) s' = .ok t') (hs : StreamSafe s) (hs' : StreamSafe s')
    (ha : ∀ c ∈ s, isAssigned ucd15 c = true) (ha' : ∀ c ∈ s', isAssigned ucd15 c = true) :
    t = t' ↔ CanonicallyEquivalent ucd15 s s' := by
  have e1 := canonicallyEquivalent_iff.1 (c63_owned_equivalent s t h hs ha)
  have e2 := canonicallyEquivalent_iff.1 (c63_owned_equivalent s' t' h' hs' ha')
  rw [canonicallyEquivalent_iff, e1, e2, ← canonicallyEquivalent_iff]
  exact (c62_text_equal_iff_equivalent t t' (c05_owned_valid s t h) (c05_owned_valid s' t' h')).symm

example : fromTextOwned ucd15 (isBasicText ucd15) ['e', '̇', '̣'] = .ok ['ẹ', '̇'] ∧ StreamSafe ['e', '̇', '̣'] ∧
    (∀ c ∈ ['e', '̇', '̣'], isAssigned ucd15 c = true) := by
  refine ⟨by decide +kernel, streamSafe_iff.2 (by decide +kernel), by decide +kernel⟩

/-! ## C64 -/

/-- The document's strict string conversion (`docs/BasicText.md:203-219`, without CRLF Compatibility) succeeds with `t`. -/
def DocStrict (s t : List Char) : Prop :=
  (∀ c ∈ s.head?, ¬ NonStarter c) ∧ (∀ c ∈ s.getLast?, ¬ NonEnder c) ∧ (∀ q, q <:+: s → ¬ TableSeq q) ∧
  ∃ d, CanonicalDecomposition ucd15 (ucd15.streamSafe 0 (Spec.isolate ucd15 s)) d ∧ t = composeAll ucd15 d

theorem mem_isolateBefore {x : Char} {s : List Char} : ∀ {p : Option Char}, x ∈ isolateBefore ucd15 p s → x ∈ s ∨ x = CGJ := by
  induction s with
  | nil => intro p h; simp [isolateBefore] at h
  | cons c r ih =>
    intro p h
    simp only [isolateBefore] at h
    have := @ih (some c)
    split at h <;> simp only [List.mem_cons] at h ⊢ <;> grind

theorem mem_isolateAfter {x : Char} {s : List Char} (h : x ∈ isolateAfter ucd15 s) : x ∈ s ∨ x = CGJ := by
  induction s with
  | nil => simp [isolateAfter] at h
  | cons c r ih =>
    simp only [isolateAfter] at h
    split at h <;> simp only [List.mem_cons] at h ⊢ <;> grind

theorem mem_spec_isolate {x : Char} {s : List Char} (h : x ∈ Spec.isolate ucd15 s) : x ∈ s ∨ x = CGJ := by
  rcases mem_isolateAfter h with h | h
  · exact mem_isolateBefore h
  · exact Or.inr h

theorem normalize_ok {s : List Char} (hk : ∀ c ∈ s, okChar c = true) :
    Spec.normalize ucd15 s = ucd15.nfc (ucd15.streamSafe 0 (Spec.isolate ucd15 s)) := by
  unfold Spec.normalize
  have hm : ∀ c ∈ Spec.isolate ucd15 s, okChar c = true := by
    intro c hc
    rcases mem_spec_isolate hc with h | h
    · exact hk c h
    · subst h; decide
  have : ucd15.cjkVariants (Spec.isolate ucd15 s) = Spec.isolate ucd15 s := by
    unfold Ucd.cjkVariants
    exact flatMap_cjk hm
  rw [this]

theorem docStrict_iff {s t : List Char} : DocStrict s t ↔ (∀ c ∈ s, okChar c = true) ∧ (∀ c ∈ s.head?, isStart ucd15 c = true) ∧
    (∀ c ∈ s.getLast?, ¬ NonEnder c) ∧ t = Spec.normalize ucd15 s := by
  have hstart : (∀ c ∈ s.head?, ¬ NonStarter c) ↔ ∀ c ∈ s.head?, isStart ucd15 c = true := by
    constructor
    · intro h c hc
      have := h c hc
      rw [nonStarter_iff] at this; simpa using this
    · intro h c hc
      rw [nonStarter_iff, h c hc]; simp
  unfold DocStrict
  rw [hstart, seqs_iff]
  constructor
  · rintro ⟨h4, h5, h3, d, hd, rfl⟩
    refine ⟨h3, h4, h5, ?_⟩
    rw [normalize_ok h3, nfc_spec lawful15, canonicalDecomposition_iff.1 hd]
  · rintro ⟨h3, h4, h5, rfl⟩
    refine ⟨h4, h5, h3, _, canonicalDecomposition_iff.2 rfl, ?_⟩
    rw [normalize_ok h3, nfc_spec lawful15]

/-- C64 (what holds): `TextString::from_text` is the document's strict conversion, unless the string ends with U+0890 or U+0891,
or has U+34F directly before an unassigned scalar. -/
theorem c64_owned_is_strict_partial (s t : List Char) (h1 : s.getLast? ≠ some '࢐') (h2 : s.getLast? ≠ some '࢑')
    (hn : ∀ a c b, s = a ++ CGJ :: c :: b → isAssigned ucd15 c = true) :
    fromTextOwned ucd15 (isBasicText ucd15) s = .ok t ↔ DocStrict s t := by
  have hend : (∀ c ∈ s.getLast?, ¬ NonEnder c) ↔ ∀ c ∈ s.getLast?, isEnd c = true := by
    have e : ∀ c ∈ s.getLast?, (isEnd c = false ↔ NonEnder c) := fun c hc =>
      c56_end_partial c (fun e => h1 (e ▸ hc)) (fun e => h2 (e ▸ hc))
    constructor
    · intro h c hc
      have := h c hc
      rw [← e c hc] at this; simpa using this
    · intro h c hc
      rw [← e c hc, h c hc]; simp
  rw [owned_ok_iff isBasicText_nil, docStrict_iff, hend, normalize_spec textLaws15 hn, Acceptable, and_assoc, and_assoc]

/-- A U+34F before an unassigned scalar keeps the code from putting one after it. -/
theorem c64_refuted_isolation : fromTextOwned ucd15 (isBasicText ucd15) ['͏', '͸'] = .ok ['͏', '͸'] ∧
    ¬ DocStrict ['͏', '͸'] ['͏', '͸'] ∧ DocStrict ['͏', '͸'] ['͏', '͸', '͏'] := by
  have hd : ∀ t, DocStrict ['͏', '͸'] t → t = ['͏', '͸', '͏'] := by
    rintro t ⟨-, -, -, d, hd, rfl⟩
    rw [canonicalDecomposition_iff.1 hd, ← nfc_spec lawful15]; decide +kernel
  refine ⟨by decide +kernel, fun h => ?_, ?_⟩
  · have := hd _ h; simp at this
  · refine ⟨?_, ?_, seqs_iff.2 (by decide +kernel), _, canonicalDecomposition_iff.2 rfl, ?_⟩
    · intro c hc
      simp at hc; subst hc; rw [nonStarter_iff]; decide +kernel
    · intro c hc
      simp at hc; subst hc; unfold NonEnder; decide +kernel
    · rw [← nfc_spec lawful15]; decide +kernel

end Verif
