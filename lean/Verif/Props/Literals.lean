import Verif.Literals
import Verif.Props.CutPlaces

/-!
# String literals (C108)
-/

namespace Verif
open Ucd Spec

theorem textLit_iff {s t : List Char} : textLit ucd15 s = some t ↔ isBasicText ucd15 s = true ∧ t = s := by
  unfold textLit
  split <;> rename_i h <;> simp [h, eq_comm]

theorem substrLit_iff {s t : List Char} : textSubstrLit ucd15 s = some t ↔ isBasicTextSubstr ucd15 s = true ∧ t = s := by
  unfold textSubstrLit
  split <;> rename_i h <;> simp [h, eq_comm]

/-- C108: a literal compiles exactly if the checked conversion accepts the string at run time, and is the same text. -/
theorem c108_checked (s t : List Char) :
    (textLit ucd15 s = some t ↔ fromText (isBasicText ucd15) s = .ok t) ∧
    (textSubstrLit ucd15 s = some t ↔ fromText (isBasicTextSubstr ucd15) s = .ok t) := by
  rw [textLit_iff, substrLit_iff, fromText_ok_iff, fromText_ok_iff]
  exact ⟨Iff.rfl, Iff.rfl⟩

/-- C108: which literals compile, in terms of their scalars: allowed scalars, in Stream-Safe NFC; and for `text!` the first and last scalar. -/
theorem c108_scalars (s : List Char) :
    (textSubstrLit ucd15 s = some s ↔ (∀ c ∈ s, checkChar c = none ∧ c ≠ '\x1b') ∧ (ucd15.chk 0 s).isSome ∧ ucd15.nfc s = s) ∧
    (textLit ucd15 s = some s ↔ textSubstrLit ucd15 s = some s ∧ (∀ c ∈ s.head?, isStart ucd15 c = true) ∧ ∀ c ∈ s.getLast?, isEnd c = true) := by
  have h1 : textSubstrLit ucd15 s = some s ↔ isBasicTextSubstr ucd15 s = true := by rw [substrLit_iff]; simp
  have h2 : textLit ucd15 s = some s ↔ isBasicText ucd15 s = true := by rw [textLit_iff]; simp
  rw [h1, h2]
  constructor
  · rw [substr_iff, isNfcStreamSafe_iff textLaws15.law]
    exact and_congr ⟨fun h c hc => okChar_check.1 (h c hc), fun h c hc => okChar_check.2 (h c hc)⟩ Iff.rfl
  · rw [text_iff]
    exact ⟨fun ⟨a, b, c⟩ => ⟨c, a, b⟩, fun ⟨a, b, c⟩ => ⟨b, c, a⟩⟩

/-- C108: a `text!` literal can be turned into a `TextString` by its checked conversion, which leaves it as it is exactly if each of its unassigned
scalars comes directly after a U+34F. -/
theorem c108_owned (s t : List Char) (h : textLit ucd15 s = some t) :
    (∃ t', fromTextOwned ucd15 (isBasicText ucd15) s = .ok t') ∧ (fromTextOwned ucd15 (isBasicText ucd15) s = .ok t ↔ Preceded ucd15 s) := by
  obtain ⟨hv, rfl⟩ := textLit_iff.1 h
  refine ⟨(c06_owned_accepts_valid t (fromText_ok hv)).1, ?_⟩
  rw [owned_ok_iff isBasicText_nil, preceded_iff]
  constructor
  · rintro ⟨-, e⟩
    exact ((normChain_eq_iff textLaws15).1 e.symm).2
  · intro hp
    exact ⟨acceptable_of_valid hv, ((normChain_eq_iff textLaws15).2 ⟨(substr_iff.1 (text_substr hv)).2, hp⟩).symm⟩

/-- C108: a writer that is ready sends a `text!` literal as it is. -/
theorem c108_written (w : Writer) (hw : Ready w) (s t : List Char) (h : textLit ucd15 s = some t) :
    (step ucd15 w (.text t)).2 = .ok ∧ (step ucd15 w (.text t)).1.sink.sent = w.sink.sent ++ wire w.crlf s := by
  obtain ⟨hv, rfl⟩ := textLit_iff.1 h
  exact c38_write_text_exact w hw t hv

/-- C108: a literal cut in two gives two `text_substr!` literals. -/
theorem c108_parts (a b : List Char) (h : textSubstrLit ucd15 (a ++ b) = some (a ++ b)) : textSubstrLit ucd15 a = some a ∧ textSubstrLit ucd15 b = some b := by
  obtain ⟨hv, -⟩ := substrLit_iff.1 h
  exact ⟨substrLit_iff.2 ⟨substr_prefix textLaws15 hv, rfl⟩, substrLit_iff.2 ⟨substr_suffix textLaws15 hv, rfl⟩⟩

/-- The literals of the documentation (`src/lib.rs:36, 46`), a decomposed letter, and one with an unassigned scalar. -/
example : textLit ucd15 ['H', 'i', '!'] = some ['H', 'i', '!'] ∧ textSubstrLit ucd15 ['🐕', '‍'] = some ['🐕', '‍'] ∧
    textLit ucd15 ['🐕', '‍'] = none ∧ textLit ucd15 ['e', '́'] = none ∧ textLit ucd15 ['͸'] = some ['͸'] ∧
    fromTextOwned ucd15 (isBasicText ucd15) ['͸'] = .ok ['͏', '͸', '͏'] := by decide +kernel

end Verif
