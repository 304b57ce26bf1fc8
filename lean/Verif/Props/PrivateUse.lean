import Verif.Props.Everyday

/-!
# Private-use scalars (C104)
-/

namespace Verif
open Ucd Spec Tables

namespace Spec

/-- General category Co: the private-use area and planes 15 and 16 without their last two code points. -/
def Private (c : Char) : Prop :=
  (0xe000 ≤ c.toNat ∧ c.toNat ≤ 0xf8ff) ∨ (0xf0000 ≤ c.toNat ∧ c.toNat ≤ 0xffffd) ∨ (0x100000 ≤ c.toNat ∧ c.toNat ≤ 0x10fffd)

instance (c : Char) : Decidable (Private c) := inferInstanceAs (Decidable (_ ∨ _))

end Spec

/-- No private-use code point lies between the two. -/
def awayN (lo hi : Nat) : Bool := Nat.blt hi 0xe000 || (Nat.blt 0xf8ff lo && Nat.blt hi 0xf0000) || (Nat.blt 0xffffd lo && Nat.blt hi 0x100000) || Nat.blt 0x10fffd lo

theorem away_private {c : Char} (h : Private c) {lo hi : Nat} (ha : awayN lo hi = true) (h1 : lo ≤ c.toNat) (h2 : c.toNat ≤ hi) : False := by
  simp only [awayN, Bool.or_eq_true, Bool.and_eq_true, blt_iff] at ha
  unfold Private at h
  omega

theorem away_assigned : assignedTree.all (fun lo hi _ => awayN lo hi) = true := by decide +kernel

theorem away_bad : badRanges.all (fun r => awayN r.1 r.2) = true := by decide +kernel

theorem away_end : (consonantPrecedingRepha ++ consonantPrefixed ++ prependedConcatenationMark).all (fun r => awayN r.1 r.2) = true := by
  decide +kernel

theorem private_not {c : Char} (h : Private c) {B : List (Nat × Nat)} (hB : B.all (fun r => awayN r.1 r.2) = true) : inRanges B c.toNat = false := by
  rw [Bool.eq_false_iff]
  intro hi
  obtain ⟨r, h1, h2, h3⟩ := inRanges_iff.1 hi
  exact away_private h (List.all_eq_true.1 hB r h1) h2 h3

theorem private_unassigned {c : Char} (h : Private c) : ucd15.assigned c = false := by
  show assignedN c.toNat = false
  unfold assignedN
  cases hf : assignedTree.find c.toNat with
  | none => rfl
  | some v =>
    obtain ⟨lo, hi, h1, h2, h3⟩ := RTree.find_all away_assigned hf
    exact (away_private h h3 h1 h2).elim

theorem private_inert {c : Char} (h : Private c) : ucd15.Inert c := textLaws15.unassigned_inert c (private_unassigned h)

theorem private_ok {c : Char} (h : Private c) : okChar c = true := by
  rw [okChar_iff]
  exact okN_of (private_not h away_bad) (by unfold Private at h; omega)

theorem private_start {c : Char} (h : Private c) : isStart ucd15 c = true := by
  rw [isStart15]; exact startTable_unassigned (private_unassigned h)

theorem private_end {c : Char} (h : Private c) : isEnd c = true := by
  have hr := away_end
  simp only [List.all_append, Bool.and_eq_true] at hr
  unfold isEnd
  rw [private_not h hr.1.1, private_not h hr.1.2, private_not h hr.2]
  have : Nat.beq c.toNat 0x200d = false := by
    rw [Bool.eq_false_iff, ne_eq, beq_iff]; unfold Private at h; omega
  rw [this]; rfl

theorem private_assigned {c : Char} (h : Private c) : isAssigned ucd15 c = true := by
  unfold isAssigned
  rw [Bool.or_eq_true]
  right
  refine inRanges_iff.2 ?_
  rcases h with h | h | h
  · exact ⟨(0xe000, 0xf8ff), by decide, h⟩
  · exact ⟨(0xf0000, 0xffffd), by decide, h⟩
  · exact ⟨(0x100000, 0x10fffd), by decide, h⟩

/-! ## C104 -/

/-- C104: a private-use scalar can stand anywhere in Basic Text, and what stands before and after it does not matter to each other. -/
theorem c104_anywhere (a b : List Char) (c : Char) (h : Private c) :
    (fromText (isBasicTextSubstr ucd15) (a ++ c :: b) = .ok (a ++ c :: b) ↔
      fromText (isBasicTextSubstr ucd15) a = .ok a ∧ fromText (isBasicTextSubstr ucd15) b = .ok b) ∧
    (fromText (isBasicText ucd15) (a ++ [c] ++ b) = .ok (a ++ [c] ++ b) ↔
      fromText (isBasicText ucd15) (a ++ [c]) = .ok (a ++ [c]) ∧ fromText (isBasicText ucd15) (c :: b) = .ok (c :: b)) ∧
    fromText (isBasicText ucd15) [c] = .ok [c] := by
  have hs : ∀ a b, isBasicTextSubstr ucd15 (a ++ c :: b) = true ↔ isBasicTextSubstr ucd15 a = true ∧ isBasicTextSubstr ucd15 b = true := by
    intro a b
    rw [substr_iff, substr_iff, substr_iff, nss_inert textLaws15.law (private_inert h)]
    have := private_ok h
    grind
  have h0 : isBasicTextSubstr ucd15 [] = true := isBasicTextSubstr_nil
  simp only [fromText_ok_iff, and_true]
  refine ⟨hs a b, ?_, ?_⟩
  · rw [text_iff, text_iff, text_iff, List.append_assoc, List.singleton_append, hs, hs a [], show c :: b = [] ++ c :: b from rfl, hs [] b]
    have h1 := private_start h
    have h2 := private_end h
    have e1 : (∀ x ∈ (a ++ c :: b).head?, isStart ucd15 x = true) ↔ ∀ x ∈ (a ++ [c]).head?, isStart ucd15 x = true := by cases a <;> simp
    have e2 : (∀ x ∈ (a ++ [] ++ c :: b).getLast?, isEnd x = true) ↔ ∀ x ∈ (c :: b).getLast?, isEnd x = true := by
      simp [List.getLast?_append, List.getLast?_cons]
    rw [List.append_nil] at e2
    simp only [List.nil_append, e1, e2, h0]
    simp [h1, h2]
    grind
  · have := (hs [] []).2 ⟨h0, h0⟩
    refine text_iff.2 ⟨?_, ?_, this⟩
    · intro x hx; simp at hx; subst hx; exact private_start h
    · intro x hx; simp at hx; subst hx; exact private_end h

/-- It is not isolated: Basic Text whose scalars are private-use or have been assigned by Unicode 15.1 is not changed by the conversions,
read as it is, and written as it is. -/
theorem c104_unchanged (s : List Char) (hv : fromText (isBasicText ucd15) s = .ok s) (h : ∀ c ∈ s, Private c ∨ ucd15.assigned c = true) :
    (∀ chunks last lens, chunks.flatten ++ last = s → SliceReads chunks last → (∀ i, normalizationBufferSize ≤ lens i) → Converts chunks last lens s) ∧
    fromTextOwned ucd15 (isBasicText ucd15) s = .ok s ∧
    (∀ nel lsps chunks last lens, chunks.flatten ++ last = s → (s = [] ∨ s.getLast? = some '\n') →
      Completes ucd15 nel lsps (script chunks last) lens → output ucd15 nel lsps (script chunks last) lens = s) ∧
    (∀ w, Ready w → (step ucd15 w (.str s)).2 = .ok ∧ (step ucd15 w (.str s)).1.sink.sent = w.sink.sent ++ wire w.crlf s) := by
  have ha : ∀ c ∈ s, isAssigned ucd15 c = true := by
    intro c hc
    rcases h c hc with h | h
    · exact private_assigned h
    · rw [isAssigned, h]; rfl
  refine ⟨fun chunks last lens hs hb hl => c02_lossy_fixes_valid s hv ha chunks last hs hb lens hl, (c06_owned_accepts_valid s hv).2 ha, ?_, ?_⟩
  · rintro nel lsps chunks last lens rfl hn hc
    exact c18_reader_identity nel lsps chunks last lens (fromText_ok_iff.1 hv).1 ha hn hc
  · exact fun w hw => c38_write_str_exact w hw s (fromText_ok_iff.1 hv).1 ha

/-- The first and last scalars of the three areas. -/
example : (∀ n ∈ [0xe000, 0xf8ff, 0xf0000, 0xffffd, 0x100000, 0x10fffd], Private (Char.ofNat n)) ∧
    (∀ n ∈ [0xd7ff, 0xf900, 0xeffff, 0xffffe, 0xfffff, 0x10fffe, 0x10ffff], ¬ Private (Char.ofNat n)) ∧
    fromText (isBasicText ucd15) ['a', '\uf8ff', '\u0301', '\n'] = .ok ['a', '\uf8ff', '\u0301', '\n'] ∧
    (∀ c ∈ ['a', '\uf8ff', '\u0301', '\n'], Private c ∨ ucd15.assigned c = true) := by decide +kernel

end Verif
