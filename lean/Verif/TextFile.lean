import Verif.Utf8
import Verif.Spec

/-!
# Text as the bytes of a file

Byte-oriented tools cut a file at the bytes 0xA and look for control codes byte by byte.  Here: the UTF-8 of a string seen that way.
-/

namespace Verif

namespace Spec

/-- The pieces between the occurrences of `x`. -/
def pieces {α : Type} [DecidableEq α] (x : α) : List α → List (List α)
  | [] => [[]]
  | a :: l =>
    if a = x then [] :: pieces x l
    else match pieces x l with
      | p :: ps => (a :: p) :: ps
      | [] => [[a]]

/-- A byte that is an ASCII control code. -/
def ControlByte (b : UInt8) : Prop := b.toNat < 0x20 ∨ b = 0x7f

instance (b : UInt8) : Decidable (ControlByte b) := inferInstanceAs (Decidable (_ ∨ _))

end Spec

open Spec

theorem pieces_ne_nil {α : Type} [DecidableEq α] (x : α) (l : List α) : pieces x l ≠ [] := by
  cases l with
  | nil => simp [pieces]
  | cons a l =>
    rw [pieces]
    split
    · simp
    · split <;> simp

theorem pieces_hit {α : Type} [DecidableEq α] (x : α) (l : List α) : pieces x (x :: l) = [] :: pieces x l := by
  rw [pieces, if_pos rfl]

/-- Elements other than `x` join the first piece. -/
theorem pieces_miss {α : Type} [DecidableEq α] {x : α} : ∀ (a l : List α), x ∉ a →
    pieces x (a ++ l) = (a ++ (pieces x l).headD []) :: (pieces x l).tail := by
  intro a l
  induction a with
  | nil =>
    intro _
    cases h : pieces x l with
    | nil => exact absurd h (pieces_ne_nil x l)
    | cons p ps => simp [h]
  | cons c a ih =>
    intro hx
    simp only [List.mem_cons, not_or] at hx
    rw [List.cons_append, pieces, if_neg (fun h => hx.1 h.symm), ih hx.2]
    simp

/-- An ASCII byte in the UTF-8 of a scalar is that scalar. -/
theorem encodeChar_low {c : Char} {b : UInt8} (h : b ∈ encodeChar c) (hb : b.toNat < 0x80) : c.toNat = b.toNat ∧ encodeChar c = [b] := by
  have hr := char_range c
  have key : ∀ n, b = UInt8.ofNat n → n < 256 → 128 ≤ n → False := by
    intro n e h1 h2
    have := congrArg UInt8.toNat e
    rw [u8 h1] at this
    omega
  unfold encodeChar at h ⊢
  simp only at h ⊢
  split at h
  · rename_i hc
    simp only [List.mem_singleton] at h
    rw [if_pos hc, h, u8 (by omega)]
    exact ⟨rfl, rfl⟩
  · exfalso
    split at h
    · simp only [List.mem_cons, List.not_mem_nil, or_false] at h
      rcases h with h | h <;> exact key _ h (by omega) (by omega)
    · split at h
      · simp only [List.mem_cons, List.not_mem_nil, or_false] at h
        rcases h with h | h | h <;> exact key _ h (by omega) (by omega)
      · simp only [List.mem_cons, List.not_mem_nil, or_false] at h
        rcases h with h | h | h | h <;> exact key _ h (by omega) (by omega)

/-- Where an ASCII byte stands in the UTF-8 of a string, the scalar stands in the string. -/
theorem encode_low : ∀ {s : List Char} {x y : Bytes} {b : UInt8}, encode s = x ++ b :: y → b.toNat < 0x80 →
    ∃ u v, s = u ++ Char.ofNat b.toNat :: v ∧ x = encode u ∧ y = encode v := by
  intro s
  induction s with
  | nil => intro x y b h _; simp [encode] at h
  | cons c s ih =>
    intro x y b h hb
    rw [encode_cons] at h
    rcases List.append_eq_append_iff.1 h with ⟨a, h1, h2⟩ | ⟨a, h1, h2⟩
    · obtain ⟨u, v, e1, e2, e3⟩ := ih h2 hb
      exact ⟨c :: u, v, by simp [e1], by rw [h1, e2, encode_cons], e3⟩
    · cases a with
      | nil =>
        obtain ⟨u, v, e1, e2, e3⟩ := ih (x := []) (by simpa using h2.symm) hb
        refine ⟨c :: u, v, by simp [e1], ?_, e3⟩
        have : encode u = [] := e2.symm
        rw [encode_cons, this, h1]; simp
      | cons b' a =>
        obtain ⟨rfl, h2⟩ := List.cons.inj h2
        obtain ⟨e1, e2⟩ := encodeChar_low (c := c) (b := b) (by rw [h1]; simp) hb
        have h3 : x = [] ∧ a = [] := by
          rw [e2] at h1
          have := congrArg List.length h1
          simp at this
          exact ⟨List.length_eq_zero_iff.1 (by omega), List.length_eq_zero_iff.1 (by omega)⟩
        obtain ⟨rfl, rfl⟩ := h3
        exact ⟨[], s, by rw [← e1, Char.ofNat_toNat]; rfl, rfl, by simpa using h2⟩

theorem encode_low_mem {s : List Char} {b : UInt8} (h : b ∈ encode s) (hb : b.toNat < 0x80) : Char.ofNat b.toNat ∈ s := by
  obtain ⟨x, y, h⟩ := List.append_of_mem h
  obtain ⟨u, v, rfl, -, -⟩ := encode_low h hb
  simp

/-- Cutting the UTF-8 at the bytes 0xA is cutting the string at U+A. -/
theorem pieces_encode (s : List Char) : pieces 10 (encode s) = (pieces '\n' s).map encode := by
  induction s with
  | nil => rfl
  | cons c s ih =>
    rw [encode_cons]
    by_cases hc : c = '\n'
    · subst hc
      rw [show encodeChar '\n' = [10] by decide, pieces_hit, List.singleton_append, pieces_hit, ih]
      rfl
    · have h10 : (10 : UInt8) ∉ encodeChar c := fun h => hc (by
        have := (encodeChar_low h (by decide)).1
        rw [← Char.ofNat_toNat c, this]; rfl)
      rw [pieces_miss _ _ h10, ih, show c :: s = [c] ++ s from rfl, pieces_miss [c] s (by simpa using fun h => hc h.symm)]
      cases h : pieces '\n' s with
      | nil => exact absurd h (pieces_ne_nil _ s)
      | cons p ps => simp [encode_cons]

/-- The last piece is empty exactly if every piece before is terminated. -/
theorem pieces_last {α : Type} [DecidableEq α] (x : α) (l : List α) : (pieces x l).getLast? = some [] ↔ l = [] ∨ l.getLast? = some x := by
  induction l with
  | nil => simp [pieces]
  | cons a l ih =>
    obtain ⟨p, ps, h⟩ := List.exists_cons_of_ne_nil (pieces_ne_nil x l)
    by_cases ha : a = x
    · subst ha
      rw [pieces_hit, h, List.getLast?_cons_cons, ← h, ih]
      cases l <;> simp
    · rw [pieces, if_neg ha, h]
      rw [h] at ih
      cases l with
      | nil =>
        simp [pieces] at h
        obtain ⟨rfl, rfl⟩ := h
        simp [ha]
      | cons c l =>
        rw [List.getLast?_cons_cons (a := a)]
        cases ps with
        | nil =>
          simp only [List.getLast?_singleton, Option.some.injEq, reduceCtorEq, false_or] at ih ⊢
          constructor
          · intro h; cases h
          · intro h'
            have hp := ih.2 h'
            subst hp
            rw [pieces] at h
            split at h
            · have := (List.cons.inj h).2
              exact absurd this (pieces_ne_nil _ _)
            · split at h <;> simp at h
        | cons q qs =>
          rw [List.getLast?_cons_cons] at ih ⊢
          simpa using ih

/-- The pieces, with `x` between them, are the list. -/
theorem pieces_join {α : Type} [DecidableEq α] (x : α) (l : List α) : (pieces x l).flatMap (· ++ [x]) = l ++ [x] := by
  induction l with
  | nil => rfl
  | cons a l ih =>
    obtain ⟨p, ps, h⟩ := List.exists_cons_of_ne_nil (pieces_ne_nil x l)
    rw [pieces]
    split
    · rename_i ha; subst ha; simp [ih]
    · rw [h] at ih ⊢
      simp at ih ⊢
      exact ih

/-- The pieces are parts of the list without `x`. -/
theorem pieces_mem {α : Type} [DecidableEq α] {x : α} : ∀ {l p : List α}, p ∈ pieces x l → x ∉ p ∧ ∃ a b, l = a ++ p ++ b := by
  have main : ∀ l p ps, pieces x l = p :: ps → (∃ b, l = p ++ b) ∧ ∀ q ∈ p :: ps, x ∉ q ∧ ∃ a b, l = a ++ q ++ b := by
    intro l
    induction l with
    | nil =>
      intro p ps h
      simp [pieces] at h
      obtain ⟨rfl, rfl⟩ := h
      simp
    | cons c l ih =>
      intro p ps h
      obtain ⟨q, qs, hq⟩ := List.exists_cons_of_ne_nil (pieces_ne_nil x l)
      obtain ⟨⟨b, hb⟩, h2⟩ := ih q qs hq
      rw [pieces] at h
      split at h
      · obtain ⟨rfl, rfl⟩ := List.cons.inj h
        refine ⟨⟨c :: l, rfl⟩, fun r hr => ?_⟩
        rcases List.mem_cons.1 hr with rfl | hr
        · exact ⟨by simp, [], c :: l, rfl⟩
        · obtain ⟨g1, a, b, g2⟩ := h2 r (hq ▸ hr)
          exact ⟨g1, c :: a, b, by simp [g2]⟩
      · rename_i hc
        rw [hq] at h
        obtain ⟨rfl, rfl⟩ := List.cons.inj h
        refine ⟨⟨b, by simp [hb]⟩, fun r hr => ?_⟩
        rcases List.mem_cons.1 hr with rfl | hr
        · have := (h2 q (by simp)).1
          exact ⟨by simpa [this] using fun h => hc (Eq.symm h), [], b, by simp [hb]⟩
        · obtain ⟨g1, a, b, g2⟩ := h2 r (List.mem_cons_of_mem _ hr)
          exact ⟨g1, c :: a, b, by simp [g2]⟩
  intro l p hp
  obtain ⟨q, qs, hq⟩ := List.exists_cons_of_ne_nil (pieces_ne_nil x l)
  exact (main l q qs hq).2 p (hq ▸ hp)

end Verif
