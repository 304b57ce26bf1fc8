import Verif.Disk

/-!
# Texts of which only the first bytes are left, one behind the other
-/

namespace Verif
open Ucd

/-- What is left of a text in its first `n` bytes: the scalars that are there completely, and U+FFFD if there is a part of one more. -/
def leftOf : List Char → Nat → List Char
  | [], _ => []
  | c :: s, n => if utf8Len c ≤ n then c :: leftOf s (n - utf8Len c) else if n = 0 then [] else ['�']

theorem cont_boundary {b : UInt8} (h : isBoundaryByte b = true) : cont b = none := by
  unfold isBoundaryByte at h
  unfold cont
  rw [if_neg]
  intro hc
  simp [hc] at h

/-- A part of a scalar, followed by anything that does not continue it. -/
theorem lossy_broken {κ rest : Bytes} (hi : incomplete κ = true) (hr : ∀ b ∈ rest.head?, isBoundaryByte b = true) :
    decode1 (κ ++ rest) = none ∧ badLen (κ ++ rest) = κ.length := by
  match κ, hi with
  | [a], hi =>
    simp only [incomplete, Bool.and_eq_true, decide_eq_true_eq] at hi
    cases rest with
    | nil =>
      refine ⟨?_, rfl⟩
      rw [List.append_nil, decode1.eq_def]
      simp only
      rw [if_neg (by omega), if_neg (by omega)]
      split
      · rfl
      · split
        · rfl
        · split <;> rfl
    | cons b r =>
      have hb := hr b rfl
      have hc := cont_boundary hb
      have hs : secondOk a b = false := by
        cases e : secondOk a b
        · rfl
        · obtain ⟨e1, e2, -⟩ := secondOk_cont e
          simp [isBoundaryByte, e1, e2] at hb
      refine ⟨?_, ?_⟩
      · rw [List.cons_append, List.nil_append, decode1.eq_def]
        simp only
        rw [if_neg (by omega), if_neg (by omega)]
        simp only [hc]
        split
        · rfl
        · split
          · cases r with
            | nil => rfl
            | cons _ _ => simp only [hc]
          · split
            · match r with
              | [] => rfl
              | [_] => rfl
              | _ :: _ :: _ => simp only [hc]
            · rfl
      · cases r <;> simp [badLen, hs]
  | [a, b], hi =>
    have hi : secondOk a b = true := hi
    have ha : 0xe0 ≤ a.toNat := (secondOk_cont hi).2.2.1
    cases rest with
    | nil =>
      refine ⟨?_, by simp [badLen, hi]⟩
      rw [List.append_nil, decode1.eq_def]
      simp only
      rw [if_neg (by omega), if_neg (by omega), if_neg (by omega)]
      split
      · rfl
      · split <;> rfl
    | cons c r =>
      have hc := cont_boundary (hr c rfl)
      refine ⟨?_, ?_⟩
      · rw [List.cons_append, List.cons_append, List.nil_append, decode1.eq_def]
        simp only
        rw [if_neg (by omega), if_neg (by omega), if_neg (by omega)]
        simp only [hc]
        split
        · split <;> simp_all
        · split
          · cases r with
            | nil => rfl
            | cons _ _ => simp only; split <;> simp_all
          · rfl
      · simp [badLen, hi, hc]
  | [a, b, c], hi =>
    simp only [incomplete, Bool.and_eq_true, decide_eq_true_eq] at hi
    obtain ⟨h1, h2, h3⟩ := hi
    cases rest with
    | nil =>
      refine ⟨?_, ?_⟩
      · rw [List.append_nil, decode1.eq_def]
        simp only
        rw [if_neg (by omega), if_neg (by omega), if_neg (by omega), if_neg (by omega)]
        split <;> rfl
      · simp only [List.append_nil, badLen, h1, h3, if_true]
        rw [if_neg (by omega)]; rfl
    | cons d r =>
      have hc := cont_boundary (hr d rfl)
      refine ⟨?_, ?_⟩
      · rw [List.cons_append, List.cons_append, List.cons_append, List.nil_append, decode1.eq_def]
        simp only
        rw [if_neg (by omega), if_neg (by omega), if_neg (by omega), if_neg (by omega)]
        split
        · simp only [hc]; split <;> simp_all
        · rfl
      · simp only [List.cons_append, badLen, h1, h3, if_true]
        rw [if_neg (by omega)]; rfl

/-- What is left, decoded, in front of anything that does not begin with the end of a scalar. -/
theorem lossy_left (T : List Char) : ∀ (n : Nat) {rest : Bytes}, (∀ b ∈ rest.head?, isBoundaryByte b = true) →
    utf8Lossy ((encode T).take n ++ rest) = leftOf T n ++ utf8Lossy rest := by
  induction T with
  | nil => intro n rest _; simp [encode, leftOf]
  | cons c T ih =>
    intro n rest hr
    simp only [leftOf]
    split
    · rename_i hn
      rw [encode_cons, List.take_append, List.take_of_length_le (by rw [encodeChar_length]; exact hn), encodeChar_length, List.append_assoc,
        utf8Lossy_good (decode1_encode c _), ih _ hr]
      rfl
    · rename_i hn
      split
      · rename_i h0; subst h0; simp
      · rename_i h0
        have hk : (encode (c :: T)).take n = (encodeChar c).take n := by
          rw [encode_cons, List.take_append_of_le_length (by rw [encodeChar_length]; omega)]
        have hi : incomplete ((encodeChar c).take n) = true := by
          refine incomplete_of (c := c) (q := (encodeChar c).drop n) (List.take_append_drop _ _).symm ?_ ?_
          · intro h
            have := congrArg List.length h
            rw [List.length_take, encodeChar_length, List.length_nil] at this
            have := utf8Len_pos c
            omega
          · intro h
            have := congrArg List.length h
            rw [List.length_drop, encodeChar_length, List.length_nil] at this
            omega
        obtain ⟨d1, d2⟩ := lossy_broken hi hr
        have hne : (encodeChar c).take n ++ rest ≠ [] := by
          intro h
          rw [(List.append_eq_nil_iff.1 h).1] at hi
          simp [incomplete] at hi
        rw [hk, utf8Lossy_bad d1 hne, d2, List.drop_left]
        rfl

end Verif
