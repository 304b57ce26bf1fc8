import Verif.Utf8

/-!
# Lossy decoding

Model of `String::from_utf8_lossy` (`core::str::lossy`, used by `src/text_string.rs:181`) and of what `utf8_io::Utf8Reader` does with
ill-formed input: each maximal subpart of an ill-formed sequence becomes one U+FFFD (Unicode, "U+FFFD Substitution of Maximal
Subparts").
-/

namespace Verif

/-- May `b` follow the lead byte `a` of a sequence of three or four bytes? (`core::str::lossy::Utf8Chunks::next`) -/
def secondOk (a b : UInt8) : Bool :=
  if a.toNat = 0xe0 then 0xa0 ≤ b.toNat && b.toNat ≤ 0xbf
  else if a.toNat = 0xed then 0x80 ≤ b.toNat && b.toNat ≤ 0x9f
  else if a.toNat = 0xf0 then 0x90 ≤ b.toNat && b.toNat ≤ 0xbf
  else if a.toNat = 0xf4 then 0x80 ≤ b.toNat && b.toNat ≤ 0x8f
  else 0xe0 ≤ a.toNat && a.toNat ≤ 0xf3 && 0x80 ≤ b.toNat && b.toNat ≤ 0xbf

/-- How many bytes at the front of ill-formed input make one U+FFFD. -/
def badLen : Bytes → Nat
  | [] => 0
  | [_] => 1
  | [a, b] => if secondOk a b then 2 else 1
  | a :: b :: c :: _ => if secondOk a b then (if a.toNat < 0xf0 then 2 else if (cont c).isSome then 3 else 2) else 1

def lossyGo : Nat → Bytes → List Char
  | 0, _ => []
  | n + 1, b =>
    match decode1 b with
    | some (c, r) => c :: lossyGo n r
    | none => if b = [] then [] else '�' :: lossyGo n (b.drop (badLen b))

/-- `String::from_utf8_lossy`; and all that a `Utf8Reader` delivers for these bytes. -/
def utf8Lossy (b : Bytes) : List Char := lossyGo b.length b

/-! ## Theory -/

theorem badLen_pos {b : Bytes} (h : b ≠ []) : 0 < badLen b := by
  match b, h with
  | [_], _ => simp [badLen]
  | [_, _], _ => simp only [badLen]; split <;> omega
  | _ :: _ :: _ :: _, _ => simp only [badLen]; repeat' split
                           all_goals omega

theorem badLen_le (b : Bytes) : badLen b ≤ b.length := by
  match b with
  | [] => simp [badLen]
  | [_] => simp [badLen]
  | [_, _] => simp only [badLen, List.length]; split <;> omega
  | _ :: _ :: _ :: _ => simp only [badLen, List.length]; repeat' split
                        all_goals omega

theorem decode1_shorter {b r : Bytes} {c : Char} (h : decode1 b = some (c, r)) : r.length < b.length := by
  have := decode1_some h
  have h2 := encodeChar_length c
  have h3 := utf8Len_pos c
  rw [this, List.length_append]; omega

theorem lossyGo_fuel : ∀ (n m : Nat) (b : Bytes), b.length ≤ n → b.length ≤ m → lossyGo n b = lossyGo m b := by
  intro n
  induction n with
  | zero =>
    intro m b h h'
    have : b = [] := List.length_eq_zero_iff.1 (by omega)
    subst this
    cases m <;> simp [lossyGo, decode1]
  | succ n ih =>
    intro m b h h'
    cases m with
    | zero =>
      have : b = [] := List.length_eq_zero_iff.1 (by omega)
      subst this
      simp [lossyGo, decode1]
    | succ m =>
      simp only [lossyGo]
      cases hd : decode1 b with
      | some x =>
        obtain ⟨c, r⟩ := x
        have := decode1_shorter hd
        simp only
        rw [ih m r (by omega) (by omega)]
      | none =>
        simp only
        split
        · rfl
        · rename_i hb
          have := badLen_pos hb
          rw [ih m _ (by rw [List.length_drop]; omega) (by rw [List.length_drop]; omega)]

theorem utf8Lossy_nil : utf8Lossy [] = [] := rfl

theorem utf8Lossy_good {b r : Bytes} {c : Char} (h : decode1 b = some (c, r)) : utf8Lossy b = c :: utf8Lossy r := by
  have h1 := decode1_shorter h
  unfold utf8Lossy
  cases hb : b.length with
  | zero => omega
  | succ n =>
    simp only [lossyGo, h]
    rw [lossyGo_fuel n r.length r (by omega) (Nat.le_refl _)]

theorem utf8Lossy_bad {b : Bytes} (h : decode1 b = none) (hb : b ≠ []) : utf8Lossy b = '�' :: utf8Lossy (b.drop (badLen b)) := by
  have h1 := badLen_pos hb
  unfold utf8Lossy
  cases hl : b.length with
  | zero => exact absurd (List.length_eq_zero_iff.1 hl) hb
  | succ n =>
    simp only [lossyGo, h]
    rw [if_neg hb, lossyGo_fuel n (b.drop (badLen b)).length _ (by rw [List.length_drop]; omega) (Nat.le_refl _)]

theorem utf8Lossy_append (s : List Char) (b : Bytes) : utf8Lossy (encode s ++ b) = s ++ utf8Lossy b := by
  induction s with
  | nil => rfl
  | cons c s ih =>
    rw [encode_cons, List.append_assoc, utf8Lossy_good (decode1_encode c _), ih]; rfl

theorem utf8Lossy_encode (s : List Char) : utf8Lossy (encode s) = s := by
  have := utf8Lossy_append s []
  simpa [utf8Lossy_nil] using this

/-- Ill-formed input shows as U+FFFD. -/
theorem utf8Lossy_replacement {b : Bytes} (h : fromUtf8 b = none) : '�' ∈ utf8Lossy b := by
  obtain ⟨h1, h2⟩ := decodePrefix_spec b
  have hr : (decodePrefix b).2 ≠ [] := by
    intro hr
    simp [fromUtf8, hr] at h
  rw [← h1, utf8Lossy_append, utf8Lossy_bad h2 hr]
  simp

/-! ## Maximal subparts -/

/-- The beginning of a well-formed sequence. -/
def Spec.Subpart (p : Bytes) : Prop := ∃ c, p <+: encodeChar c

open Spec

theorem subpart_of_decode {p q r : Bytes} {c : Char} (h : decode1 (p ++ q) = some (c, r)) (hl : p.length ≤ utf8Len c) : Subpart p := by
  refine ⟨c, ?_⟩
  have := decode1_some h
  rw [← encodeChar_length] at hl
  have h1 : p <+: encodeChar c ++ r := ⟨q, this⟩
  exact List.prefix_of_prefix_length_le h1 (List.prefix_append _ _) hl

theorem cont_isSome {b : UInt8} : (cont b).isSome = true ↔ 0x80 ≤ b.toNat ∧ b.toNat < 0xc0 := by
  unfold cont; split <;> simp_all

theorem secondOk_cont {a b : UInt8} (h : secondOk a b = true) : 0x80 ≤ b.toNat ∧ b.toNat < 0xc0 ∧ 0xe0 ≤ a.toNat ∧ a.toNat ≤ 0xf4 := by
  unfold secondOk at h
  repeat' split at h
  all_goals simp at h; omega

theorem cont_eq {b : UInt8} (h : 0x80 ≤ b.toNat ∧ b.toNat < 0xc0) : cont b = some (b.toNat - 0x80) := by simp [cont, h]

theorem second_subpart {a b : UInt8} (h : secondOk a b = true) : Subpart [a, b] := by
  have hc := secondOk_cont h
  by_cases ha : a.toNat < 0xf0
  · have : decode1 ([a, b] ++ [0x80]) = some (Char.ofNat ((a.toNat - 0xe0) * 4096 + (b.toNat - 0x80) * 64 + 0), []) := by
      simp only [decode1, List.cons_append, List.nil_append]
      rw [if_neg (by omega), if_neg (by omega), if_neg (by omega), if_pos ha, cont_eq ⟨hc.1, hc.2.1⟩]
      rw [show cont 0x80 = some 0 from rfl]
      simp only
      rw [if_pos]
      unfold secondOk at h
      repeat' split at h
      all_goals simp at h; omega
    exact subpart_of_decode this (by
      have h2 := decode1_some this
      have := congrArg List.length h2
      rw [List.append_nil, encodeChar_length] at this
      simp at this ⊢; omega)
  · have : decode1 ([a, b] ++ [0x80, 0x80]) = some (Char.ofNat ((a.toNat - 0xf0) * 262144 + (b.toNat - 0x80) * 4096 + 0 * 64 + 0), []) := by
      simp only [decode1, List.cons_append, List.nil_append]
      rw [if_neg (by omega), if_neg (by omega), if_neg (by omega), if_neg ha, if_pos (by omega), cont_eq ⟨hc.1, hc.2.1⟩]
      rw [show cont 0x80 = some 0 from rfl]
      simp only
      rw [if_pos]
      unfold secondOk at h
      repeat' split at h
      all_goals simp at h; omega
    exact subpart_of_decode this (by
      have h2 := decode1_some this
      have := congrArg List.length h2
      rw [List.append_nil, encodeChar_length] at this
      simp at this ⊢; omega)

theorem third_subpart {a b c : UInt8} (h : secondOk a b = true) (ha : ¬ a.toNat < 0xf0) (h3 : (cont c).isSome = true) : Subpart [a, b, c] := by
  have hc := secondOk_cont h
  have hd := cont_isSome.1 h3
  have : decode1 ([a, b, c] ++ [0x80]) =
      some (Char.ofNat ((a.toNat - 0xf0) * 262144 + (b.toNat - 0x80) * 4096 + (c.toNat - 0x80) * 64 + 0), []) := by
    simp only [decode1, List.cons_append, List.nil_append]
    rw [if_neg (by omega), if_neg (by omega), if_neg (by omega), if_neg ha, if_pos (by omega), cont_eq ⟨hc.1, hc.2.1⟩, cont_eq hd]
    rw [show cont 0x80 = some 0 from rfl]
    simp only
    rw [if_pos]
    unfold secondOk at h
    repeat' split at h
    all_goals simp at h; omega
  exact subpart_of_decode this (by
    have h2 := decode1_some this
    have := congrArg List.length h2
    rw [List.append_nil, encodeChar_length] at this
    simp at this ⊢; omega)

/-- The first bytes of a sequence of at least three bytes. -/
theorem encode_second (c : Char) {a b d : UInt8} {r : Bytes} (h : encodeChar c = a :: b :: d :: r) :
    secondOk a b = true ∧ (r ≠ [] → 0xf0 ≤ a.toNat ∧ (cont d).isSome = true) := by
  have hv := char_range c
  unfold encodeChar at h
  simp only at h
  split at h
  · simp at h
  · split at h
    · simp at h
    · split at h
      · simp only [List.cons.injEq] at h
        obtain ⟨rfl, rfl, rfl, rfl⟩ := h
        refine ⟨?_, fun h => absurd rfl h⟩
        unfold secondOk
        rw [u8 (by omega), u8 (by omega)]
        repeat' split
        all_goals simp; omega
      · simp only [List.cons.injEq] at h
        obtain ⟨rfl, rfl, rfl, rfl⟩ := h
        refine ⟨?_, fun _ => ⟨?_, ?_⟩⟩
        · unfold secondOk
          rw [u8 (by omega), u8 (by omega)]
          repeat' split
          all_goals simp; omega
        · rw [u8 (by omega)]; omega
        · rw [cont_isSome, u8 (by omega)]; omega

/-- One U+FFFD stands for the longest beginning of a well-formed sequence, or for one byte. -/
theorem badLen_spec {b : Bytes} (h : decode1 b = none) :
    (badLen b ≤ 1 ∨ Subpart (b.take (badLen b))) ∧ ∀ k, badLen b < k → k ≤ b.length → ¬ Subpart (b.take k) := by
  constructor
  · match b with
    | [] => simp [badLen]
    | [_] => simp [badLen]
    | [x, y] =>
      simp only [badLen]
      split
      · exact Or.inr (second_subpart (by assumption))
      · exact Or.inl (Nat.le_refl _)
    | x :: y :: z :: r =>
      simp only [badLen]
      split
      · split
        · exact Or.inr (second_subpart (by assumption))
        · split
          · exact Or.inr (third_subpart (by assumption) (by assumption) (by assumption))
          · exact Or.inr (second_subpart (by assumption))
      · exact Or.inl (Nat.le_refl _)
  · rintro k hk hkl ⟨c, q, hq⟩
    have hq0 : q ≠ [] := by
      rintro rfl
      rw [List.append_nil] at hq
      have h2 := decode1_encode c (b.drop k)
      rw [← hq, List.take_append_drop, h] at h2
      simp at h2
    have hlen : k + q.length = utf8Len c := by
      rw [← encodeChar_length, ← hq, List.length_append, List.length_take]; omega
    have hle := utf8Len_le c
    have hqp := List.length_pos_iff.2 hq0
    match b, k, hk, hkl with
    | [], k, hk, hkl => simp only [badLen, List.length] at hk hkl; omega
    | [_], k, hk, hkl => simp only [badLen, List.length] at hk hkl; omega
    | [x, y], k, hk, hkl =>
      simp only [badLen, List.length] at hk hkl
      have h2 : k = 2 := by split at hk <;> omega
      subst h2
      match q, hq0 with
      | z :: r, _ =>
        have := encode_second c (a := x) (b := y) (d := z) (r := r) hq.symm
        rw [if_pos this.1] at hk; omega
    | x :: y :: z :: t, k, hk, hkl =>
      simp only [badLen] at hk
      have h2 : k = 2 ∨ k = 3 := by split at hk <;> (try split at hk) <;> (try split at hk) <;> omega
      rcases h2 with rfl | rfl
      · match q, hq0 with
        | z' :: r, _ =>
          have := encode_second c (a := x) (b := y) (d := z') (r := r) hq.symm
          rw [if_pos this.1] at hk
          split at hk <;> (try split at hk) <;> omega
      · have := encode_second c (a := x) (b := y) (d := z) (r := q) hq.symm
        have h3 := this.2 hq0
        rw [if_pos this.1, if_neg (by omega), if_pos h3.2] at hk
        omega

end Verif
