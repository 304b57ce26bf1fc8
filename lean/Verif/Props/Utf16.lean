import Verif.Utf16
import Verif.Props.Precise

/-!
# Property C119: text as UTF-16
-/

namespace Verif
open Ucd Spec

/-- UTF-16 as the Unicode Standard has it (3.9, D91): a unit that is no surrogate stands for itself, a leading surrogate and a trailing surrogate stand for
a scalar together, and everything else is ill-formed. -/
def Spec.decodeUtf16 : List Nat → Option (List Char)
  | [] => some []
  | u :: r =>
    if u < 0xd800 ∨ (0xe000 ≤ u ∧ u < 0x10000) then (Spec.decodeUtf16 r).map (Char.ofNat u :: ·)
    else if 0xd800 ≤ u ∧ u < 0xdc00 then
      match r with
      | [] => none
      | v :: r =>
        if 0xdc00 ≤ v ∧ v < 0xe000 then (Spec.decodeUtf16 r).map (Char.ofNat (0x10000 + (u - 0xd800) * 0x400 + (v - 0xdc00)) :: ·)
        else none
    else none

theorem scalar_range (c : Char) : c.toNat < 0xd800 ∨ (0xe000 ≤ c.toNat ∧ c.toNat < 0x110000) := by
  have := c.valid
  simp only [UInt32.isValidChar, Nat.isValidChar] at this
  have h : c.toNat = c.val.toNat := rfl
  omega

theorem decode_one (c : Char) (r : List Nat) : decodeUtf16 (encodeUtf16Char c ++ r) = (decodeUtf16 r).map (c :: ·) := by
  have h := scalar_range c
  unfold encodeUtf16Char
  split
  · rename_i h1
    rw [List.singleton_append, decodeUtf16.eq_def]
    simp only
    rw [if_pos (by omega), Char.ofNat_toNat]
  · rename_i h1
    rw [List.cons_append, List.singleton_append, decodeUtf16.eq_def]
    simp only
    rw [if_neg (by omega), if_pos (by omega)]
    rw [if_pos (by omega)]
    have e : 0x10000 + (0xd800 + (c.toNat - 0x10000) / 0x400 - 0xd800) * 0x400 + (0xdc00 + (c.toNat - 0x10000) % 0x400 - 0xdc00) = c.toNat := by omega
    rw [e, Char.ofNat_toNat]

/-- C119: decoding what `encode_utf16` gives returns the text. -/
theorem c119_back (s : List Char) : decodeUtf16 (encodeUtf16 s) = some s := by
  induction s with
  | nil => rfl
  | cons c s ih =>
    show decodeUtf16 (encodeUtf16Char c ++ encodeUtf16 s) = _
    rw [decode_one, ih]; rfl

theorem toNat_of {n : Nat} (h : n < 0xd800 ∨ (0xe000 ≤ n ∧ n < 0x110000)) : (Char.ofNat n).toNat = n := by
  have hv : n.isValidChar := by
    rcases h with h | h
    · exact Or.inl h
    · exact Or.inr ⟨by omega, h.2⟩
  simp only [Char.ofNat, hv, dif_pos]
  rfl

/-- Nothing else decodes to the text: units decode to a text exactly if `encode_utf16` gives them. -/
theorem c119_only (u : List Nat) (s : List Char) : decodeUtf16 u = some s ↔ u = encodeUtf16 s := by
  refine ⟨?_, fun h => h ▸ c119_back s⟩
  have main : ∀ n (u : List Nat), u.length ≤ n → ∀ s, decodeUtf16 u = some s → u = encodeUtf16 s := by
    intro n
    induction n with
    | zero =>
      intro u hu s h
      have : u = [] := List.eq_nil_of_length_eq_zero (by omega)
      subst this
      simp only [decodeUtf16, Option.some.injEq] at h
      subst h; rfl
    | succ n ih =>
      intro u hu s h
      cases u with
      | nil =>
        simp only [decodeUtf16, Option.some.injEq] at h
        subst h; rfl
      | cons a r =>
        simp only [List.length_cons] at hu
        rw [decodeUtf16.eq_def] at h
        simp only at h
        split at h
        · rename_i ha
          simp only [Option.map_eq_some_iff] at h
          obtain ⟨t, ht, rfl⟩ := h
          have := ih r (by omega) t ht
          show _ = encodeUtf16Char _ ++ encodeUtf16 t
          rw [← this, encodeUtf16Char, toNat_of (by omega), if_pos (by omega)]
          rfl
        · split at h
          · rename_i h1 ha
            cases r with
            | nil => simp at h
            | cons b r =>
              simp only at h
              split at h
              · rename_i hb
                simp only [Option.map_eq_some_iff] at h
                obtain ⟨t, ht, rfl⟩ := h
                simp only [List.length_cons] at hu
                have := ih r (by omega) t ht
                show _ = encodeUtf16Char _ ++ encodeUtf16 t
                rw [← this, encodeUtf16Char, toNat_of (by omega), if_neg (by omega)]
                have e1 : 0xd800 + (0x10000 + (a - 0xd800) * 0x400 + (b - 0xdc00) - 0x10000) / 0x400 = a := by omega
                have e2 : 0xdc00 + (0x10000 + (a - 0xd800) * 0x400 + (b - 0xdc00) - 0x10000) % 0x400 = b := by omega
                rw [e1, e2]; rfl
              · simp at h
          · simp at h
  exact main u.length u (Nat.le_refl _) s

/-- The number of units: one per scalar and one more per scalar beyond U+FFFF; and joining texts joins their units. -/
theorem c119_length (s t : List Char) : (encodeUtf16 s).length = s.length + s.countP (fun c => 0x10000 ≤ c.toNat) ∧
    encodeUtf16 (s ++ t) = encodeUtf16 s ++ encodeUtf16 t := by
  refine ⟨?_, by simp [encodeUtf16]⟩
  induction s with
  | nil => rfl
  | cons c s ih =>
    have e : (encodeUtf16 (c :: s)).length = (encodeUtf16Char c).length + (encodeUtf16 s).length := by
      show (encodeUtf16Char c ++ encodeUtf16 s).length = _
      rw [List.length_append]
    rw [e, ih, List.countP_cons, List.length_cons]
    unfold encodeUtf16Char
    by_cases h : c.toNat < 0x10000
    · rw [if_pos h, if_neg (by simpa using h)]; simp; omega
    · rw [if_neg h, if_pos (by simpa using h)]; simp; omega

/-- No unit of a text looks like a byte order mark, in either byte order, or like a terminator: U+FEFF, U+FFFE, U+FFFF and U+0 do not occur. -/
theorem c119_no_marks (s : List Char) (h : fromText (isBasicTextSubstr ucd15) s = .ok s) :
    ∀ u ∈ encodeUtf16 s, u < 0x10000 ∧ u ≠ 0xfeff ∧ u ≠ 0xfffe ∧ u ≠ 0xffff ∧ u ≠ 0 := by
  have hok := (substr_iff.1 (fromText_ok_iff.1 h).1).1
  intro u hu
  obtain ⟨c, hc, hu⟩ := List.mem_flatMap.1 hu
  have hr := scalar_range c
  have := hok c hc
  unfold encodeUtf16Char at hu
  split at hu
  · rename_i h1
    rw [List.mem_singleton] at hu
    subst hu
    refine ⟨h1, fun h2 => ?_, fun h2 => ?_, fun h2 => ?_, fun h2 => ?_⟩ <;>
    · have e : Char.ofNat c.toNat = c := Char.ofNat_toNat c
      rw [h2] at e
      rw [← e] at this
      exact absurd this (by decide +kernel)
  · simp only [List.mem_cons, List.not_mem_nil, or_false] at hu
    omega

example : encodeUtf16 ['a', 'é', '中', '\n', Char.ofNat 0x1f600] = [0x61, 0xe9, 0x4e2d, 0xa, 0xd83d, 0xde00] ∧
    decodeUtf16 [0x61, 0xd83d, 0xde00] = some ['a', Char.ofNat 0x1f600] ∧ decodeUtf16 [0x61, 0xd83d] = none ∧ decodeUtf16 [0xde00, 0x61] = none ∧
    fromText (isBasicTextSubstr ucd15) ['a', 'é', '中', '\n', Char.ofNat 0x1f600] = .ok ['a', 'é', '中', '\n', Char.ofNat 0x1f600] := by decide +kernel

end Verif
