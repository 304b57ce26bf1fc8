import Verif.Equal
import Verif.Props.Strings

/-!
# Comparing values of different types (C116)
-/

namespace Verif
open Tables

/-- C116: `==` between values of any two types for which it compiles comes to an end and says whether the contents are the same scalars.  (The number of
calls it takes depends on the types only.) -/
theorem c116_equality (l r : Ty) (h : hasEq l r = true) : ∃ n, ∀ m, n ≤ m → ∀ s t : List Char, eqOf m l r s t = some (decide (s = t)) := by
  refine ⟨l.depth + 5, fun m hm s t => ?_⟩
  unfold eqOf
  rw [resolve_le hm (resolve_hasEq l r h)]
  have := (c50_order s t).2.2
  show some _ = _
  congr 1
  by_cases hst : s = t
  · rw [decide_eq_true hst, this.2 hst]; rfl
  · rw [decide_eq_false hst]
    cases hc : cmpStr s t with
    | eq => exact absurd (this.1 hc) hst
    | _ => rfl

example : hasEq (.ref .textStr) .textString = true ∧ hasEq (.ref (.ref .textSubstr)) (.ref (.ref .string)) = true ∧ hasEq (.cow .textStr) (.cow .textSubstring) = true := by
  decide +kernel

/-- The comparisons that compile in one order only: `Cow<TextSubstr> == TextStr` and `Cow<TextStr> == TextSubstr`, and the same under
references or `Cow`s on both sides. -/
inductive Spec.OneWay : Ty → Ty → Prop where
  | substr : OneWay (.cow .textSubstr) .textStr
  | text : OneWay (.cow .textStr) .textSubstr
  | refs {a b : Ty} : OneWay a b → OneWay (.ref a) (.ref b)
  | cows {a b : Ty} : OneWay a b → OneWay (.cow a) (.cow b)
open Spec

/-- C116 (what holds): with those exceptions what compiles in one order compiles in the other; so the order does not matter for the answer. -/
theorem c116_symmetric_partial : ∀ l r : Ty, hasEq l r = true → hasEq r l = true ∨ OneWay l r := by
  intro l
  have half : (∀ i ∈ eqImpls, hasEq i.rhs i.lhs = true ∨ (i.lhs, i.rhs) = (.cow .textSubstr, .textStr) ∨ (i.lhs, i.rhs) = (.cow .textStr, .textSubstr)) ∧
      (∀ p ∈ stdEq, hasEq p.2 p.1 = true) ∧ (∀ t ∈ derivedEq, hasEq t t = true) := by decide +kernel
  have one : ∀ l r : Ty, (∀ a b, ¬ (l = .ref a ∧ r = .ref b)) → (∀ a b, ¬ (l = .cow a ∧ r = .cow b)) → hasEq l r = true → hasEq r l = true ∨ OneWay l r := by
    intro l r h1 h2 h
    rw [hasEq_plain h1 h2] at h
    simp only [Bool.or_eq_true, Bool.and_eq_true, decide_eq_true_eq] at h
    rcases h with (h | ⟨rfl, h⟩) | h
    · exact Or.inl (half.2.1 _ h)
    · exact Or.inl (half.2.2 _ h)
    · obtain ⟨i, hi⟩ := Option.isSome_iff_exists.1 h
      obtain ⟨h3, h4, h5⟩ := implFor_mem hi
      rw [← h4, ← h5]
      rcases half.1 i h3 with h6 | h6 | h6
      · exact Or.inl h6
      · injection h6 with h6 h7; rw [h6, h7]; exact Or.inr .substr
      · injection h6 with h6 h7; rw [h6, h7]; exact Or.inr .text
  induction l with
  | ref a ih =>
    intro r h
    by_cases hr : ∃ b, r = .ref b
    · obtain ⟨b, rfl⟩ := hr
      rcases ih b (by simpa [hasEq] using h) with h1 | h1
      · exact Or.inl (by simpa [hasEq] using h1)
      · exact Or.inr (.refs h1)
    · exact one _ _ (fun x y hh => hr ⟨y, hh.2⟩) (by simp) h
  | cow a ih =>
    intro r h
    by_cases hr : ∃ b, r = .cow b
    · obtain ⟨b, rfl⟩ := hr
      rcases ih b (by simpa [hasEq] using h) with h1 | h1
      · exact Or.inl (by simpa [hasEq] using h1)
      · exact Or.inr (.cows h1)
    · exact one _ _ (by simp) (fun x y hh => hr ⟨y, hh.2⟩) h
  | _ => intro r h; exact one _ _ (by simp) (by simp) h

/-- C116 fails: these compile in one order but not in the other. -/
theorem c116_refuted_one_way {l r : Ty} (h : OneWay l r) : hasEq l r = true ∧ hasEq r l = false := by
  induction h with
  | substr => decide +kernel
  | text => decide +kernel
  | refs _ ih => simpa [hasEq] using ih
  | cows _ ih => simpa [hasEq] using ih

/-- C116: of the four text types and the two string types any two can be compared, except `TextStr` with `TextSubstr` and `TextString` with
`TextSubstring`. -/
theorem c116_pairs (a b : Ty) (ha : a.depth = 0) (hb : b.depth = 0) :
    hasEq a b = false ↔ (a, b) ∈ [(Ty.textStr, Ty.textSubstr), (.textSubstr, .textStr), (.textString, .textSubstring), (.textSubstring, .textString)] := by
  cases a <;> cases b <;> first | (exact absurd ha (Nat.succ_ne_zero _)) | (exact absurd hb (Nat.succ_ne_zero _)) | decide +kernel

/-- C116: no two impls are for the same pair of types, so which one an `==` uses is determined. -/
theorem c116_one_impl (i j : EqImpl) (hi : i ∈ eqImpls) (hj : j ∈ eqImpls) (hl : i.lhs = j.lhs) (hr : i.rhs = j.rhs) :
    i = j ∧ (i.lhs, i.rhs) ∉ stdEq ∧ ¬ (i.lhs = i.rhs ∧ i.lhs ∈ derivedEq) := by
  have h : ∀ i ∈ eqImpls, implFor i.lhs i.rhs = some i ∧ (i.lhs, i.rhs) ∉ stdEq ∧ ¬ (i.lhs = i.rhs ∧ i.lhs ∈ derivedEq) := by decide +kernel
  refine ⟨?_, (h i hi).2⟩
  have h1 := (h i hi).1
  have h2 := (h j hj).1
  rw [hl, hr, h2] at h1
  injection h1 with h1
  exact h1.symm

theorem encode_no_ff (s : List Char) : (0xff : UInt8) ∉ encode s := by
  induction s with
  | nil => simp [encode]
  | cons c s ih =>
    rw [encode_cons, List.mem_append]
    rintro (h | h)
    · have hc := char_range c
      unfold encodeChar at h
      simp only at h
      (repeat' split at h) <;> simp only [List.mem_cons, List.not_mem_nil, or_false, ← UInt8.toNat_inj] at h <;>
        (repeat rw [u8 (by omega)] at h) <;> simp only [show (255 : UInt8).toNat = 255 from rfl] at h <;> omega
    · exact ih h

/-- C116: values of any of the types feed the same to a hasher exactly if they are equal, and what follows can be told apart from it: texts can be keys
whatever type they are looked up by. -/
theorem c116_hash (s t : List Char) (x y : Bytes) : hashed s ++ x = hashed t ++ y ↔ s = t ∧ x = y := by
  constructor
  · intro h
    have cut : ∀ (a b : Bytes), (0xff : UInt8) ∉ a → (0xff : UInt8) ∉ b → a ++ 0xff :: x = b ++ 0xff :: y → a = b ∧ x = y := by
      intro a
      induction a with
      | nil =>
        intro b _ hb h
        cases b with
        | nil => simpa using h
        | cons c b => simp at h hb; exact absurd h.1 hb.1
      | cons c a ih =>
        intro b ha hb h
        cases b with
        | nil => simp at h ha; exact absurd h.1.symm ha.1
        | cons d b =>
          simp at h ha hb
          obtain ⟨h1, h2⟩ := ih b ha.2 hb.2 h.2
          exact ⟨by rw [h.1, h1], h2⟩
    obtain ⟨h1, h2⟩ := cut _ _ (encode_no_ff s) (encode_no_ff t) (by simpa [hashed] using h)
    exact ⟨encode_injective h1, h2⟩
  · rintro ⟨rfl, rfl⟩; rfl

end Verif
