import Verif.Order
import Verif.Tables.Eq

/-!
# `==` between the text types, strings, references and `Cow`s

Which impl of `PartialEq` an `==` uses, which one that calls, and so on (`/repo/src/partial_eq.rs:8-524`, the derives at
`/repo/src/text_string.rs:85`, `:109`, `/repo/src/text_substring.rs:80`, `:91`, and the impls of the standard library).
-/

namespace Verif
open Tables

/-- The type of the field `.0` of a value, with automatic dereferencing (`TextString(String)`, `TextStr(str)` and so on: `/repo/src/text_string.rs:87`,
`:111`, `/repo/src/text_substring.rs:82`, `:93`). -/
def Ty.field : Ty → Option Ty
  | .textStr | .textSubstr => some .str
  | .textString | .textSubstring => some .string
  | .ref t | .cow t => t.field
  | .str | .string => none

/-- Impls of the standard library that compare the contents of strings (`alloc::string`, `core::str`). -/
def stdEq : List (Ty × Ty) := [
  (.str, .str), (.string, .string), (.string, .str), (.str, .string), (.string, .ref .str), (.ref .str, .string),
  (.cow .str, .str), (.str, .cow .str), (.cow .str, .ref .str), (.ref .str, .cow .str), (.cow .str, .string), (.string, .cow .str)]

/-- The types with a derived `PartialEq` (`/repo/src/text_string.rs:85`, `:109`, `/repo/src/text_substring.rs:80`, `:91`). -/
def derivedEq : List Ty := [.textStr, .textString, .textSubstr, .textSubstring]

/-- The impl for a pair of types in `/repo/src/partial_eq.rs`. -/
def implFor (l r : Ty) : Option EqImpl := eqImpls.find? (fun i => i.lhs = l ∧ i.rhs = r)

/-- What becomes of an `==`: the contents are compared, or there is no impl (the program does not compile), or calls of `eq` go on and on. -/
inductive Eqs where
  | contents | noImpl | endless
deriving DecidableEq, Repr

/-- Follow the calls of `eq`.  A call on an expression of type `l` picks the impl for `l` and the type of the argument (`self` and `other` are references,
as are the arguments of `eq`).  Two references, and two `Cow`s, are compared by comparing what they refer to (standard library).  At most as many calls
as given. -/
def resolve : Nat → Ty → Ty → Eqs
  | 0, _, _ => .endless
  | n + 1, l, r =>
    if (l, r) ∈ stdEq then .contents
    else if l = r ∧ l ∈ derivedEq then
      match l.field, r.field with
      | some a, some b => resolve n a b
      | _, _ => .noImpl
    else match implFor l r with
      | some i =>
        match (if i.self0 then l.field else some l), (match i.arg with | .field => r.field | .same => some r | .ref => some (.ref r)) with
        | some a, some b => resolve n a b
        | _, _ => .noImpl
      | none =>
        match l, r with
        | .ref a, .ref b => resolve n a b
        | .cow a, .cow b => resolve n a b
        | _, _ => .noImpl

/-- `l == r` on values with the contents `s` and `t`; `none` if there is no such comparison or it does not come to an end in `n` calls. -/
def eqOf (n : Nat) (l r : Ty) (s t : List Char) : Option Bool :=
  match resolve n l r with
  | .contents => some (cmpStr s t == .eq)
  | _ => none

/-- Whether `==` between two types compiles: the impls of the crate, the derived ones and those of the standard library. -/
def hasEq : Ty → Ty → Bool
  | .ref a, .ref b => hasEq a b
  | .cow a, .cow b => hasEq a b
  | l, r => decide ((l, r) ∈ stdEq) || (decide (l = r) && decide (l ∈ derivedEq)) || (implFor l r).isSome

/-- Nested references and `Cow`s. -/
def Ty.depth : Ty → Nat
  | .ref t | .cow t => t.depth + 1
  | _ => 0

/-- What the derived `Hash` of all four types, and that of `str` and `String`, feeds to the hasher: the bytes and 0xff (standard library, `Hasher::write_str`). -/
def hashed (s : List Char) : Bytes := encode s ++ [0xff]

theorem hasEq_plain {l r : Ty} (h1 : ∀ a b, ¬ (l = .ref a ∧ r = .ref b)) (h2 : ∀ a b, ¬ (l = .cow a ∧ r = .cow b)) :
    hasEq l r = (decide ((l, r) ∈ stdEq) || (decide (l = r) && decide (l ∈ derivedEq)) || (implFor l r).isSome) := by
  unfold hasEq
  split
  · exact absurd ⟨rfl, rfl⟩ (h1 _ _)
  · exact absurd ⟨rfl, rfl⟩ (h2 _ _)
  · rfl

theorem plain_resolves : (∀ i ∈ eqImpls, resolve 5 i.lhs i.rhs = .contents) ∧ (∀ p ∈ stdEq, resolve 5 p.1 p.2 = .contents) ∧
    (∀ t ∈ derivedEq, resolve 5 t t = .contents) := by
  decide +kernel

theorem resolve_mono {n : Nat} : ∀ {l r : Ty}, resolve n l r = .contents → resolve (n + 1) l r = .contents := by
  induction n with
  | zero => intro l r h; simp [resolve] at h
  | succ n ih =>
    intro l r h
    unfold resolve at h ⊢
    grind

theorem resolve_le {n m : Nat} (h : n ≤ m) {l r : Ty} (hr : resolve n l r = .contents) : resolve m l r = .contents := by
  induction h with
  | refl => exact hr
  | step _ ih => exact resolve_mono ih

theorem no_ref_ref : (∀ i ∈ eqImpls, ∀ a b, ¬ (i.lhs = .ref a ∧ i.rhs = .ref b)) ∧ (∀ i ∈ eqImpls, ∀ a b, ¬ (i.lhs = .cow a ∧ i.rhs = .cow b)) := by
  simp [eqImpls]

theorem implFor_mem {l r : Ty} {i : EqImpl} (h : implFor l r = some i) : i ∈ eqImpls ∧ i.lhs = l ∧ i.rhs = r := by
  unfold implFor at h
  have := List.find?_some h
  simp at this
  exact ⟨List.mem_of_find?_eq_some h, this⟩

theorem implFor_ref (a b : Ty) : implFor (.ref a) (.ref b) = none := by
  cases h : implFor (.ref a) (.ref b) with
  | none => rfl
  | some i => exact absurd (implFor_mem h).2 (no_ref_ref.1 i (implFor_mem h).1 a b)

theorem implFor_cow (a b : Ty) : implFor (.cow a) (.cow b) = none := by
  cases h : implFor (.cow a) (.cow b) with
  | none => rfl
  | some i => exact absurd (implFor_mem h).2 (no_ref_ref.2 i (implFor_mem h).1 a b)

/-- Every comparison that compiles comes to an end, with a comparison of contents. -/
theorem resolve_hasEq : ∀ (l r : Ty), hasEq l r = true → resolve (l.depth + 5) l r = .contents := by
  intro l
  have plain : ∀ (l r : Ty), (∀ a b, ¬ (l = .ref a ∧ r = .ref b)) → (∀ a b, ¬ (l = .cow a ∧ r = .cow b)) → hasEq l r = true →
      resolve (l.depth + 5) l r = .contents := by
    intro l r h1 h2 h
    rw [hasEq_plain h1 h2] at h
    apply resolve_le (n := 5) (by omega)
    simp only [Bool.or_eq_true, Bool.and_eq_true, decide_eq_true_eq] at h
    rcases h with (h | ⟨rfl, h⟩) | h
    · exact plain_resolves.2.1 _ h
    · exact plain_resolves.2.2 _ h
    · obtain ⟨i, hi⟩ := Option.isSome_iff_exists.1 h
      obtain ⟨h3, h4, h5⟩ := implFor_mem hi
      rw [← h4, ← h5]; exact plain_resolves.1 i h3
  induction l with
  | ref a ih =>
    intro r h
    by_cases hr : ∃ b, r = .ref b
    · obtain ⟨b, rfl⟩ := hr
      have := ih b (by simpa [hasEq] using h)
      show resolve (a.depth + 5 + 1) _ _ = _
      unfold resolve
      rw [if_neg (by simp [stdEq]), if_neg (by simp [derivedEq]), implFor_ref]
      exact this
    · exact plain _ _ (fun x y hh => hr ⟨y, hh.2⟩) (by simp) h
  | cow a ih =>
    intro r h
    by_cases hr : ∃ b, r = .cow b
    · obtain ⟨b, rfl⟩ := hr
      have := ih b (by simpa [hasEq] using h)
      show resolve (a.depth + 5 + 1) _ _ = _
      unfold resolve
      rw [if_neg (by simp [stdEq]), if_neg (by simp [derivedEq]), implFor_cow]
      exact this
    · exact plain _ _ (by simp) (fun x y hh => hr ⟨y, hh.2⟩) h
  | _ => intro r h; exact plain _ _ (by simp) (by simp) h

/-- What does not compile is not resolved, whatever the number of calls. -/
theorem resolve_not : ∀ (n : Nat) (l r : Ty), resolve n l r = .contents → hasEq l r = true := by
  intro n
  induction n with
  | zero => intro l r h; simp [resolve] at h
  | succ n ih =>
    intro l r h
    by_cases h1 : ∃ a b, l = .ref a ∧ r = .ref b
    · obtain ⟨a, b, rfl, rfl⟩ := h1
      unfold resolve at h
      rw [if_neg (by simp [stdEq]), if_neg (by simp [derivedEq]), implFor_ref] at h
      exact ih a b h
    · by_cases h2 : ∃ a b, l = .cow a ∧ r = .cow b
      · obtain ⟨a, b, rfl, rfl⟩ := h2
        unfold resolve at h
        rw [if_neg (by simp [stdEq]), if_neg (by simp [derivedEq]), implFor_cow] at h
        exact ih a b h
      · rw [hasEq_plain (fun a b hh => h1 ⟨a, b, hh⟩) (fun a b hh => h2 ⟨a, b, hh⟩)]
        unfold resolve at h
        split at h
        · simp [*]
        · split at h
          · rename_i h3; simp [h3.1 ▸ h3.2, h3.1]
          · split at h
            · simp [*]
            · split at h
              · exact absurd ⟨_, _, rfl, rfl⟩ h1
              · exact absurd ⟨_, _, rfl, rfl⟩ h2
              · exact absurd h (by simp)

end Verif
