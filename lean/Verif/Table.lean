/-!
# Lookup tables

Search trees for the generated data, and the lemmas that turn a check of every table entry into a
statement about every key.
-/

namespace Verif

/-- Ranges of numbers with a value. -/
inductive RTree where
  | leaf
  | node (l : RTree) (lo hi v : Nat) (r : RTree)

/-- Finite map from numbers. -/
inductive Tree (α : Type) where
  | leaf
  | node (l : Tree α) (k : Nat) (v : α) (r : Tree α)

namespace RTree

def find : RTree → Nat → Option Nat
  | .leaf, _ => none
  | .node l lo hi v r, n =>
    bif Nat.blt n lo then l.find n else bif Nat.ble n hi then some v else r.find n

def all (p : Nat → Nat → Nat → Bool) : RTree → Bool
  | .leaf => true
  | .node l lo hi v r => p lo hi v && (l.all p && r.all p)

theorem find_all {p : Nat → Nat → Nat → Bool} {n v : Nat} : ∀ {t : RTree}, t.all p = true →
    t.find n = some v → ∃ lo hi, lo ≤ n ∧ n ≤ hi ∧ p lo hi v = true
  | .leaf, _, h => by simp [find] at h
  | .node l lo hi w r, ha, h => by
    simp only [all, Bool.and_eq_true] at ha
    simp only [find] at h
    cases h1 : Nat.blt n lo with
    | true => rw [h1] at h; exact find_all ha.2.1 h
    | false =>
      rw [h1] at h
      have hlo : lo ≤ n := by
        have : Nat.ble (n + 1) lo ≠ true := by rw [show Nat.ble (n + 1) lo = Nat.blt n lo from rfl, h1]; simp
        exact Nat.le_of_not_lt fun hc => this (Nat.ble_eq_true_of_le hc)
      cases h2 : Nat.ble n hi with
      | true =>
        rw [h2] at h
        have : w = v := by simpa using h
        exact ⟨lo, hi, hlo, Nat.le_of_ble_eq_true h2, this ▸ ha.1⟩
      | false => rw [h2] at h; exact find_all ha.2.2 h

def toList : RTree → List (Nat × Nat)
  | .leaf => []
  | .node l lo hi _ r => l.toList ++ (lo, hi) :: r.toList

/-- All ranges lie in `a ..< b` and are in order. -/
def ordered : RTree → Nat → Nat → Bool
  | .leaf, _, _ => true
  | .node l lo hi _ r, a, b =>
    Nat.ble a lo && (Nat.ble lo hi && (Nat.blt hi b && (l.ordered a lo && r.ordered (hi + 1) b)))

end RTree

namespace Tree
variable {α : Type}

def find : Tree α → Nat → Option α
  | .leaf, _ => none
  | .node l k v r, n =>
    bif Nat.beq n k then some v else bif Nat.blt n k then l.find n else r.find n

def all (p : Nat → α → Bool) : Tree α → Bool
  | .leaf => true
  | .node l k v r => p k v && (l.all p && r.all p)

theorem find_all {p : Nat → α → Bool} {n : Nat} {v : α} : ∀ {t : Tree α}, t.all p = true →
    t.find n = some v → p n v = true
  | .leaf, _, h => by simp [find] at h
  | .node l k w r, ha, h => by
    simp only [all, Bool.and_eq_true] at ha
    simp only [find] at h
    cases h1 : Nat.beq n k with
    | true =>
      rw [h1] at h
      have hk : n = k := Nat.eq_of_beq_eq_true h1
      have hw : w = v := by simpa using h
      rw [hk, ← hw]; exact ha.1
    | false =>
      rw [h1] at h
      cases h2 : Nat.blt n k with
      | true => rw [h2] at h; exact find_all ha.2.1 h
      | false => rw [h2] at h; exact find_all ha.2.2 h

end Tree

/-- Membership in a list of inclusive ranges, as `matches!` does. -/
def inRanges (rs : List (Nat × Nat)) (n : Nat) : Bool :=
  rs.any fun r => Nat.ble r.1 n && Nat.ble n r.2

end Verif
