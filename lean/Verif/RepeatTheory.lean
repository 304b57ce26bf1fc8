import Verif.JoinTheory
import Verif.Strings

/-!
# Repeating a substring

When `s` repeated is still in stream-safe NFC: the state of the local conditions for NFC after `s` is the same as after two `s`, and so is the count of
nonstarters if `s` contains a scalar at which counting begins again.
-/

namespace Verif
open Ucd
variable {U : Ucd}

/-- The last starter, and the class of the last nonstarter after it, as in `Lc`. -/
def lcNext (U : Ucd) (p : Option Char × Option Nat) (c : Char) : Option Char × Option Nat :=
  if U.ccc c = 0 then (some c, none) else (p.1, some (U.ccc c))

theorem lc_state {a b : List Char} : ∀ {p : Option Char × Option Nat}, Lc U p.1 p.2 (a ++ b) ↔
    Lc U p.1 p.2 a ∧ Lc U (a.foldl (lcNext U) p).1 (a.foldl (lcNext U) p).2 b := by
  induction a with
  | nil => intro p; simp [Lc]
  | cons c a ih =>
    intro p
    have := @ih (lcNext U p c)
    simp only [List.cons_append, Lc, List.foldl_cons]
    unfold lcNext at this ⊢
    by_cases hc : U.ccc c = 0
    · simp only [hc, if_true] at this ⊢
      rw [this]; grind
    · simp only [hc, if_false] at this ⊢
      rw [this]; grind

theorem lcNext_twice (s : List Char) : ∀ p, s.foldl (lcNext U) (s.foldl (lcNext U) p) = s.foldl (lcNext U) p := by
  -- the state after `s` from two states with the same starter
  have same : ∀ (s : List Char), s ≠ [] → ∀ p q : Option Char × Option Nat, p.1 = q.1 → s.foldl (lcNext U) p = s.foldl (lcNext U) q := by
    intro s
    induction s with
    | nil => intro h; exact absurd rfl h
    | cons c s ih =>
      intro _ p q h
      have : lcNext U p c = lcNext U q c := by unfold lcNext; rw [h]
      simp only [List.foldl_cons, this]
  have starter : ∀ (s : List Char) (c : Char), c ∈ s → U.ccc c = 0 → ∀ p q, s.foldl (lcNext U) p = s.foldl (lcNext U) q := by
    intro s c hc h0 p q
    obtain ⟨a, b, rfl⟩ := List.append_of_mem hc
    simp [lcNext, h0]
  have marks : ∀ (s : List Char), (∀ c ∈ s, U.ccc c ≠ 0) → ∀ p, (s.foldl (lcNext U) p).1 = p.1 := by
    intro s
    induction s with
    | nil => intro _ p; rfl
    | cons c s ih =>
      intro h p
      rw [List.foldl_cons, ih (fun d hd => h d (by simp [hd]))]
      unfold lcNext
      rw [if_neg (h c (by simp))]
  intro p
  by_cases hs : s = []
  · subst hs; rfl
  · by_cases h : ∃ c ∈ s, U.ccc c = 0
    · obtain ⟨c, hc, h0⟩ := h
      exact starter s c hc h0 _ _
    · exact same s hs _ _ (marks s (fun c hc h0 => h ⟨c, hc, h0⟩) p)

theorem lc_repeat (s : List Char) (n : Nat) : Lc U none none (s ++ s) → Lc U none none (repeatText s n) := by
  intro h
  have h2 := (lc_state (p := (none, none))).1 h
  have key : ∀ n, Lc U (s.foldl (lcNext U) (none, none)).1 (s.foldl (lcNext U) (none, none)).2 (repeatText s n) := by
    intro n
    induction n with
    | zero => simp [repeatText, Lc]
    | succ n ih =>
      rw [repeatText_succ]
      refine lc_state.2 ⟨h2.2, ?_⟩
      rw [lcNext_twice]; exact ih
  cases n with
  | zero => simp [repeatText, Lc]
  | succ n =>
    rw [repeatText_succ]
    exact (lc_state (p := (none, none))).2 ⟨h2.1, key n⟩

/-! ### Counting nonstarters -/

/-- The scalar has, in its decomposition, only nonstarters (of which there may be several). -/
theorem chk_all {s : List Char} (h : ∀ c ∈ s, U.lead c = U.dlen c) : ∀ {n : Nat}, n ≤ maxNonstarters →
    U.chk n s = if n + (s.map U.dlen).sum ≤ maxNonstarters then some (n + (s.map U.dlen).sum) else none := by
  induction s with
  | nil => intro n hn; simp [chk, hn]
  | cons c s ih =>
    intro n hn
    have hc := h c (by simp)
    have ih := @ih (fun d hd => h d (by simp [hd])) (n + U.dlen c)
    simp only [chk, hc, nxt, if_true, List.map_cons, List.sum_cons]
    split
    · rw [if_neg (by omega)]
    · rw [ih (by omega), Nat.add_assoc]

/-- With a scalar that has a starter in its decomposition the count at the end does not depend on that at the beginning. -/
theorem chk_reset {s : List Char} {c : Char} (hc : c ∈ s) (h : U.lead c ≠ U.dlen c) {n m k l : Nat} (hk : U.chk n s = some k) (hl : U.chk m s = some l) : k = l := by
  obtain ⟨a, b, rfl⟩ := List.append_of_mem hc
  rw [chk_append] at hk hl
  cases h1 : U.chk n a with
  | none => simp [h1] at hk
  | some x =>
    cases h2 : U.chk m a with
    | none => simp [h2] at hl
    | some y =>
      simp only [h1, h2, Option.bind_some, chk, nxt, if_neg h] at hk hl
      split at hk
      · simp at hk
      · split at hl
        · simp at hl
        · rw [hk] at hl; simpa using hl

theorem chk_repeat {s : List Char} {c : Char} (hc : c ∈ s) (h : U.lead c ≠ U.dlen c) (h2 : (U.chk 0 (s ++ s)).isSome) (n : Nat) :
    (U.chk 0 (repeatText s n)).isSome := by
  rw [chk_append] at h2
  cases h1 : U.chk 0 s with
  | none => simp [h1] at h2
  | some m =>
    simp only [h1, Option.bind_some] at h2
    obtain ⟨k, hk⟩ := Option.isSome_iff_exists.1 h2
    have : k = m := chk_reset hc h hk h1
    subst this
    have key : ∀ n, (U.chk k (repeatText s n)).isSome := by
      intro n
      induction n with
      | zero => simp [repeatText, chk]
      | succ n ih => rw [repeatText_succ, chk_append, hk]; exact ih
    cases n with
    | zero => simp [repeatText, chk]
    | succ n => rw [repeatText_succ, chk_append, h1]; exact key n

/-- Exactly when the repetitions of a substring are a substring. -/
theorem substr_repeat_iff (hU : U.Lawful) (s : List Char) (n : Nat) (hn : 2 ≤ n) :
    isBasicTextSubstr U (repeatText s n) = true ↔ isBasicTextSubstr U (s ++ s) = true ∧
      ((∃ c ∈ s, U.lead c ≠ U.dlen c) ∨ n * (s.map U.dlen).sum ≤ maxNonstarters) := by
  have hsum : ∀ n, ((repeatText s n).map U.dlen).sum = n * (s.map U.dlen).sum := by
    intro n
    induction n with
    | zero => simp [repeatText]
    | succ n ih => rw [repeatText_succ, List.map_append, List.sum_append, ih, Nat.succ_mul, Nat.add_comm]
  have hmem : ∀ n, ∀ c ∈ repeatText s n, c ∈ s := by
    intro n c hc
    unfold repeatText at hc
    rw [List.mem_flatten] at hc
    obtain ⟨l, hl, hc⟩ := hc
    rw [List.eq_of_mem_replicate hl] at hc; exact hc
  obtain ⟨n, rfl⟩ : ∃ m, n = m + 2 := ⟨n - 2, by omega⟩
  have hsplit : repeatText s (n + 2) = (s ++ s) ++ repeatText s n := by
    rw [repeatText_succ, repeatText_succ, List.append_assoc]
  rw [substr_iff, substr_iff, nss_iff hU, nss_iff hU]
  constructor
  · rintro ⟨h1, h2, h3⟩
    rw [hsplit] at h1
    refine ⟨⟨fun c hc => h1 c (List.mem_append_left _ hc), ?_, ?_⟩, ?_⟩
    · rw [hsplit] at h2; exact chk_prefix h2
    · rw [hsplit] at h3; exact lc_prefix h3
    · by_cases h : ∃ c ∈ s, U.lead c ≠ U.dlen c
      · exact Or.inl h
      · right
        have hall : ∀ c ∈ s, U.lead c = U.dlen c := fun c hc => Decidable.byContradiction fun hn => h ⟨c, hc, hn⟩
        have := @chk_all U (repeatText s (n + 2)) (fun c hc => hall c (hmem _ c hc)) 0 (by decide)
        rw [this, hsum] at h2
        split at h2
        · omega
        · simp at h2
  · rintro ⟨⟨h1, h2, h3⟩, h4⟩
    refine ⟨fun c hc => h1 c (List.mem_append_left _ (hmem _ c hc)), ?_, lc_repeat s _ h3⟩
    by_cases h : ∃ c ∈ s, U.lead c ≠ U.dlen c
    · obtain ⟨c, hc, h⟩ := h
      exact chk_repeat hc h h2 _
    · have h4 := h4.resolve_left h
      have hall : ∀ c ∈ s, U.lead c = U.dlen c := fun c hc => Decidable.byContradiction fun hn => h ⟨c, hc, hn⟩
      rw [@chk_all U (repeatText s (n + 2)) (fun c hc => hall c (hmem _ c hc)) 0 (by decide), hsum, if_pos (by omega)]
      rfl

end Verif
