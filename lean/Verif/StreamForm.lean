import Verif.Ucd15
import Verif.Tables.Compat

/-!
# The Stream-Safe Text Format

`Spec.StreamSafe` is the definition of Unicode Standard Annex #15 (D3), in terms of the compatibility decomposition.
The dependency's counting (`Ucd.chk`, and with it `Ucd.streamSafe` and `Ucd.isNfcStreamSafe`) is proved to decide it for the
Unicode data.
-/

namespace Verif
open Tables

/-- The full compatibility decomposition of a code point. -/
def compatN (n : Nat) : List Nat := bif isSyl n then hangulDecompN n else (compatTree.find n).getD [n]

/-- The full compatibility decomposition of a scalar (Unicode, D66), before canonical ordering with its neighbours. -/
def compat (c : Char) : List Char := (compatN c.toNat).map Char.ofNat

namespace Spec

/-- NFKD: decompose every scalar, then put the result into canonical order. -/
def nfkd (s : List Char) : List Char := ucd15.reorder (s.flatMap compat)

/-- UAX #15, D3: no run of more than 30 nonstarters when normalized to NFKD. -/
def StreamSafe (s : List Char) : Prop :=
  ∀ a run b, nfkd s = a ++ run ++ b → (∀ c ∈ run, ucd15.ccc c ≠ 0) → run.length ≤ 30

end Spec

/-! ## The effect of a decomposition on the counter -/

/-- Effect of one scalar without decomposition. -/
def effOne (d : Nat) : Eff := bif Nat.beq (cccN d) 0 then .mixed 0 0 else .allN 1

/-- Effect of a list of such scalars. -/
def effC : List Nat → Option Eff
  | [] => none
  | [d] => some (effOne d)
  | d :: ds => match effC ds with
    | some e => (effOne d).seq e
    | none => none

theorem compat_entries : compatTree.all (fun k ds => !isSyl k && ds.all validN && Eff.beq (effC ds) (effN k)) = true := by decide +kernel

theorem class_compat : classTree.all (fun k _ => match compatTree.find k with | some _ => true | none => false) = true := by decide +kernel

/-- Counting runs of nonstarters directly. -/
def cnt : Nat → List Char → Option Nat
  | n, [] => some n
  | n, c :: cs => if ucd15.ccc c = 0 then cnt 0 cs else if n + 1 > 30 then none else cnt (n + 1) cs

theorem cnt_append {a b : List Char} : ∀ {n : Nat}, cnt n (a ++ b) = (cnt n a).bind (fun m => cnt m b) := by
  induction a with
  | nil => intro n; rfl
  | cons c a ih =>
    intro n
    simp only [List.cons_append, cnt]
    split
    · exact ih
    · split
      · rfl
      · exact ih

theorem cnt_one (n : Nat) (hn : n ≤ 30) (c : Char) : cnt n [c] = (effOne c.toNat).apply n := by
  simp only [cnt, effOne]
  show (if cccN c.toNat = 0 then _ else _) = _
  cases h : Nat.beq (cccN c.toNat) 0 with
  | true => rw [if_pos (beq_iff.1 h), cond_true]; simp only [Eff.apply]; rw [if_neg (by omega)]
  | false =>
    rw [if_neg (fun hc => by rw [beq_iff.2 hc] at h; simp at h), cond_false]
    simp only [Eff.apply]

theorem apply_le {e : Eff} {n m : Nat} (h : e.apply n = some m) (he : ∀ l t, e = .mixed l t → t ≤ 30) : m ≤ 30 := by
  cases e with
  | allN w => simp only [Eff.apply] at h; grind
  | mixed l t => have := he l t rfl; simp only [Eff.apply] at h; grind

theorem effOne_mixed {d l t : Nat} (h : effOne d = .mixed l t) : t ≤ 30 := by
  unfold effOne at h
  cases hb : Nat.beq (cccN d) 0 with
  | true => rw [hb, cond_true] at h; injection h with h1 h2; omega
  | false => rw [hb, cond_false] at h; simp at h

theorem cnt_effC {ds : List Char} : ∀ {e : Eff}, effC (ds.map Char.toNat) = some e → ∀ n, n ≤ 30 → cnt n ds = e.apply n := by
  induction ds with
  | nil => intro e h; simp [effC] at h
  | cons d r ih =>
    intro e h n hn
    cases r with
    | nil =>
      simp only [List.map_cons, List.map_nil, effC] at h
      rw [cnt_one n hn, Option.some.inj h]
    | cons d' r =>
      simp only [List.map_cons, effC] at h
      cases hr : effC (d'.toNat :: r.map Char.toNat) with
      | none => rw [hr] at h; simp at h
      | some e' =>
        rw [hr] at h
        have h : (effOne d.toNat).seq e' = some e := h
        rw [show d :: d' :: r = [d] ++ d' :: r from rfl, cnt_append, cnt_one n hn, ← seq_apply h n]
        cases ha : (effOne d.toNat).apply n with
        | none => rfl
        | some m => exact ih hr m (apply_le ha (fun l t h => effOne_mixed h))

theorem compatN_valid {n d : Nat} (hn : validN n = true) (hd : d ∈ compatN n) : validN d = true := by
  unfold compatN at hd
  cases hs : isSyl n with
  | true => rw [hs, cond_true] at hd; exact validN_jamo (hangul_mem hs hd)
  | false =>
    rw [hs, cond_false] at hd
    cases hf : compatTree.find n with
    | none => rw [hf] at hd; simp at hd; rw [hd]; exact hn
    | some v =>
      rw [hf] at hd
      have := Tree.find_all compat_entries hf
      simp only [Bool.and_eq_true, List.all_eq_true] at this
      exact this.1.2 d hd

theorem compat_toNat (c : Char) : (compat c).map Char.toNat = compatN c.toNat := by
  unfold compat
  rw [List.map_map]
  conv => rhs; rw [← List.map_id (compatN c.toNat)]
  apply List.map_congr_left
  intro d hd
  exact toNat_ofNat (compatN_valid (validN_toNat c) hd)

theorem effC_compat (n : Nat) : effC (compatN n) = some (effN n) := by
  unfold compatN
  cases hs : isSyl n with
  | true =>
    rw [cond_true]
    have hn : effN n = .mixed 0 0 := by
      unfold effN leadN dlenN trailN
      rw [class_low (Or.inr (Or.inl hs))]; rfl
    have hj : ∀ d, isJamo d = true → effOne d = .mixed 0 0 := by
      intro d hd
      unfold effOne
      rw [ccc_low (Or.inr (Or.inr hd))]; rfl
    obtain ⟨l, v, h1, h2, h3, h4, h5⟩ := hangul_parts hs
    have hl := hj l (jamo_of (by omega))
    have hv := hj v (jamo_of (by omega))
    rcases h5 with ⟨h5, -⟩ | ⟨t, h6, h7, h5, -⟩
    · rw [h5, hn]; simp only [effC, hl, hv]; rfl
    · have ht := hj t (jamo_of (by omega))
      rw [h5, hn]; simp only [effC, hl, hv, ht]; rfl
  | false =>
    rw [cond_false]
    cases hf : compatTree.find n with
    | some v =>
      have := Tree.find_all compat_entries hf
      simp only [Bool.and_eq_true] at this
      exact effbeq_iff.1 this.2
    | none =>
      have hc : classTree.find n = none := by
        cases hc : classTree.find n with
        | none => rfl
        | some v =>
          have := Tree.find_all class_compat hc
          rw [hf] at this; simp at this
      show some (effOne n) = some (effN n)
      congr 1
      unfold effOne effN leadN dlenN trailN classN
      rw [hc]
      cases Nat.beq (cccN n) 0 <;> rfl

theorem cnt_compat (n : Nat) (hn : n ≤ 30) (c : Char) : cnt n (compat c) = ucd15.chk n [c] := by
  rw [chk_effN]
  exact cnt_effC (by rw [compat_toNat]; exact effC_compat _) n hn

theorem chk_le {n m : Nat} {c : Char} (h : ucd15.chk n [c] = some m) : m ≤ 30 := by
  have := lawful15.trail_le c
  simp only [Ucd.chk] at h
  split at h
  · simp at h
  · rename_i hc
    injection h with h
    rw [← h]
    exact Ucd.nxt_le _ _ (by omega) this

theorem cnt_flatMap {s : List Char} : ∀ {n : Nat}, n ≤ 30 → cnt n (s.flatMap compat) = ucd15.chk n s := by
  induction s with
  | nil => intro n _; rfl
  | cons c s ih =>
    intro n hn
    rw [List.flatMap_cons, cnt_append, cnt_compat n hn, Ucd.chk_cons (c := c) (s := s)]
    cases hc : ucd15.chk n [c] with
    | none => rfl
    | some m => exact ih (chk_le hc)

theorem cnt_ins (x : Char) {l : List Char} : ∀ n, cnt n (ucd15.ins x l) = cnt n (x :: l) := by
  induction l with
  | nil => intro n; rfl
  | cons y l ih =>
    intro n
    simp only [Ucd.ins]
    split
    · rename_i h
      have hx : ucd15.ccc x ≠ 0 := by omega
      simp only [cnt, ih, if_neg hx, if_neg h.1]
    · rfl

theorem cnt_reorder {l : List Char} : ∀ n, cnt n (ucd15.reorder l) = cnt n l := by
  induction l with
  | nil => intro n; rfl
  | cons x l ih =>
    intro n
    simp only [Ucd.reorder, cnt_ins, cnt, ih]

/-- The counter finds exactly the runs that are too long. -/
theorem cnt_iff {l : List Char} : ∀ {n : Nat}, n ≤ 30 → ((cnt n l).isSome ↔
    (∀ run b, l = run ++ b → (∀ c ∈ run, ucd15.ccc c ≠ 0) → n + run.length ≤ 30) ∧
    ∀ a run b, l = a ++ run ++ b → (∀ c ∈ run, ucd15.ccc c ≠ 0) → run.length ≤ 30) := by
  induction l with
  | nil =>
    intro n hn
    simp only [cnt, Option.isSome_some, true_iff]
    constructor
    · intro run b h _
      have : run = [] := by cases run <;> simp_all
      simp [this]; exact hn
    · intro a run b h _
      have : run = [] := by cases run <;> simp_all
      simp [this]
  | cons c l ih =>
    intro n hn
    simp only [cnt]
    split
    · rename_i h0
      rw [ih (by omega)]
      constructor
      · rintro ⟨h1, h2⟩
        constructor
        · intro run b h hr
          cases run with
          | nil => simpa using hn
          | cons y run =>
            simp only [List.cons_append, List.cons.injEq] at h
            exact absurd (h.1 ▸ h0) (hr y (by simp))
        · intro a run b h hr
          cases a with
          | nil =>
            cases run with
            | nil => simp
            | cons y run =>
              simp only [List.nil_append, List.cons_append, List.cons.injEq] at h
              exact absurd (h.1 ▸ h0) (hr y (by simp))
          | cons y a =>
            simp only [List.cons_append, List.cons.injEq] at h
            exact h2 a run b h.2 hr
      · rintro ⟨-, h2⟩
        exact ⟨fun run b h hr => by have := h2 [c] run b (by rw [h]; rfl) hr; omega,
          fun a run b h hr => h2 (c :: a) run b (by rw [h]; rfl) hr⟩
    · rename_i h0
      split
      · rename_i hc
        simp only [Option.isSome_none, Bool.false_eq_true, false_iff, not_and]
        intro h1
        have := h1 [c] l rfl (by simpa using h0)
        simp at this; omega
      · rename_i hc
        rw [ih (by omega)]
        constructor
        · rintro ⟨h1, h2⟩
          have hp : ∀ run b, c :: l = run ++ b → (∀ c ∈ run, ucd15.ccc c ≠ 0) → n + run.length ≤ 30 := by
            intro run b h hr
            cases run with
            | nil => simpa using hn
            | cons y run =>
              simp only [List.cons_append, List.cons.injEq] at h
              have := h1 run b h.2 (fun z hz => hr z (by simp [hz]))
              simp only [List.length_cons]; omega
          refine ⟨hp, ?_⟩
          intro a run b h hr
          cases a with
          | nil => have := hp run b h hr; omega
          | cons y a =>
            simp only [List.cons_append, List.cons.injEq] at h
            exact h2 a run b h.2 hr
        · rintro ⟨h1, h2⟩
          constructor
          · intro run b h hr
            have := h1 (c :: run) b (by rw [h]; rfl) (by
              intro z hz
              rcases List.mem_cons.1 hz with rfl | hz
              · exact h0
              · exact hr z hz)
            simp only [List.length_cons] at this; omega
          · exact fun a run b h hr => h2 (c :: a) run b (by rw [h]; rfl) hr

/-- The dependency's counting decides the Stream-Safe Text Format. -/
theorem streamSafe_iff {s : List Char} : Spec.StreamSafe s ↔ (ucd15.chk 0 s).isSome := by
  rw [← cnt_flatMap (by omega), ← cnt_reorder, cnt_iff (by omega)]
  constructor
  · intro h
    exact ⟨fun run b e hr => by have := h [] run b (by simpa [Spec.nfkd] using e) hr; omega, h⟩
  · exact fun h => h.2

end Verif
