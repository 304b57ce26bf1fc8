import Verif.NormTheory
import Verif.StreamSafe

/-!
# What the normalizer computes, in the terms of the Unicode Standard

`Spec.CanonicalDecomposition` and `Spec.composeAll` are definitions D68, D108, D109 and D117 of the Unicode Standard, chapter
3.  The model of the dependency's iterators (`Ucd.nfd`, `Ucd.nfc`) is proved to compute them.
-/

namespace Verif

namespace Spec

/-- D108: a pair of adjacent scalars that canonical ordering exchanges. -/
def Reorderable (U : Ucd) (x y : Char) : Prop := U.ccc x > U.ccc y ∧ U.ccc y > 0

/-- D109: any number of exchanges of reorderable pairs. -/
inductive Exchange (U : Ucd) : List Char → List Char → Prop
  | refl (l : List Char) : Exchange U l l
  | step {x y : Char} {l : List Char} (a b : List Char) : Reorderable U x y → Exchange U (a ++ y :: x :: b) l →
      Exchange U (a ++ x :: y :: b) l

/-- No reorderable pair is left. -/
def Ordered (U : Ucd) (l : List Char) : Prop := ∀ a x y b, l = a ++ x :: y :: b → ¬ Reorderable U x y

/-- D68: decompose every scalar, then exchange reorderable pairs until none is left. -/
def CanonicalDecomposition (U : Ucd) (s d : List Char) : Prop := Exchange U (s.flatMap U.decomp) d ∧ Ordered U d

/-- D70: canonical equivalence. -/
def CanonicallyEquivalent (U : Ucd) (s t : List Char) : Prop := ∃ d, CanonicalDecomposition U s d ∧ CanonicalDecomposition U t d

/-- D117, one scalar: find the last starter; if the scalar is not blocked from it (D115: nothing between them that is a starter or
has at least its class) and they have a primary composite, the composite takes the starter's place; otherwise the scalar
stays. -/
def composeOne (U : Ucd) (done : List Char) (c : Char) : List Char :=
  match done.reverse.dropWhile (fun x => U.ccc x ≠ 0) with
  | [] => done ++ [c]
  | l :: before =>
    let between := (done.reverse.takeWhile (fun x => U.ccc x ≠ 0)).reverse
    if between.any (fun b => U.ccc b = 0 ∨ U.ccc b ≥ U.ccc c) then done ++ [c]
    else match U.compose l c with
      | some p => before.reverse ++ p :: between
      | none => done ++ [c]

/-- D117: the Canonical Composition Algorithm. -/
def composeAll (U : Ucd) (d : List Char) : List Char := d.foldl (composeOne U) []

end Spec

namespace Ucd
open Spec
variable {U : Ucd}

/-! ## Canonical ordering -/

theorem ord_iff {l : List Char} : Ord U l ↔ Ordered U l := by
  induction l with
  | nil => simp [Ord, Ordered]
  | cons x r ih =>
    cases r with
    | nil =>
      simp only [Ord, Ordered, true_iff]
      intro a x' y b h
      have := congrArg List.length h
      simp at this; omega
    | cons y r =>
      simp only [Ord]
      rw [ih]
      constructor
      · rintro ⟨h1, h2⟩ a x' y' b h
        cases a with
        | nil =>
          simp only [List.nil_append, List.cons.injEq] at h
          obtain ⟨rfl, rfl, -⟩ := h
          unfold Reorderable; omega
        | cons z a =>
          simp only [List.cons_append, List.cons.injEq] at h
          exact h2 a x' y' b h.2
      · intro h
        refine ⟨?_, fun a x' y' b e => h (x :: a) x' y' b (by rw [e]; rfl)⟩
        have := h [] x y r rfl
        unfold Reorderable at this; omega

theorem exchange_cons {x : Char} {l l' : List Char} (h : Exchange U l l') : Exchange U (x :: l) (x :: l') := by
  induction h with
  | refl l => exact .refl _
  | step a b hr _ ih => exact .step (x :: a) b hr ih

theorem exchange_trans {l l' l'' : List Char} (h : Exchange U l l') (h' : Exchange U l' l'') : Exchange U l l'' := by
  induction h with
  | refl l => exact h'
  | step a b hr _ ih => exact .step a b hr (ih h')

theorem exchange_ins (x : Char) (l : List Char) : Exchange U (x :: l) (U.ins x l) := by
  induction l with
  | nil => exact .refl _
  | cons y l ih =>
    simp only [ins]
    split
    · exact .step [] l ⟨by omega, by omega⟩ (exchange_cons ih)
    · exact .refl _

theorem exchange_reorder (l : List Char) : Exchange U l (U.reorder l) := by
  induction l with
  | nil => exact .refl _
  | cons x l ih => exact exchange_trans (exchange_cons ih) (exchange_ins x _)

theorem ins_comm {x y : Char} (hr : Reorderable U x y) (l : List Char) : U.ins x (U.ins y l) = U.ins y (U.ins x l) := by
  obtain ⟨h1, h2⟩ := hr
  induction l with
  | nil => simp only [ins]; rw [if_pos ⟨by omega, by omega⟩, if_neg (by omega)]
  | cons z l ih =>
    simp only [ins]
    by_cases hy : U.ccc z ≠ 0 ∧ U.ccc z < U.ccc y
    · have hx : U.ccc z ≠ 0 ∧ U.ccc z < U.ccc x := by omega
      rw [if_pos hy, if_pos hx]
      simp only [ins]
      rw [if_pos hx, if_pos hy, ih]
    · rw [if_neg hy]
      simp only [ins]
      rw [if_pos (by omega)]
      by_cases hx : U.ccc z ≠ 0 ∧ U.ccc z < U.ccc x
      · rw [if_pos hx]
        simp only [ins]
        rw [if_neg hy]
      · rw [if_neg hx]
        simp only [ins]
        rw [if_neg (by omega)]

theorem reorder_swap {x y : Char} (hr : Reorderable U x y) (a b : List Char) :
    U.reorder (a ++ x :: y :: b) = U.reorder (a ++ y :: x :: b) := by
  induction a with
  | nil => simp only [List.nil_append, reorder]; exact ins_comm hr _
  | cons z a ih => simp only [List.cons_append, reorder]; rw [ih]

theorem reorder_exchange {l l' : List Char} (h : Exchange U l l') : U.reorder l = U.reorder l' := by
  induction h with
  | refl l => rfl
  | step a b hr _ ih => rw [reorder_swap hr, ih]

/-- The canonical decomposition exists, is unique, and is what the dependency computes. -/
theorem canonicalDecomposition_iff {s d : List Char} : CanonicalDecomposition U s d ↔ d = U.nfd s := by
  constructor
  · rintro ⟨h1, h2⟩
    rw [nfd, reorder_exchange h1, reorder_of_ord (ord_iff.2 h2)]
  · rintro rfl
    exact ⟨exchange_reorder _, ord_iff.1 (ord_reorder _)⟩

theorem canonicallyEquivalent_iff {s t : List Char} : CanonicallyEquivalent U s t ↔ U.nfd s = U.nfd t := by
  constructor
  · rintro ⟨d, h1, h2⟩
    rw [← canonicalDecomposition_iff.1 h1, ← canonicalDecomposition_iff.1 h2]
  · intro h
    exact ⟨U.nfd s, canonicalDecomposition_iff.2 rfl, canonicalDecomposition_iff.2 h⟩

/-! ## Canonical composition -/

theorem dropWhile_marks {buf r : List Char} {p : Char → Bool} (h : ∀ c ∈ buf, p c = true) :
    (buf ++ r).dropWhile p = r.dropWhile p := by
  induction buf with
  | nil => rfl
  | cons b buf ih => rw [List.cons_append, List.dropWhile_cons_of_pos (h b (by simp)), ih (fun c hc => h c (by simp [hc]))]

theorem takeWhile_marks {buf r : List Char} {p : Char → Bool} (h : ∀ c ∈ buf, p c = true) :
    (buf ++ r).takeWhile p = buf ++ r.takeWhile p := by
  induction buf with
  | nil => rfl
  | cons b buf ih => rw [List.cons_append, List.takeWhile_cons_of_pos (h b (by simp)), ih (fun c hc => h c (by simp [hc])), List.cons_append]

/-- `composeOne` with the last starter in view. -/
theorem composeOne_some {pre buf : List Char} {k c : Char} (hk : U.ccc k = 0) (hb : ∀ b ∈ buf, U.ccc b ≠ 0) :
    composeOne U (pre ++ k :: buf) c =
      if buf.any (fun b => U.ccc b = 0 ∨ U.ccc b ≥ U.ccc c) then pre ++ k :: buf ++ [c]
      else match U.compose k c with
        | some p => pre ++ p :: buf
        | none => pre ++ k :: buf ++ [c] := by
  have e : (pre ++ k :: buf).reverse = buf.reverse ++ k :: pre.reverse := by simp
  have hb' : ∀ b ∈ buf.reverse, decide (U.ccc b ≠ 0) = true := by simpa using hb
  unfold composeOne
  rw [e, dropWhile_marks hb', takeWhile_marks hb']
  rw [List.dropWhile_cons_of_neg (by simp [hk]), List.takeWhile_cons_of_neg (by simp [hk])]
  simp

theorem composeOne_none {pre : List Char} {c : Char} (hb : ∀ b ∈ pre, U.ccc b ≠ 0) : composeOne U pre c = pre ++ [c] := by
  unfold composeOne
  have hb' : ∀ b ∈ pre.reverse, decide (U.ccc b ≠ 0) = true := by simpa using hb
  have := dropWhile_marks (r := []) hb'
  rw [List.append_nil] at this
  rw [this]
  simp

theorem foldl_recomp_some (hU : U.Lawful) {rest : List Char} : ∀ {pre buf : List Char} {k : Char} {last : Option Nat},
    U.ccc k = 0 → (∀ b ∈ buf, U.ccc b ≠ 0) → (last = none ↔ buf = []) → (∀ l, last = some l → (∃ b ∈ buf, U.ccc b = l) ∧ (∀ b ∈ buf, U.ccc b ≤ l) ∧
      ∀ ch ∈ rest.head?, U.ccc ch = 0 ∨ l ≤ U.ccc ch) → Ord U rest →
    rest.foldl (composeOne U) (pre ++ k :: buf) = pre ++ U.recomp (some k) last buf rest := by
  induction rest with
  | nil => intro pre buf k last _ _ _ _ _; cases last <;> rfl
  | cons ch r ih =>
    intro pre buf k last hk hb hn hl ho
    have hnext : ∀ y ∈ r.head?, U.ccc y = 0 ∨ U.ccc ch ≤ U.ccc y := by
      intro y hy
      cases r with
      | nil => simp at hy
      | cons z r => simp at hy; subst hy; exact ho.1
    rw [List.foldl_cons, composeOne_some hk hb]
    have keep : U.ccc ch ≠ 0 → (∀ b ∈ buf, U.ccc b ≤ U.ccc ch) →
        r.foldl (composeOne U) (pre ++ k :: buf ++ [ch]) = pre ++ U.recomp (some k) (some (U.ccc ch)) (buf ++ [ch]) r := by
      intro h0 hle
      have := ih (pre := pre) (buf := buf ++ [ch]) (k := k) (last := some (U.ccc ch)) hk
        (by intro b hb'; rcases List.mem_append.1 hb' with h | h; exact hb b h; simp at h; rw [h]; exact h0)
        (by simp) (by
          intro l e; injection e with e; subst e
          refine ⟨⟨ch, by simp, rfl⟩, ?_, hnext⟩
          intro b hb'
          rcases List.mem_append.1 hb' with h | h
          · exact hle b h
          · simp at h; rw [h]; omega) ho.tail
      simpa using this
    have start : U.ccc ch = 0 → r.foldl (composeOne U) (pre ++ k :: buf ++ [ch]) = pre ++ (k :: buf ++ U.recomp (some ch) none [] r) := by
      intro h0
      have := ih (pre := pre ++ k :: buf) (buf := []) (k := ch) (last := none) h0 (by simp) (by simp) (by simp) ho.tail
      simpa using this
    cases last with
    | none =>
      have hbn := hn.1 rfl
      subst hbn
      simp only [List.any_nil, Bool.false_eq_true, if_false, recomp]
      cases hc : U.compose k ch with
      | some k' =>
        exact ih (hU.compose_ccc _ _ _ hc).2 (by simp) (by simp) (by simp) ho.tail
      | none =>
        simp only
        split
        · rename_i h0; simpa using start h0
        · rename_i h0; exact keep h0 (by simp)
    | some l =>
      obtain ⟨⟨b0, hb0, e0⟩, h2, h3⟩ := hl l rfl
      simp only [recomp]
      by_cases hge : l ≥ U.ccc ch
      · rw [if_pos (by
          simp only [List.any_eq_true, decide_eq_true_eq]
          exact ⟨b0, hb0, Or.inr (by omega)⟩), if_pos hge]
        split
        · rename_i h0; exact start h0
        · rename_i h0
          refine keep h0 ?_
          intro b hb'
          have := h2 b hb'
          rcases h3 ch (by simp) with h | h
          · exact absurd h h0
          · omega
      · rw [if_neg (by
          simp only [List.any_eq_true, decide_eq_true_eq, not_exists, not_and]
          intro b hb'
          have := h2 b hb'
          have := hb b hb'
          omega), if_neg hge]
        cases hc : U.compose k ch with
        | some k' =>
          refine ih (hU.compose_ccc _ _ _ hc).2 hb hn ?_ ho.tail
          intro l' e
          injection e with e
          subst e
          refine ⟨⟨b0, hb0, e0⟩, h2, ?_⟩
          intro y hy
          rcases hnext y hy with h | h
          · exact Or.inl h
          · right; omega
        | none =>
          simp only
          refine keep (by omega) ?_
          intro b hb'
          have := h2 b hb'
          omega

theorem foldl_recomp_none (hU : U.Lawful) {rest : List Char} : ∀ {pre : List Char} {last : Option Nat} {buf : List Char},
    (∀ b ∈ pre, U.ccc b ≠ 0) → buf = [] → Ord U rest → rest.foldl (composeOne U) pre = pre ++ U.recomp none last buf rest := by
  induction rest with
  | nil => intro pre last buf _ hb _; subst hb; simp [recomp]
  | cons ch r ih =>
    intro pre last buf hp _ ho
    rw [List.foldl_cons, composeOne_none hp]
    simp only [recomp]
    split
    · rename_i h0
      have := ih (pre := pre ++ [ch]) (last := none) (buf := []) (by
        intro b hb; rcases List.mem_append.1 hb with h | h; exact hp b h; simp at h; rw [h]; exact h0) rfl ho.tail
      simpa using this
    · rename_i h0
      have := foldl_recomp_some hU (pre := pre) (buf := []) (k := ch) (last := none) (rest := r) (by omega) (by simp) (by simp) (by simp) ho.tail
      simpa using this

/-- NFC (D120): the canonical composition of the canonical decomposition. -/
theorem nfc_spec (hU : U.Lawful) (s : List Char) : U.nfc s = composeAll U (U.nfd s) := by
  have := foldl_recomp_none hU (pre := []) (last := none) (buf := []) (rest := U.nfd s) (by simp) rfl (ord_reorder _)
  rw [nfc, composeAll, this]; rfl

/-! ## NFC preserves canonical equivalence -/

theorem ins_congr {x : Char} {a b : List Char} (h : U.reorder a = U.reorder b) : U.reorder (x :: a) = U.reorder (x :: b) := by
  simp only [reorder, h]

theorem reorder_prefix {a b : List Char} (p : List Char) (h : U.reorder a = U.reorder b) : U.reorder (p ++ a) = U.reorder (p ++ b) := by
  induction p with
  | nil => exact h
  | cons x p ih => exact ins_congr ih

theorem reorder_move {ch : Char} {buf : List Char} (h : ∀ b ∈ buf, U.ccc b ≠ 0 ∧ U.ccc b < U.ccc ch) (p r : List Char) :
    U.reorder (p ++ ch :: (buf ++ r)) = U.reorder (p ++ (buf ++ ch :: r)) := by
  induction buf generalizing p with
  | nil => rfl
  | cons b buf ih =>
    have hb := h b (by simp)
    have e := reorder_swap (U := U) (x := ch) (y := b) ⟨hb.2, by omega⟩ p (buf ++ r)
    rw [List.cons_append, e]
    have := ih (fun c hc => h c (by simp [hc])) (p ++ [b])
    simpa using this

theorem decomp_recomp_some (hU : U.Lawful) {rest : List Char} : ∀ {k : Char} {last : Option Nat} {buf : List Char},
    (∀ c ∈ rest, U.decomp c = [c]) → (∀ m ∈ buf, U.ccc m ≠ 0 ∧ U.decomp m = [m]) → (last = none → buf = []) →
    (∀ l, last = some l → (∀ b ∈ buf, U.ccc b ≤ l) ∧ ∀ ch ∈ rest.head?, U.ccc ch = 0 ∨ l ≤ U.ccc ch) → Ord U rest →
    U.reorder ((U.recomp (some k) last buf rest).flatMap U.decomp) = U.reorder (U.decomp k ++ (buf ++ rest)) := by
  have hself : ∀ {l : List Char}, (∀ m ∈ l, U.ccc m ≠ 0 ∧ U.decomp m = [m]) → l.flatMap U.decomp = l :=
    fun h => flatMap_self (fun m hm => (h m hm).2)
  induction rest with
  | nil => intro k last buf _ hb _ _ _; cases last <;> simp [recomp, hself hb]
  | cons ch r ih =>
    intro k last buf hd hb hn hl ho
    have hd' : ∀ c ∈ r, U.decomp c = [c] := fun c hc => hd c (by simp [hc])
    have hch := hd ch (by simp)
    have hnext : ∀ y ∈ r.head?, U.ccc y = 0 ∨ U.ccc ch ≤ U.ccc y := by
      intro y hy
      cases r with
      | nil => simp at hy
      | cons z r => simp at hy; subst hy; exact ho.1
    have keep : U.ccc ch ≠ 0 → (∀ b ∈ buf, U.ccc b ≤ U.ccc ch) →
        U.reorder ((U.recomp (some k) (some (U.ccc ch)) (buf ++ [ch]) r).flatMap U.decomp) = U.reorder (U.decomp k ++ (buf ++ ch :: r)) := by
      intro h0 hle
      rw [ih hd' (by
        intro b hb'; rcases List.mem_append.1 hb' with h | h; exact hb b h; simp at h; rw [h]; exact ⟨h0, hch⟩) (by simp) (by
        intro l e; injection e with e; subst e
        refine ⟨?_, hnext⟩
        intro b hb'
        rcases List.mem_append.1 hb' with h | h
        · exact hle b h
        · simp at h; rw [h]; omega) ho.tail]
      simp
    have start : U.reorder ((k :: buf ++ U.recomp (some ch) none [] r).flatMap U.decomp) = U.reorder (U.decomp k ++ (buf ++ ch :: r)) := by
      rw [List.flatMap_append, List.flatMap_cons, hself hb]
      have := ih (k := ch) (last := none) (buf := []) hd' (by simp) (by simp) (by simp) ho.tail
      rw [reorder_prefix _ this, hch]
      simp
    cases last with
    | none =>
      have hbn := hn rfl
      subst hbn
      simp only [recomp]
      cases hc : U.compose k ch with
      | some k' =>
        simp only
        rw [ih hd' (by simp) (by simp) (by simp) ho.tail, hU.compose_decomp _ _ _ hc]
        simp
      | none =>
        simp only
        split
        · simpa using start
        · rename_i h0; exact keep h0 (by simp)
    | some l =>
      obtain ⟨h2, h3⟩ := hl l rfl
      simp only [recomp]
      by_cases hge : l ≥ U.ccc ch
      · rw [if_pos hge]
        split
        · exact start
        · rename_i h0
          refine keep h0 ?_
          intro b hb'
          have := h2 b hb'
          rcases h3 ch (by simp) with h | h
          · exact absurd h h0
          · omega
      · rw [if_neg hge]
        cases hc : U.compose k ch with
        | some k' =>
          simp only
          rw [ih hd' hb (by simp) (by
            intro l' e
            injection e with e
            subst e
            refine ⟨h2, ?_⟩
            intro y hy
            rcases hnext y hy with h | h
            · exact Or.inl h
            · right; omega) ho.tail, hU.compose_decomp _ _ _ hc]
          have := reorder_move (U := U) (ch := ch) (buf := buf) (fun b hb' => ⟨(hb b hb').1, by have := h2 b hb'; omega⟩) (U.decomp k) r
          simpa using this
        | none =>
          simp only
          refine keep (by omega) ?_
          intro b hb'
          have := h2 b hb'
          omega

theorem decomp_recomp_none (hU : U.Lawful) {rest : List Char} : ∀ {last : Option Nat},
    (∀ c ∈ rest, U.decomp c = [c]) → Ord U rest → U.reorder ((U.recomp none last [] rest).flatMap U.decomp) = U.reorder rest := by
  induction rest with
  | nil => intro last _ _; rfl
  | cons ch r ih =>
    intro last hd ho
    have hd' : ∀ c ∈ r, U.decomp c = [c] := fun c hc => hd c (by simp [hc])
    have hch := hd ch (by simp)
    simp only [recomp]
    split
    · rw [List.flatMap_cons, hch, List.singleton_append]
      exact ins_congr (ih hd' ho.tail)
    · rw [decomp_recomp_some hU hd' (by simp) (by simp) (by simp) ho.tail, hch]
      simp

/-- Normalizing does not change the canonical decomposition. -/
theorem nfd_nfc (hU : U.Lawful) (s : List Char) : U.nfd (U.nfc s) = U.nfd s := by
  have h := decomp_recomp_none hU (rest := U.nfd s) (last := none) (decomposed_nfd hU s) (ord_reorder _)
  rw [reorder_of_ord (l := U.nfd s) (ord_reorder _)] at h
  exact h

end Ucd
end Verif
