import Verif.LockstepForms
import Verif.CutPlaces
import Verif.HoldTheory
import Verif.CountTheory

/-!
# Lines of a source cut in any way

What stands behind a newline is delivered as if the newline were the first scalar of the source.
-/

namespace Verif
open Ucd Spec
variable {U : Ucd}

theorem feed_newline {k : Ctl} (hk : Open k) (y : List Char) : feed U k ('\n' :: y) =
    ((feed U { k with state := .ground true, expectStarter := false } y).1, '\n' :: (feed U { k with state := .ground true, expectStarter := false } y).2) := by
  have h : stepChar U k '\n' = ({ k with state := .ground true, expectStarter := false }, ['\n']) := by
    unfold stepChar groundStep
    rcases hk with ⟨b, hs⟩ | hs | hs <;> rw [hs] <;> simp [show ¬ '\n' = FF by decide]
  rw [feed, h]
  rfl

theorem absorb_prefix (k : Ctl) (p t : List Char) (ht : t ≠ []) (s : List Char) (st : Status) :
    absorb U (k, p ++ t) s st = ((absorb U (k, t) s st).1, p ++ (absorb U (k, t) s st).2) := by
  unfold absorb
  simp only
  have hl : (p ++ t ++ (processRaw U k s).2).getLast? = (t ++ (processRaw U k s).2).getLast? := by
    rw [List.append_assoc, List.getLast?_append]
    cases e : (t ++ (processRaw U k s).2).getLast? with
    | none => rw [List.getLast?_eq_none_iff] at e; simp [ht] at e
    | some c => rfl
  rw [hl]
  split <;> simp [List.append_assoc]

theorem absorb_some (k : Ctl) (t : List Char) (ht : t ≠ []) (s : List Char) (st : Status) : (absorb U (k, t) s st).2 ≠ [] := by
  unfold absorb
  simp only
  split <;> simp [ht]

theorem cut_front (P S : List (List Char)) (q : List Char) : cut (P ++ S) q = (P ++ (cut S q).1, (cut S q).2) := by
  unfold cut
  split <;> simp

/-- The segments do not depend on what has been cut off before, if the last scalar stays. -/
theorem segAll_front (es : List Event) : ∀ (k : Ctl) (p t : List Char) (P S : List (List Char)) (q : List Char), t ≠ [] →
    segAll U (k, p ++ t) (P ++ S, q) es = (P ++ (segAll U (k, t) (S, q) es).1, (segAll U (k, t) (S, q) es).2) := by
  induction es with
  | nil => intros; rfl
  | cons e es ih =>
    intro k p t P S q ht
    cases e with
    | err => exact ih k p t P S q ht
    | data s st =>
      rw [segAll, segAll, absorb_prefix k p t ht]
      have e1 : (p ++ (absorb U (k, t) s st).2).drop (p ++ t).length = (absorb U (k, t) s st).2.drop t.length := by
        rw [List.length_append, ← List.drop_drop, List.drop_left]
      simp only [e1]
      rw [cut_front]
      exact ih _ p _ P _ _ (absorb_some k t ht s st)

/-- A queue with a newline in it is cut where its part from the newline on is. -/
theorem cut_newline (S : List (List Char)) (w v : List Char) : ∃ v' r, cut S (w ++ '\n' :: v) = (S ++ [w ++ '\n' :: v'], r) ∧
    cut [] ('\n' :: v) = (['\n' :: v'], r) := by
  have hnl : isBoundary '\n' = true := by decide
  rcases cut_cases [] ('\n' :: v) with ⟨k1, -⟩ | ⟨x, b, y, k1, k2, k3, k4⟩
  · have := k1 '\n' (by simp)
    rw [hnl] at this; exact absurd this (by simp)
  · rcases cut_cases S (w ++ '\n' :: v) with ⟨j1, -⟩ | ⟨x', b', y', j1, j2, j3, j4⟩
    · have := j1 '\n' (by simp)
      rw [hnl] at this; exact absurd this (by simp)
    · rw [k1, ← List.append_assoc] at j1
      obtain ⟨e1, e2, e3⟩ := last_boundary_unique j1 k2 j2 k3 j3
      subst e1 e2 e3
      cases x with
      | nil =>
        simp only [List.nil_append, List.cons.injEq] at k1
        obtain ⟨rfl, rfl⟩ := k1
        exact ⟨[], v, by rw [j4]; simp, by rw [k4]; rfl⟩
      | cons c x =>
        simp only [List.cons_append, List.cons.injEq] at k1
        obtain ⟨rfl, -⟩ := k1
        exact ⟨x ++ [b], y, by rw [j4]; simp, by rw [k4]; simp⟩

theorem absorb_modes (kt : Ctl × List Char) (s : List Char) (st : Status) : (absorb U kt s st).1.nel = kt.1.nel ∧ (absorb U kt s st).1.lsps = kt.1.lsps := by
  obtain ⟨h1, h2⟩ := processRaw_modes (U := U) kt.1 s
  unfold absorb
  simp only
  split
  · exact ⟨h1, h2⟩
  · obtain ⟨h3, h4⟩ := finish_modes (processRaw U kt.1 s).1 (kt.2 ++ (processRaw U kt.1 s).2).getLast? st
    exact ⟨h3.trans h1, h4.trans h2⟩

theorem absorbAll_mode (es : List Event) : ∀ kt : Ctl × List Char, (absorbAll U kt es).1.nel = kt.1.nel ∧ (absorbAll U kt es).1.lsps = kt.1.lsps := by
  induction es with
  | nil => intro kt; exact ⟨rfl, rfl⟩
  | cons e es ih =>
    intro kt
    cases e with
    | err => exact ih kt
    | data s st =>
      obtain ⟨h1, h2⟩ := ih (absorb U kt s st)
      obtain ⟨h3, h4⟩ := absorb_modes (U := U) kt s st
      exact ⟨h1.trans h3, h2.trans h4⟩

theorem absorbAll_stays_open (es : List Event) : ∀ kt : Ctl × List Char, Open kt.1 → ESC ∉ contents es → Open (absorbAll U kt es).1 := by
  induction es with
  | nil => intro kt h _; exact h
  | cons e es ih =>
    intro kt h he
    cases e with
    | err => exact ih kt h he
    | data s st =>
      simp only [contents, List.mem_append, not_or] at he
      refine ih _ ?_ he.2
      have h1 := (processRaw_open (U := U) kt.1 s h he.1).1
      unfold absorb
      simp only
      split
      · exact h1
      · exact finish_open _ (kt.2 ++ (processRaw U kt.1 s).2).getLast? st h1

/-- A read with a newline in it: what comes before does not affect the rest. -/
theorem absorb_newline {kt : Ctl × List Char} (hk : Open kt.1) {x : List Char} (he : ESC ∉ x) : ∃ o : List Char, ∀ (y : List Char) (st : Status),
    absorb U kt (x ++ '\n' :: y) st = ((absorb U ((TextInput.new kt.1.nel kt.1.lsps).ctl, []) ('\n' :: y) st).1,
      kt.2 ++ (o ++ (absorb U ((TextInput.new kt.1.nel kt.1.lsps).ctl, []) ('\n' :: y) st).2)) ∧
    ∃ z, (absorb U ((TextInput.new kt.1.nel kt.1.lsps).ctl, []) ('\n' :: y) st).2 = '\n' :: z := by
  obtain ⟨x', hx, hr⟩ : ∃ x' : List Char, ESC ∉ x' ∧ ∀ y, processRaw U kt.1 (x ++ '\n' :: y) = feed U { kt.1 with atStart := false } (x' ++ '\n' :: y) := by
    cases x with
    | nil => exact ⟨[], by simp, fun y => by simp [processRaw, show ¬ '\n' = BOM by decide]⟩
    | cons c x =>
      by_cases hc : (kt.1.atStart && c == BOM) = true
      · refine ⟨x, fun h => he (by simp [h]), fun y => ?_⟩
        unfold processRaw
        have : (kt.1.atStart && (c :: x ++ '\n' :: y).head? == some BOM) = true := by simpa using hc
        simp only [if_pos this]
        rfl
      · refine ⟨c :: x, he, fun y => ?_⟩
        unfold processRaw
        have : ¬ (kt.1.atStart && (c :: x ++ '\n' :: y).head? == some BOM) = true := by simpa using hc
        simp only [if_neg this]
  have hnew : ∀ y, processRaw U (TextInput.new kt.1.nel kt.1.lsps).ctl ('\n' :: y) =
      feed U { (TextInput.new kt.1.nel kt.1.lsps).ctl with atStart := false } ('\n' :: y) := by
    intro y; simp [processRaw, show ¬ '\n' = BOM by decide]
  have hk' : Open ({ kt.1 with atStart := false } : Ctl) := hk
  have h1 := (feed_open (U := U) x' _ hk' hx).1
  obtain ⟨m1, m2⟩ := feed_modes (U := U) x' { kt.1 with atStart := false }
  have m3 := feed_atStart (U := U) x' { kt.1 with atStart := false }
  refine ⟨(feed U { kt.1 with atStart := false } x').2, fun y st => ?_⟩
  have eN : ({ (feed U { kt.1 with atStart := false } x').1 with state := .ground true, expectStarter := false } : Ctl) =
      { (TextInput.new kt.1.nel kt.1.lsps).ctl with atStart := false, state := .ground true, expectStarter := false } := by
    generalize (feed U { kt.1 with atStart := false } x').1 = k at m1 m2 m3
    obtain ⟨a, b, c, d, e⟩ := k
    simp only at m1 m2 m3
    subst m1 m2 m3
    rfl
  have e1 : processRaw U kt.1 (x ++ '\n' :: y) =
      ((processRaw U (TextInput.new kt.1.nel kt.1.lsps).ctl ('\n' :: y)).1,
        (feed U { kt.1 with atStart := false } x').2 ++ (processRaw U (TextInput.new kt.1.nel kt.1.lsps).ctl ('\n' :: y)).2) := by
    rw [hr, hnew, feed_append, feed_newline h1, feed_newline (Or.inl ⟨true, rfl⟩), eN]
  obtain ⟨z, hz⟩ : ∃ z, (processRaw U (TextInput.new kt.1.nel kt.1.lsps).ctl ('\n' :: y)).2 = '\n' :: z := by
    rw [hnew, feed_newline (Or.inl ⟨true, rfl⟩)]; exact ⟨_, rfl⟩
  unfold absorb
  simp only [e1, List.nil_append]
  generalize (processRaw U (TextInput.new kt.1.nel kt.1.lsps).ctl ('\n' :: y)).1 = K
  generalize (processRaw U (TextInput.new kt.1.nel kt.1.lsps).ctl ('\n' :: y)).2 = O at hz
  generalize (feed U { kt.1 with atStart := false } x').2 = o
  subst hz
  have hl : (kt.2 ++ (o ++ '\n' :: z)).getLast? = ('\n' :: z).getLast? := by
    rw [← List.append_assoc, List.getLast?_append, List.getLast?_cons]; rfl
  rw [hl]
  split
  · exact ⟨rfl, z, rfl⟩
  · exact ⟨by simp [List.append_assoc], _, rfl⟩

/-- The segments of a source with a newline in some read. -/
theorem segments_newline {nel lsps : Bool} {evs : List Event} (he : ESC ∉ contents evs) {x : List Char} (hx : ESC ∉ x) :
    ∃ (P : List (List Char)) (w : List Char), segments U nel lsps (evs ++ [.data (x ++ ['\n']) .end_]) = P ++ [w ++ ['\n']] ∧
    ∀ (y : List Char) (st : Status) (more : List Event), ∃ v W,
      segments U nel lsps (evs ++ .data (x ++ '\n' :: y) st :: more) = P ++ [w ++ '\n' :: v] ++ W ∧
      segments U nel lsps (.data ('\n' :: y) st :: more) = ['\n' :: v] ++ W := by
  have h0 : Open ((TextInput.new nel lsps).ctl) := Or.inl ⟨true, rfl⟩
  have hk := absorbAll_stays_open (U := U) evs ((TextInput.new nel lsps).ctl, []) h0 he
  obtain ⟨m1, m2⟩ := absorbAll_mode (U := U) evs ((TextInput.new nel lsps).ctl, [])
  have m1 : (absorbAll U ((TextInput.new nel lsps).ctl, []) evs).1.nel = nel := m1
  have m2 : (absorbAll U ((TextInput.new nel lsps).ctl, []) evs).1.lsps = lsps := m2
  obtain ⟨o, ho⟩ := absorb_newline (U := U) hk hx
  rw [m1, m2] at ho
  unfold segments
  simp only [segAll_append, segAll]
  generalize absorbAll U ((TextInput.new nel lsps).ctl, []) evs = kt at *
  generalize segAll U ((TextInput.new nel lsps).ctl, []) ([], []) evs = S at *
  refine ⟨S.1, S.2 ++ o, ?_, fun y st more => ?_⟩
  · obtain ⟨e1, -⟩ := ho [] .end_
    have e2 : absorb U ((TextInput.new nel lsps).ctl, []) ['\n'] .end_ =
        ({ (TextInput.new nel lsps).ctl with atStart := false, state := .ground true, expectStarter := true }, ['\n']) := by
      unfold absorb
      have : processRaw U (TextInput.new nel lsps).ctl ['\n'] =
          ({ (TextInput.new nel lsps).ctl with atStart := false, state := .ground true, expectStarter := false }, ['\n']) := by
        simp [processRaw, show ¬ '\n' = BOM by decide, feed, stepChar, groundStep, TextInput.new]
      rw [this]
      simp [finish, finishState, endGuard, end_nl]
    rw [e1, e2]
    simp only [List.drop_left]
    obtain ⟨v', r, c1, c2⟩ := cut_newline S.1 (S.2 ++ o) []
    rw [← List.append_assoc, c1]
    have c3 : cut [] ['\n'] = ([['\n']], []) := by decide
    rw [c3] at c2
    simp only [Prod.mk.injEq, List.cons.injEq, true_and, and_true] at c2
    rw [← c2.1]
  · obtain ⟨e1, z, e2⟩ := ho y st
    rw [e1]
    simp only [List.drop_left, List.length_nil, List.drop_zero, List.nil_append]
    rw [e2]
    obtain ⟨v, r, c1, c2⟩ := cut_newline S.1 (S.2 ++ o) z
    rw [← List.append_assoc S.2, c1, c2]
    rw [← List.append_assoc kt.2]
    have e3 : absorb U ((TextInput.new nel lsps).ctl, []) ('\n' :: y) st =
        ((absorb U ((TextInput.new nel lsps).ctl, []) ('\n' :: y) st).1, '\n' :: z) := by rw [← e2]
    rw [show segAll U ((absorb U ((TextInput.new nel lsps).ctl, []) ('\n' :: y) st).1, kt.2 ++ o ++ '\n' :: z) (S.1 ++ [S.2 ++ o ++ '\n' :: v], r) more =
      segAll U ((absorb U ((TextInput.new nel lsps).ctl, []) ('\n' :: y) st).1, kt.2 ++ o ++ '\n' :: z) ((S.1 ++ [S.2 ++ o ++ '\n' :: v]) ++ [], r) more by rw [List.append_nil],
      segAll_front _ _ _ _ _ _ _ (by simp)]
    refine ⟨v, _, rfl, ?_⟩
    rw [e3]
    have := segAll_front (U := U) more (absorb U ((TextInput.new nel lsps).ctl, []) ('\n' :: y) st).1 [] ('\n' :: z) ['\n' :: v] [] r (by simp)
    simpa using congrArg Prod.fst this

end Verif
