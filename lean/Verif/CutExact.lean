import Verif.CutIsolated

/-!
# When the cuts give what the document asks for

What is delivered for a content in several reads is its normalization as a whole exactly if its unassigned scalars are `Balanced` and no read ends
inside. The two ways to deviate (a U+34F too few, and one too many) cannot make up for each other.
-/

namespace Verif
open Ucd Spec
variable {U : Ucd}

/-- Behind an assigned scalar the isolation of the document starts anew, except that it knows of a U+34F. -/
theorem specGo_behind {d : Char} (hd : isAssigned U d = true) (a : List Char) : ∀ need hv : Bool,
    ∃ X, ∀ y, specGo U need hv (a ++ d :: y) = X ++ d :: specGo U false (d == CGJ) y := by
  induction a with
  | nil =>
    intro need hv
    by_cases h : need = true ∧ d ≠ CGJ
    · refine ⟨[CGJ], fun y => ?_⟩
      have : (d == CGJ) = false := by simpa using h.2
      simp [specGo, hd, h.1, h.2, this]
    · refine ⟨[], fun y => ?_⟩
      have : ¬ ((need && d != CGJ) || (!isAssigned U d && !hv)) = true := by
        simp only [hd, Bool.not_true, Bool.false_and, Bool.or_false, Bool.and_eq_true, bne_iff_ne]
        exact h
      simp only [List.nil_append, specGo]
      rw [if_neg this, hd]; rfl
  | cons c a ih =>
    intro need hv
    simp only [List.cons_append, specGo]
    split
    · obtain ⟨X, hX⟩ := ih (!isAssigned U c) false
      exact ⟨CGJ :: c :: X, fun y => by rw [hX]; rfl⟩
    · obtain ⟨X, hX⟩ := ih (!isAssigned U c) (c == CGJ)
      exact ⟨c :: X, fun y => by rw [hX]; rfl⟩

theorem cutAll_front (cs : List (List Char)) : ∀ (segs : List (List Char)) (q : List Char),
    cutAll (segs, q) cs = (segs ++ (cutAll ([], q) cs).1, (cutAll ([], q) cs).2) := by
  induction cs with
  | nil => intro segs q; simp [cutAll]
  | cons c cs ih =>
    intro segs q
    rw [cutAll, cutAll]
    rcases cut_cases segs (q ++ c) with ⟨h1, h2⟩ | ⟨x, b, y, h1, h2, h3, h4⟩
    · rcases cut_cases [] (q ++ c) with ⟨g1, g2⟩ | ⟨x', b', y', g1, g2, g3, g4⟩
      · rw [show cut (segs, q).1 ((segs, q).2 ++ c) = (segs, q ++ c) from h2, show cut ([], q).1 (([], q).2 ++ c) = ([], q ++ c) from g2, ih]
      · have := h1 b' (by rw [g1]; simp)
        rw [g2] at this; simp at this
    · rcases cut_cases [] (q ++ c) with ⟨g1, g2⟩ | ⟨x', b', y', g1, g2, g3, g4⟩
      · have := g1 b (by rw [h1]; simp)
        rw [h2] at this; simp at this
      · obtain ⟨e1, e2, e3⟩ := last_boundary_unique (h1.symm.trans g1) h2 g2 h3 g3
        subst e1; subst e2; subst e3
        rw [show cut (segs, q).1 ((segs, q).2 ++ c) = (segs ++ [x ++ [b]], y) from h4, show cut ([], q).1 (([], q).2 ++ c) = ([] ++ [x ++ [b]], y) from g4,
          ih, ih ([] ++ [x ++ [b]])]
        simp

/-- No read leaves off between a U+34F with an unassigned scalar behind it and the next U+34F or newline. -/
def Unhurt (U : Ucd) (q : List Char) (cs : List (List Char)) : Prop :=
  ∀ a u b, q ++ cs.flatten = a ++ CGJ :: u :: b → isAssigned U u = false →
    ∀ i w, i < cs.length → q ++ (cs.take (i + 1)).flatten = a ++ CGJ :: w → ¬ ∀ c ∈ w, isBoundary c = false

theorem unhurt_skip {q c : List Char} {cs : List (List Char)} (h : ∀ d ∈ q ++ c, isBoundary d = false) (hu : Unhurt U (q ++ c) cs) :
    Unhurt U q (c :: cs) := by
  intro a u b e hx i w h1 h2 h3
  cases i with
  | zero =>
    have := h CGJ (by simp at h2; rw [h2]; simp)
    simp [isBoundary] at this
  | succ i => exact hu a u b (by simpa using e) hx i w (by simpa using h1) (by simpa using h2) h3

theorem unhurt_cut {q c x y : List Char} {b : Char} {cs : List (List Char)} (h : q ++ c = x ++ b :: y) (hb : isBoundary b = true)
    (hy : ∀ d ∈ y, isBoundary d = false) (hh : b = CGJ → HeadOk U (y ++ cs.flatten)) (hu : Unhurt U y cs) : Unhurt U q (c :: cs) := by
  have hq : ∀ z, q ++ (c ++ z) = x ++ b :: (y ++ z) := by intro z; rw [← List.append_assoc, h]; simp
  intro a u r e hx i w h1 h2 h3
  rw [List.flatten_cons, hq, show x ++ b :: (y ++ cs.flatten) = (x ++ [b]) ++ (y ++ cs.flatten) by simp] at e
  rw [List.take_succ_cons, List.flatten_cons, hq] at h2
  rcases List.append_eq_append_iff.1 e with ⟨m, e1, e2⟩ | ⟨m, e1, e2⟩
  · -- behind the cut
    subst e1
    simp only [List.append_assoc, List.cons_append, List.append_cancel_left_eq, List.cons.injEq, true_and] at h2
    cases i with
    | zero =>
      simp only [List.take_zero, List.flatten_nil, List.append_nil] at h2
      have := hy CGJ (by rw [h2]; simp)
      simp [isBoundary] at this
    | succ i => exact hu m u r e2 hx i w (by simpa using h1) h2 h3
  · cases m with
    | nil =>
      simp only [List.append_nil] at e1
      simp only [List.nil_append] at e2
      subst e1
      simp only [List.append_assoc, List.singleton_append, List.append_cancel_left_eq, List.cons.injEq, true_and] at h2
      cases i with
      | zero =>
        simp only [List.take_zero, List.flatten_nil, List.append_nil] at h2
        have := hy CGJ (by rw [h2]; simp)
        simp [isBoundary] at this
      | succ i => exact hu [] u r e2.symm hx i w (by simpa using h1) h2 h3
    | cons d m =>
      simp only [List.cons_append, List.cons.injEq] at e2
      obtain ⟨rfl, e2⟩ := e2
      rcases List.eq_nil_or_concat m with rfl | ⟨m', d, rfl⟩
      · have := List.append_inj' e1 rfl
        simp only [List.cons.injEq, and_true] at this
        rw [List.nil_append] at e2
        have := hh this.2 u (by rw [← e2]; simp)
        rw [hx] at this; simp at this
      · rw [List.concat_eq_append] at e1 e2
        have hd := List.append_inj' (s₁ := x) (s₂ := a ++ CGJ :: m') (t₁ := [b]) (t₂ := [d]) (by rw [e1]; simp) rfl
        rw [hd.1] at h2
        simp only [List.append_assoc, List.cons_append, List.append_cancel_left_eq, List.cons.injEq, true_and] at h2
        have := h3 b (by rw [← h2]; simp)
        rw [hb] at this; simp at this

theorem specGo_headOk {R : List Char} (h : HeadOk U R) (hv : Bool) : specGo U false hv R = specGo U false false R := by
  cases R with
  | nil => rfl
  | cons c R =>
    have := h c (by simp)
    simp [specGo, this]

/-- If the cuts are free and what is delivered is the normalization of the whole, no read ends inside. -/
theorem cutAll_whole (hU : TextLaws U) (cs : List (List Char)) : ∀ (q : List Char) (hv : Bool), (∀ c ∈ q, isBoundary c = false) →
    (cutAll ([], q) cs).2 = [] → FreeCuts U q cs →
    (cutAll ([], q) cs).1.flatMap (normChain U) = norm3 U (specGo U false hv (q ++ cs.flatten)) →
    (hv = true → HeadOk U (q ++ cs.flatten)) ∧ Unhurt U q cs := by
  induction cs with
  | nil =>
    intro q hv hb h0 _ _
    simp only [cutAll] at h0
    subst h0
    exact ⟨fun _ => by intro c hc; simp at hc, by intro a u b e; simp at e⟩
  | cons c cs ih =>
    intro q hv hb h0 hf he
    rw [cutAll] at h0 he
    rcases cut_cases [] (q ++ c) with ⟨h1, h2⟩ | ⟨x, b, y, h1, h2, h3, h4⟩
    · rw [show cut ([], q).1 (([], q).2 ++ c) = ([], q ++ c) from h2] at h0 he
      obtain ⟨g1, g2⟩ := ih (q ++ c) hv h1 h0 ((freeCuts_skip h1).1 hf) (by simpa using he)
      exact ⟨by simpa using g1, unhurt_skip h1 g2⟩
    · rw [show cut ([], q).1 (([], q).2 ++ c) = ([] ++ [x ++ [b]], y) from h4, cutAll_front] at h0 he
      have hba := boundary_assigned hU h2
      have hbi := boundary_inert hU h2
      obtain ⟨f1, f2⟩ := (freeCuts_cut hU h1 h2 h3).1 hf
      have hR : q ++ (c :: cs).flatten = x ++ b :: (y ++ cs.flatten) := by
        rw [List.flatten_cons, ← List.append_assoc, h1]; simp
      rw [hR] at he ⊢
      have hhead : hv = true → HeadOk U (x ++ b :: (y ++ cs.flatten)) := by
        intro hv1 d hd
        cases hx : isAssigned U d with
        | true => rfl
        | false =>
          exfalso
          have e2 : ∃ r, x ++ b :: (y ++ cs.flatten) = d :: r := by
            cases x with
            | nil => simp at hd; exact ⟨_, by rw [hd]; rfl⟩
            | cons z x => simp at hd; exact ⟨_, by rw [hd]; rfl⟩
          obtain ⟨r, e2⟩ := e2
          have e3 : (norm3 U (specGo U false hv (x ++ b :: (y ++ cs.flatten)))).head? = some d := by
            rw [e2, hv1]
            simp only [specGo, hx, Bool.false_and, Bool.not_true, Bool.and_false, Bool.or_self, Bool.false_eq_true, if_false]
            rw [norm3_inert_cons hU (inert_of_not_assigned hU hx)]; rfl
          rw [← he] at e3
          obtain ⟨X, hX⟩ := normChain_seg hU x h2
          have h5 : normChain U (x ++ [b]) ≠ [] := by rw [hX]; simp
          have h6 : d ∈ (normChain U (x ++ [b])).head? := by
            simp only [List.nil_append, List.singleton_append, List.flatMap_cons] at e3
            cases hn : normChain U (x ++ [b]) with
            | nil => exact absurd hn h5
            | cons z l => rw [hn] at e3; simpa using e3
          have := head_normChain_assigned hU _ d h6
          rw [hx] at this; simp at this
      have hspec : specGo U false hv (x ++ b :: (y ++ cs.flatten)) = specGo U false false (x ++ b :: (y ++ cs.flatten)) := by
        cases hv with
        | false => rfl
        | true => exact specGo_headOk (hhead rfl) true
      obtain ⟨Y, hY⟩ := specGo_behind hba x false false
      have hseg : normChain U (x ++ [b]) = norm3 U Y ++ [b] := by
        rw [(normChain_iff hU _).2 f1, show normalize U (x ++ [b]) = norm3 U (specGo U false false (x ++ [b])) by rw [← spec_isolate_go hU]; rfl, hY,
          norm3_split hU hbi]
        simp [specGo, norm3_nil]
      rw [hspec, hY, norm3_split hU hbi, List.flatMap_append] at he
      simp only [List.nil_append, List.flatMap_cons, List.flatMap_nil, List.append_nil, hseg, List.append_assoc, List.singleton_append,
        List.append_cancel_left_eq, List.cons.injEq, true_and] at he
      obtain ⟨g1, g2⟩ := ih y (b == CGJ) h3 h0 f2 he
      exact ⟨hhead, unhurt_cut h1 h2 h3 (fun e => g1 (by simpa using e)) g2⟩

theorem cutAll_rest (cs : List (List Char)) : ∀ S : List (List Char) × List Char, (∀ c ∈ S.2, isBoundary c = false) →
    (∀ c ∈ (cutAll S cs).2, isBoundary c = false) ∧ ∃ x, x ++ (cutAll S cs).2 = S.2 ++ cs.flatten := by
  induction cs with
  | nil => intro S h; exact ⟨h, [], by simp [cutAll]⟩
  | cons c cs ih =>
    intro S h
    rw [cutAll]
    rcases cut_cases S.1 (S.2 ++ c) with ⟨h1, h2⟩ | ⟨x, b, y, h1, h2, h3, h4⟩
    · rw [h2]
      obtain ⟨g1, x, g2⟩ := ih (S.1, S.2 ++ c) h1
      exact ⟨g1, x, by rw [g2]; simp⟩
    · rw [h4]
      obtain ⟨g1, x', g2⟩ := ih (S.1 ++ [x ++ [b]], y) h3
      refine ⟨g1, x ++ b :: x', ?_⟩
      rw [List.flatten_cons, ← List.append_assoc S.2, h1, List.append_assoc, List.cons_append, g2]; simp

/-- What is delivered is the normalization of the whole exactly if the text is `Balanced` and no read but the last ends inside. -/
theorem reads_whole_iff (hU : TextLaws U) (nel lsps : Bool) {chunks : List (List Char)} {last : List Char} (hb : BomSafe chunks last)
    {lens : List Nat} (hc : Completes U nel lsps (script chunks last) lens) {T : List Char} (hT : T = translate U nel lsps (dropBom (chunks.flatten ++ last))) :
    output U nel lsps (script chunks last) lens = normalize U T ↔
      Balanced U T ∧ ∀ i, i < chunks.length → ¬ EndsInside U T (settled U nel lsps (dropBom (chunks.take (i + 1)).flatten)) := by
  obtain ⟨-, hadd, -⟩ := reads_add hU nel lsps hb hc hT
  constructor
  · intro he
    suffices hbal : Balanced U T from ⟨hbal, hadd.1 (by rw [he, (normChain_iff hU T).2 hbal])⟩
    obtain ⟨r, n, h1, h2⟩ := hc
    have ho := (run_exact hU (ending_script chunks last) h1 h2).1
    have hseg : segments U nel lsps (script chunks last) = (cutAll ([], []) (outs U ((TextInput.new nel lsps).ctl, []) (script chunks last))).1 := by
      unfold segments
      rw [segAll_outs _ _ _ (by
        intro e he
        simp only [script, List.mem_append, List.mem_map, List.mem_singleton] at he
        rcases he with ⟨c, -, rfl⟩ | rfl <;> simp)]
    have hfl : (outs U ((TextInput.new nel lsps).ctl, []) (script chunks last)).flatten = T := by
      have := outs_flatten (U := U) (script chunks last) ((TextInput.new nel lsps).ctl, [])
      rw [absorbAll_script hU hb, ← hT, List.nil_append] at this
      exact this
    rw [output, ho, hseg] at he
    generalize outs U ((TextInput.new nel lsps).ctl, []) (script chunks last) = cs at *
    have hfree : FreeCuts U [] cs := by
      have h3 := isolated_normalize hU T
      rw [← he, cutAll_isolated hU cs ([], []) (by simp) (by simp)] at h3
      exact h3.2
    have hend := translate_last hU nel lsps (chunks.flatten ++ last)
    rw [← hT] at hend
    have hrest : (cutAll ([], []) cs).2 = [] := by
      obtain ⟨g1, x, g2⟩ := cutAll_rest cs ([], []) (by simp)
      rw [List.nil_append, hfl] at g2
      rcases hend with h0 | h0
      · rw [h0] at g2; simp at g2; exact g2.2
      · rw [← g2, List.getLast?_append] at h0
        cases hl : (cutAll ([], []) cs).2.getLast? with
        | none => exact List.getLast?_eq_none_iff.1 hl
        | some d =>
          rw [hl] at h0
          have := g1 d (List.mem_of_getLast? hl)
          rw [show d = '\n' from Option.some.inj h0] at this
          simp [isBoundary] at this
    have hN : normalize U T = norm3 U (specGo U false false T) := by rw [← spec_isolate_go hU]; rfl
    obtain ⟨-, hun⟩ := cutAll_whole hU cs [] false (by simp) hrest hfree (by rw [he, hN, List.nil_append, hfl])
    intro a u b e hu
    rcases hfree a u b (by rw [List.nil_append, hfl]; exact e) hu with ho | ⟨i, w, g1, g2, g3⟩
    · exact ho
    · exact absurd g3 (hun a u b (by rw [List.nil_append, hfl]; exact e) hu i w g1 g2)
  · rintro ⟨h1, h2⟩
    rw [hadd.2 h2, (normChain_iff hU T).2 h1]

end Verif
