import Verif.CutAdds

/-!
# Isolation and cutting

Which unassigned scalars are not isolated depends on where the content is cut: a cut directly behind the U+34F in front of one makes the reader isolate it
after all.
-/

namespace Verif
open Ucd Spec
variable {U : Ucd}

/-- The text begins with U+34F or an unassigned scalar. -/
def Spec.Opens (U : Ucd) (b : List Char) : Prop := ∃ v r, b = v :: r ∧ (v = CGJ ∨ isAssigned U v = false)

theorem head_normChain_assigned (hU : TextLaws U) (s : List Char) : ∀ c ∈ (normChain U s).head?, isAssigned U c = true := by
  cases s with
  | nil => simp [normChain_nil]
  | cons v r =>
    intro u hu
    cases ha : isAssigned U u with
    | true => rfl
    | false =>
      exfalso
      have hC : isAssigned U CGJ = true := by simp [isAssigned, hU.assigned_cgj]
      have hi := inert_of_not_assigned hU ha
      have := head_norm_of (P := fun c => c ≠ u) (Q := fun c => c ≠ u) hU (c0 := v) (s := r)
        (fun _ e => by rw [← e, hC] at ha; simp at ha) (fun hv e => by rw [← e, hv] at ha; simp at ha)
        (fun c d ds h e hd => h (hi.cjk_only c (by rw [e, hd]; simp)))
        (fun c d ds h e hd => h (hi.only c (by rw [e, hd]; simp)))
        (fun k b r h _ e => by
          subst e
          have := hU.law.compose_decomp _ _ _ h
          rw [hi.decomp] at this
          have hl := congrArg List.length this
          have := List.length_pos_iff.2 (hU.law.decomp_ne k)
          simp only [List.length_append, List.length_cons, List.length_nil] at hl
          omega)
        (fun c d ds _ _ _ e he hc => he (by rw [hc]; exact hi.ccc))
      exact this u hu rfl

theorem normChain_seg (hU : TextLaws U) (x : List Char) {b : Char} (hb : isBoundary b = true) : ∃ X, normChain U (x ++ [b]) = X ++ [b] := by
  simp only [isBoundary, Bool.or_eq_true, beq_iff_eq] at hb
  rcases hb with rfl | rfl
  · exact ⟨normChain U x, by rw [normChain_split hU (inert_lf hU) (nl_assigned hU) (by decide), normChain_nil]⟩
  · obtain ⟨X, hX⟩ := isolateGo_behind hU x false false
    refine ⟨norm3 U X, ?_⟩
    rw [normChain_eq, isolate, hX, norm3_split hU hU.law.inert_cgj]
    simp [isolateGo, norm3_nil]

/-- Texts that end and begin with assigned scalars are isolated together exactly if each is. -/
theorem isolated_append {A B : List Char} (hA : ∀ c ∈ A.getLast?, isAssigned U c = true) (hB : ∀ c ∈ B.head?, isAssigned U c = true) :
    Isolated U (A ++ B) ↔ Isolated U A ∧ Isolated U B := by
  constructor
  · intro h
    refine ⟨?_, ?_⟩
    · intro a c b e hc
      obtain ⟨h1, h2⟩ := h a c (b ++ B) (by rw [e]; simp) hc
      refine ⟨h1, ?_⟩
      cases b with
      | nil => rw [hA c (by rw [e]; simp)] at hc; simp at hc
      | cons d b => simpa using h2
    · intro a c b e hc
      obtain ⟨h1, h2⟩ := h (A ++ a) c b (by rw [e]; simp) hc
      refine ⟨?_, h2⟩
      rcases List.eq_nil_or_concat a with rfl | ⟨a, d, rfl⟩
      · rw [hB c (by rw [e]; simp)] at hc; simp at hc
      · rw [List.concat_eq_append, ← List.append_assoc] at h1
        rw [List.concat_eq_append]
        simpa using h1
  · rintro ⟨h1, h2⟩ a c b e hc
    rcases List.append_eq_append_iff.1 e with ⟨m, e1, e2⟩ | ⟨m, e1, e2⟩
    · obtain ⟨g1, g2⟩ := h2 m c b e2 hc
      refine ⟨?_, g2⟩
      rcases List.eq_nil_or_concat m with rfl | ⟨m, d, rfl⟩
      · simp at g1
      · rw [List.concat_eq_append] at *
        rw [e1, ← List.append_assoc]; simpa using g1
    · cases m with
      | nil =>
        simp only [List.nil_append] at e2
        rw [hB c (by rw [← e2]; simp)] at hc; simp at hc
      | cons d m =>
        simp only [List.cons_append, List.cons.injEq] at e2
        obtain ⟨rfl, e2⟩ := e2
        obtain ⟨g1, g2⟩ := h1 a c m e1 hc
        refine ⟨g1, ?_⟩
        rw [e2]
        cases m with
        | nil => simp at g2
        | cons d m => simpa using g2

/-- Every unassigned scalar behind a U+34F has U+34F or an unassigned scalar behind it, or one of the reads leaves off behind this U+34F. -/
def FreeCuts (U : Ucd) (q : List Char) (cs : List (List Char)) : Prop :=
  ∀ a u b, q ++ cs.flatten = a ++ CGJ :: u :: b → isAssigned U u = false →
    Opens U b ∨ ∃ i w, i < cs.length ∧ q ++ (cs.take (i + 1)).flatten = a ++ CGJ :: w ∧ ∀ c ∈ w, isBoundary c = false

theorem freeCuts_skip {q c : List Char} {cs : List (List Char)} (h : ∀ d ∈ q ++ c, isBoundary d = false) :
    FreeCuts U q (c :: cs) ↔ FreeCuts U (q ++ c) cs := by
  unfold FreeCuts
  simp only [List.flatten_cons, List.append_assoc]
  refine forall_congr' fun a => forall_congr' fun u => forall_congr' fun b => forall_congr' fun e => forall_congr' fun hu => ?_
  refine or_congr_right ?_
  constructor
  · rintro ⟨i, w, h1, h2, h3⟩
    cases i with
    | zero =>
      have := h CGJ (by simp at h2; rw [h2]; simp)
      simp [isBoundary] at this
    | succ i => exact ⟨i, w, by simpa using h1, by simpa using h2, h3⟩
  · rintro ⟨i, w, h1, h2, h3⟩
    exact ⟨i + 1, w, by simpa using h1, by simpa using h2, h3⟩

theorem freeCuts_cut (hU : TextLaws U) {q c x y : List Char} {b : Char} {cs : List (List Char)} (h : q ++ c = x ++ b :: y) (hb : isBoundary b = true)
    (hy : ∀ d ∈ y, isBoundary d = false) : FreeCuts U q (c :: cs) ↔ Balanced U (x ++ [b]) ∧ FreeCuts U y cs := by
  have hba := boundary_assigned hU hb
  have hq : ∀ z, q ++ (c ++ z) = x ++ b :: (y ++ z) := by intro z; rw [← List.append_assoc, h]; simp
  have hcb : isBoundary CGJ = true := by decide
  constructor
  · intro hf
    constructor
    · intro a u r e hu
      -- the scalar behind lies in front of the cut
      have e' : q ++ (c :: cs).flatten = a ++ CGJ :: u :: (r ++ (y ++ cs.flatten)) := by
        rw [List.flatten_cons, hq, show x ++ b :: (y ++ cs.flatten) = (x ++ [b]) ++ (y ++ cs.flatten) by simp, e]; simp
      have hr : r ≠ [] := by
        rintro rfl
        have := congrArg List.getLast? e
        simp at this
        rw [← this, hba] at hu; simp at hu
      have hbr : b ∈ r := by
        have := congrArg List.getLast? e
        simp only [List.getLast?_append, List.getLast?_singleton, Option.some_or] at this
        obtain ⟨r', d, rfl⟩ : ∃ r' d, r = r' ++ [d] := by
          rcases List.eq_nil_or_concat r with rfl | ⟨r', d, rfl⟩
          · exact absurd rfl hr
          · exact ⟨r', d, by simp⟩
        have : b = d := by
          have h2 : (CGJ :: u :: (r' ++ [d])).getLast? = some d := by
            rw [show CGJ :: u :: (r' ++ [d]) = (CGJ :: u :: r') ++ [d] by simp, List.getLast?_concat]
          rw [h2] at this; simpa using this
        simp [this]
      rcases hf a u _ e' hu with ⟨v, r', e2, hv⟩ | ⟨i, w, h1, h2, h3⟩
      · cases r with
        | nil => exact absurd rfl hr
        | cons d r =>
          simp only [List.cons_append, List.cons.injEq] at e2
          exact ⟨d, r, rfl, by rw [e2.1]; exact hv⟩
      · exfalso
        rw [List.take_succ_cons, List.flatten_cons, hq,
          show x ++ b :: (y ++ (cs.take i).flatten) = (x ++ [b]) ++ (y ++ (cs.take i).flatten) by simp, e] at h2
        simp only [List.append_assoc, List.cons_append, List.append_cancel_left_eq, List.cons.injEq, true_and] at h2
        have := h3 b (by rw [← h2]; simp [hbr])
        rw [hb] at this; simp at this
    · intro a u r e hu
      rcases hf (x ++ b :: a) u r (by rw [List.flatten_cons, hq, e]; simp) hu with ho | ⟨i, w, h1, h2, h3⟩
      · exact Or.inl ho
      · right
        rw [List.take_succ_cons, List.flatten_cons, hq] at h2
        simp only [List.append_assoc, List.cons_append, List.append_cancel_left_eq, List.cons.injEq, true_and] at h2
        cases i with
        | zero =>
          simp only [List.take_zero, List.flatten_nil, List.append_nil] at h2
          have := hy CGJ (by rw [h2]; simp)
          rw [hcb] at this; simp at this
        | succ i => exact ⟨i, w, by simpa using h1, h2, h3⟩
  · rintro ⟨h1, h2⟩ a u r e hu
    rw [List.flatten_cons, hq, show x ++ b :: (y ++ cs.flatten) = (x ++ [b]) ++ (y ++ cs.flatten) by simp] at e
    rcases List.append_eq_append_iff.1 e with ⟨m, e1, e2⟩ | ⟨m, e1, e2⟩
    · rcases h2 m u r e2 hu with ho | ⟨i, w, g1, g2, g3⟩
      · exact Or.inl ho
      · refine Or.inr ⟨i + 1, w, by simpa using g1, ?_, g3⟩
        rw [List.take_succ_cons, List.flatten_cons, hq, g2, e1]; simp
    · cases m with
      | nil =>
        simp only [List.append_nil] at e1
        simp only [List.nil_append] at e2
        rcases h2 [] u r e2.symm hu with ho | ⟨i, w, g1, g2, g3⟩
        · exact Or.inl ho
        · refine Or.inr ⟨i + 1, w, by simpa using g1, ?_, g3⟩
          rw [List.take_succ_cons, List.flatten_cons, hq, g2, ← e1]; simp
      | cons d m =>
        simp only [List.cons_append, List.cons.injEq] at e2
        obtain ⟨rfl, e2⟩ := e2
        cases m with
        | nil =>
          -- the U+34F is where the read leaves off
          have := List.append_inj' e1 rfl
          simp only [List.cons.injEq, and_true] at this
          exact Or.inr ⟨0, y, by simp, by rw [List.take_succ_cons, List.take_zero, List.flatten_cons, List.flatten_nil, hq, this.1, this.2]; simp, hy⟩
        | cons d m =>
          simp only [List.cons_append, List.cons.injEq] at e2
          obtain ⟨rfl, e2⟩ := e2
          obtain ⟨v, r', e3, hv⟩ := h1 a u m e1 hu
          exact Or.inl ⟨v, r' ++ (y ++ cs.flatten), by rw [e2, e3]; simp, hv⟩

/-- What is delivered is isolated exactly if every segment is balanced, that is, if the cuts are free. -/
theorem cutAll_isolated (hU : TextLaws U) (cs : List (List Char)) : ∀ S : List (List Char) × List Char, (∀ c ∈ S.2, isBoundary c = false) →
    (∀ c ∈ (S.1.flatMap (normChain U)).getLast?, isAssigned U c = true) →
    (Isolated U ((cutAll S cs).1.flatMap (normChain U)) ↔ Isolated U (S.1.flatMap (normChain U)) ∧ FreeCuts U S.2 cs) := by
  induction cs with
  | nil =>
    intro S hb _
    refine ⟨fun h => ⟨h, ?_⟩, fun h => h.1⟩
    intro a u b e _
    have := hb CGJ (by simp at e; rw [e]; simp)
    simp [isBoundary] at this
  | cons c cs ih =>
    intro S hb hl
    rw [cutAll]
    rcases cut_cases S.1 (S.2 ++ c) with ⟨h1, h2⟩ | ⟨x, b, y, h1, h2, h3, h4⟩
    · rw [h2, ih (S.1, S.2 ++ c) h1 hl, freeCuts_skip h1]
    · have hba := boundary_assigned hU h2
      obtain ⟨X, hX⟩ := normChain_seg hU x h2
      rw [h4, ih (S.1 ++ [x ++ [b]], y) h3 (by
        intro d hd
        simp only [List.flatMap_append, List.flatMap_cons, List.flatMap_nil, List.append_nil, hX] at hd
        rw [← List.append_assoc] at hd
        simp at hd
        rw [← hd]; exact hba), freeCuts_cut hU h1 h2 h3]
      simp only [List.flatMap_append, List.flatMap_cons, List.flatMap_nil, List.append_nil]
      rw [isolated_append hl (head_normChain_assigned hU _), isolated_normChain_iff hU, and_assoc]

end Verif
