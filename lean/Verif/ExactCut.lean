import Verif.LossyWhole
import Verif.SpecLaws
import Verif.CountTheory

/-!
# Where cutting the content makes a difference

`Clear` (`Verif/ReaderSpec.lean`) is not only sufficient for the way the content is cut not to matter, but necessary.
-/

namespace Verif
open Ucd Spec
variable {U : Ucd}

/-! ## Isolation and normalization across a cut -/

theorem isolateGo_behind (hU : TextLaws U) (a : List Char) : ∀ need hv : Bool, ∃ X, ∀ y, isolateGo U need hv (a ++ CGJ :: y) = X ++ CGJ :: isolateGo U false true y := by
  have hC : isAssigned U CGJ = true := by simp [isAssigned, hU.assigned_cgj]
  induction a with
  | nil => intro need hv; exact ⟨[], fun y => by simp [isolateGo, hC]⟩
  | cons c a ih =>
    intro need hv
    simp only [List.cons_append, isolateGo]
    split
    · obtain ⟨X, hX⟩ := ih (!isAssigned U c) false
      exact ⟨CGJ :: c :: X, fun y => by rw [hX]; rfl⟩
    · obtain ⟨X, hX⟩ := ih false (c == CGJ)
      exact ⟨c :: X, fun y => by rw [hX]; rfl⟩

/-- Normalizing up to a U+034F and from the unassigned scalar behind it separately yields one more U+034F. -/
theorem normChain_cut (hU : TextLaws U) (a : List Char) {u : Char} (hu : isAssigned U u = false) (b : List Char) :
    ∃ X Y Z, normChain U (a ++ [CGJ]) = X ∧ normChain U (a ++ CGJ :: u :: b) = X ++ u :: Y ∧ normChain U (u :: b) = CGJ :: u :: Z := by
  obtain ⟨X, hX⟩ := isolateGo_behind hU a false false
  have hC : isAssigned U CGJ = true := by simp [isAssigned, hU.assigned_cgj]
  have hi := hU.law.inert_cgj
  have hui := inert_of_not_assigned hU hu
  have hs := norm3_split hU hui []
  refine ⟨norm3 U X ++ [CGJ], norm3 U (isolateGo U false (u == CGJ) b), norm3 U (isolateGo U true false b), ?_, ?_, ?_⟩
  · rw [normChain_eq, isolate, hX, isolateGo]
    simp only [Bool.false_eq_true, if_false]
    rw [norm3_split hU hi]; rfl
  · rw [normChain_eq, isolate, hX, norm3_split hU hi, isolateGo]
    simp only [hu, Bool.not_false, Bool.not_true, Bool.and_false, Bool.false_and, Bool.or_self, Bool.false_eq_true, if_false]
    have := hs (isolateGo U false (u == CGJ) b)
    rw [List.nil_append, norm3_nil, List.nil_append] at this
    rw [this]; simp
  · rw [normChain_eq, isolate, isolateGo]
    simp only [hu, Bool.not_false, Bool.and_self, Bool.or_true, if_true]
    have h1 := norm3_split hU hi [] (u :: isolateGo U true false b)
    have h2 := hs (isolateGo U true false b)
    rw [List.nil_append, norm3_nil, List.nil_append] at h1 h2
    rw [h1, h2]

/-! ## Finding the place in the content -/

theorem noCgjUn_guard (hU : TextLaws U) (e : Bool) (c : Char) : NoCgjUn U (startGuard U e (replace c)) := by
  have hC : isAssigned U CGJ = true := by simp [isAssigned, hU.assigned_cgj]
  have h0 : NoCgjUn U (replace c) := by
    intro a x b h
    have h1 : CGJ ∈ replace c := by rw [h]; simp
    have h2 : x ∈ replace c := by rw [h]; simp
    rcases hU.repl_assigned c _ h1 with e | e
    · rcases hU.repl_assigned c _ h2 with e' | e'
      · rw [e', ← e]; exact hC
      · simp [isAssigned, e'.1]
    · exact absurd rfl e.2
  cases hr : replace c with
  | nil => exact absurd hr (replace_ne_nil c)
  | cons d r =>
    rw [hr] at h0
    cases e with
    | false => simpa [startGuard] using h0
    | true =>
      cases hd : isStart U d with
      | true => simpa [startGuard, hd] using h0
      | false =>
        have : startGuard U true (d :: r) = CGJ :: d :: r := by simp [startGuard, hd]
        rw [this]
        intro a x b h
        cases a with
        | nil =>
          simp only [List.nil_append, List.cons.injEq, true_and] at h
          rw [← h.1]
          cases ha : U.assigned d with
          | true => simp [isAssigned, ha]
          | false => rw [hU.start_unassigned d ha] at hd; simp at hd
        | cons y a =>
          simp only [List.cons_append, List.cons.injEq] at h
          exact h0 a x b h.2

theorem noCgjUn_groundStep (hU : TextLaws U) (k : Ctl) (c : Char) : NoCgjUn U (groundStep U k c).2 := by
  have hnil : NoCgjUn U [] := by intro a x b h; simp at h
  have hone : ∀ d : Char, NoCgjUn U [d] := by
    intro d a x b h
    have := congrArg List.length h
    simp at this
    omega
  unfold groundStep
  split
  · exact hone _
  split
  · exact hnil
  split
  · exact hnil
  split
  · exact hnil
  · exact noCgjUn_guard hU _ _

theorem NoCgjUn.cons {s : List Char} {d : Char} (hs : NoCgjUn U s) (hd : d ≠ CGJ) : NoCgjUn U (d :: s) := by
  intro a x b h
  cases a with
  | nil => simp only [List.nil_append, List.cons.injEq] at h; exact absurd h.1 hd
  | cons y a => simp only [List.cons_append, List.cons.injEq] at h; exact hs a x b h.2

theorem noCgjUn_step (hU : TextLaws U) (k : Ctl) (c : Char) : NoCgjUn U (stepChar U k c).2 := by
  have hnil : NoCgjUn U [] := by intro a x b h; simp at h
  unfold stepChar
  split
  · exact noCgjUn_groundStep hU _ _
  · simp only
    split
    · exact (noCgjUn_groundStep hU _ _).cons (by decide)
    · exact hnil.cons (by decide)
  · split
    · simp only
      split
      · exact (noCgjUn_groundStep hU _ _).cons (by decide)
      · exact noCgjUn_groundStep hU _ _
    · exact hnil
  all_goals
    (repeat' split) <;> first | exact hnil | exact noCgjUn_groundStep hU _ _

theorem feed_cut (hU : TextLaws U) {a b : List Char} {u : Char} (hu : isAssigned U u = false) : ∀ (s : List Char) (k : Ctl) (o : List Char) (t : List Char),
    o ++ (feed U k s).2 ++ t = a ++ CGJ :: u :: b → (∀ c ∈ t, isAssigned U c = true) → o.length ≤ a.length + 1 →
    ∃ s1 s2, s = s1 ++ s2 ∧ s2 ≠ [] ∧ o ++ (feed U k s1).2 = a ++ [CGJ] := by
  intro s
  induction s with
  | nil =>
    intro k o t h ht hl
    exfalso
    simp only [feed, List.append_nil] at h
    rw [show a ++ CGJ :: u :: b = (a ++ [CGJ]) ++ u :: b by simp, List.append_eq_append_iff] at h
    rcases h with ⟨x, h1, h2⟩ | ⟨x, h1, h2⟩
    · have := ht u (by rw [h2]; simp)
      rw [this] at hu; simp at hu
    · cases x with
      | nil =>
        have := ht u (by simp only [List.nil_append] at h2; rw [← h2]; simp)
        rw [this] at hu; simp at hu
      | cons y x =>
        rw [h1] at hl
        simp at hl
  | cons c s ih =>
    intro k o t h ht hl
    simp only [feed] at h
    by_cases hlen : (o ++ (stepChar U k c).2).length ≤ a.length + 1
    · obtain ⟨s1, s2, e1, e2, e3⟩ := ih (stepChar U k c).1 (o ++ (stepChar U k c).2) t (by simpa using h) ht hlen
      exact ⟨c :: s1, s2, by rw [e1]; rfl, e2, by simpa [feed] using e3⟩
    · refine ⟨[], c :: s, rfl, by simp, ?_⟩
      simp only [feed, List.append_nil]
      have hn := noCgjUn_step hU k c
      generalize (stepChar U k c).2 = w at h hlen hn
      have h : o ++ (w ++ ((feed U (stepChar U k c).1 s).2 ++ t)) = a ++ CGJ :: u :: b := by simpa using h
      generalize (feed U (stepChar U k c).1 s).2 ++ t = z at h
      rw [List.length_append] at hlen
      by_cases hle : o.length ≤ a.length
      · exfalso
        obtain ⟨x, rfl⟩ : ∃ x, a = o ++ x := by
          rw [List.append_eq_append_iff] at h
          rcases h with ⟨x, h1, -⟩ | ⟨x, h1, -⟩
          · exact ⟨x, h1⟩
          · have : x = [] := List.length_eq_zero_iff.1 (by rw [h1, List.length_append] at hle; omega)
            exact ⟨[], by rw [h1, this]; simp⟩
        rw [List.append_assoc] at h
        have h := List.append_cancel_left h
        simp only [List.length_append] at hlen
        rw [show x ++ CGJ :: u :: b = (x ++ [CGJ, u]) ++ b by simp, List.append_eq_append_iff] at h
        have hw : ∃ y, w = x ++ CGJ :: u :: y := by
          rcases h with ⟨y, h1, -⟩ | ⟨y, h1, -⟩
          · have := congrArg List.length h1
            simp only [List.length_append, List.length_cons, List.length_nil] at this
            have : y = [] := List.length_eq_zero_iff.1 (by omega)
            exact ⟨[], by rw [this, List.append_nil] at h1; exact h1.symm⟩
          · exact ⟨y, by rw [h1]; simp⟩
        obtain ⟨y, hy⟩ := hw
        have := hn x u y hy
        rw [this] at hu; simp at hu
      · have hl' : o.length = (a ++ [CGJ]).length := by simp; omega
        rw [show a ++ CGJ :: u :: b = (a ++ [CGJ]) ++ u :: b by simp] at h
        exact (List.append_inj h hl').1

/-! ## The two runs -/

theorem finish_assigned (hU : TextLaws U) (k : Ctl) (b : Option Char) (st : Status) : ∀ c ∈ (finish k b st).2, isAssigned U c = true := by
  have hC : isAssigned U CGJ = true := by simp [isAssigned, hU.assigned_cgj]
  have hN : isAssigned U '\n' = true := by simp [isAssigned, hU.assigned_ascii '\n' (by decide)]
  have hS : isAssigned U ' ' = true := by simp [isAssigned, hU.assigned_ascii ' ' (by decide)]
  have h1 : ∀ c ∈ (finishState k).2, isAssigned U c = true := by
    unfold finishState
    split <;> simp [hN, hS]
  have h2 : ∀ (l : Option Char), ∀ c ∈ endGuard l, isAssigned U c = true := by
    intro l
    unfold endGuard
    split
    · split <;> simp [hC]
    · simp
  intro c hc
  unfold finish at hc
  simp only at hc
  split at hc <;> simp only [List.mem_append, List.mem_singleton] at hc
  · rcases hc with (hc | hc) | rfl
    · exact h1 c hc
    · exact h2 _ c hc
    · exact hN
  · rcases hc with hc | hc
    · exact h1 c hc
    · exact h2 _ c hc

/-- The control part of a new reader after its first read. -/
def firstCtl (nel lsps : Bool) : Ctl := { (TextInput.new nel lsps).ctl with atStart := false }

/-- A cut of the content directly behind a U+034F with an unassigned scalar behind it makes the reader insert a U+034F that it doesn't
insert when the content comes in one piece. -/
theorem cut_matters_at (hU : TextLaws U) {nel lsps : Bool} {s a b : List Char} {u : Char} (hf : form U nel lsps s = a ++ CGJ :: u :: b)
    (hu : isAssigned U u = false) {s1 s2 : List Char} (hs1 : s = s1 ++ s2) (hne : s1 ≠ [])
    (e3 : (feed U (firstCtl nel lsps) (dropBom s1)).2 = a ++ [CGJ]) :
    ∀ lens lens', Completes U nel lsps (script [] s) lens → Completes U nel lsps (script [s1] s2) lens' →
      output U nel lsps (script [] s) lens ≠ output U nel lsps (script [s1] s2) lens' := by
  generalize hk1 : firstCtl nel lsps = k1
  have hp : ∀ s : List Char, processRaw U (TextInput.new nel lsps).ctl s = feed U k1 (dropBom s) := by
    intro s
    rw [← hk1]
    unfold processRaw dropBom dropOne firstCtl
    congr 1
    cases s with
    | nil => rfl
    | cons c s => by_cases hc : c = BOM <;> simp [TextInput.new, hc]
  rw [hk1] at e3
  intro lens lens' h1 h2
  obtain ⟨X, Y, Z, n1, n2, n3⟩ := normChain_cut hU a hu b
  have g1 : output U nel lsps (script [] s) lens = X ++ u :: Y := by
    rw [output_single hU h1, ← n2, ← hf]; rfl
  have hb1 : BomSafe [s1] s2 := Or.inl (by simpa using hne)
  have hA1 := absorbAll_script hU hb1 nel lsps
  have hTe : form U nel lsps s = [] ∨ ∃ x b, form U nel lsps s = x ++ [b] ∧ isBoundary b = true := by
    rcases translate_last hU nel lsps s with e | e
    · exact Or.inl e
    · rcases List.eq_nil_or_concat (form U nel lsps s) with e' | ⟨x, y, e'⟩
      · exact Or.inl e'
      · rw [List.concat_eq_append] at e'
        have : y = '\n' := by
          change (form U nel lsps s).getLast? = _ at e
          rw [e'] at e; simpa using e
        exact Or.inr ⟨x, y, e', by rw [this]; decide⟩
  have g2 : output U nel lsps (script [s1] s2) lens' = X ++ CGJ :: u :: Z := by
    obtain ⟨r, n, hr, hok⟩ := h2
    rw [output, (run_exact hU (ending_script [s1] s2) hr hok).1]
    have ha1 : absorb U ((TextInput.new nel lsps).ctl, []) s1 .active = ((feed U k1 (dropBom s1)).1, a ++ [CGJ]) := by
      unfold absorb
      rw [hp]
      simp [e3]
    have ha2 : (absorb U ((feed U k1 (dropBom s1)).1, a ++ [CGJ]) s2 .end_).2 = a ++ CGJ :: u :: b := by
      have := congrArg Prod.snd hA1
      simp only [script, List.map_cons, List.map_nil, List.singleton_append, absorbAll, ha1, List.flatten_cons, List.flatten_nil,
        List.append_nil, ← hs1] at this
      rw [this]; exact hf
    have hseg : segments U nel lsps (script [s1] s2) = (cut (cut [] (a ++ [CGJ])).1 ((cut [] (a ++ [CGJ])).2 ++ (a ++ CGJ :: u :: b).drop (a ++ [CGJ]).length)).1 := by
      unfold segments script
      simp only [List.map_cons, List.map_nil, List.singleton_append, segAll, ha1, ha2, List.length_nil, List.drop_zero, List.nil_append]
    have hdrop : (a ++ CGJ :: u :: b).drop (a ++ [CGJ]).length = u :: b := by
      rw [show a ++ CGJ :: u :: b = (a ++ [CGJ]) ++ u :: b by simp, List.drop_left]
    have hc1 : cut [] (a ++ [CGJ]) = ([a ++ [CGJ]], []) := by
      unfold cut
      rw [lastBoundary_concat a (by decide)]
      simp only [List.take_length, List.drop_length, List.nil_append]
    rw [hseg, hdrop, hc1]
    simp only [List.nil_append]
    rw [cut_ended ?_, List.flatMap_cons, List.flatMap_nil, List.append_nil, n1, n3]
    right
    rcases hTe with e | ⟨x, y, e, hy⟩
    · rw [e] at hf; simp at hf
    · rw [e] at hf
      rcases List.eq_nil_or_concat (u :: b) with e' | ⟨x', y', e'⟩
      · simp at e'
      · rw [List.concat_eq_append] at e'
        rw [show a ++ CGJ :: u :: b = (a ++ [CGJ]) ++ u :: b by simp, e', ← List.append_assoc] at hf
        have := List.append_inj' hf rfl
        simp at this
        exact ⟨x', y', e', by rw [← this.2]; exact hy⟩
  rw [g1, g2]
  intro hc
  have := List.append_cancel_left hc
  simp only [List.cons.injEq] at this
  rw [this.1] at hu
  simp [isAssigned, hU.assigned_cgj] at hu

/-- For a content that is not `Clear` there is a cut at which the reader inserts a U+034F that it doesn't insert when the content comes
in one piece. -/
theorem cut_matters (hU : TextLaws U) {nel lsps : Bool} {s : List Char} (h : ¬ Clear U nel lsps s) : ∃ s1 s2, s = s1 ++ s2 ∧ s1 ≠ [] ∧
    ∀ lens lens', Completes U nel lsps (script [] s) lens → Completes U nel lsps (script [s1] s2) lens' →
      output U nel lsps (script [] s) lens ≠ output U nel lsps (script [s1] s2) lens' := by
  obtain ⟨a, u, b, hf, hu⟩ : ∃ a u b, form U nel lsps s = a ++ CGJ :: u :: b ∧ isAssigned U u = false := by
    simp only [Clear, Classical.not_forall] at h
    obtain ⟨a, u, b, h1, h2⟩ := h
    exact ⟨a, u, b, h1, by simpa using h2⟩
  generalize hk1 : firstCtl nel lsps = k1
  have hp : ∀ s : List Char, processRaw U (TextInput.new nel lsps).ctl s = feed U k1 (dropBom s) := by
    intro s
    rw [← hk1]
    unfold processRaw dropBom dropOne firstCtl
    congr 1
    cases s with
    | nil => rfl
    | cons c s => by_cases hc : c = BOM <;> simp [TextInput.new, hc]
  have hb0 : BomSafe [] s := by
    unfold BomSafe
    cases s <;> simp
  have hA := absorbAll_script hU hb0 nel lsps
  have hT : ∃ t, form U nel lsps s = (feed U k1 (dropBom s)).2 ++ t ∧ ∀ c ∈ t, isAssigned U c = true := by
    simp only [script, List.map_nil, List.nil_append, absorbAll, absorb, hp, reduceCtorEq, if_false, List.flatten_nil] at hA
    have := congrArg Prod.snd hA
    simp only at this
    exact ⟨_, this.symm, finish_assigned hU _ _ _⟩
  obtain ⟨t, ht1, ht2⟩ := hT
  obtain ⟨r1, s2, e1, e2, e3⟩ := feed_cut hU hu (dropBom s) k1 [] t (by rw [List.nil_append, ← ht1, hf]) ht2 (by simp)
  rw [List.nil_append] at e3
  -- the cut in the content
  obtain ⟨s1, hs1, hd1, hne⟩ : ∃ s1, s = s1 ++ s2 ∧ dropBom s1 = r1 ∧ s1 ≠ [] := by
    have hr : r1 ≠ [] := by
      rintro rfl
      simp [feed] at e3
    cases s with
    | nil => simp [dropBom, dropOne] at e1; exact absurd e1.1 hr
    | cons c s =>
      by_cases hc : c = BOM
      · subst hc
        have : dropBom (BOM :: s) = s := rfl
        rw [this] at e1
        exact ⟨BOM :: r1, by rw [e1]; rfl, rfl, by simp⟩
      · rw [dropBom_of_ne (by simpa using hc)] at e1
        refine ⟨r1, e1, dropBom_of_ne ?_, hr⟩
        cases r1 with
        | nil => exact absurd rfl hr
        | cons d r1 =>
          simp only [List.cons_append, List.cons.injEq] at e1
          rw [← e1.1]; simpa using hc
  exact ⟨s1, s2, hs1, hne, cut_matters_at hU hf hu hs1 hne (by rw [hk1, hd1]; exact e3)⟩

/-! ## The byte-order mark -/

theorem count_translate {nel lsps : Bool} {x : Char} (h1 : x ≠ CGJ) (h2 : x ≠ '\n') (s : List Char) :
    (translate U nel lsps s).count x = ((tokens finCan (single nel lsps) s).flatMap Tok.out).count x := by
  unfold translate
  simp only
  split
  · rw [count_guardEnd h1, count_guardStart h1]
  · rw [List.count_append, count_guardEnd h1, count_guardStart h1]
    simp [h2.symm]

/-- After an empty first read a byte-order mark is delivered as U+2060. -/
theorem bom_matters (hU : TextLaws U) {nel lsps : Bool} (s : List Char) (lens lens' : List Nat)
    (h1 : Completes U nel lsps (script [] (BOM :: s)) lens) (h2 : Completes U nel lsps (script [[]] (BOM :: s)) lens') :
    output U nel lsps (script [] (BOM :: s)) lens ≠ output U nel lsps (script [[]] (BOM :: s)) lens' := by
  have hw : isAssigned U WJ = true := by
    rcases hU.repl_assigned BOM WJ (by decide +kernel) with e | e
    · exact absurd e (by decide)
    · simp [isAssigned, e.1]
  have hc : ∀ x, (normChain U x).count WJ = x.count WJ := fun x => count_normChain hU hU.wj_inert hw (by decide) _ x (Nat.le_refl _)
  have g1 : output U nel lsps (script [] (BOM :: s)) lens = normChain U (translate U nel lsps s) := output_single hU h1
  have g2 : output U nel lsps (script [[]] (BOM :: s)) lens' = normChain U (form U nel lsps (BOM :: BOM :: s)) := by
    obtain ⟨r, n, hr, hok⟩ := h2
    rw [output, (run_exact hU (ending_script [[]] (BOM :: s)) hr hok).1]
    have hA := absorbAll_script hU (Or.inl (by simp) : BomSafe [] (BOM :: BOM :: s)) nel lsps
    have ha : absorb U ({ (TextInput.new nel lsps).ctl with atStart := false }, []) (BOM :: s) .end_ =
        absorb U ((TextInput.new nel lsps).ctl, []) (BOM :: BOM :: s) .end_ := by
      simp [absorb, processRaw, TextInput.new]
    have h0 : absorb U ((TextInput.new nel lsps).ctl, []) [] .active = ({ (TextInput.new nel lsps).ctl with atStart := false }, []) := by
      simp [absorb, processRaw, feed]
    have hT : (absorb U ((TextInput.new nel lsps).ctl, []) (BOM :: BOM :: s) .end_).2 = form U nel lsps (BOM :: BOM :: s) :=
      congrArg Prod.snd hA
    have hseg : segments U nel lsps (script [[]] (BOM :: s)) = (cut [] (form U nel lsps (BOM :: BOM :: s))).1 := by
      unfold segments script
      simp only [List.map_cons, List.map_nil, List.singleton_append, segAll, h0, ha, hT, List.length_nil, List.drop_zero, List.nil_append]
      rw [cut_idle (q := []) (by simp)]
      simp
    rw [hseg, cut_ended ?_, List.flatMap_nil, List.nil_append]
    rcases translate_last hU nel lsps (BOM :: BOM :: s) with e | e
    · exact Or.inl e
    · rcases List.eq_nil_or_concat (form U nel lsps (BOM :: BOM :: s)) with e' | ⟨x, y, e'⟩
      · exact Or.inl e'
      · rw [List.concat_eq_append] at e'
        have : y = '\n' := by
          change (form U nel lsps (BOM :: BOM :: s)).getLast? = _ at e
          rw [e'] at e; simpa using e
        exact Or.inr ⟨x, y, e', by rw [this]; decide⟩
  rw [g1, g2]
  intro he
  have := congrArg (List.count WJ) he
  rw [hc, hc, form_second_bom] at this
  unfold form at this
  rw [dropBom_of_ne (by simp; decide), count_translate (by decide) (by decide), count_translate (by decide) (by decide),
    tokens_one (by decide) (by decide) (by decide) (by decide), List.flatMap_cons, List.count_append] at this
  have hone : (single nel lsps WJ).out.count WJ = 1 := by
    cases nel <;> cases lsps <;> decide +kernel
  omega

end Verif
