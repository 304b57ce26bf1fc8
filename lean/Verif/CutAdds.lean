import Verif.CutPlaces

/-!
# What cutting the content does

Each read makes the reader normalize by itself what comes up to the last U+A or U+34F. Compared with normalizing everything at once this can only
insert U+34F, and does so exactly if an unassigned scalar comes directly behind a place where it cuts.
-/

namespace Verif
open Ucd Spec
variable {U : Ucd}

/-- `t` is `s` with some U+34F inserted. -/
structure Spec.Adds (s t : List Char) : Prop where
  sub : s.Sublist t
  same : t.filter (· ≠ CGJ) = s.filter (· ≠ CGJ)

theorem Spec.Adds.refl (s : List Char) : Adds s s := ⟨List.Sublist.refl _, rfl⟩

theorem Spec.Adds.trans {a b c : List Char} (h : Adds a b) (g : Adds b c) : Adds a c := ⟨h.sub.trans g.sub, g.same.trans h.same⟩

theorem Spec.Adds.append {a b c d : List Char} (h : Adds a b) (g : Adds c d) : Adds (a ++ c) (b ++ d) :=
  ⟨h.sub.append g.sub, by rw [List.filter_append, List.filter_append, h.same, g.same]⟩

theorem Spec.Adds.cgj (s : List Char) : Adds s (CGJ :: s) := ⟨List.sublist_cons_self _ _, by simp⟩

theorem isolateGo_need (b : List Char) : isolateGo U true false b = isolateGo U false false b ∨ isolateGo U true false b = CGJ :: isolateGo U false false b := by
  cases b with
  | nil => exact Or.inr rfl
  | cons c b =>
    by_cases e : c = CGJ
    · subst e
      left
      unfold isolateGo
      cases isAssigned U CGJ <;> simp
    · cases h : isAssigned U c with
      | true => right; simp [isolateGo, h, e, beq_eq_false_iff_ne.2 e]
      | false => left; simp [isolateGo, h]

/-- Behind a boundary with no unassigned scalar the text may be cut. -/
theorem normChain_fine (hU : TextLaws U) (x : List Char) {b : Char} (hb : isBoundary b = true) {z : List Char} (h : b = CGJ → HeadOk U z) :
    normChain U (x ++ b :: z) = normChain U (x ++ [b]) ++ normChain U z := by
  by_cases hc : b = CGJ
  · subst hc
    have hC : isAssigned U CGJ = true := by simp [isAssigned, hU.assigned_cgj]
    obtain ⟨X, hX⟩ := isolateGo_behind hU x false false
    have hi := hU.law.inert_cgj
    have hz : isolateGo U false true z = isolateGo U false false z := by
      cases z with
      | nil => rfl
      | cons c z =>
        have := h rfl c (by simp)
        simp [isolateGo, this]
    rw [normChain_eq, normChain_eq, normChain_eq, isolate, isolate, isolate, hX, hX, norm3_split hU hi, norm3_split hU hi, hz]
    simp [isolateGo, norm3_nil]
  · have : b = '\n' := by
      simp only [isBoundary, Bool.or_eq_true, beq_iff_eq] at hb
      rcases hb with h | h
      · exact h
      · exact absurd h hc
    subst this
    rw [normChain_split hU (inert_lf hU) (nl_assigned hU) (by decide), normChain_nl hU]; simp

theorem normChain_inside (hU : TextLaws U) (x : List Char) {z : List Char} (h : ¬ HeadOk U z) :
    Adds (normChain U (x ++ CGJ :: z)) (normChain U (x ++ [CGJ]) ++ normChain U z) ∧
    (normChain U (x ++ CGJ :: z)).length < (normChain U (x ++ [CGJ]) ++ normChain U z).length := by
  have hC : isAssigned U CGJ = true := by simp [isAssigned, hU.assigned_cgj]
  obtain ⟨X, hX⟩ := isolateGo_behind hU x false false
  have hi := hU.law.inert_cgj
  cases z with
  | nil => exact absurd (fun c hc => by simp at hc) h
  | cons u z =>
    have hu : isAssigned U u = false := by
      cases hx : isAssigned U u with
      | false => rfl
      | true => exact absurd (fun c hc => by simp at hc; subst hc; exact hx) h
    have hui := inert_of_not_assigned hU hu
    have huc : (u == CGJ) = false := by
      rw [beq_eq_false_iff_ne]; rintro rfl; rw [hC] at hu; simp at hu
    have e1 : isolateGo U false true (u :: z) = u :: isolateGo U false false z := by simp [isolateGo, hu, huc]
    have e2 : isolateGo U false false (u :: z) = CGJ :: u :: isolateGo U true false z := by simp [isolateGo, hu]
    rw [normChain_eq, normChain_eq, normChain_eq, isolate, isolate, isolate, hX, hX, norm3_split hU hi, norm3_split hU hi, e1, e2,
      norm3_inert_cons hU hi, norm3_inert_cons hU hui, norm3_inert_cons hU hui]
    have e3 : isolateGo U false true ([] : List Char) = [] := rfl
    rw [e3, norm3_nil]
    have hz : Adds (norm3 U (isolateGo U false false z)) (norm3 U (isolateGo U true false z)) ∧
        (norm3 U (isolateGo U false false z)).length ≤ (norm3 U (isolateGo U true false z)).length := by
      rcases isolateGo_need (U := U) z with e | e
      · rw [e]; exact ⟨Adds.refl _, Nat.le_refl _⟩
      · rw [e, norm3_inert_cons hU hi]; exact ⟨Adds.cgj _, by simp⟩
    constructor
    · have := ((Adds.refl (norm3 U X ++ [CGJ])).append ((Adds.refl [u]).append hz.1)).trans
        ((Adds.refl (norm3 U X ++ [CGJ])).append (Adds.cgj _))
      simpa using this
    · simp only [List.length_append, List.length_cons, List.length_nil]
      omega

/-- After each read that makes a cut, what comes directly behind the cut is not an unassigned scalar, or the cut is behind U+A. -/
def CleanCuts (U : Ucd) : List Char → List (List Char) → Prop
  | _, [] => True
  | q, c :: cs => (∀ x y, q ++ c = x ++ CGJ :: y → (∀ d ∈ y, isBoundary d = false) → HeadOk U (y ++ cs.flatten)) ∧
    CleanCuts U (cut [] (q ++ c)).2 cs

theorem cut_snd (segs : List (List Char)) (q : List Char) : (cut segs q).2 = (cut [] q).2 := by
  unfold cut; split <;> rfl

/-- What the cuts make of a text, compared with what is made of it as a whole. -/
theorem cutAll_adds (hU : TextLaws U) (cs : List (List Char)) : ∀ S : List (List Char) × List Char,
    (S.2 ++ cs.flatten = [] ∨ ∃ x b, S.2 ++ cs.flatten = x ++ [b] ∧ isBoundary b = true) → (∀ c ∈ S.2, isBoundary c = false) →
    Adds (S.1.flatMap (normChain U) ++ normChain U (S.2 ++ cs.flatten)) ((cutAll S cs).1.flatMap (normChain U)) ∧
    (CleanCuts U S.2 cs → (cutAll S cs).1.flatMap (normChain U) = S.1.flatMap (normChain U) ++ normChain U (S.2 ++ cs.flatten)) ∧
    (¬ CleanCuts U S.2 cs → (S.1.flatMap (normChain U) ++ normChain U (S.2 ++ cs.flatten)).length < ((cutAll S cs).1.flatMap (normChain U)).length) := by
  induction cs with
  | nil =>
    intro S hl hb
    simp only [List.flatten_nil, List.append_nil] at *
    have h0 : S.2 = [] := by
      rcases hl with h | ⟨x, b, h, hb'⟩
      · exact h
      · have := hb b (by rw [h]; simp)
        rw [this] at hb'; simp at hb'
    simp [cutAll, h0, normChain_nil, CleanCuts, Adds.refl]
  | cons c cs ih =>
    intro S hl hb
    simp only [List.flatten_cons, CleanCuts, cutAll] at *
    rw [← List.append_assoc] at *
    rcases cut_cases S.1 (S.2 ++ c) with ⟨h1, h2⟩ | ⟨x, b, y, h1, h2, h3, h4⟩
    · have hs := cut_snd S.1 (S.2 ++ c)
      rw [h2] at hs ⊢
      simp only at hs
      rw [← hs]
      obtain ⟨k1, k2, k3⟩ := ih (S.1, S.2 ++ c) hl h1
      simp only at k1 k2 k3
      have hv : ∀ x y, S.2 ++ c = x ++ CGJ :: y → (∀ d ∈ y, isBoundary d = false) → HeadOk U (y ++ cs.flatten) := by
        intro x y e _
        have := h1 CGJ (by rw [e]; simp)
        simp [isBoundary] at this
      exact ⟨k1, fun h => k2 h.2, fun h => k3 fun h' => h ⟨hv, h'⟩⟩
    · have hs := cut_snd S.1 (S.2 ++ c)
      rw [h4] at hs ⊢
      simp only at hs
      rw [← hs]
      rw [h1] at hl ⊢
      have e : x ++ b :: y ++ cs.flatten = x ++ b :: (y ++ cs.flatten) := by simp
      rw [e] at hl ⊢
      have hl' : y ++ cs.flatten = [] ∨ ∃ x b, y ++ cs.flatten = x ++ [b] ∧ isBoundary b = true := by
        rcases List.eq_nil_or_concat (y ++ cs.flatten) with h0 | ⟨z, d, h0⟩
        · exact Or.inl h0
        · rw [List.concat_eq_append] at h0
          rw [h0] at hl ⊢
          rcases hl with h | ⟨x', b', h, hb'⟩
          · simp at h
          · have h' : x ++ b :: z ++ [d] = x' ++ [b'] := by simpa using h
            have := (List.append_inj' h' rfl).2
            simp only [List.cons.injEq, and_true] at this
            exact Or.inr ⟨z, d, rfl, by rw [this]; exact hb'⟩
      obtain ⟨k1, k2, k3⟩ := ih (S.1 ++ [x ++ [b]], y) hl' h3
      simp only [List.flatMap_append, List.flatMap_cons, List.flatMap_nil, List.append_nil] at k1 k2 k3
      have hcut : (∀ x' y', x ++ b :: y = x' ++ CGJ :: y' → (∀ d ∈ y', isBoundary d = false) → HeadOk U (y' ++ cs.flatten)) ↔
          (b = CGJ → HeadOk U (y ++ cs.flatten)) := by
        constructor
        · rintro h rfl; exact h x y rfl h3
        · intro h x' y' e' hy'
          obtain ⟨-, f2, f3⟩ := last_boundary_unique e' h2 (by simp [isBoundary]) h3 hy'
          rw [← f3]; exact h f2
      rw [hcut]
      by_cases ho : b = CGJ → HeadOk U (y ++ cs.flatten)
      · rw [normChain_fine hU x h2 ho, ← List.append_assoc]
        exact ⟨k1, fun h => k2 h.2, fun h => k3 fun h' => h ⟨ho, h'⟩⟩
      · have hbc : b = CGJ := Classical.byContradiction fun h => ho fun h' => absurd h' h
        subst hbc
        have ho' : ¬ HeadOk U (y ++ cs.flatten) := fun h => ho fun _ => h
        obtain ⟨a1, a2⟩ := normChain_inside hU x ho'
        have a3 := (Adds.refl (S.1.flatMap (normChain U))).append a1
        rw [← List.append_assoc] at a3
        have hle := k1.sub.length_le
        refine ⟨a3.trans k1, fun h => absurd h.1 ho, fun _ => ?_⟩
        simp only [List.length_append] at *
        omega

/-- The cuts are clean exactly if no read ends inside. -/
theorem cleanCuts_iff (cs : List (List Char)) : ∀ {p : List Char} {S : List (List Char) × List Char}, RestOf p S →
    ¬ EndsInside U (p ++ cs.flatten) p →
    (CleanCuts U S.2 cs ↔ ∀ i, i < cs.length → ¬ EndsInside U (p ++ cs.flatten) (p ++ (cs.take (i + 1)).flatten)) := by
  induction cs with
  | nil => intro p S _ _; simp [CleanCuts]
  | cons c cs ih =>
    intro p S h hp
    have hr := restOf_cut h c
    simp only [List.flatten_cons] at hp ⊢
    rw [← List.append_assoc] at *
    have key : (∀ x y, S.2 ++ c = x ++ CGJ :: y → (∀ d ∈ y, isBoundary d = false) → HeadOk U (y ++ cs.flatten)) ↔
        ¬ EndsInside U (p ++ c ++ cs.flatten) (p ++ c) := by
      obtain ⟨h1, h2⟩ := h
      constructor
      · rintro hh ⟨a, w, u, r, e1, e2, e3, e4⟩
        have hw : ∀ d ∈ w, isBoundary d = false := fun d hd => boundary_iff.2 (e4 d hd)
        have fin : ∀ x, S.2 ++ c = x ++ CGJ :: w → False := by
          intro x e
          have := hh x w e hw
          rw [e1] at e2
          simp only [List.append_assoc, List.cons_append, List.append_cancel_left_eq, List.cons.injEq, true_and] at e2
          rw [e2] at this
          rw [this u (by simp)] at e3
          simp at e3
        rcases h2 with h2 | ⟨x, b, hb, h2⟩
        · exact fin a (by rw [h2, e1])
        · rw [h2] at e1
          rcases cut_cases [] (S.2 ++ c) with ⟨k1, -⟩ | ⟨x', b', y, k1, k2, k3, -⟩
          · have e1' : x ++ b :: (S.2 ++ c) = a ++ CGJ :: w := by simpa using e1
            obtain ⟨f1, f2, f3⟩ := last_boundary_unique e1' hb (by simp [isBoundary]) k1 hw
            refine hp ⟨a, S.2, u, r, by rw [h2, f1, f2], by rw [← e2], e3, fun d hd => boundary_iff.1 (h1 d hd)⟩
          · have e1' : (x ++ b :: x') ++ b' :: y = a ++ CGJ :: w := by rw [← e1]; simp [k1]
            obtain ⟨f1, f2, f3⟩ := last_boundary_unique e1' k2 (by simp [isBoundary]) k3 hw
            exact fin x' (by rw [k1, f2, f3])
      · intro hn x y e hy d hd
        cases ha : isAssigned U d with
        | true => rfl
        | false =>
          exfalso
          obtain ⟨r, er⟩ : ∃ r, y ++ cs.flatten = d :: r := by
            cases hx : y ++ cs.flatten with
            | nil => rw [hx] at hd; simp at hd
            | cons d' r' => rw [hx] at hd; simp at hd; exact ⟨r', by rw [hd]⟩
          obtain ⟨z, hz⟩ : ∃ z, p ++ c = z ++ CGJ :: y := by
            rcases h2 with h2 | ⟨x', b, hb, h2⟩
            · exact ⟨x, by rw [← h2, e]⟩
            · exact ⟨x' ++ b :: x, by rw [h2]; simp [e]⟩
          exact hn ⟨z, y, d, r, hz, by rw [hz]; simp [er], ha, fun d hd => boundary_iff.1 (hy d hd)⟩
    have hsnd := cut_snd S.1 (S.2 ++ c)
    rw [CleanCuts, key]
    constructor
    · rintro ⟨k1, k2⟩ i hi
      cases i with
      | zero => simpa using k1
      | succ i =>
        rw [← hsnd, ih hr k1] at k2
        have := k2 i (by simpa using hi)
        simpa using this
    · intro hh
      have k1 : ¬ EndsInside U (p ++ c ++ cs.flatten) (p ++ c) := by simpa using hh 0 (by simp)
      refine ⟨k1, ?_⟩
      rw [← hsnd, ih hr k1]
      intro i hi
      have := hh (i + 1) (by simpa using hi)
      simpa using this

/-! ## The reads -/

/-- What each read adds to the text. -/
def outs (U : Ucd) (kt : Ctl × List Char) : List Event → List (List Char)
  | [] => []
  | .data s st :: es => (absorb U kt s st).2.drop kt.2.length :: outs U (absorb U kt s st) es
  | .err :: es => [] :: outs U kt es

theorem outs_flatten (es : List Event) : ∀ kt : Ctl × List Char, kt.2 ++ (outs U kt es).flatten = (absorbAll U kt es).2 := by
  induction es with
  | nil => intro kt; simp [outs, absorbAll]
  | cons e es ih =>
    intro kt
    cases e with
    | err => simp [outs, absorbAll, ih]
    | data s st =>
      simp only [outs, absorbAll, List.flatten_cons]
      rw [← ih, ← List.append_assoc, ← absorb_grows]

theorem outs_take (es : List Event) : ∀ (kt : Ctl × List Char) (i : Nat), (outs U kt es).take i = outs U kt (es.take i) := by
  induction es with
  | nil => intro kt i; simp [outs]
  | cons e es ih =>
    intro kt i
    cases i with
    | zero => simp [outs]
    | succ i => cases e <;> simp [outs, ih]

theorem outs_length (es : List Event) : ∀ kt : Ctl × List Char, (outs U kt es).length = es.length := by
  induction es with
  | nil => intro kt; rfl
  | cons e es ih => intro kt; cases e <;> simp [outs, ih]

theorem segAll_outs (es : List Event) : ∀ (kt : Ctl × List Char) (S : List (List Char) × List Char), (∀ e ∈ es, e ≠ .err) →
    segAll U kt S es = cutAll S (outs U kt es) := by
  induction es with
  | nil => intro kt S _; rfl
  | cons e es ih =>
    intro kt S h
    cases e with
    | err => exact absurd rfl (h .err (by simp))
    | data s st =>
      simp only [segAll, outs, cutAll]
      exact ih _ _ fun e he => h e (by simp [he])

/-! ## What a part of the content amounts to -/

/-- The text of a content without guard and newline at the end. -/
def Spec.bodyOf (U : Ucd) (nel lsps : Bool) (s : List Char) : List Char := guardStart U ((tokens finCan (single nel lsps) s).flatMap Tok.out)

/-- What the beginning `p` of a content amounts to before it is known what follows: what precedes a U+A put behind it. A carriage return or form feed
at its end is left open. If an escape sequence is open at its end that would swallow the U+A, as it would swallow a letter, nothing is left open. -/
def Spec.settled (U : Ucd) (nel lsps : Bool) (p : List Char) : List Char :=
  if bodyOf U nel lsps (p ++ ['\n']) = bodyOf U nel lsps (p ++ ['a']) then bodyOf U nel lsps p else (bodyOf U nel lsps (p ++ ['\n'])).dropLast

theorem full_append (k : Ctl) (a b : List Char) : (full U k (a ++ b)).2 = (feed U k a).2 ++ (full U (feed U k a).1 b).2 := by
  simp [full, feed_append]

theorem feed_settled (hU : TextLaws U) (nel lsps : Bool) (p : List Char) : (feed U (firstCtl nel lsps) p).2 = settled U nel lsps p := by
  have hb : ∀ s, bodyOf U nel lsps s = (full U (firstCtl nel lsps) s).2 := by
    intro s
    rw [(full_tokens hU _ s (firstCtl nel lsps) true (Nat.le_refl _) rfl).1]
    rfl
  unfold settled
  simp only [hb, full_append]
  have hp : (full U (firstCtl nel lsps) p).2 = (feed U (firstCtl nel lsps) p).2 ++ (full U (feed U (firstCtl nel lsps) p).1 []).2 := by
    have := full_append (U := U) (firstCtl nel lsps) p []
    simpa using this
  rw [hp]
  generalize (feed U (firstCtl nel lsps) p).2 = X
  generalize (feed U (firstCtl nel lsps) p).1 = k
  have ha : isStart U 'a' = true := hU.start_ascii 'a' (by decide)
  have hr : replace 'a' = ['a'] := by decide +kernel
  have hga : ∀ k : Ctl, (groundStep U k 'a').2 = ['a'] ∧ ∃ b, (groundStep U k 'a').1.state = .ground b := by
    intro k
    unfold groundStep
    rw [if_neg (by decide), if_neg (by decide), if_neg (by decide), if_neg (by decide)]
    have e : (k.nel && 'a' == NEL || k.lsps && ('a' == LS || 'a' == PS)) = false := by
      have h1 : ('a' == NEL) = false := by decide
      have h2 : ('a' == LS) = false := by decide
      have h3 : ('a' == PS) = false := by decide
      simp [h1, h2, h3]
    simp only [e, Bool.false_eq_true, if_false, hr]
    refine ⟨?_, _, rfl⟩
    cases k.expectStarter <;> simp [startGuard, ha]
  have hgn : ∀ k : Ctl, groundStep U k '\n' = ({ k with state := .ground true, expectStarter := false }, ['\n']) := by
    intro k; unfold groundStep; rw [if_pos rfl]
  have h0 : ∀ {j : Ctl} {b : Bool}, j.state = .ground b → (finishState j).2 = [] := by
    intro j b h; simp [finishState, h]
  cases hk : k.state with
  | ground b =>
    obtain ⟨g1, b', g2⟩ := hga k
    have e1 : (full U k ['\n']).2 = ['\n'] := by simp [full, feed, stepChar, hk, hgn, finishState]
    have e2 : (full U k ['a']).2 = ['a'] := by simp [full, feed, stepChar, hk, g1, h0 g2]
    rw [e1, e2, if_neg (by simp)]; simp
  | cr =>
    obtain ⟨g1, b', g2⟩ := hga { k with state := .ground true, expectStarter := false }
    have e1 : (full U k ['\n']).2 = ['\n'] := by simp [full, feed, stepChar, hk, finishState]
    have e2 : (full U k ['a']).2 = ['\n', 'a'] := by simp [full, feed, stepChar, hk, g1, h0 g2]
    rw [e1, e2, if_neg (by simp)]; simp
  | ff =>
    obtain ⟨g1, b', g2⟩ := hga { k with state := .ground false, expectStarter := false }
    have hF : ('a' ≠ FF) ∧ ('\n' ≠ FF) := by decide
    have e1 : (full U k ['\n']).2 = ['\n'] := by simp [full, feed, stepChar, hk, hgn, finishState, hF.2]
    have e2 : (full U k ['a']).2 = [' ', 'a'] := by simp [full, feed, stepChar, hk, g1, h0 g2, hF.1]
    rw [e1, e2, if_neg (by simp)]; simp
  | esc =>
    have e1 : (full U k ['\n']).2 = ['\n'] := by
      simp [full, feed, stepChar, hk, hgn, finishState, between, show ('\n' == CAN) = false by decide, show '\n' ≠ ESC by decide]
    have e2 : (full U k ['a']).2 = [] := by
      simp [full, feed, stepChar, hk, finishState, between, show 'a' ≠ ESC by decide]
    rw [e1, e2, if_neg (by simp)]; simp
  | csiStart =>
    have e1 : (full U k ['\n']).2 = ['\n'] := by
      simp [full, feed, stepChar, hk, hgn, finishState, between, show '\n' ≠ CAN by decide]
    have e2 : (full U k ['a']).2 = [] := by
      simp [full, feed, stepChar, hk, finishState, between]
    rw [e1, e2, if_neg (by simp)]; simp
  | csi =>
    have e1 : (full U k ['\n']).2 = ['\n'] := by
      simp [full, feed, stepChar, hk, hgn, finishState, between, show '\n' ≠ CAN by decide]
    have e2 : (full U k ['a']).2 = [] := by
      simp [full, feed, stepChar, hk, finishState, between]
    rw [e1, e2, if_neg (by simp)]; simp
  | osc =>
    have e1 : (full U k ['\n']).2 = [] := by
      simp [full, feed, stepChar, hk, finishState, show '\n' ≠ CAN by decide, show '\n' ≠ BEL by decide, show '\n' ≠ ESC by decide]
    have e2 : (full U k ['a']).2 = [] := by
      simp [full, feed, stepChar, hk, finishState, show 'a' ≠ CAN by decide, show 'a' ≠ BEL by decide, show 'a' ≠ ESC by decide]
    have e3 : (full U k []).2 = [] := by simp [full, feed, finishState, hk]
    rw [e1, e2, e3, if_pos rfl]; simp
  | linux =>
    have e1 : (full U k ['\n']).2 = [] := by simp [full, feed, stepChar, hk, finishState, between]
    have e2 : (full U k ['a']).2 = [] := by simp [full, feed, stepChar, hk, finishState, between]
    have e3 : (full U k []).2 = [] := by simp [full, feed, finishState, hk]
    rw [e1, e2, e3, if_pos rfl]; simp

theorem processRaw_first (nel lsps : Bool) (s : List Char) : processRaw U (TextInput.new nel lsps).ctl s = feed U (firstCtl nel lsps) (dropBom s) := by
  unfold processRaw dropBom dropOne firstCtl
  congr 1
  cases s with
  | nil => rfl
  | cons c s => by_cases hc : c = BOM <;> simp [TextInput.new, hc]

theorem dropBom_part {s t : List Char} (h : s ≠ [] ∨ (s ++ t).head? ≠ some BOM) : dropBom (s ++ t) = dropBom s ++ t := by
  cases s with
  | nil =>
    rw [List.nil_append]
    have : t.head? ≠ some BOM := by simpa using h
    rw [dropBom_of_ne this]; rfl
  | cons c s => simp only [List.cons_append, dropBom, dropOne]; split <;> rfl

/-- What has been handed on after the first reads. -/
theorem absorbAll_part (hU : TextLaws U) (nel lsps : Bool) {chunks : List (List Char)} {last : List Char} (hb : BomSafe chunks last) (i : Nat) :
    (absorbAll U ((TextInput.new nel lsps).ctl, []) ((chunks.take i).map fun c => .data c .active)).2 =
      settled U nel lsps (dropBom (chunks.take i).flatten) := by
  rw [← feed_settled hU]
  cases chunks with
  | nil => simp [absorbAll, dropBom, dropOne, feed]
  | cons s chunks =>
    cases i with
    | zero => simp [absorbAll, dropBom, dropOne, feed]
    | succ i =>
      simp only [List.take_succ_cons, List.map_cons, absorbAll, absorb, processRaw_first, if_true, List.nil_append, List.flatten_cons]
      rw [absorbAll_active _ _ _ (by rw [feed_atStart]; rfl), dropBom_part, feed_append]
      unfold BomSafe at hb
      cases s with
      | cons c s => left; simp
      | nil =>
        right
        rcases hb with h | h
        · simp at h
        · intro hx
          refine h ?_
          simp only [List.flatten_cons, List.nil_append] at hx ⊢
          rw [← List.take_append_drop i chunks, List.flatten_append, List.append_assoc]
          rw [List.head?_append, hx]; rfl

theorem not_inside_nil {s : List Char} : ¬ EndsInside U s [] := by
  rintro ⟨a, w, u, r, e, -⟩
  simp at e

/-- What is delivered for a content read in several pieces is what would be delivered for it in one piece with some U+34F inserted; and it is the
same exactly when no read but the last ends inside. -/
theorem reads_add (hU : TextLaws U) (nel lsps : Bool) {chunks : List (List Char)} {last : List Char} (hb : BomSafe chunks last)
    {lens : List Nat} (hc : Completes U nel lsps (script chunks last) lens) {T : List Char} (hT : T = translate U nel lsps (dropBom (chunks.flatten ++ last))) :
    Adds (normChain U T) (output U nel lsps (script chunks last) lens) ∧
    (output U nel lsps (script chunks last) lens = normChain U T ↔
      ∀ i, i < chunks.length → ¬ EndsInside U T (settled U nel lsps (dropBom (chunks.take (i + 1)).flatten))) ∧
    (output U nel lsps (script chunks last) lens ≠ normChain U T → (normChain U T).length < (output U nel lsps (script chunks last) lens).length) := by
  obtain ⟨r, n, h1, h2⟩ := hc
  have ho := (run_exact hU (ending_script chunks last) h1 h2).1
  have hseg : segments U nel lsps (script chunks last) = (cutAll ([], []) (outs U ((TextInput.new nel lsps).ctl, []) (script chunks last))).1 := by
    unfold segments
    rw [segAll_outs _ _ _ (by
      intro e he
      simp only [script, List.mem_append, List.mem_map, List.mem_singleton] at he
      rcases he with ⟨c, -, rfl⟩ | rfl <;> simp)]
  have hfl : (outs U ((TextInput.new nel lsps).ctl, []) (script chunks last)).flatten = T := by
    have := outs_flatten (U := U) (script chunks last) ((TextInput.new nel lsps).ctl, [])
    rw [absorbAll_script hU hb, ← hT, List.nil_append] at this
    exact this
  have hpart : ∀ i, i < chunks.length → ((outs U ((TextInput.new nel lsps).ctl, []) (script chunks last)).take (i + 1)).flatten =
      settled U nel lsps (dropBom (chunks.take (i + 1)).flatten) := by
    intro i hi
    rw [← absorbAll_part hU nel lsps hb, outs_take]
    have := outs_flatten (U := U) ((script chunks last).take (i + 1)) ((TextInput.new nel lsps).ctl, [])
    rw [List.nil_append] at this
    rw [this]
    unfold script
    rw [List.take_append_of_le_length (by simp; omega), List.map_take]
  have hlen : (outs U ((TextInput.new nel lsps).ctl, []) (script chunks last)).length = chunks.length + 1 := by
    rw [outs_length]; simp [script]
  generalize outs U ((TextInput.new nel lsps).ctl, []) (script chunks last) = cs at *
  have hend : T = [] ∨ ∃ x b, T = x ++ [b] ∧ isBoundary b = true := by
    rcases translate_last hU nel lsps (chunks.flatten ++ last) with e | e
    · exact Or.inl (by rw [hT]; exact e)
    · rw [← hT] at e
      rcases List.eq_nil_or_concat T with e' | ⟨x, y, e'⟩
      · exact Or.inl e'
      · rw [List.concat_eq_append] at e'
        have : y = '\n' := by rw [e'] at e; simpa using e
        exact Or.inr ⟨x, y, e', by rw [this]; decide⟩
  have hr : RestOf [] (([], []) : List (List Char) × List Char) := ⟨by simp, Or.inl rfl⟩
  have hcl := cleanCuts_iff (U := U) cs hr (not_inside_nil)
  obtain ⟨k1, k2, k3⟩ := cutAll_adds hU cs ([], []) (by rw [List.nil_append, hfl]; exact hend) (by simp)
  simp only [List.nil_append, hfl, List.flatMap_nil] at hcl k1 k2 k3
  have hfine : CleanCuts U [] cs ↔ ∀ i, i < chunks.length → ¬ EndsInside U T (settled U nel lsps (dropBom (chunks.take (i + 1)).flatten)) := by
    rw [hcl]
    constructor
    · intro h i hi
      rw [← hpart i hi]
      exact h i (by omega)
    · intro h i hi
      by_cases hi' : i < chunks.length
      · rw [hpart i hi']; exact h i hi'
      · rw [List.take_of_length_le (by omega), hfl]
        rintro ⟨a, w, u, r, e1, e2, e3, e4⟩
        rw [e1] at e2
        simp only [List.append_cancel_left_eq, List.cons.injEq, true_and] at e2
        rcases hend with h0 | ⟨x, b, h0, hb'⟩
        · rw [e1] at h0; simp at h0
        · rw [e1, e2, show a ++ CGJ :: u :: r = (a ++ [CGJ]) ++ (u :: r) by simp] at h0
          have := congrArg List.getLast? h0
          rw [List.getLast?_append, List.getLast?_append] at this
          have hm : b ∈ u :: r := by
            cases hx : (u :: r).getLast? with
            | none => simp at hx
            | some d =>
              rw [hx] at this
              simp at this
              rw [← this]
              exact List.mem_of_mem_getLast? hx
          rw [← e2] at hm
          rw [boundary_iff.2 (e4 b hm)] at hb'
          simp at hb'
  rw [output, ho, hseg, ← hfine]
  refine ⟨k1, ⟨fun he => Classical.byContradiction fun hn => ?_, k2⟩, fun hn => k3 fun h => hn (k2 h)⟩
  have := k3 hn
  rw [he] at this
  omega

/-- Isolating as the code does leaves out some U+34F of the specification's isolation, and nothing else. -/
theorem isolate_adds (hU : TextLaws U) (s : List Char) : ∀ (X : List Char) (need hv : Bool),
    Adds (norm3 U (X ++ isolateGo U need hv s)) (norm3 U (X ++ specGo U need hv s)) := by
  have hC : isAssigned U CGJ = true := by simp [isAssigned, hU.assigned_cgj]
  induction s with
  | nil => intro X need hv; exact Adds.refl _
  | cons c s ih =>
    intro X need hv
    simp only [isolateGo, specGo]
    split
    case isTrue h =>
      have := ih (X ++ [CGJ, c]) (!isAssigned U c) false
      simpa using this
    case isFalse h =>
      cases hc : isAssigned U c with
      | true =>
        have := ih (X ++ [c]) false (c == CGJ)
        simpa using this
      | false =>
        have hcc : (c == CGJ) = false := by simp; rintro rfl; rw [hC] at hc; simp at hc
        rw [hcc, Bool.not_false, specGo_true hU, norm3_split hU (inert_of_not_assigned hU hc), norm3_split hU (inert_of_not_assigned hU hc)]
        refine (Adds.refl _).append ((Adds.refl [c]).append (a := [c]) (b := [c]) ?_)
        have := ih [] false false
        simp only [List.nil_append] at this
        split
        · exact this
        · show Adds (norm3 U _) (norm3 U (CGJ :: _))
          rw [norm3_inert_cons hU hU.law.inert_cgj]
          exact this.trans (Adds.cgj _)

theorem normChain_adds (hU : TextLaws U) (s : List Char) : Adds (normChain U s) (normalize U s) := by
  have hN : normalize U s = norm3 U (specGo U false false s) := by
    rw [← spec_isolate_go hU]; rfl
  have := isolate_adds hU s [] false false
  rwa [hN, normChain_eq, isolate]

theorem isolate_inserts (hU : TextLaws U) (s : List Char) : ∀ (X : List Char) (hv : Bool),
    Adds (norm3 U (X ++ s)) (norm3 U (X ++ isolateGo U false hv s)) := by
  have hC : isAssigned U CGJ = true := by simp [isAssigned, hU.assigned_cgj]
  have hi := hU.law.inert_cgj
  induction s with
  | nil => intro X hv; exact Adds.refl _
  | cons c s ih =>
    intro X hv
    cases hc : isAssigned U c with
    | true =>
      have := ih (X ++ [c]) (c == CGJ)
      simpa [isolateGo, hc] using this
    | false =>
      have hui := inert_of_not_assigned hU hc
      have h0 := ih [] false
      have hcc : (c == CGJ) = false := by simp; rintro rfl; rw [hC] at hc; simp at hc
      simp only [List.nil_append] at h0
      have h1 : Adds (norm3 U s) (norm3 U (isolateGo U true false s)) := by
        rcases isolateGo_need (U := U) s with e | e
        · rw [e]; exact h0
        · rw [e, norm3_inert_cons hU hi]; exact h0.trans (Adds.cgj _)
      cases hv with
      | true =>
        have e : isolateGo U false true (c :: s) = c :: isolateGo U false false s := by simp [isolateGo, hc, hcc]
        rw [e, norm3_split hU hui, norm3_split hU hui]
        exact (Adds.refl _).append ((Adds.refl [c]).append h0)
      | false =>
        have e : isolateGo U false false (c :: s) = CGJ :: c :: isolateGo U true false s := by simp [isolateGo, hc]
        rw [e, norm3_split hU hui, norm3_split hU hi, norm3_inert_cons hU hui]
        exact (Adds.refl _).append (((Adds.refl [c]).append h1).trans (Adds.cgj _))

/-- Normalizing text in the form it should have can only insert U+34F. -/
theorem normChain_inserts (hU : TextLaws U) {s : List Char} (h : norm3 U s = s) : Adds s (normChain U s) := by
  have := isolate_inserts hU s [] false
  rwa [List.nil_append, List.nil_append, h, ← isolate, ← normChain_eq] at this

end Verif
