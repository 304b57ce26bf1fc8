import Verif.LossyTheory

/-!
# Lossy conversion of a string read in one piece, the end being reported by a further read
-/

namespace Verif
open Ucd Spec
variable {U : Ucd}

/-- What is appended at the end, short of the newline. -/
def TailShape (F : List Char) : Prop := F = [] ∨ F = [' '] ∨ ∃ x b, F = x ++ [b] ∧ isBoundary b = true

/-- The text up to the last boundary, and the rest with the end, are normalized separately. -/
def norm2 (U : Ucd) (X F : List Char) : List Char :=
  (cut [] X).1.flatMap (normChain U) ++ normChain U ((cut [] X).2 ++ F)

theorem first_feed (s : List Char) :
    processRaw U (TextInput.new false false).ctl s = feed U { (TextInput.new false false).ctl with atStart := false } (dropBom s) := by
  unfold processRaw dropBom dropOne
  congr 1
  cases s with
  | nil => rfl
  | cons c s => by_cases hc : c = BOM <;> simp [TextInput.new, hc]

theorem cut_rest (segs : List (List Char)) (X : List Char) : ∀ c ∈ (cut segs X).2, isBoundary c = false := by
  unfold cut
  split
  · rename_i h
    intro c hc
    cases hb : isBoundary c with
    | false => rfl
    | true =>
      simp only [lastBoundary, Option.map_eq_none_iff, List.findIdx?_eq_none_iff] at h
      have := h c (by simpa using hc)
      rw [hb] at this; simp at this
  · rename_i i h
    intro c hc
    simp only [lastBoundary, Option.map_eq_some_iff] at h
    obtain ⟨j, hj, rfl⟩ := h
    rw [List.findIdx?_eq_some_iff_getElem] at hj
    obtain ⟨hlt, h1, h2⟩ := hj
    rw [List.length_reverse] at hlt
    obtain ⟨k, hk, rfl⟩ := List.mem_iff_getElem.1 hc
    rw [List.length_drop] at hk
    rw [List.getElem_drop]
    have := h2 (X.length - 1 - (X.length - j + k)) (by omega)
    rw [List.getElem_reverse] at this
    have e : X.length - 1 - (X.length - 1 - (X.length - j + k)) = X.length - j + k := by omega
    simp only [e] at this
    simpa using this

theorem cut_ended {segs : List (List Char)} {q : List Char} (h : q = [] ∨ ∃ x b, q = x ++ [b] ∧ isBoundary b = true) :
    (cut segs q).1.flatMap (normChain U) = segs.flatMap (normChain U) ++ normChain U q := by
  rcases h with rfl | ⟨x, b, rfl, hb⟩
  · simp [cut_idle, normChain_nil]
  · unfold cut
    rw [lastBoundary_concat x hb]
    simp only [List.take_length, List.flatMap_append, List.flatMap_cons, List.flatMap_nil, List.append_nil]

theorem lossy_whole (hU : TextLaws U) {v : List Char} {lens : List Nat} {text : List Char}
    (h : readToEnd U lens (.new false false) (script [v] []) = some text) :
    ∃ F, TailShape F ∧ lossyText U (dropBom v) = (feed U { (TextInput.new false false).ctl with atStart := false } (dropBom v)).2 ++ F ∧
      fromTextLossy U [v] [] lens = some (bomPrefix v ++ norm2 U (feed U { (TextInput.new false false).ctl with atStart := false } (dropBom v)).2 F) := by
  have hb : SliceReads [v] [] := by
    cases v
    · exact Or.inr rfl
    · exact Or.inl (by simp)
  obtain ⟨segs, -, h2, h3⟩ := lossy_run hU hb h
  simp only [List.flatten_cons, List.flatten_nil, List.append_nil] at h2 h3
  obtain ⟨lens', r, n, -, g1, g2, g3⟩ := readToEnd_run _ _ _ _ h
  have h4 := (run_exact hU (ending_script [v] []) g1 g2).1
  rw [g3] at h4
  have hA := absorbAll_script hU hb.bomSafe false false
  simp only [List.flatten_cons, List.flatten_nil, List.append_nil] at hA
  generalize hk1 : ({ (TextInput.new false false).ctl with atStart := false } : Ctl) = k1 at *
  generalize hr : dropBom v = r at *
  obtain ⟨f1, f2⟩ := full_tokens hU _ r k1 true (Nat.le_refl _) (by rw [← hk1]; rfl)
  rw [show k1.nel = false by rw [← hk1]; rfl, show k1.lsps = false by rw [← hk1]; rfl] at f2
  generalize hfeed : feed U k1 r = kx at *
  obtain ⟨k', X⟩ := kx
  have hproc : processRaw U (TextInput.new false false).ctl v = (k', X) := by rw [first_feed, hk1, hr, hfeed]
  have hkat : k'.atStart = false := by
    have := feed_atStart (U := U) r k1
    rw [hfeed] at this
    rw [this, ← hk1]
  have ha1 : absorb U ((TextInput.new false false).ctl, []) v .active = (k', X) := by
    unfold absorb; rw [hproc]; simp
  have ha2 : absorb U (k', X) [] .end_ = (endCtl false false, translate U false false r) := by
    rw [script] at hA
    simpa [absorbAll, ha1] using hA
  have hseg : segments U false false (script [v] []) = (cut (cut [] X).1 ((cut [] X).2 ++ (translate U false false r).drop X.length)).1 := by
    unfold segments script
    simp [segAll, ha1, ha2]
  rw [hseg] at h4
  -- what the end adds
  have hF0 : translate U false false r = X ++ (finish k' X.getLast? .end_).2 := by
    have := congrArg Prod.snd ha2
    unfold absorb at this
    rw [processRaw_false hkat] at this
    simpa [feed] using this.symm
  rw [hF0, List.drop_left] at h4
  have hTl : translate U false false r = [] ∨ (translate U false false r).getLast? = some '\n' := by
    rw [← hr]; exact translate_last hU false false v
  have hnl : isBoundary '\n' = true := by decide
  have hended : (cut [] X).2 ++ (finish k' X.getLast? .end_).2 = [] ∨ ∃ x b, (cut [] X).2 ++ (finish k' X.getLast? .end_).2 = x ++ [b] ∧ isBoundary b = true := by
    generalize (finish k' X.getLast? .end_).2 = F0 at *
    rcases List.eq_nil_or_concat ((cut [] X).2 ++ F0) with he | ⟨x, b, he⟩
    · exact Or.inl he
    · rw [List.concat_eq_append] at he
      refine Or.inr ⟨x, b, he, ?_⟩
      have hc := cut_flatten [] X
      rw [List.flatten_nil, List.nil_append] at hc
      rw [hF0, ← hc, List.append_assoc, he] at hTl
      rcases hTl with hTl | hTl
      · simp at hTl
      · rw [← List.append_assoc] at hTl
        simp at hTl
        rw [hTl]; exact hnl
  rw [cut_ended hended] at h4
  by_cases hc : Closed r
  · refine ⟨(finish k' X.getLast? .end_).2, ?_, by rw [← hF0, lossyText, if_pos hc], ?_⟩
    · generalize (finish k' X.getLast? .end_).2 = F0 at *
      rcases List.eq_nil_or_concat F0 with he | ⟨x, b, he⟩
      · exact Or.inl he
      · rw [List.concat_eq_append] at he
        refine Or.inr (Or.inr ⟨x, b, he, ?_⟩)
        rw [hF0, he, ← List.append_assoc] at hTl
        simp at hTl
        rw [hTl]; exact hnl
    · rw [h2]
      rw [h3, if_pos hc, List.append_nil] at h4
      rw [h4]; rfl
  · have hst : (finishState k').1.state = .ground false := by
      have : nlAfter true (tokens finCan (single false false) r) = false := by
        unfold nlAfter
        have hne : r ≠ [] := fun hh => hc (Or.inl hh)
        cases hq : (tokens finCan (single false false) r).getLast? with
        | none => rw [List.getLast?_eq_none_iff] at hq; exact absurd hq (tokens_ne_nil _ r (Nat.le_refl _) hne)
        | some t =>
          simp only
          cases ht : (t == Tok.nl) with
          | false => rfl
          | true =>
            have ht := eq_of_beq ht
            subst ht
            exact absurd (Or.inr (tokens_nl_last _ r (Nat.le_refl _) hq)) hc
      rw [this] at f2
      simpa [full, hfeed] using f2
    have hfin : (finish k' X.getLast? .end_).2 = ((finishState k').2 ++ endGuard ((finishState k').2.getLast?.or X.getLast?)) ++ ['\n'] := by
      unfold finish
      simp [hst]
    refine ⟨(finishState k').2 ++ endGuard ((finishState k').2.getLast?.or X.getLast?), ?_, ?_, ?_⟩
    · have hcg : isBoundary CGJ = true := by decide
      generalize hg : endGuard ((finishState k').2.getLast?.or X.getLast?) = g
      have hg : g = [] ∨ g = [CGJ] := by
        rw [← hg]
        unfold endGuard
        split
        · split
          · exact Or.inl rfl
          · exact Or.inr rfl
        · exact Or.inl rfl
      rcases hg with rfl | rfl
      · unfold finishState
        split
        · exact Or.inl rfl
        · exact Or.inr (Or.inr ⟨[], '\n', rfl, hnl⟩)
        · exact Or.inr (Or.inl rfl)
        · exact Or.inl rfl
      · exact Or.inr (Or.inr ⟨_, CGJ, rfl, hcg⟩)
    · have := translate_lossyText (U := U) r
      rw [if_neg hc, hF0, hfin, ← List.append_assoc] at this
      exact (List.append_cancel_right this).symm
    · rw [h2]
      rw [h3, if_neg hc, hfin, ← List.append_assoc, normChain_nl hU, ← List.append_assoc] at h4
      rw [List.append_cancel_right h4]
      rfl

/-! ## Again -/

/-- Every unassigned scalar has a boundary somewhere after it. -/
def Covered (U : Ucd) (s : List Char) : Prop := ∀ a c b, s = a ++ c :: b → isAssigned U c = false → ∃ d ∈ b, isBoundary d = true

theorem covered_of_assigned {s : List Char} (h : ∀ c ∈ s, isAssigned U c = true) : Covered U s := by
  intro a c b hs hc
  rw [h c (by rw [hs]; simp)] at hc; simp at hc

theorem covered_of_last (hU : TextLaws U) {s : List Char} (h : s = [] ∨ ∃ x b, s = x ++ [b] ∧ isBoundary b = true) : Covered U s := by
  intro a c b hs hc
  rcases h with rfl | ⟨x, d, rfl, hd⟩
  · simp at hs
  · rcases List.eq_nil_or_concat b with rfl | ⟨b, e, rfl⟩
    · have := (List.append_inj' hs rfl).2
      simp only [List.cons.injEq, and_true] at this
      subst this
      have : isAssigned U d = true := by
        rcases isBoundary_iff.1 hd with rfl | rfl
        · exact nl_assigned hU
        · exact isAssigned_of hU.assigned_cgj
      rw [this] at hc; simp at hc
    · rw [List.concat_eq_append] at *
      rw [← List.cons_append, ← List.append_assoc] at hs
      have := (List.append_inj' hs rfl).2
      simp only [List.cons.injEq, and_true] at this
      subst this
      exact ⟨d, by simp, hd⟩

theorem Covered.append {p q : List Char} (hp : Covered U p) (hq : Covered U q) : Covered U (p ++ q) := by
  intro a c b hs hc
  rcases List.append_eq_append_iff.1 hs with ⟨x, rfl, h2⟩ | ⟨x, rfl, h2⟩
  · exact hq x c b h2 hc
  · cases x with
    | nil =>
      rw [List.nil_append] at h2
      exact hq [] c b h2.symm hc
    | cons y x =>
      simp only [List.cons_append, List.cons.injEq] at h2
      obtain ⟨rfl, rfl⟩ := h2
      obtain ⟨d, hd, hb⟩ := hp a c x rfl hc
      exact ⟨d, by simp [hd], hb⟩

/-- Isolation of text without U+34F puts one after every unassigned scalar. -/
theorem covered_isolateGo (hU : TextLaws U) {s : List Char} (hs : CGJ ∉ s) : ∀ need : Bool, Covered U (isolateGo U need false s) ∧
    (need = true → CGJ ∈ isolateGo U need false s) := by
  have hcg : isBoundary CGJ = true := by decide
  have hC : isAssigned U CGJ = true := isAssigned_of hU.assigned_cgj
  induction s with
  | nil =>
    intro need
    cases need
    · refine ⟨covered_of_assigned ?_, by simp⟩
      intro c hc; simp [isolateGo] at hc
    · refine ⟨covered_of_assigned ?_, by simp [isolateGo]⟩
      intro c hc; simp [isolateGo] at hc; rw [hc]; exact hC
  | cons c s ih =>
    have ih := ih (fun h => hs (List.mem_cons_of_mem _ h))
    have hc : c ≠ CGJ := fun h => hs (by simp [h])
    intro need
    have hone : ∀ (x : Char) (l : List Char), Covered U l → (isAssigned U x = false → ∃ d ∈ l, isBoundary d = true) → Covered U (x :: l) := by
      intro x l hl hx a d b he hd
      cases a with
      | nil =>
        simp only [List.nil_append, List.cons.injEq] at he
        obtain ⟨rfl, rfl⟩ := he
        exact hx hd
      | cons y a =>
        simp only [List.cons_append, List.cons.injEq] at he
        exact hl a d b he.2 hd
    rw [isolateGo]
    split
    · refine ⟨hone _ _ (hone _ _ (ih _).1 ?_) (by rw [hC]; simp), by simp⟩
      intro hca
      exact ⟨CGJ, (ih _).2 (by simp [hca]), hcg⟩
    · rename_i hh
      have hcc : (c == CGJ) = false := by simpa using hc
      simp only [Bool.not_false, Bool.and_true, Bool.or_eq_true, Bool.and_eq_true, bne_iff_ne, ne_eq, Bool.not_eq_true', not_or, not_and, Decidable.not_not] at hh
      rw [hcc]
      refine ⟨hone _ _ (ih _).1 ?_, ?_⟩
      · intro hca; exact absurd hca hh.2
      · intro hn; exact absurd (hh.1 hn) hc

theorem covered_norm3 (hU : TextLaws U) {s : List Char} (h : Covered U s) (hnl : '\n' ∉ s) : Covered U (norm3 U s) := by
  have hC : isAssigned U CGJ = true := isAssigned_of hU.assigned_cgj
  have hall : ∀ y : List Char, (∀ c ∈ y, isAssigned U c = true) → ∀ c ∈ norm3 U y, isAssigned U c = true := by
    intro y hy c hc
    cases ha : isAssigned U c with
    | true => rfl
    | false =>
      have := hy c (mem_norm3_inert hU (inert_of_not_assigned hU ha) (by rintro rfl; rw [hC] at ha; simp at ha) hc)
      rw [ha] at this; simp at this
  by_cases hm : CGJ ∈ s
  · obtain ⟨x, y, hy, rfl⟩ : ∃ x y, CGJ ∉ y ∧ s = x ++ CGJ :: y := by
      obtain ⟨a, b, e, hb⟩ : ∃ a b, s.reverse = a ++ CGJ :: b ∧ CGJ ∉ a :=
        List.eq_append_cons_of_mem (a := CGJ) (xs := s.reverse) (by simpa using hm)
      refine ⟨b.reverse, a.reverse, by simpa using hb, ?_⟩
      have := congrArg List.reverse e
      simpa using this
    have hya : ∀ c ∈ y, isAssigned U c = true := by
      intro c hc
      cases ha : isAssigned U c with
      | true => rfl
      | false =>
        obtain ⟨a, b, rfl⟩ := List.append_of_mem hc
        obtain ⟨d, hd, hdb⟩ := h (x ++ CGJ :: a) c b (by simp) ha
        rcases isBoundary_iff.1 hdb with rfl | rfl
        · exact absurd (by simp [hd]) hnl
        · exact absurd (by simp [hd]) hy
    rw [norm3_split hU hU.law.inert_cgj]
    have e : norm3 U x ++ CGJ :: norm3 U y = (norm3 U x ++ [CGJ]) ++ norm3 U y := by simp
    rw [e]
    exact (covered_of_last hU (Or.inr ⟨_, CGJ, rfl, by decide⟩)).append (covered_of_assigned (hall y hya))
  · apply covered_of_assigned
    apply hall
    intro c hc
    cases ha : isAssigned U c with
    | true => rfl
    | false =>
      obtain ⟨a, b, rfl⟩ := List.append_of_mem hc
      obtain ⟨d, hd, hdb⟩ := h a c b rfl ha
      rcases isBoundary_iff.1 hdb with rfl | rfl
      · exact absurd (by simp [hd]) hnl
      · exact absurd (by simp [hd]) hm

theorem covered_normChain (hU : TextLaws U) {s : List Char} (h : ∀ c ∈ s, isBoundary c = false) : Covered U (normChain U s) := by
  have h1 : CGJ ∉ s := fun hm => by have := h _ hm; simp [isBoundary] at this
  have h2 : '\n' ∉ s := fun hm => by have := h _ hm; simp [isBoundary] at this
  rw [normChain_eq]
  refine covered_norm3 hU (covered_isolateGo hU h1 false).1 ?_
  intro hm
  rcases mem_isolateGo hm with h | h
  · exact h2 h
  · revert h; decide

theorem covered_norm2 (hU : TextLaws U) (X : List Char) {F : List Char} (hF : TailShape F) : Covered U (norm2 U X F) := by
  have hcat : ∀ (x : List Char) (b : Char), isBoundary b = true → Covered U (normChain U (x ++ [b])) := by
    intro x b hb
    obtain ⟨y, hy⟩ := normChain_concat hU hb x
    rw [hy]
    exact covered_of_last hU (Or.inr ⟨y, b, rfl, hb⟩)
  unfold norm2
  refine Covered.append ?_ ?_
  · have := cut_seg (segs := []) (by simp) X
    generalize (cut [] X).1 = segs at this
    induction segs with
    | nil => exact covered_of_assigned (by simp)
    | cons s segs ih =>
      rw [List.flatMap_cons]
      refine Covered.append ?_ (ih fun s hs => this s (by simp [hs]))
      obtain ⟨x, b, rfl, hb⟩ := this s (by simp)
      exact hcat x b hb
  · rcases hF with rfl | rfl | ⟨x, b, rfl, hb⟩
    · rw [List.append_nil]
      exact covered_normChain hU (cut_rest [] X)
    · apply covered_normChain hU
      intro c hc
      simp only [List.mem_append, List.mem_singleton] at hc
      rcases hc with hc | rfl
      · exact cut_rest [] X c hc
      · decide
    · rw [← List.append_assoc]; exact hcat _ b hb

/-- The loop leaves valid text alone. -/
theorem feed_valid {s : List Char} : ∀ (k : Ctl) (b : Bool), k.state = .ground b → k.nel = false → k.lsps = false → (∀ c ∈ s, okChar c = true) →
    (k.expectStarter = true → ∀ c ∈ s.head?, isStart U c = true) → (feed U k s).2 = s := by
  induction s with
  | nil => intro k b _ _ _ _ _; rfl
  | cons c s ih =>
    intro k b hk hn hl hs he
    have hc := hs c (by simp)
    have hsp := ok_not_special hc
    have hs' : ∀ c ∈ s, okChar c = true := fun c h => hs c (by simp [h])
    have hstep : ∃ b', stepChar U k c = ({ k with state := .ground b', expectStarter := false }, [c]) := by
      simp only [stepChar, hk]
      unfold groundStep
      by_cases h1 : c = '\n'
      · exact ⟨true, by rw [if_pos h1, h1]⟩
      · rw [if_neg h1, if_neg hsp.1, if_neg hsp.2.1, if_neg hsp.2.2.1]
        simp only [hn, hl, Bool.false_and, Bool.or_false, Bool.false_eq_true, if_false]
        refine ⟨false, ?_⟩
        rw [replace_ok (ok_check hc)]
        congr 1
        unfold startGuard
        cases hx : k.expectStarter with
        | false => simp
        | true => simp [he hx c (by simp)]
    obtain ⟨b', hst⟩ := hstep
    simp only [feed, hst]
    rw [ih { k with state := .ground b', expectStarter := false } b' rfl hn hl hs' (by simp)]
    rfl

/-- Valid text whose unassigned scalars have a U+034F before them and a boundary after them is not changed when read in one
piece. -/
theorem lossy_fix_whole (hU : TextLaws U) {t : List Char} {lens2 : List Nat} {text2 : List Char} (e2 : isBasicText U t = true)
    (hp : Pre U false t) (hcov : Covered U t)
    (h2 : readToEnd U lens2 (.new false false) (script [t] []) = some text2) : fromTextLossy U [t] [] lens2 = some t := by
  obtain ⟨F, f1, f2, f3⟩ := lossy_whole hU h2
  obtain ⟨g1, g2, g3⟩ := lossyText_valid e2
  obtain ⟨i1, -, i3⟩ := text_iff.1 e2
  obtain ⟨i4, i5⟩ := substr_iff.1 i3
  rw [g1, feed_valid _ true rfl rfl rfl i4 (fun _ => i1)] at f2 f3
  rw [g3] at f2
  have hFn : F = [] := by
    have := congrArg List.length f2
    simp at this; exact this
  subst hFn
  rw [f3, g2]
  unfold norm2
  rw [List.append_nil]
  have hc := cut_flatten [] t
  rw [List.flatten_nil, List.nil_append] at hc
  have hrest := cut_rest [] t
  have hsegs : ((cut [] t).1 = [] ∨ ∃ a, (cut [] t).1 = [a]) := by
    unfold cut
    split
    · exact Or.inl rfl
    · exact Or.inr ⟨_, rfl⟩
  generalize (cut [] t).2 = R at *
  have hR : ∀ c ∈ R, isAssigned U c = true := by
    intro c hcR
    cases hca : isAssigned U c with
    | true => rfl
    | false =>
      obtain ⟨a, b, rfl⟩ := List.append_of_mem hcR
      obtain ⟨d, hd, hdb⟩ := hcov ((cut [] t).1.flatten ++ a) c b (by rw [List.append_assoc]; exact hc.symm) hca
      rw [hrest d (by simp [hd])] at hdb; simp at hdb
  have hsp : ∀ A, A ++ R = t → normChain U A ++ normChain U R = t := by
    intro A hA
    rw [← hA] at i5 hp
    rw [pre_append] at hp
    rw [(normChain_eq_iff hU).2 ⟨nss_prefix hU.law i5, hp.1⟩, normChain_of_assigned hU (nss_suffix hU.law i5) hR, hA]
  rcases hsegs with hs | ⟨A, hs⟩
  · rw [hs] at hc ⊢
    have := hsp [] (by simpa using hc)
    rw [normChain_nil] at this
    simpa using this
  · rw [hs] at hc ⊢
    simpa using hsp A (by simpa using hc)

/-- Converting a result of the conversion again changes nothing, when both are read in one piece. -/
theorem lossy_idem_whole (hU : TextLaws U) (hw : isStart U WJ = true) (ha : isAssigned U WJ = true) {v : List Char} {lens lens2 : List Nat} {text text2 t : List Char}
    (h : readToEnd U lens (.new false false) (script [v] []) = some text) (ht : fromTextLossy U [v] [] lens = some t)
    (h2 : readToEnd U lens2 (.new false false) (script [t] []) = some text2) : fromTextLossy U [t] [] lens2 = some t := by
  have hb : SliceReads [v] [] := by
    cases v
    · exact Or.inr rfl
    · exact Or.inl (by simp)
  obtain ⟨t', e1, e2⟩ := lossy_valid hU hw hb h
  rw [ht] at e1
  injection e1 with e1
  subst e1
  obtain ⟨segs, -, h3, -⟩ := lossy_run hU hb h
  rw [ht] at h3
  injection h3 with h3
  have hp : Pre U false t := by
    rw [h3]
    exact pre_bom ha (pre_flatMap hU segs)
  have hcov : Covered U t := by
    obtain ⟨F, f1, -, f3⟩ := lossy_whole hU h
    rw [ht] at f3
    injection f3 with f3
    rw [f3]
    refine Covered.append (covered_of_assigned ?_) (covered_norm2 hU _ f1)
    intro c hc
    unfold bomPrefix at hc
    split at hc
    · simp at hc; rw [hc]; exact ha
    · simp at hc
  exact lossy_fix_whole hU e2 hp hcov h2

end Verif
