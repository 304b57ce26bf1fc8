import Verif.SpecRefine

/-!
# The reader over a fixed content refines the stream conversion
-/

namespace Verif
open Ucd Spec
variable {U : Ucd}

/-- A source delivering `chunks` and then `last` with the end. -/
def script (chunks : List (List Char)) (last : List Char) : List Event :=
  chunks.map (fun c => .data c .active) ++ [.data last .end_]

theorem groundStep_atStart (k : Ctl) (c : Char) : (groundStep U k c).1.atStart = k.atStart := by
  unfold groundStep
  (repeat' split) <;> rfl

theorem stepChar_atStart (k : Ctl) (c : Char) : (stepChar U k c).1.atStart = k.atStart := by
  unfold stepChar
  (repeat' split) <;> simp only [groundStep_atStart]

theorem feed_atStart (s : List Char) : ∀ k : Ctl, (feed U k s).1.atStart = k.atStart := by
  induction s with
  | nil => intro k; rfl
  | cons c s ih => intro k; simp only [feed, ih, stepChar_atStart]

theorem groundStep_modes (k : Ctl) (c : Char) : (groundStep U k c).1.nel = k.nel ∧ (groundStep U k c).1.lsps = k.lsps := by
  unfold groundStep
  (repeat' split) <;> exact ⟨rfl, rfl⟩

theorem stepChar_modes (k : Ctl) (c : Char) : (stepChar U k c).1.nel = k.nel ∧ (stepChar U k c).1.lsps = k.lsps := by
  unfold stepChar
  (repeat' split) <;> simp only [groundStep_modes, true_and]

theorem feed_modes (s : List Char) : ∀ k : Ctl, (feed U k s).1.nel = k.nel ∧ (feed U k s).1.lsps = k.lsps := by
  induction s with
  | nil => intro k; exact ⟨rfl, rfl⟩
  | cons c s ih => intro k; simp only [feed, ih, stepChar_modes, true_and]

theorem finishState_modes (k : Ctl) : (finishState k).1.nel = k.nel ∧ (finishState k).1.lsps = k.lsps ∧
    (finishState k).1.atStart = k.atStart := by
  unfold finishState
  split <;> exact ⟨rfl, rfl, rfl⟩

theorem processRaw_false {k : Ctl} (h : k.atStart = false) (s : List Char) : processRaw U k s = feed U k s := by
  unfold processRaw
  rw [h]
  obtain ⟨a, b, c, d, e⟩ := k
  simp only at h
  subst h
  simp

theorem absorbAll_active (chunks : List (List Char)) : ∀ (k : Ctl) (T : List Char), k.atStart = false →
    absorbAll U (k, T) (chunks.map fun c => .data c .active) = ((feed U k chunks.flatten).1, T ++ (feed U k chunks.flatten).2) := by
  induction chunks with
  | nil => intro k T _; simp [absorbAll, feed]
  | cons s chunks ih =>
    intro k T hk
    simp only [List.map_cons, absorbAll, absorb, processRaw_false hk, if_true]
    rw [ih _ _ (by rw [feed_atStart, hk]), List.flatten_cons, feed_append, List.append_assoc]

theorem guardEnd_eq (s : List Char) : guardEnd s = s ++ endGuard s.getLast? := by
  unfold guardEnd endGuard
  split
  · rename_i c h; rw [h]; cases hc : isEnd c <;> simp [hc]
  · rename_i h; simp [h]

/-- The first read of a source over `content` returns something, unless the content has no leading
byte-order mark. -/
def BomSafe (chunks : List (List Char)) (last : List Char) : Prop :=
  (chunks ++ [last]).head? ≠ some [] ∨ (chunks.flatten ++ last).head? ≠ some BOM

/-- The state of the reader after the end. -/
def endCtl (nel lsps : Bool) : Ctl := { state := .ground true, expectStarter := true, atStart := false, nel, lsps }

theorem absorb_end (hU : TextLaws U) {k k' : Ctl} {s o T : List Char} (hk : k.atStart = false) (h : feed U k s = (k', o)) {c : List Char}
    {nel lsps : Bool} (hm : k.nel = nel ∧ k.lsps = lsps)
    {k0 : Ctl} (hk0 : k0.state = .ground true ∧ k0.expectStarter = true ∧ k0.nel = nel ∧ k0.lsps = lsps)
    (hfull : full U k0 c = ((finishState k').1, T ++ o ++ (finishState k').2)) :
    absorb U (k, T) s .end_ = (endCtl nel lsps, translate U nel lsps c) := by
  obtain ⟨h1, h2⟩ := full_tokens hU _ c k0 true (Nat.le_refl _) hk0.1
  rw [hfull, hk0.2.2.1, hk0.2.2.2] at h1 h2
  rw [hk0.2.1] at h1
  simp only at h1 h2
  have hmod : (finishState k').1.nel = nel ∧ (finishState k').1.lsps = lsps ∧ (finishState k').1.atStart = false := by
    obtain ⟨m1, m2, m3⟩ := finishState_modes k'
    have a := feed_modes (U := U) s k
    have b := feed_atStart (U := U) s k
    rw [h] at a b
    rw [m1, m2, m3]
    simp only at a b
    exact ⟨a.1.trans hm.1, a.2.trans hm.2, b.trans hk⟩
  unfold absorb
  rw [processRaw_false hk, h]
  simp only [reduceCtorEq, if_false]
  unfold finish translate
  simp only [true_and]
  generalize finishState k' = p at *
  obtain ⟨k1, o1⟩ := p
  simp only at *
  have hlast : o1.getLast?.or (T ++ o).getLast? = (T ++ o ++ o1).getLast? := by
    simp [List.getLast?_append, Option.or_assoc]
  rw [hlast, h1, guardIf, if_pos rfl, guardEnd_eq]
  generalize hts : tokens finCan (single nel lsps) c = ts at *
  have hnl : nlAfter true ts = true ↔ (ts = [] ∨ ts.getLast? = some .nl) := by
    unfold nlAfter
    cases hl : ts.getLast? with
    | none => simp [List.getLast?_eq_none_iff.1 hl]
    | some t =>
      have : ts ≠ [] := by rintro rfl; simp at hl
      simp [this]
  obtain ⟨a, b, c', d, e⟩ := k1
  simp only at *
  obtain ⟨rfl, rfl, rfl⟩ := hmod
  by_cases hn : ts = [] ∨ ts.getLast? = some .nl
  · rw [if_pos hn]
    have : nlAfter true ts = true := hnl.2 hn
    rw [this] at h2
    subst h2
    simp only [ne_eq, not_true_eq_false, if_false]
    rw [← List.append_assoc, h1]
    rfl
  · rw [if_neg hn]
    have : nlAfter true ts = false := by
      cases hx : nlAfter true ts with
      | false => rfl
      | true => exact absurd (hnl.1 hx) hn
    rw [this] at h2
    subst h2
    simp only [ne_eq, RState.ground.injEq, Bool.false_eq_true, not_false_eq_true, if_true]
    rw [← List.append_assoc, ← List.append_assoc, h1]
    rfl

theorem absorbAll_script (hU : TextLaws U) {chunks : List (List Char)} {last : List Char} (hb : BomSafe chunks last) (nel lsps : Bool) :
    absorbAll U ((TextInput.new nel lsps).ctl, []) (script chunks last) =
      (endCtl nel lsps, translate U nel lsps (dropBom (chunks.flatten ++ last))) := by
  let k1 : Ctl := { (TextInput.new nel lsps).ctl with atStart := false }
  have hfirst : ∀ s : List Char, processRaw U (TextInput.new nel lsps).ctl s = feed U k1 (dropBom s) := by
    intro s
    unfold processRaw dropBom dropOne
    congr 1
    cases s with
    | nil => rfl
    | cons c s => by_cases hc : c = BOM <;> simp [k1, TextInput.new, hc]
  have hmod : k1.nel = nel ∧ k1.lsps = lsps := ⟨rfl, rfl⟩
  unfold script
  cases chunks with
  | nil =>
    simp only [List.map_nil, List.nil_append, absorbAll, List.flatten_nil]
    have hx : absorb U ((TextInput.new nel lsps).ctl, []) last .end_ = absorb U (k1, []) (dropBom last) .end_ := by
      unfold absorb
      simp only [hfirst, processRaw_false (k := k1) rfl]
    rw [hx]
    exact absorb_end hU (k0 := k1) rfl rfl hmod ⟨rfl, rfl, rfl, rfl⟩ rfl
  | cons s chunks =>
    have hd : dropBom ((s :: chunks).flatten ++ last) = dropBom s ++ (chunks.flatten ++ last) := by
      unfold BomSafe at hb
      rw [List.flatten_cons, List.append_assoc]
      cases s with
      | nil =>
        simp only [List.cons_append, List.head?_cons, ne_eq, not_true_eq_false, false_or, List.flatten_cons, List.nil_append] at hb
        simp only [List.nil_append, dropBom, dropOne]
        cases hc : chunks.flatten ++ last with
        | nil => rfl
        | cons c r =>
          rw [hc] at hb
          simp at hb
          simp [hb]
      | cons c s =>
        by_cases hc : c = BOM <;> simp [dropBom, dropOne, hc]
    rw [hd, absorbAll_append, List.map_cons]
    have hx : absorbAll U ((TextInput.new nel lsps).ctl, []) (.data s .active :: chunks.map fun c => .data c .active) =
        ((feed U k1 (dropBom s ++ chunks.flatten)).1, (feed U k1 (dropBom s ++ chunks.flatten)).2) := by
      simp only [absorbAll, absorb, hfirst, if_true]
      rw [absorbAll_active _ _ _ (by rw [feed_atStart]), feed_append]
      simp
    rw [hx]
    simp only [absorbAll]
    refine absorb_end hU (k0 := k1) (by rw [feed_atStart]) rfl ?_ ⟨rfl, rfl, rfl, rfl⟩ ?_
    · have := feed_modes (U := U) (dropBom s ++ chunks.flatten) k1
      rw [this.1, this.2]; exact hmod
    · unfold full
      rw [← List.append_assoc (dropBom s), feed_append (a := dropBom s ++ chunks.flatten)]

/-- Reading on after the end changes nothing. -/
theorem absorb_eof (nel lsps : Bool) {T : List Char} (h : ∀ c ∈ T.getLast?, isEnd c = true) :
    absorb U (endCtl nel lsps, T) [] .end_ = (endCtl nel lsps, T) := by
  have : endGuard T.getLast? = [] := by
    unfold endGuard
    cases hc : T.getLast? with
    | none => rfl
    | some c => simp [h c (by simp [hc])]
  simp [absorb, processRaw, feed, endCtl, finish, finishState, this]

theorem translate_ctl (hU : TextLaws U) (nel lsps : Bool) (s : List Char) :
    CtlInv U (endCtl nel lsps) (translate U nel lsps (dropBom s)) := by
  have hb : BomSafe [] s := by
    unfold BomSafe
    cases s <;> simp
  have h := ctl_absorbAll hU (script [] s) ((TextInput.new nel lsps).ctl, []) (ctl_new (U := U) nel lsps)
  rw [absorbAll_script hU hb] at h
  simpa using h

theorem translate_last (hU : TextLaws U) (nel lsps : Bool) (s : List Char) :
    translate U nel lsps (dropBom s) = [] ∨ (translate U nel lsps (dropBom s)).getLast? = some '\n' :=
  (translate_ctl hU nel lsps s).nl rfl

theorem absorbAll_eofs (nel lsps : Bool) {T : List Char} (h : ∀ c ∈ T.getLast?, isEnd c = true) {es : List Event}
    (he : ∀ e ∈ es, e = eof) : absorbAll U (endCtl nel lsps, T) es = (endCtl nel lsps, T) := by
  induction es with
  | nil => rfl
  | cons e es ih =>
    rw [he e (by simp)]
    simp only [eof, absorbAll, absorb_eof nel lsps h]
    exact ih fun e he' => he e (by simp [he'])

/-- Inner reads up to one reporting the end cover the whole script. -/
theorem hist_script {chunks : List (List Char)} {last : List Char} {es src' : List Event} {s : List Char}
    (h : Hist (script chunks last) (es ++ [.data s .end_]) src') :
    ∃ c, es ++ [.data s .end_] = script chunks last ++ c ∧ ∀ e ∈ c, e = eof := by
  obtain ⟨m, hm, -⟩ := h
  rw [List.append_eq_append_iff] at hm
  rcases hm with ⟨a, h1, h2⟩ | ⟨c, h1, h2⟩
  · rcases List.eq_nil_or_concat a with rfl | ⟨a, e, rfl⟩
    · exact ⟨[], by simpa using h1.symm, by simp⟩
    · rw [List.concat_eq_append, script, ← List.append_assoc] at h1
      have h3 := (List.append_inj' h1 rfl).1
      have : Event.data s .end_ ∈ chunks.map (fun c => Event.data c .active) := by rw [h3]; simp
      simp at this
  · refine ⟨c, h1, ?_⟩
    intro e he
    have : e ∈ List.replicate m eof := by rw [h2]; simp [he]
    exact List.eq_of_mem_replicate this

theorem no_err_script {chunks : List (List Char)} {last : List Char} {c : List Event} (hc : ∀ e ∈ c, e = eof) :
    ∀ e ∈ script chunks last ++ c, e ≠ .err := by
  intro e he
  simp only [script, List.mem_append, List.mem_map, List.mem_singleton] at he
  rcases he with (⟨x, _, rfl⟩ | rfl) | he
  · simp
  · simp
  · rw [hc e he]; simp [eof]

/-- Everything about a complete run over a given content. -/
theorem run_script (hU : TextLaws U) {chunks : List (List Char)} {last : List Char} (hb : BomSafe chunks last) {nel lsps : Bool}
    {lens : List Nat} {r : ReadResult}
    (hr : (readMany U lens (.new nel lsps) (script chunks last)).getLast? = some r) {n : Nat} (hok : r.ret = .ok n .end_) :
    r.input.queue = [] ∧ r.input.iter = [] ∧ r.input.quick = 0 ∧
    ∃ segs : List (List Char), translate U nel lsps (dropBom (chunks.flatten ++ last)) = segs.flatten ∧
      delivered (readMany U lens (.new nel lsps) (script chunks last)) = segs.flatMap (normChain U) ∧ ∀ s ∈ segs, IsSeg s := by
  obtain ⟨es, s, h1, h2, h3⟩ := run_last hU (Rel.init nel lsps) hr hok (by simp)
  obtain ⟨c, hc1, hc2⟩ := hist_script h1
  have hT := translate_last hU nel lsps (chunks.flatten ++ last)
  have hE : ∀ x ∈ (translate U nel lsps (dropBom (chunks.flatten ++ last))).getLast?, isEnd x = true := by
    intro x hx
    rcases hT with hT | hT
    · rw [hT] at hx; simp at hx
    · rw [hT] at hx; simp at hx; rw [← hx]; exact end_nl
  have hA : absorbAll U ((TextInput.new nel lsps).ctl, []) (es ++ [.data s .end_]) =
      (endCtl nel lsps, translate U nel lsps (dropBom (chunks.flatten ++ last))) := by
    rw [hc1, absorbAll_append, absorbAll_script hU hb, absorbAll_eofs nel lsps hE hc2]
  have hinv := h2.inv
  simp only [List.nil_append, hA] at hinv
  obtain ⟨hq, hs⟩ := hinv.at_end h3 hT
  refine ⟨hq, h3.iter, h3.quick, ?_⟩
  obtain ⟨es', j1, j2, j3, j4⟩ := run_rel hU lens (.new nel lsps) (script chunks last) [] [] (Rel.init nel lsps)
  have hes : ∀ e ∈ es', e ≠ .err := by
    obtain ⟨m, hm, -⟩ := j1
    intro e he
    have : e ∈ script chunks last ++ List.replicate m eof := by rw [← hm]; simp [he]
    exact no_err_script (fun e he => List.eq_of_mem_replicate he) e this
  rw [j3 hes]
  exact hs

/-! ## Isolation -/

theorem isolateBefore_noCgj (s : List Char) : ∀ prev : Option Char, NoCgjUn U s →
    (prev = some CGJ → ∀ c ∈ s.head?, isAssigned U c = true) →
    isolateBefore U prev s = s.flatMap fun c => if isAssigned U c then [c] else [CGJ, c] := by
  induction s with
  | nil => intros; rfl
  | cons c s ih =>
    intro prev h hp
    have hs : NoCgjUn U s := NoCgjUn.suffix (x := [c]) h
    have hn : some c = some CGJ → ∀ d ∈ s.head?, isAssigned U d = true := by
      intro hc d hd
      simp at hc
      cases s with
      | nil => simp at hd
      | cons e s => simp at hd; exact h [] d s (by rw [hc, hd]; rfl)
    simp only [isolateBefore, List.flatMap_cons]
    rw [ih (some c) hs hn]
    cases ha : isAssigned U c with
    | true => simp
    | false =>
      have : prev ≠ some CGJ := fun hc => by rw [hp hc c (by simp)] at ha; simp at ha
      simp [this]

theorem isolate_spec (hU : TextLaws U) {s : List Char} (h : NoCgjUn U s) : Verif.isolate U s = Spec.isolate U s := by
  have hC : isAssigned U CGJ = true := by simp [isAssigned, hU.assigned_cgj]
  have key : ∀ (s : List Char) (hv : Bool), NoCgjUn U s → (hv = true → ∀ c ∈ s.head?, isAssigned U c = true) →
      isolateGo U false hv s = isolateAfter U (s.flatMap fun c => if isAssigned U c then [c] else [CGJ, c]) ∧
      isolateGo U true hv s = (if (s.flatMap fun c => if isAssigned U c then [c] else [CGJ, c]).head? = some CGJ then [] else [CGJ]) ++
        isolateAfter U (s.flatMap fun c => if isAssigned U c then [c] else [CGJ, c]) := by
    intro s
    induction s with
    | nil => intro hv _ _; simp [isolateGo, isolateAfter]
    | cons c s ih =>
      intro hv h hh
      have hs : NoCgjUn U s := NoCgjUn.suffix (x := [c]) h
      have hn : (c == CGJ) = true → ∀ d ∈ s.head?, isAssigned U d = true := by
        intro hc d hd
        simp at hc
        cases s with
        | nil => simp at hd
        | cons e s => simp at hd; exact h [] d s (by rw [hc, hd]; rfl)
      obtain ⟨i1, i2⟩ := ih (c == CGJ) hs hn
      obtain ⟨j1, j2⟩ := ih false hs (by simp)
      rw [List.flatMap_cons]
      generalize (s.flatMap fun c => if isAssigned U c then [c] else [CGJ, c]) = F at *
      cases ha : isAssigned U c with
      | true =>
        simp only [isolateGo, ha, if_true, Bool.not_true, Bool.false_and, Bool.or_false, Bool.false_eq_true, if_false, Bool.true_and,
          List.singleton_append, isolateAfter, List.head?_cons, Option.some.injEq]
        refine ⟨by rw [i1], ?_⟩
        by_cases hc : c = CGJ
        · subst hc; simp at i1 ⊢; exact i1
        · simp [hc, j1]
      | false =>
        have hv' : hv = false := by
          cases hv with
          | false => rfl
          | true => rw [hh rfl c (by simp)] at ha; simp at ha
        subst hv'
        have hc : c ≠ CGJ := by rintro rfl; rw [hC] at ha; simp at ha
        by_cases hF : F.head? = some CGJ
        · simp [isolateGo, ha, isolateAfter, hC, j2, hF]
        · simp [isolateGo, ha, isolateAfter, hC, j2, hF]
  unfold Verif.isolate Spec.isolate
  rw [(key s false h (by simp)).1, isolateBefore_noCgj s none h (by simp)]

theorem normalize_spec (hU : TextLaws U) {s : List Char} (h : NoCgjUn U s) : normChain U s = normalize U s := by
  unfold normChain normalize
  rw [isolate_spec hU h]

/-- The text of a content before isolation and normalization. -/
def Spec.form (U : Ucd) (nel lsps : Bool) (s : List Char) : List Char := translate U nel lsps (dropBom s)

/-- In the text of the content (escape sequences removed, scalars replaced) no U+034F comes directly before an unassigned scalar. -/
def Spec.Clear (U : Ucd) (nel lsps : Bool) (s : List Char) : Prop :=
  ∀ a c b, form U nel lsps s = a ++ CGJ :: c :: b → isAssigned U c = true

theorem stream_of_form {nel lsps nel' lsps' : Bool} {s s' : List Char} (h : form U nel lsps s = form U nel' lsps' s') :
    stream U nel lsps s = stream U nel' lsps' s' := by
  unfold form at h
  unfold stream
  rw [h]

theorem Spec.Clear.of_form {nel lsps nel' lsps' : Bool} {s s' : List Char} (hc : Clear U nel' lsps' s')
    (h : form U nel lsps s = form U nel' lsps' s') : Clear U nel lsps s := by
  unfold Clear
  rw [h]; exact hc

/-- The reader refines the stream conversion. -/
theorem run_stream (hU : TextLaws U) {chunks : List (List Char)} {last : List Char} (hb : BomSafe chunks last) {nel lsps : Bool}
    (hn : NoCgjUn U (translate U nel lsps (dropBom (chunks.flatten ++ last)))) {lens : List Nat} {r : ReadResult}
    (hr : (readMany U lens (.new nel lsps) (script chunks last)).getLast? = some r) {n : Nat} (hok : r.ret = .ok n .end_) :
    delivered (readMany U lens (.new nel lsps) (script chunks last)) = stream U nel lsps (chunks.flatten ++ last) := by
  obtain ⟨-, -, -, segs, h1, h2, h3⟩ := run_script hU hb hr hok
  rw [h2, stream, ← normalize_spec hU hn]
  rw [h1] at hn ⊢
  exact normChain_segs hU h3 hn

end Verif
