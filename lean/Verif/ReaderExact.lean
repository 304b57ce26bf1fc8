import Verif.ReaderLive

/-!
# What a complete run delivers, exactly

The text delivered by a complete run is a function of the list of inner reads alone.
-/

namespace Verif
open Ucd Spec
variable {U : Ucd}

/-- A source that delivers text, possibly with pushes, and then reports the end. -/
def Ending (src : List Event) : Prop :=
  ∃ evs last, src = evs ++ [.data last .end_] ∧ ∀ e ∈ evs, ∃ s st, e = .data s st ∧ st ≠ .end_

theorem ending_script (chunks : List (List Char)) (last : List Char) : Ending (script chunks last) :=
  ⟨_, last, rfl, by
    intro e he
    simp only [List.mem_map] at he
    obtain ⟨c, -, rfl⟩ := he
    exact ⟨c, .active, rfl, by simp⟩⟩

/-- Inner reads up to one reporting the end cover the whole source. -/
theorem Ending.hist {src es src' : List Event} {s : List Char} (hsrc : Ending src)
    (h : Hist src (es ++ [.data s .end_]) src') : ∃ c, es ++ [.data s .end_] = src ++ c ∧ ∀ e ∈ c, e = eof := by
  obtain ⟨evs, last, rfl, hev⟩ := hsrc
  obtain ⟨m, hm, -⟩ := h
  rw [List.append_eq_append_iff] at hm
  rcases hm with ⟨a, h1, h2⟩ | ⟨c, h1, h2⟩
  · rcases List.eq_nil_or_concat a with rfl | ⟨a, e, rfl⟩
    · exact ⟨[], by simpa using h1.symm, by simp⟩
    · rw [List.concat_eq_append, ← List.append_assoc] at h1
      have h3 := (List.append_inj' h1 rfl).1
      obtain ⟨x, st, he, hst⟩ := hev (.data s .end_) (by rw [h3]; simp)
      simp only [Event.data.injEq] at he
      exact absurd he.2.symm hst
  · refine ⟨c, h1, ?_⟩
    intro e he
    have : e ∈ List.replicate m eof := by rw [h2]; simp [he]
    exact List.eq_of_mem_replicate this

theorem Ending.no_err {src : List Event} (h : Ending src) : ∀ e ∈ src, e ≠ .err := by
  obtain ⟨evs, last, rfl, hev⟩ := h
  intro e he
  simp only [List.mem_append, List.mem_singleton] at he
  rcases he with he | rfl
  · obtain ⟨s, st, rfl, -⟩ := hev e he; simp
  · simp

theorem settled_end {kt : Ctl × List Char} (h : Settled kt) : ∀ c ∈ kt.2.getLast?, isEnd c = true := by
  intro c hc
  rcases h.2 with h | h
  · rw [h] at hc; simp at hc
  · rw [h] at hc; simp at hc; rw [← hc]; exact end_nl

theorem absorb_eof_settled {kt : Ctl × List Char} (h : Settled kt) :
    (absorb U kt [] .end_).2 = kt.2 ∧ Settled (absorb U kt [] .end_) := by
  have : absorb U kt [] .end_ = ({ kt.1 with atStart := false, expectStarter := true }, kt.2) := by
    unfold absorb
    rw [processRaw_nil]
    simp only [List.append_nil]
    rw [finish_settled (by exact h.1) (settled_end h)]
    simp
  rw [this]
  exact ⟨rfl, h⟩

theorem segAll_idle (es : List Event) : ∀ (kt : Ctl × List Char) (S : List (List Char) × List Char),
    (∀ c ∈ S.2, isBoundary c = false) → ∀ c ∈ (segAll U kt S es).2, isBoundary c = false := by
  induction es with
  | nil => intro kt S h; exact h
  | cons e es ih =>
    intro kt S h
    cases e with
    | data s st =>
      refine ih _ _ ?_
      unfold cut
      split
      · rename_i hb; exact lastBoundary_none hb
      · rename_i i hb; exact (lastBoundary_some hb).2.2.2
    | err => exact ih _ _ h

theorem segAll_eofs {c : List Event} (hc : ∀ e ∈ c, e = eof) : ∀ (kt : Ctl × List Char) (S : List (List Char) × List Char),
    Settled kt → (∀ x ∈ S.2, isBoundary x = false) → segAll U kt S c = S := by
  induction c with
  | nil => intros; rfl
  | cons e c ih =>
    intro kt S h1 h2
    have he := hc e (by simp)
    subst he
    obtain ⟨h3, h4⟩ := absorb_eof_settled (U := U) h1
    show segAll U (absorb U kt [] .end_) _ c = S
    rw [ih (fun e he => hc e (by simp [he])) _ _ h4]
    · rw [h3, List.drop_length, List.append_nil, cut_idle h2]
    · rw [h3, List.drop_length, List.append_nil, cut_idle h2]; exact h2

theorem absorbAll_ending (hU : TextLaws U) {src : List Event} (h : Ending src) {kt : Ctl × List Char} (hk : CtlInv U kt.1 kt.2) :
    Settled (absorbAll U kt src) := by
  obtain ⟨evs, last, rfl, -⟩ := h
  rw [absorbAll_append]
  exact absorb_settled hU (ctl_absorbAll hU evs kt hk) last

/-- The segments of a source. -/
def segments (U : Ucd) (nel lsps : Bool) (src : List Event) : List (List Char) :=
  (segAll U ((TextInput.new nel lsps).ctl, []) ([], []) src).1

/-- The text a complete run delivers depends only on the inner reads, not on the buffers. -/
theorem run_exact (hU : TextLaws U) {src : List Event} (hsrc : Ending src) {nel lsps : Bool} {lens : List Nat} {r : ReadResult}
    (hr : (readMany U lens (.new nel lsps) src).getLast? = some r) {n : Nat} (hok : r.ret = .ok n .end_) :
    delivered (readMany U lens (.new nel lsps) src) = (segments U nel lsps src).flatMap (normChain U) ∧
    r.input.queue = [] ∧ r.input.iter = [] ∧ r.input.quick = 0 := by
  obtain ⟨es, s, h1, h2, h3⟩ := run_last hU (Rel.init nel lsps) hr hok (by simp)
  obtain ⟨c, hc1, hc2⟩ := hsrc.hist h1
  simp only [List.nil_append] at h2
  have hset := absorbAll_ending hU hsrc (kt := ((TextInput.new nel lsps).ctl, [])) (ctl_new (U := U) nel lsps)
  have hS : segAll U ((TextInput.new nel lsps).ctl, []) ([], []) (es ++ [.data s .end_]) =
      segAll U ((TextInput.new nel lsps).ctl, []) ([], []) src := by
    rw [hc1, segAll_append, segAll_eofs hc2 _ _ hset (segAll_idle _ _ _ (by simp))]
  have hsegs := h2.segs
  rw [hS] at hsegs
  obtain ⟨k1, k2⟩ := hsegs.idle h3
  have hT : (absorbAll U ((TextInput.new nel lsps).ctl, []) (es ++ [.data s .end_])).2 = [] ∨
      (absorbAll U ((TextInput.new nel lsps).ctl, []) (es ++ [.data s .end_])).2.getLast? = some '\n' := by
    rw [absorbAll_append]
    exact (absorb_settled hU (ctl_absorbAll hU es _ (ctl_new (U := U) nel lsps)) s).2
  have hq := h2.inv.settled h3 hT
  refine ⟨?_, hq, h3.iter, h3.quick⟩
  obtain ⟨es', j1, j2, j3, j4⟩ := run_rel hU lens (.new nel lsps) src [] [] (Rel.init nel lsps)
  have hes : ∀ e ∈ es', e ≠ .err := by
    obtain ⟨m, hm, -⟩ := j1
    intro e he
    have : e ∈ src ++ List.replicate m eof := by rw [← hm]; simp [he]
    simp only [List.mem_append] at this
    rcases this with h | h
    · exact hsrc.no_err e h
    · rw [List.eq_of_mem_replicate h]; simp [eof]
  rw [j3 hes]
  exact k1

theorem segments_total {nel lsps : Bool} (src : List Event) (hU : TextLaws U) (hsrc : Ending src) :
    (segments U nel lsps src).flatten = (absorbAll U ((TextInput.new nel lsps).ctl, []) src).2 := by
  have h1 := segAll_total (U := U) src ((TextInput.new nel lsps).ctl, []) ([], []) rfl
  have h2 := segAll_idle (U := U) src ((TextInput.new nel lsps).ctl, []) ([], []) (by simp)
  have h3 := (absorbAll_ending hU hsrc (kt := ((TextInput.new nel lsps).ctl, [])) (ctl_new (U := U) nel lsps)).2
  rw [← h1] at h3 ⊢
  unfold segments
  revert h2 h3
  generalize segAll U ((TextInput.new nel lsps).ctl, []) ([], []) src = S
  intro h2 h3
  rcases h3 with h3 | h3
  · rw [(List.append_eq_nil_iff.1 h3).2, List.append_nil]
  · rcases List.eq_nil_or_concat S.2 with hq | ⟨q, c, hq⟩
    · rw [hq, List.append_nil]
    · rw [hq, List.concat_eq_append, ← List.append_assoc] at h3
      simp only [List.getLast?_append, List.getLast?_singleton, Option.some_or, Option.some.injEq] at h3
      have := h2 c (by simp [hq])
      rw [h3] at this
      simp [isBoundary] at this

theorem segments_seg {nel lsps : Bool} (src : List Event) : ∀ s ∈ segments U nel lsps src, IsSeg s :=
  segAll_seg src _ _ (by simp)

theorem lastBoundary_concat (x : List Char) {b : Char} (hb : isBoundary b = true) : lastBoundary (x ++ [b]) = some (x ++ [b]).length := by
  simp [lastBoundary, List.findIdx?_cons, hb]

/-- When the source hands over the whole content in one read, it is normalized as a whole. -/
theorem run_single (hU : TextLaws U) {s : List Char} {nel lsps : Bool} {lens : List Nat} {r : ReadResult}
    (hr : (readMany U lens (.new nel lsps) (script [] s)).getLast? = some r) {n : Nat} (hok : r.ret = .ok n .end_) :
    delivered (readMany U lens (.new nel lsps) (script [] s)) = normChain U (translate U nel lsps (dropBom s)) := by
  rw [(run_exact hU (ending_script [] s) hr hok).1]
  have hb : BomSafe [] s := by
    unfold BomSafe
    cases s <;> simp
  have hA := absorbAll_script hU hb nel lsps
  simp only [List.flatten_nil, List.nil_append] at hA
  have hA2 : absorb U ((TextInput.new nel lsps).ctl, []) s .end_ = (endCtl nel lsps, translate U nel lsps (dropBom s)) := hA
  show ((cut [] ([] ++ (absorb U ((TextInput.new nel lsps).ctl, []) s .end_).2.drop 0)).1).flatMap (normChain U) = _
  rw [hA2]
  simp only [List.drop_zero, List.nil_append]
  rcases translate_last hU nel lsps s with h | h
  · rw [h]; rfl
  · generalize translate U nel lsps (dropBom s) = T at h
    rcases List.eq_nil_or_concat T with rfl | ⟨x, c, rfl⟩
    · simp at h
    · rw [List.concat_eq_append] at h ⊢
      simp only [List.getLast?_append, List.getLast?_singleton, Option.some_or, Option.some.injEq] at h
      subst h
      rw [cut, lastBoundary_concat x (by decide)]
      simp only [List.take_length]
      simp

end Verif
