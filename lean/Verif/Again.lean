import Verif.LineCut
import Verif.Copy

/-!
# Reading on after the end

A terminal goes on after the end has been typed, and a file may grow after it has been read: what a reader does with what comes
after an end.
-/

namespace Verif
open Ucd Spec
variable {U : Ucd}

/-- A new reader that has taken its first, empty, read from the source. -/
def resumed (nel lsps : Bool) : TextInput :=
  { TextInput.new nel lsps with ctl := { (TextInput.new nel lsps).ctl with atStart := false } }

theorem absorb_started (kt : Ctl × List Char) (s : List Char) (st : Status) : (absorb U kt s st).1.atStart = false := by
  have h : (processRaw U kt.1 s).1.atStart = false := by unfold processRaw; rw [feed_atStart]
  unfold absorb
  simp only
  split
  · exact h
  · have hf : ∀ k : Ctl, k.atStart = false → (finishState k).1.atStart = false := by
      intro k hk
      unfold finishState
      split <;> exact hk
    have := hf _ h
    unfold finish
    simp only
    split <;> exact this

theorem absorb_end_ctl (hU : TextLaws U) {kt : Ctl × List Char} (h : CtlInv U kt.1 kt.2) (s : List Char) :
    (absorb U kt s .end_).1 = { state := .ground true, expectStarter := true, atStart := false, nel := kt.1.nel, lsps := kt.1.lsps } := by
  have h1 := (absorb_settled hU h s).1
  have h2 := absorb_started (U := U) kt s .end_
  have h3 := absorb_modes (U := U) kt s .end_
  have h4 : (absorb U kt s .end_).1.expectStarter = true := by unfold absorb; simp
  revert h1 h2 h3 h4
  cases (absorb U kt s .end_).1
  simp only
  rintro rfl rfl ⟨rfl, rfl⟩ rfl
  rfl

/-- When the end is reported the reader is as one that is new but for having begun. -/
theorem end_state (hU : TextLaws U) {nel lsps : Bool} {src : List Event} {lens : List Nat} {r : ReadResult}
    (hr : (readMany U lens (.new nel lsps) src).getLast? = some r) {n : Nat} (hok : r.ret = .ok n .end_) : r.input = resumed nel lsps := by
  obtain ⟨-, h1, h2, h3⟩ := run_end hU hr hok
  obtain ⟨es, s, -, h4, -⟩ := run_last hU (Rel.init nel lsps) hr hok (by simp)
  have hp : r.input.pending = .active := by
    rcases List.eq_nil_or_concat lens with rfl | ⟨lens, len, rfl⟩
    · simp [readMany] at hr
    · rw [List.concat_eq_append, readMany_append] at hr
      simp only [readMany, List.getLast?_append, List.getLast?_singleton, Option.some_or, Option.some.injEq] at hr
      subst hr
      obtain ⟨es', -, hrel, -, -⟩ := run_rel hU lens (.new nel lsps) src [] [] (Rel.init nel lsps)
      exact end_pending hU hrel hok (by simp)
  have hc := h4.ctl hp
  rw [List.nil_append, absorbAll_append] at hc
  have hm := absorbAll_mode (U := U) es ((TextInput.new nel lsps).ctl, [])
  have he := absorb_end_ctl hU (ctl_absorbAll hU es ((TextInput.new nel lsps).ctl, []) (ctl_new (U := U) nel lsps)) s
  rw [hm.1, hm.2] at he
  have hc : r.input.ctl = (absorb U (absorbAll U ((TextInput.new nel lsps).ctl, []) es) s .end_).1 := hc
  rw [he] at hc
  revert h1 h2 h3 hp hc
  cases r.input
  simp only
  rintro rfl rfl rfl rfl rfl
  rfl

/-- What a new reader does whose source first brings nothing. -/
theorem read_nothing {len : Nat} (hl : normalizationBufferSize ≤ len) (nel lsps : Bool) (rest : List Event) :
    readWithStatus U len (.new nel lsps) (.data [] .active :: rest) =
      { ret := .ok 0 .active, out := [], input := resumed nel lsps, src := rest } := by
  have hN : normalizationBufferSize = 136 := rfl
  have hd : drain U (len + 1) len (.new nel lsps) = (.empty, [], .new nel lsps) := by rw [drain]; rfl
  rw [readWithStatus, if_neg (by omega), hd]
  rfl

/-! ## Several documents -/

theorem finish_behind {k : Ctl} {b b' : Option Char} (h : endGuard b = endGuard b') (st : Status) : finish k b st = finish k b' st := by
  unfold finish
  simp only
  have : endGuard ((finishState k).2.getLast?.or b) = endGuard ((finishState k).2.getLast?.or b') := by
    cases (finishState k).2.getLast? with
    | none => simpa using h
    | some c => rfl
  rw [this]

theorem absorb_behind (k : Ctl) {p : List Char} (hp : ∀ c ∈ p.getLast?, isEnd c = true) (t s : List Char) (st : Status) :
    absorb U (k, p ++ t) s st = ((absorb U (k, t) s st).1, p ++ (absorb U (k, t) s st).2) := by
  unfold absorb
  simp only
  have hl : endGuard (p ++ t ++ (processRaw U k s).2).getLast? = endGuard (t ++ (processRaw U k s).2).getLast? := by
    rw [List.append_assoc, List.getLast?_append]
    cases e : (t ++ (processRaw U k s).2).getLast? with
    | none =>
      rw [Option.none_or]
      cases ep : p.getLast? with
      | none => rfl
      | some c => simp [endGuard, hp c ep]
    | some c => rfl
  rw [finish_behind hl]
  split <;> simp [List.append_assoc]

theorem segAll_behind (es : List Event) : ∀ (k : Ctl) (p t : List Char) (P S : List (List Char)) (q : List Char),
    (∀ c ∈ p.getLast?, isEnd c = true) →
    segAll U (k, p ++ t) (P ++ S, q) es = (P ++ (segAll U (k, t) (S, q) es).1, (segAll U (k, t) (S, q) es).2) := by
  induction es with
  | nil => intros; rfl
  | cons e es ih =>
    intro k p t P S q hp
    cases e with
    | err => exact ih k p t P S q hp
    | data s st =>
      rw [segAll, segAll, absorb_behind k hp]
      have e1 : (p ++ (absorb U (k, t) s st).2).drop (p ++ t).length = (absorb U (k, t) s st).2.drop t.length := by
        rw [List.length_append, ← List.drop_drop, List.drop_left]
      simp only [e1]
      rw [cut_front]
      exact ih _ p _ P _ _ hp

/-- After a document nothing is left to be cut off. -/
theorem segAll_done (hU : TextLaws U) {nel lsps : Bool} {src : List Event} (h : Ending src) :
    (segAll U ((TextInput.new nel lsps).ctl, []) ([], []) src).2 = [] := by
  have h1 := segAll_total (U := U) src ((TextInput.new nel lsps).ctl, []) ([], []) rfl
  have h2 := segments_total (nel := nel) (lsps := lsps) src hU h
  rw [← h1] at h2
  unfold segments at h2
  have := congrArg List.length h2
  simp only [List.length_append] at this
  exact List.length_eq_zero_iff.1 (by omega)

theorem segments_then (hU : TextLaws U) (nel lsps : Bool) {d : List Event} (h : Ending d) (es : List Event) :
    segments U nel lsps (d ++ es) = segments U nel lsps d ++ segments U nel lsps (.data [] .active :: es) := by
  have hset := absorbAll_ending hU h (kt := ((TextInput.new nel lsps).ctl, [])) (ctl_new (U := U) nel lsps)
  have hk : (absorbAll U ((TextInput.new nel lsps).ctl, []) d).1 = (resumed nel lsps).ctl := by
    obtain ⟨evs, last, rfl, -⟩ := h
    rw [absorbAll_append]
    have hm := absorbAll_mode (U := U) evs ((TextInput.new nel lsps).ctl, [])
    have he := absorb_end_ctl hU (ctl_absorbAll hU evs ((TextInput.new nel lsps).ctl, []) (ctl_new (U := U) nel lsps)) last
    rw [hm.1, hm.2] at he
    exact he
  have hd := segAll_done (nel := nel) (lsps := lsps) hU h
  unfold segments
  rw [segAll_append]
  have e1 : absorbAll U ((TextInput.new nel lsps).ctl, []) d =
      ((resumed nel lsps).ctl, (absorbAll U ((TextInput.new nel lsps).ctl, []) d).2 ++ []) := by rw [← hk, List.append_nil]
  have e2 : segAll U ((TextInput.new nel lsps).ctl, []) ([], []) d =
      ((segAll U ((TextInput.new nel lsps).ctl, []) ([], []) d).1 ++ [], []) := by rw [List.append_nil]; exact Prod.ext rfl hd
  rw [e1, e2, segAll_behind es _ _ _ _ _ _ (settled_end hset), List.append_nil]
  rfl

/-- All of a source has been read when the end is reported and nothing is left of it. -/
theorem run_whole (hU : TextLaws U) {src : List Event} (hsrc : ∃ evs s, src = evs ++ [.data s .end_]) (he : ∀ e ∈ src, e ≠ .err) {nel lsps : Bool} {lens : List Nat}
    {r : ReadResult} (hr : (readMany U lens (.new nel lsps) src).getLast? = some r) {n : Nat} (hok : r.ret = .ok n .end_) (hs : r.src = []) :
    delivered (readMany U lens (.new nel lsps) src) = (segments U nel lsps src).flatMap (normChain U) := by
  obtain ⟨es, s, h1, h2, h3⟩ := run_last hU (Rel.init nel lsps) hr hok (by simp)
  have hf : (finalState (.new nel lsps) src (readMany U lens (.new nel lsps) src)).2 = [] := by
    unfold finalState; rw [hr]; exact hs
  rw [hf] at h1
  obtain ⟨m, hm, -⟩ := h1
  rw [List.append_nil] at hm
  simp only [List.nil_append] at h2
  have hset : Settled (absorbAll U ((TextInput.new nel lsps).ctl, []) src) := by
    obtain ⟨evs, x, rfl⟩ := hsrc
    rw [absorbAll_append]
    exact absorb_settled hU (ctl_absorbAll hU evs ((TextInput.new nel lsps).ctl, []) (ctl_new (U := U) nel lsps)) x
  have hS : segAll U ((TextInput.new nel lsps).ctl, []) ([], []) (es ++ [.data s .end_]) =
      segAll U ((TextInput.new nel lsps).ctl, []) ([], []) src := by
    rw [hm, segAll_append, segAll_eofs (fun e he => List.eq_of_mem_replicate he) _ _ hset (segAll_idle _ _ _ (by simp))]
  have hsegs := h2.segs
  rw [hS] at hsegs
  rw [run_delivered hU nel lsps he]
  exact (hsegs.idle h3).1

/-- It will be. -/
theorem reach_whole (hU : TextLaws U) {k0 : Ctl} (hk : CtlInv U k0 []) (lens : Nat → Nat) (hl : ∀ i, normalizationBufferSize ≤ lens i) :
    ∀ (m : Nat) (t : TextInput) (src : List Event) (emitted : List Char) (es : List Event) (i : Nat), Rel U k0 t emitted es → src.length ≤ m →
    ∃ n r, (readMany U ((List.range' i n).map lens) t src).getLast? = some r ∧ (∃ k, r.ret = .ok k .end_) ∧ r.src = [] := by
  intro m
  induction m with
  | zero =>
    intro t src emitted es i h hm
    obtain ⟨n, r, h1, k, h2⟩ := reach hU hk lens hl t src emitted es 1 i h (by simp)
    refine ⟨n, r, h1, ⟨k, h2⟩, ?_⟩
    obtain ⟨es', s, ⟨j, hj, hj'⟩, -, -⟩ := run_last hU h h1 h2 (by simp)
    have hf : (finalState t src (readMany U ((List.range' i n).map lens) t src)).2 = r.src := by unfold finalState; rw [h1]
    rw [hf] at hj hj'
    have hs : src = [] := List.length_eq_zero_iff.1 (by omega)
    by_cases hj0 : j = 0
    · subst hj0; rw [hs] at hj; simp at hj
    · exact hj' hj0
  | succ m ih =>
    intro t src emitted es i h hm
    obtain ⟨n, r, h1, k, h2⟩ := reach hU hk lens hl t src emitted es 1 i h (by simp)
    obtain ⟨es', s, ⟨j, hj, hj'⟩, h3, -⟩ := run_last hU h h1 h2 (by simp)
    have hf : finalState t src (readMany U ((List.range' i n).map lens) t src) = (r.input, r.src) := by unfold finalState; rw [h1]
    rw [hf] at hj hj'
    simp only at hj hj'
    by_cases hr : r.src = []
    · exact ⟨n, r, h1, ⟨k, h2⟩, hr⟩
    · have hj0 : j = 0 := Classical.byContradiction fun hc => hr (hj' hc)
      subst hj0
      have hlen := congrArg List.length hj
      simp only [List.length_append, List.replicate_zero, List.length_nil, List.length_cons] at hlen
      obtain ⟨n', r', g1, g2, g3⟩ := ih r.input r.src _ _ (i + n) h3 (by omega)
      refine ⟨n + n', r', ?_, g2, g3⟩
      rw [← List.range'_append_1, List.map_append, readMany_append, hf, List.getLast?_append, g1]
      rfl

end Verif
