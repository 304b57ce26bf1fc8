import Verif.CountTheory
import Verif.HoldTheory
import Verif.LineState
import Verif.LossyWhole
import Verif.Props.CopyStatus
import Verif.Props.Exact

/-!
# C118: a reader keeps up with its source

What a reader has delivered at some moment, while its source is still going on.
-/

namespace Verif
open Ucd Spec
variable {U : Ucd}

/-! ## Buffers -/

theorem cut_fst (segs : List (List Char)) (q : List Char) : ∃ more, (cut segs q).1 = segs ++ more := by
  unfold cut
  split
  · exact ⟨[], by simp⟩
  · exact ⟨_, rfl⟩

theorem segAll_more (es : List Event) : ∀ (kt : Ctl × List Char) (S : List (List Char) × List Char), ∃ more, (segAll U kt S es).1 = S.1 ++ more := by
  induction es with
  | nil => intro kt S; exact ⟨[], by simp [segAll]⟩
  | cons e es ih =>
    intro kt S
    cases e with
    | data s st =>
      obtain ⟨m1, h1⟩ := ih (absorb U kt s st) (cut S.1 (S.2 ++ (absorb U kt s st).2.drop kt.2.length))
      obtain ⟨m2, h2⟩ := cut_fst S.1 (S.2 ++ (absorb U kt s st).2.drop kt.2.length)
      exact ⟨m2 ++ m1, by rw [segAll, h1, h2, List.append_assoc]⟩
    | err => exact ih _ _

/-- What has been written is a beginning of what the segments of any longer run of the source give. -/
theorem written_segs (hU : TextLaws U) (nel lsps : Bool) (src : List Event) (lens : List Nat) : ∃ m, ∀ m', m ≤ m' →
    written (readMany U lens (.new nel lsps) src) <+:
      (segAll U ((TextInput.new nel lsps).ctl, []) ([], []) (src ++ List.replicate m' eof)).1.flatMap (normChain U) := by
  obtain ⟨es, ⟨m, hm, -⟩, h2, -, -⟩ := run_rel hU lens (.new nel lsps) src [] [] (Rel.init nel lsps)
  refine ⟨m, fun m' hm' => ?_⟩
  obtain ⟨⟨segs, a1, a2⟩, -⟩ := h2.segs
  obtain ⟨d, rfl⟩ := Nat.exists_eq_add_of_le hm'
  rw [← List.replicate_append_replicate, ← List.append_assoc, ← hm, List.append_assoc, segAll_append]
  simp only [List.nil_append] at a1 a2
  rw [← a2]
  obtain ⟨m2, h5⟩ := segAll_more ((finalState (.new nel lsps) src (readMany U lens (.new nel lsps) src)).2 ++ List.replicate d eof)
    (absorbAll U ((TextInput.new nel lsps).ctl, []) es) (cut segs ((finalState (.new nel lsps) src (readMany U lens (.new nel lsps) src)).1.queue.drop
      (finalState (.new nel lsps) src (readMany U lens (.new nel lsps) src)).1.quick))
  obtain ⟨m1, h4⟩ := cut_fst segs ((finalState (.new nel lsps) src (readMany U lens (.new nel lsps) src)).1.queue.drop
    (finalState (.new nel lsps) src (readMany U lens (.new nel lsps) src)).1.quick)
  rw [h5, h4, List.append_assoc, List.flatMap_append, ← a1, List.append_assoc, List.append_assoc]
  exact List.prefix_append _ _

/-- C118: of any two ways to read the same source, whatever it does (pushes and errors included), one has at every moment got a beginning of
what the other has got: the buffers do not matter. -/
theorem c118_buffers (nel lsps : Bool) (src : List Event) (lens lens' : List Nat) :
    written (readMany ucd15 lens (.new nel lsps) src) <+: written (readMany ucd15 lens' (.new nel lsps) src) ∨
    written (readMany ucd15 lens' (.new nel lsps) src) <+: written (readMany ucd15 lens (.new nel lsps) src) := by
  obtain ⟨m, h⟩ := written_segs textLaws15 nel lsps src lens
  obtain ⟨m', h'⟩ := written_segs textLaws15 nel lsps src lens'
  exact List.prefix_or_prefix_of_prefix (h (max m m') (Nat.le_max_left _ _)) (h' (max m m') (Nat.le_max_right _ _))

/-- Two sizes of buffers, at a moment when they have got different amounts. -/
example : written (readMany ucd15 [136] (.new false false) [.data (List.replicate 140 'a' ++ ['\n']) .push]) = List.replicate 133 'a' ∧
    written (readMany ucd15 [200] (.new false false) [.data (List.replicate 140 'a' ++ ['\n']) .push]) = List.replicate 140 'a' ++ ['\n'] := by
  decide +kernel

/-! ## Beginnings -/

/-- C118: what has been delivered at some moment is a beginning of what is delivered in the end, whatever the buffers before and after. -/
theorem c118_beginning (nel lsps : Bool) (src : List Event) (hs : Ending src) (lens lens' : List Nat) (h : Completes ucd15 nel lsps src lens') :
    delivered (readMany ucd15 lens (.new nel lsps) src) <+: output ucd15 nel lsps src lens' := by
  obtain ⟨r, n, hr, hok⟩ := h
  rw [run_delivered textLaws15 nel lsps hs.no_err, output, (run_exact textLaws15 hs hr hok).1]
  obtain ⟨m, h⟩ := written_segs textLaws15 nel lsps src lens
  refine (h m (Nat.le_refl _)).trans ?_
  rw [segAll_append, segAll_eofs (fun e he => List.eq_of_mem_replicate he) _ _
    (absorbAll_ending textLaws15 hs (kt := ((TextInput.new nel lsps).ctl, [])) (ctl_new nel lsps)) (segAll_idle _ _ _ (by simp))]
  exact List.prefix_refl _

/-- In terms of the document's conversion, if in the text of the content U+034F does not come directly before an unassigned scalar. -/
theorem c118_beginning_stream (nel lsps : Bool) (chunks : List (List Char)) (last : List Char) (hb : BomSafe chunks last)
    (hn : Clear ucd15 nel lsps (chunks.flatten ++ last)) (lens : List Nat) :
    delivered (readMany ucd15 lens (.new nel lsps) (script chunks last)) <+: stream ucd15 nel lsps (chunks.flatten ++ last) := by
  obtain ⟨lens', h⟩ := completes nel lsps chunks last
  rw [← output_stream textLaws15 hb hn h]
  exact c118_beginning nel lsps _ (ending_script _ _) lens lens' h

example : Ending (script [['a', '\n'], ['b']] ['c', '\n']) ∧ Completes ucd15 false false (script [['a', '\n'], ['b']] ['c', '\n']) [136, 136, 136] ∧
    BomSafe [['a', '\n'], ['b']] ['c', '\n'] ∧ Clear ucd15 false false (['a', '\n'] ++ ['b'] ++ ['c', '\n']) ∧
    delivered (readMany ucd15 [136] (.new false false) (script [['a', '\n'], ['b']] ['c', '\n'])) = ['a', '\n'] := by
  refine ⟨ending_script _ _, completes_of (by decide +kernel), .inl (by simp), ?_, by decide +kernel⟩
  exact noCgjUn_translate textLaws15 (.inr (by decide))

/-! ## Promptness -/

theorem finish_end (k : Ctl) (b : Option Char) : '\n' ∉ (finish k b .end_).2.dropLast := by
  have hg : ∀ o, '\n' ∉ endGuard o := by
    intro o
    unfold endGuard
    repeat' split
    all_goals simp [CGJ]
  have hnl : endGuard (some '\n') = [] := by decide +kernel
  have h1 : ∀ x : List Char, '\n' ∉ x → '\n' ∉ x.dropLast := fun x hx h => hx (List.dropLast_subset x h)
  have h2 : ∀ x : List Char, '\n' ∉ x → '\n' ∉ (x ++ ['\n']).dropLast := fun x hx h => by rw [List.dropLast_concat] at h; exact hx h
  unfold finish finishState
  cases hk : k.state with
  | ground g =>
    simp only [List.nil_append]
    split
    · exact h2 _ (hg _)
    · exact h1 _ (hg _)
  | cr => simp [hnl]
  | ff =>
    simp only
    split
    · exact h2 _ (by simp [hg])
    · exact h1 _ (by simp [hg])
  | _ =>
    simp only [List.nil_append]
    split
    · exact h2 _ (hg _)
    · exact h1 _ (hg _)

theorem finish_end_nil {k : Ctl} {o : Option Char} (h : (finish k o .end_).2 = []) : k.state = .ground true := by
  unfold finish finishState at h
  cases hs : k.state with
  | ground g => cases g <;> simp [hs] at h ⊢
  | _ => simp [hs] at h

/-- When a reader holds nothing that can be delivered: what has been written, and what would be written if the source ended there. -/
theorem at_idle (hU : TextLaws U) {nel lsps : Bool} {src : List Event} {lens : List Nat} {r : ReadResult}
    (hr : (readMany U lens (.new nel lsps) src).getLast? = some r) (hidle : Idle r.input)
    {came : List Event} (hc : src = came ++ r.src) (hd : ∀ e ∈ came, ∃ s st, e = .data s st ∧ st ≠ .end_) :
    ∃ x, (segments U nel lsps (came ++ [eof])).flatMap (normChain U) = written (readMany U lens (.new nel lsps) src) ++ x ∧
      '\n' ∉ x.dropLast ∧ (ESC ∉ Spec.content came → (Spec.content came).getLast? = some '\n' → x = []) ∧
      (r.src ≠ [] → (x = [] ↔ Spec.AtLineEnd nel lsps came)) := by
  rw [← atLineEnd_state hU nel lsps came hd]
  obtain ⟨es, ⟨m, hm, hm'⟩, h2, -, -⟩ := run_rel hU lens (.new nel lsps) src [] [] (Rel.init nel lsps)
  have hf : finalState (.new nel lsps) src (readMany U lens (.new nel lsps) src) = (r.input, r.src) := by
    unfold finalState; rw [hr]
  rw [hf] at hm hm' h2
  simp only at hm hm' h2
  obtain ⟨a1, a2⟩ := h2.segs.idle hidle
  simp only [List.nil_append] at a1 a2
  have hctl := ctl_absorbAll hU came ((TextInput.new nel lsps).ctl, []) (ctl_new (U := U) nel lsps)
  by_cases hz : m = 0
  · subst hz
    rw [List.replicate_zero, List.append_nil, hc] at hm
    have hes := List.append_cancel_right hm
    subst hes
    have hat := atLine_all (U := U) es ((TextInput.new nel lsps).ctl, []) [] ⟨.inl ⟨true, rfl⟩, by simp, fun _ => ⟨rfl, true, rfl⟩⟩ hd
    rw [List.nil_append] at hat
    have htot := segAll_total (U := U) es ((TextInput.new nel lsps).ctl, []) ([], []) rfl
    have hset := absorb_settled hU hctl []
    unfold segments
    rw [segAll_append, a1]
    have hq := hidle.queue
    rw [a2] at hq
    generalize segAll U ((TextInput.new nel lsps).ctl, []) ([], []) es = S at *
    generalize absorbAll U ((TextInput.new nel lsps).ctl, []) es = kt at *
    obtain ⟨k, T⟩ := kt
    have hab : (absorb U (k, T) [] .end_).2 = T ++ (finish { k with atStart := false } T.getLast? .end_).2 := by
      simp [absorb, processRaw_nil]
    have hfe := finish_end { k with atStart := false } T.getLast?
    have hx : (segAll U (k, T) S [eof]).1 = (cut S.1 (S.2 ++ (finish { k with atStart := false } T.getLast? .end_).2)).1 := by
      simp only [segAll, eof, hab, List.drop_left]
    have hset2 := hset.2
    rw [hab] at hset2
    rw [hx]
    have hS2 : T = [] ∨ T.getLast? = some '\n' → S.2 = [] := by
      simp only at htot
      rintro (h | h)
      · rw [h] at htot
        exact (List.append_eq_nil_iff.1 htot).2
      · rcases List.eq_nil_or_concat S.2 with h' | ⟨z, d, h'⟩
        · exact h'
        · rw [List.concat_eq_append] at h'
          rw [← htot, h', ← List.append_assoc, List.getLast?_concat] at h
          injection h with h
          exact absurd (hq d (by rw [h']; simp)) (by rw [h]; decide)
    generalize ho : (finish { k with atStart := false } T.getLast? .end_).2 = o at *
    have hend : S.2 ++ o = [] ∨ ∃ x b, S.2 ++ o = x ++ [b] ∧ isBoundary b = true := by
      rcases List.eq_nil_or_concat o with rfl | ⟨z, d, rfl⟩
      · rw [List.append_nil] at hset2 ⊢
        exact .inl (hS2 hset2)
      · rw [List.concat_eq_append] at hset2 ⊢
        right
        refine ⟨S.2 ++ z, d, by simp, ?_⟩
        rcases hset2 with h | h
        · simp at h
        · rw [← List.append_assoc, List.getLast?_concat] at h
          injection h with h
          rw [h]; decide
    refine ⟨normChain U (S.2 ++ o), cut_ended hend, ?_, fun he hl => ?_, fun _ => ⟨fun h => ?_, fun hs => ?_⟩⟩
    · have hn : '\n' ∉ S.2 := fun h => absurd (hq _ h) (by decide)
      have hmem : ∀ x : List Char, '\n' ∉ x → '\n' ∉ normChain U x := fun x hx h => hx (mem_normChain_inert hU hU.law.inert_nl (by decide) h)
      rcases List.eq_nil_or_concat o with rfl | ⟨z, d, rfl⟩
      · rw [List.append_nil]
        exact fun h => hmem _ hn (List.dropLast_subset _ h)
      · rw [List.concat_eq_append] at hfe ⊢
        rw [List.dropLast_concat] at hfe
        by_cases hdn : d = '\n'
        · subst hdn
          rw [← List.append_assoc, normChain_split hU hU.law.inert_nl (boundary_assigned hU (by decide)) (by decide), normChain_nil,
            List.dropLast_concat]
          exact hmem _ (by simp [hn, hfe])
        · exact fun h => hmem _ (by simp [hn, hfe, Ne.symm hdn]) (List.dropLast_subset _ h)
    · have hs := (hat he).nl hl
      have hT' := hctl.nl hs
      simp only at hs hT'
      have hg : endGuard T.getLast? = [] := by
        rcases hT' with h | h
        · rw [h]; rfl
        · rw [h]; decide +kernel
      have : o = [] := by rw [← ho]; simp [finish, finishState, hs, hg]
      rw [hS2 hT', this]; rfl
    · have ho' : o = [] := by
        rcases List.append_eq_nil_iff.1 (Classical.byContradiction fun h' => normChain_ne_nil hU h' h) with ⟨-, h⟩
        exact h
      subst ho'
      exact finish_end_nil (k := { k with atStart := false }) ho
    · have hT' := hctl.nl hs
      simp only at hs hT'
      have hg : endGuard T.getLast? = [] := by
        rcases hT' with h | h
        · rw [h]; rfl
        · rw [h]; decide +kernel
      have : o = [] := by rw [← ho]; simp [finish, finishState, hs, hg]
      rw [hS2 hT', this]; rfl
  · have hz' : r.src = [] := hm' hz
    rw [hz', List.append_nil, hc, hz', List.append_nil] at hm
    obtain ⟨m', rfl⟩ := Nat.exists_eq_succ_of_ne_zero hz
    rw [List.replicate_succ, show came ++ eof :: List.replicate m' eof = (came ++ [eof]) ++ List.replicate m' eof by simp] at hm
    have hend : Ending (came ++ [eof]) := ⟨came, [], rfl, hd⟩
    rw [hm, segAll_append, segAll_eofs (fun e he => List.eq_of_mem_replicate he) _ _
      (absorbAll_ending hU hend (kt := ((TextInput.new nel lsps).ctl, [])) (ctl_new nel lsps)) (segAll_idle _ _ _ (by simp))] at a1
    exact ⟨[], by rw [a1, List.append_nil]; rfl, by simp, fun _ _ => rfl, fun h => absurd hz' h⟩

/-- When a read has left room in its buffer. -/
theorem at_room (hU : TextLaws U) {nel lsps : Bool} {src : List Event} {lens : List Nat} {len : Nat} {r : ReadResult} {n : Nat} {st : Status}
    (hr : (readMany U (lens ++ [len]) (.new nel lsps) src).getLast? = some r) (hok : r.ret = .ok n st) (hroom : n + 4 ≤ len)
    {came : List Event} (hc : src = came ++ r.src) (hd : ∀ e ∈ came, ∃ s st, e = .data s st ∧ st ≠ .end_) :
    ∃ x, (segments U nel lsps (came ++ [eof])).flatMap (normChain U) = written (readMany U (lens ++ [len]) (.new nel lsps) src) ++ x ∧
      '\n' ∉ x.dropLast ∧ (ESC ∉ Spec.content came → (Spec.content came).getLast? = some '\n' → x = []) ∧
      (r.src ≠ [] → (x = [] ↔ Spec.AtLineEnd nel lsps came)) := by
  refine at_idle hU hr ?_ hc hd
  rw [readMany_append] at hr
  obtain ⟨es, g1, g2, -, -⟩ := run_rel hU lens (.new nel lsps) src [] [] (Rel.init nel lsps)
  have hr' : readWithStatus U len (finalState (.new nel lsps) src (readMany U lens (.new nel lsps) src)).1
      (finalState (.new nel lsps) src (readMany U lens (.new nel lsps) src)).2 = r := by
    simpa [readMany] using hr
  subst hr'
  exact readWithStatus_idle hU g2.inv hok hroom

/-- C118: when a read leaves room in its buffer, all that would be delivered if the source ended there has been delivered, but at most the last
line; and all of it if what has come is complete lines without escapes. -/
theorem c118_as_if_ended (nel lsps : Bool) (came rest : List Event) (hd : ∀ e ∈ came, ∃ s st, e = .data s st ∧ st ≠ .end_) (lens : List Nat)
    (len : Nat) (r : ReadResult) (n : Nat) (st : Status) (hr : (readMany ucd15 (lens ++ [len]) (.new nel lsps) (came ++ rest)).getLast? = some r)
    (hrest : r.src = rest) (hok : r.ret = .ok n st) (hroom : n + 4 ≤ len) (lens' : List Nat)
    (h' : Completes ucd15 nel lsps (came ++ [.data [] .end_]) lens') :
    ∃ x, output ucd15 nel lsps (came ++ [.data [] .end_]) lens' = written (readMany ucd15 (lens ++ [len]) (.new nel lsps) (came ++ rest)) ++ x ∧
      '\n' ∉ x.dropLast ∧ (ESC ∉ Spec.content came → (Spec.content came).getLast? = some '\n' → x = []) := by
  subst hrest
  obtain ⟨r', n', hr', hok'⟩ := h'
  obtain ⟨x, h1, h2, h3, -⟩ := at_room textLaws15 hr hok hroom rfl hd
  refine ⟨x, ?_, h2, h3⟩
  rw [output, (run_exact textLaws15 ⟨came, [], rfl, hd⟩ hr' hok').1]
  exact h1

/-- C118: exactly when all of it has been delivered, while the source goes on: if what has come ends at the end of a line, pushes, escapes
and the compatibility modes included. -/
theorem c118_exact (nel lsps : Bool) (came rest : List Event) (hd : ∀ e ∈ came, ∃ s st, e = .data s st ∧ st ≠ .end_) (lens : List Nat)
    (len : Nat) (r : ReadResult) (n : Nat) (st : Status) (hr : (readMany ucd15 (lens ++ [len]) (.new nel lsps) (came ++ rest)).getLast? = some r)
    (hrest : r.src = rest) (hne : rest ≠ []) (hok : r.ret = .ok n st) (hroom : n + 4 ≤ len) (lens' : List Nat)
    (h' : Completes ucd15 nel lsps (came ++ [.data [] .end_]) lens') :
    written (readMany ucd15 (lens ++ [len]) (.new nel lsps) (came ++ rest)) = output ucd15 nel lsps (came ++ [.data [] .end_]) lens' ↔
      Spec.AtLineEnd nel lsps came := by
  subst hrest
  obtain ⟨r', n', hr', hok'⟩ := h'
  obtain ⟨x, h1, -, -, h2⟩ := at_room textLaws15 hr hok hroom rfl hd
  have h1 : (segments ucd15 nel lsps (came ++ [.data [] .end_])).flatMap (normChain ucd15) = _ := h1
  rw [← h2 hne, output, (run_exact textLaws15 ⟨came, [], rfl, hd⟩ hr' hok').1, h1]
  simp

theorem tokens_active (p : List Char) : ∀ cs : List (List Char), Spec.parts (Event.data p .active :: cs.map fun c => Event.data c .active) = [p ++ cs.flatten] := by
  intro cs
  induction cs generalizing p with
  | nil => simp [Spec.parts]
  | cons c cs ih => rw [List.map_cons, Spec.parts, ih]; simp

/-- Without pushes: the items of the content, which does not end in a carriage return. -/
theorem atLineEnd_active (nel lsps : Bool) (c : List Char) (cs : List (List Char)) :
    Spec.AtLineEnd nel lsps ((c :: cs).map fun c => Event.data c .active) ↔
      (tokens finCan (single nel lsps) (dropBom c ++ cs.flatten) = [] ∨
        (tokens finCan (single nel lsps) (dropBom c ++ cs.flatten)).getLast? = some .nl) ∧ (dropBom c ++ cs.flatten).getLast? ≠ some '\r' := by
  unfold Spec.AtLineEnd
  rw [List.map_cons, Spec.unmarked, tokens_active]
  simp

/-- Complete lines with an escape in them; the carriage return of a line break whose newline has not come; the same at a push. -/
example : Spec.AtLineEnd false false [.data ['a', ESC, '[', '1', 'm', '\n'] .active] ∧
    ¬ Spec.AtLineEnd false false [.data ['a', '\r'] .active] ∧ Spec.AtLineEnd false false [.data ['a', '\r'] .push] ∧
    ¬ Spec.AtLineEnd false false [.data [ESC, ']', '\n'] .active] ∧ Spec.AtLineEnd true false [.data ['a', NEL] .active] ∧
    ¬ Spec.AtLineEnd false false [.data ['a', NEL] .active] := by
  decide +kernel

example : (readMany ucd15 [136] (.new false false) ([.data ['a', ESC, '[', '1', 'm', '\n'] .active] ++ [.data ['c'] .end_])).map
      (fun r => (r.ret, r.out, r.src)) = [(.ok 2 .active, ['a', '\n'], [.data ['c'] .end_])] ∧
    (readMany ucd15 [136] (.new false false) ([.data ['a', '\r'] .active] ++ [.data ['c'] .end_])).map
      (fun r => (r.ret, r.out, r.src)) = [(.ok 0 .active, [], [.data ['c'] .end_])] := by
  decide +kernel

theorem content_active (chunks : List (List Char)) : Spec.content (chunks.map fun c => Event.data c .active) = chunks.flatten := by
  induction chunks with
  | nil => rfl
  | cons c cs ih => simp [Spec.content, ih]

/-- In terms of the document's conversion. -/
theorem c118_lines_stream (nel lsps : Bool) (chunks : List (List Char)) (rest : List Event) (hb : BomSafe chunks [])
    (hn : Clear ucd15 nel lsps chunks.flatten) (lens : List Nat) (len : Nat) (r : ReadResult) (n : Nat) (st : Status)
    (hr : (readMany ucd15 (lens ++ [len]) (.new nel lsps) (chunks.map (fun c => .data c .active) ++ rest)).getLast? = some r)
    (hrest : r.src = rest) (hok : r.ret = .ok n st) (hroom : n + 4 ≤ len) :
    ∃ x, stream ucd15 nel lsps chunks.flatten =
        written (readMany ucd15 (lens ++ [len]) (.new nel lsps) (chunks.map (fun c => .data c .active) ++ rest)) ++ x ∧
      '\n' ∉ x.dropLast ∧ (ESC ∉ chunks.flatten → chunks.flatten.getLast? = some '\n' → x = []) := by
  obtain ⟨lens', h'⟩ := completes nel lsps chunks []
  have hn' : Clear ucd15 nel lsps (chunks.flatten ++ []) := by rw [List.append_nil]; exact hn
  have he := output_stream textLaws15 hb hn' h'
  rw [List.append_nil] at he
  obtain ⟨x, h1, h2⟩ := c118_as_if_ended nel lsps _ rest (by
    intro e he; obtain ⟨c, -, rfl⟩ := List.mem_map.1 he; exact ⟨_, _, rfl, by simp⟩) lens len r n st hr hrest hok hroom lens' h'
  rw [content_active] at h2
  exact ⟨x, by rw [← he]; exact h1, h2⟩

/-- A line and a half: the half is kept back. A line: nothing is. -/
example : (readMany ucd15 [136] (.new false false) ([['a', '\n', 'b']].map (fun c => .data c .active) ++ [.data ['c'] .end_])).map
      (fun r => (r.ret, r.out, r.src)) = [(.ok 2 .active, ['a', '\n'], [.data ['c'] .end_])] ∧
    (readMany ucd15 [136] (.new false false) ([['a', 'b', '\n']].map (fun c => .data c .active) ++ [.data ['c'] .end_])).map
      (fun r => (r.ret, r.out, r.src)) = [(.ok 3 .active, ['a', 'b', '\n'], [.data ['c'] .end_])] := by decide +kernel

/-- Lines without escapes are needed: an operating system command swallows the newline. -/
example : (readMany ucd15 [136] (.new false false) [.data [ESC, ']', '\n'] .active]).map (fun r => (r.ret, r.out)) = [(.ok 0 .active, [])] ∧
    output ucd15 false false [.data [ESC, ']', '\n'] .active, .data [] .end_] [136, 136] = ['\n'] := by decide +kernel

/-- Every such source has a completing run, pushes included. -/
example : Completes ucd15 false false ([Event.data ['a', '\n', 'b'] .push] ++ [.data [] .end_]) [136, 136, 136] ∧
    output ucd15 false false ([Event.data ['a', '\n', 'b'] .push] ++ [.data [] .end_]) [136, 136, 136] = ['a', '\n', 'b', '\n'] :=
  ⟨completes_of (by decide +kernel), by decide +kernel⟩

end Verif
