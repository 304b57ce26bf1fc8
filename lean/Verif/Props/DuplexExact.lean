import Verif.Props.Fate

/-!
# C59, C131: exactly when a duplexer may be flushed, closed and dropped
-/

namespace Verif
open Ucd Spec

/-- A call on a duplexer after the calls `a` is a read that delivers a line. -/
def Spec.ReadsLine (d : Duplexer) (a : List DOp) (op : DOp) : Prop :=
  ∃ n st s, (dstep ucd15 (drun ucd15 d a) op).2 = .read (.ok n st) s ∧ s.getLast? = some '\n'

/-- The calls on a duplexer fall into those up to the last `write_text` of an empty text or read that delivers a line, and those after it. -/
def Spec.SinceLine (d : Duplexer) (a b : List DOp) : Prop :=
  (a = [] ∨ ∃ a' op, a = a' ++ [op] ∧ (op = .op (.text []) ∨ ReadsLine d a' op)) ∧
  ∀ b1 op b2, b = b1 ++ op :: b2 → op ≠ .op (.text []) ∧ ¬ ReadsLine d (a ++ b1) op

theorem drun_snoc (U : Ucd) (a b : List DOp) : ∀ d, drun U d (a ++ b) = drun U (drun U d a) b := by
  induction a with
  | nil => intro d; rfl
  | cons o a ih => intro d; exact ih _

/-- Every sequence of calls does. -/
theorem sinceLine_exists (d : Duplexer) (ops : List DOp) : ∃ a b, ops = a ++ b ∧ SinceLine d a b := by
  induction h : ops.length generalizing ops with
  | zero =>
    have := List.length_eq_zero_iff.1 h
    subst this
    exact ⟨[], [], rfl, .inl rfl, fun b1 op b2 e => by simp at e⟩
  | succ n ih =>
    rcases List.eq_nil_or_concat ops with rfl | ⟨os, op, rfl⟩
    · simp at h
    · rw [List.concat_eq_append] at h ⊢
      by_cases hop : op = .op (.text []) ∨ ReadsLine d os op
      · exact ⟨os ++ [op], [], by simp, .inr ⟨os, op, rfl, hop⟩, fun b1 op b2 e => by simp at e⟩
      · obtain ⟨a, b, rfl, h1, h2⟩ := ih os (by simpa using h)
        refine ⟨a, b ++ [op], by simp, h1, fun b1 o b2 e => ?_⟩
        rcases List.eq_nil_or_concat b2 with rfl | ⟨b3, o', rfl⟩
        · obtain ⟨rfl, e'⟩ := List.append_inj' e rfl
          rw [← (List.cons.inj e').1]
          exact not_or.1 hop
        · rw [List.concat_eq_append, ← List.cons_append, ← List.append_assoc] at e
          exact h2 b1 o b3 (List.append_inj' e rfl).1

/-! ## The state of the output half -/

/-- What the state of a writer can be, if `T` is what matters of what it has sent. -/
def Stands (v : Writer) (T : List Char) : Prop :=
  (pend v ≠ [] ∧ v.sink.dead = false ∧ (v.state = .esc ∨ v.state = .csi)) ∨
  (pend v = [] ∧ v.sink.dead = false ∧ v.state = .ground (groundAfter T)) ∨
  (pend v = [] ∧ v.sink.dead = true ∧ v.state = .ground .newline)

theorem reset_safe {base : List Char} {w : Writer} (h : Safe base w) : Safe base w.reset :=
  ⟨h.pre, fun hd => ⟨(h.live hd).1, trivial, (h.live hd).2.2⟩⟩

theorem dsafe {base : List Char} : ∀ (ops : List DOp) (d : Duplexer), (∀ o ∈ Verif.writes ops, o.Ok ucd15) → Safe base d.output → Over d.output →
    Safe base (drun ucd15 d ops).output ∧ Over (drun ucd15 d ops).output
  | [], d, _, h, h' => ⟨h, h'⟩
  | .read n :: ops, d, ho, h, h' => by
    refine dsafe ops _ ho ?_ ?_
    · show Safe base (d.read ucd15 n).1.output
      rw [dread_output]
      split
      · exact reset_safe h
      · exact h
    · show Over (d.read ucd15 n).1.output
      rw [dread_output]
      split
      · intro _; rfl
      · exact h'
  | .op o :: ops, d, ho, h, h' => by
    have ho' : o.Ok ucd15 := ho o (by simp [Verif.writes])
    refine dsafe ops _ (fun x hx => ho x (by simp [Verif.writes, hx])) ?_ ?_
    · by_cases ha : o = .abandon
      · subst ha
        unfold dstep Duplexer.abandon
        cases d.input.abandon with
        | none => exact h
        | some t => exact safe_step textLaws15 (op := .abandon) ho' h
      · rw [dstep_op ha]; exact safe_step textLaws15 ho' h
    · by_cases ha : o = .abandon
      · subst ha
        unfold dstep Duplexer.abandon
        cases d.input.abandon with
        | none => exact h'
        | some t => exact over_step textLaws15 .abandon h'
      · rw [dstep_op ha]; exact over_step textLaws15 o h'

theorem dtracked {base : List Char} : ∀ (ops : List DOp) (d : Duplexer), (∀ o ∈ Verif.writes ops, o.Ok ucd15) →
    (∀ b1 op b2, ops = b1 ++ op :: b2 → op ≠ .op (.text []) ∧ ¬ ReadsLine d b1 op) → Tracked base d.output → Tracked base (drun ucd15 d ops).output
  | [], d, _, _, h => h
  | op :: ops, d, ho, hn, h => by
    have h0 := hn [] op ops rfl
    have hrest : ∀ b1 op' b2, ops = b1 ++ op' :: b2 → op' ≠ .op (.text []) ∧ ¬ ReadsLine (dstep ucd15 d op).1 b1 op' :=
      fun b1 op' b2 e => hn (op :: b1) op' b2 (by rw [e]; rfl)
    cases op with
    | read n =>
      refine dtracked ops _ ho hrest ?_
      show Tracked base (d.read ucd15 n).1.output
      rw [dread_output, if_neg]
      · exact h
      · rintro ⟨h1, h2⟩
        refine h0.2 ?_
        cases hr : (d.read ucd15 n).2.1 with
        | ok m st => exact ⟨m, st, (d.read ucd15 n).2.2, by simp [dstep, drun, hr], h2⟩
        | _ => rw [hr] at h1; simp [Ret.isOk] at h1
    | op o =>
      refine dtracked ops _ (fun x hx => ho x (by simp [Verif.writes, hx])) hrest ?_
      have ho' : o.Ok ucd15 := ho o (by simp [Verif.writes])
      have hstrict : o.Strict ucd15 := by
        cases o with
        | text s => exact ⟨ho', by rintro rfl; exact h0.1 rfl⟩
        | _ => trivial
      by_cases ha : o = .abandon
      · subst ha
        unfold dstep Duplexer.abandon
        cases d.input.abandon with
        | none => exact h
        | some t => exact tracked_step textLaws15 (op := .abandon) hstrict h
      · rw [dstep_op ha]; exact tracked_step textLaws15 hstrict h

theorem dtracked_since {d : Duplexer} (hw : Fresh d.output) {a : List DOp} (ho : ∀ o ∈ Verif.writes a, o.Ok ucd15)
    (h : a = [] ∨ ∃ a' op, a = a' ++ [op] ∧ (op = .op (.text []) ∨ ReadsLine d a' op)) :
    Tracked (drun ucd15 d a).output.sink.sent (drun ucd15 d a).output := by
  rcases h with rfl | ⟨a', op, rfl, h⟩
  · exact hw.tracked
  · have hs := (dsafe (a' ++ [op]) d ho hw.safe (fun _ => hw.state)).1
    rw [drun_snoc] at hs ⊢
    simp only [drun] at hs ⊢
    rcases h with rfl | ⟨n, st, s, h1, h2⟩
    · rw [dstep_op (by simp)]
      exact text_nil_tracked _
    · cases op with
      | op o =>
        exfalso
        by_cases ha : o = .abandon
        · subst ha
          unfold dstep at h1
          simp only at h1
          split at h1 <;> simp at h1
        · rw [dstep_op ha] at h1; simp at h1
      | read len =>
        have h1' := DOut.read.inj h1
        have e : (dstep ucd15 (drun ucd15 d a') (.read len)).1.output = (drun ucd15 d a').output.reset := by
          show ((drun ucd15 d a').read ucd15 len).1.output = _
          rw [dread_output, if_pos]
          exact ⟨by rw [h1'.1]; rfl, by rw [h1'.2]; exact h2⟩
        rw [e] at hs ⊢
        intro hd
        refine ⟨(hs.live hd).1, [], by simp, fun g hg => ?_⟩
        injection hg with hg
        rw [← hg]; rfl

theorem dstands {d : Duplexer} (hw : Fresh d.output) {a b : List DOp} (hs : SinceLine d a b) (ho : ∀ o ∈ Verif.writes (a ++ b), o.Ok ucd15)
    {T : List Char} (hT : (drun ucd15 d (a ++ b)).output.sink.sent = (drun ucd15 d a).output.sink.sent ++ T) :
    Stands (drun ucd15 d (a ++ b)).output T := by
  obtain ⟨hsafe, hov⟩ := dsafe (a ++ b) d ho hw.safe (fun _ => hw.state)
  have hwr : ∀ x y : List DOp, Verif.writes (x ++ y) = Verif.writes x ++ Verif.writes y := by
    intro x y
    induction x with
    | nil => rfl
    | cons o x ih => cases o <;> simp [Verif.writes, ih]
  rw [hwr] at ho
  have ht : Tracked (drun ucd15 d a).output.sink.sent (drun ucd15 d (a ++ b)).output := by
    rw [drun_snoc]
    refine dtracked b _ (fun o h => ho o (by simp [h])) (fun b1 op b2 e => ?_) (dtracked_since hw (fun o h => ho o (by simp [h])) hs.1)
    have := hs.2 b1 op b2 e
    refine ⟨this.1, fun h => this.2 ?_⟩
    unfold Spec.ReadsLine at h ⊢
    rw [drun_snoc]
    exact h
  generalize (drun ucd15 d (a ++ b)).output = v at *
  cases hd : v.sink.dead with
  | true => exact .inr (.inr ⟨by simp [pend, hov hd], hd, hov hd⟩)
  | false =>
    obtain ⟨-, hq, -⟩ := hsafe.live hd
    obtain ⟨-, T', h1, h2⟩ := ht hd
    have : T' = T := List.append_cancel_left (h1.symm.trans hT)
    subst this
    cases hst : v.state with
    | ground g => exact .inr (.inl ⟨by simp [pend, hst], hd, by rw [hst, h2 g hst]⟩)
    | esc => exact .inl ⟨by rw [Ne, pend_state hq, hst]; simp, hd, .inl hst⟩
    | csi => exact .inl ⟨by rw [Ne, pend_state hq, hst]; simp, hd, .inr hst⟩

/-! ## What the calls do there -/

theorem Stands.close {v : Writer} {T : List Char} (h : Stands v T) :
    (Verif.close v).2 = .ok ↔ pend v = [] ∧ Answers v.sink ∧ (T = [] ∨ T.getLast? = some '\n') := by
  rw [← flush_answers, ← ground_newline_iff]
  have hc : v.sink.close.2 = v.sink.flush.2 := rfl
  rcases close_cases v with ⟨hf, hn⟩ | ⟨hn, hf⟩
  · rw [hf]
    rcases h with ⟨h1, h2, h3⟩ | ⟨h1, h2, h3⟩ | ⟨h1, h2, h3⟩
    · simp [h1]
    · rw [h3, Ne, WState.ground.injEq] at hn
      simp [hn]
    · exact absurd h3 hn
  · rw [hf, hc]
    rcases h with ⟨h1, h2, h3⟩ | ⟨h1, h2, h3⟩ | ⟨h1, h2, h3⟩
    · rcases h3 with h3 | h3 <;> rw [h3] at hn <;> simp at hn
    · rw [h3, WState.ground.injEq] at hn
      simp [hn, h1]
    · have : v.sink.flush.2 = false := by simp [Sink.flush, h2]
      simp [this]

theorem groundAfter_joiner {T : List Char} : groundAfter T = .zwjOrPrepend ↔ ∃ c ∈ T.getLast?, isEnd c = false := by
  unfold groundAfter
  have hnl : isEnd '\n' = true := by decide +kernel
  cases T.getLast? with
  | none => simp
  | some c =>
    by_cases h : c = '\n'
    · subst h; simp [hnl]
    · cases he : isEnd c <;> simp [h, groundOf, he]

theorem Stands.flush {v : Writer} {T : List Char} (h : Stands v T) :
    (Verif.flush v).2 = .ok ↔ pend v = [] ∧ Answers v.sink ∧ ∀ c ∈ T.getLast?, isEnd c = true := by
  have hj : (∀ c ∈ T.getLast?, isEnd c = true) ↔ groundAfter T ≠ .zwjOrPrepend := by
    rw [Ne, groundAfter_joiner]; simp
  rw [← flush_answers, hj]
  rcases h with ⟨h1, h2, h3 | h3⟩ | ⟨h1, h2, h3⟩ | ⟨h1, h2, h3⟩
  · simp [Verif.flush, h1, h3]
  · simp [Verif.flush, h1, h3]
  · cases hg : groundAfter T <;> rw [hg] at h3 <;> simp [Verif.flush, h1, h3]
  · have : v.sink.flush.2 = false := by simp [Sink.flush, h2]
    simp [Verif.flush, h3, this]

theorem Stands.drop {v : Writer} {T : List Char} (h : Stands v T) :
    dropPanics v = true ↔ v.sink.dead = false ∧ (pend v ≠ [] ∨ ∃ c ∈ T.getLast?, c ≠ '\n') := by
  have hj : (∃ c ∈ T.getLast?, c ≠ '\n') ↔ groundAfter T ≠ .newline := by
    rw [Ne, ground_newline_iff]
    rcases List.eq_nil_or_concat T with rfl | ⟨T, c, rfl⟩ <;> simp
  rw [hj]
  unfold dropPanics
  rcases h with ⟨h1, h2, h3 | h3⟩ | ⟨h1, h2, h3⟩ | ⟨h1, h2, h3⟩ <;> simp [h1, h2, h3]

/-! ## C59 -/

/-- C59, exactly, for every way to make the output half, color included: let `T` be what has been sent since a line was last read (or an empty
text was written with `write_text`, see C33).  Closing the duplexer succeeds iff nothing is held back, the inner stream is not over and does
not fail, and `T` is empty or ends with a newline. -/
theorem c59_close_iff (d : Duplexer) (hw : Fresh d.output) (a b : List DOp) (hs : SinceLine d a b) (ho : ∀ o ∈ Verif.writes (a ++ b), o.Ok ucd15)
    (T : List Char) (hT : (drun ucd15 d (a ++ b)).output.sink.sent = (drun ucd15 d a).output.sink.sent ++ T) :
    (dstep ucd15 (drun ucd15 d (a ++ b)) (.op .close)).2 = .op .ok ↔
      pend (drun ucd15 d (a ++ b)).output = [] ∧ Answers (drun ucd15 d (a ++ b)).output.sink ∧ (T = [] ∨ T.getLast? = some '\n') := by
  rw [dstep_op (by simp), DOut.op.injEq]
  exact (dstands hw hs ho hT).close

/-- C59, exactly: flushing succeeds iff nothing is held back, the inner stream does not fail, and `T` does not end with a scalar that no text
may end with. -/
theorem c59_flush_iff (d : Duplexer) (hw : Fresh d.output) (a b : List DOp) (hs : SinceLine d a b) (ho : ∀ o ∈ Verif.writes (a ++ b), o.Ok ucd15)
    (T : List Char) (hT : (drun ucd15 d (a ++ b)).output.sink.sent = (drun ucd15 d a).output.sink.sent ++ T) :
    (dstep ucd15 (drun ucd15 d (a ++ b)) (.op .flush)).2 = .op .ok ↔
      pend (drun ucd15 d (a ++ b)).output = [] ∧ Answers (drun ucd15 d (a ++ b)).output.sink ∧ ∀ c ∈ T.getLast?, isEnd c = true := by
  rw [dstep_op (by simp), DOut.op.injEq]
  exact (dstands hw hs ho hT).flush

/-- C59, exactly: dropping the duplexer panics iff the stream is not over, and something is held back or `T` ends otherwise than with a newline. -/
theorem c59_drop_iff (d : Duplexer) (hw : Fresh d.output) (a b : List DOp) (hs : SinceLine d a b) (ho : ∀ o ∈ Verif.writes (a ++ b), o.Ok ucd15)
    (T : List Char) (hT : (drun ucd15 d (a ++ b)).output.sink.sent = (drun ucd15 d a).output.sink.sent ++ T) :
    dropPanics (drun ucd15 d (a ++ b)).output = true ↔ (drun ucd15 d (a ++ b)).output.sink.dead = false ∧
      (pend (drun ucd15 d (a ++ b)).output ≠ [] ∨ ∃ c ∈ T.getLast?, c ≠ '\n') :=
  (dstands hw hs ho hT).drop

/-- A prompt without a newline, the answer, and one more letter: after the answer the duplexer may be closed, after the letter it may not. -/
example : Fresh demoDuplexer.output ∧ ReadsLine demoDuplexer [.op (.str ['?'])] (.read 136) ∧
    SinceLine demoDuplexer ([.op (.str ['?'])] ++ [.read 136]) [.op (.str ['!'])] ∧
    (dstep ucd15 (drun ucd15 demoDuplexer [.op (.str ['?']), .read 136]) (.op .close)).2 = .op .ok ∧
    (dstep ucd15 (drun ucd15 demoDuplexer [.op (.str ['?']), .read 136, .op (.str ['!'])]) (.op .close)).2 = .op .err ∧
    (drun ucd15 demoDuplexer [.op (.str ['?']), .read 136, .op (.str ['!'])]).output.sink.sent = ['?', '!'] := by
  have hr : ReadsLine demoDuplexer [.op (.str ['?'])] (.read 136) :=
    ⟨4, .active, ['y', 'e', 's', '\n'], by decide +kernel, by decide⟩
  refine ⟨⟨rfl, rfl, rfl, rfl, .inl rfl⟩, hr, ⟨.inr ⟨_, _, rfl, .inr hr⟩, fun b1 op b2 e => ?_⟩, by decide +kernel, by decide +kernel, by decide +kernel⟩
  rcases b1 with - | ⟨x, b1⟩
  · obtain ⟨rfl, -⟩ := List.cons.inj e
    refine ⟨by simp, ?_⟩
    rintro ⟨n, st, s, h, -⟩
    rw [dstep_op (by simp)] at h
    simp at h
  · simp at e

/-! ## C131 -/

/-- C131, exactly, whatever the reads delivered: as `c131_exact`, with `T` what was written since the last line read or `write_text("")`. -/
theorem c131_exact_lines (nel lsps : Bool) (chunks : List (List Char)) (hb : BomSafe chunks []) (he : ESC ∉ chunks.flatten) (rest : List Event)
    (hrest : rest ≠ []) (w : Writer) (hw : Fresh w) (hd : w.sink.dead = false) (a b : List DOp) (lens : List Nat) (len : Nat)
    (hl : Verif.reads (a ++ b) = lens ++ [len]) (hs : SinceLine (.make nel lsps (chunks.map (fun c => .data c .active) ++ rest) w) a b)
    (ho : ∀ op ∈ Verif.writes (a ++ b), op.Ok ucd15) (hc : ∀ o ∈ Verif.writes (a ++ b), o ≠ .close ∧ o ≠ .abandon)
    (hok : ∀ x ∈ writeOuts (dresults ucd15 (.make nel lsps (chunks.map (fun c => .data c .active) ++ rest) w) (a ++ b)), x = .ok)
    (n : Nat) (st : Status) (out : List Char)
    (hlast : (readOuts (dresults ucd15 (.make nel lsps (chunks.map (fun c => .data c .active) ++ rest) w) (a ++ b))).getLast? = some (.ok n st, out))
    (hroom : n + 4 ≤ len)
    (hsrc : (drun ucd15 (.make nel lsps (chunks.map (fun c => .data c .active) ++ rest) w) (a ++ b)).src = rest)
    (T : List Char) (hT : (drun ucd15 (.make nel lsps (chunks.map (fun c => .data c .active) ++ rest) w) (a ++ b)).output.sink.sent =
      (drun ucd15 (.make nel lsps (chunks.map (fun c => .data c .active) ++ rest) w) a).output.sink.sent ++ T) :
    let d := drun ucd15 (.make nel lsps (chunks.map (fun c => .data c .active) ++ rest) w) (a ++ b)
    (d.abandonFate ≠ .fine ↔ ∃ c ∈ lastDecided (dropBom chunks.flatten), ¬ Breaks nel lsps c ∧ c ≠ CGJ) ∧
    (d.abandonFate = .aborts ↔ (∃ c ∈ lastDecided (dropBom chunks.flatten), ¬ Breaks nel lsps c ∧ c ≠ CGJ) ∧
      d.output.sink.dead = false ∧ (pend d.output ≠ [] ∨ ∃ c ∈ T.getLast?, c ≠ '\n')) := by
  intro d
  obtain ⟨r1, r2⟩ := reads_alone textLaws15 (a ++ b) (.make nel lsps (chunks.map (fun c => .data c .active) ++ rest) w) hd hc hok
  rw [hl] at r1 r2
  have hin : d.input.abandon = none ↔ ∃ c ∈ lastDecided (dropBom chunks.flatten), ¬ Breaks nel lsps c ∧ c ≠ CGJ := by
    rw [r1, List.getLast?_map] at hlast
    obtain ⟨r, hr, hr'⟩ := Option.map_eq_some_iff.mp hlast
    simp only [finalState, hr] at r2
    obtain ⟨e1, e2⟩ := Prod.mk.inj r2
    have hr2 : r.src = rest := e2.symm.trans hsrc
    have := c28_exact_plain nel lsps chunks hb he rest hrest lens len r n st hr hr2 (Prod.mk.inj hr').1 hroom
    rw [← this]
    exact iff_of_eq (congrArg (fun t : TextInput => t.abandon = none) e1)
  obtain ⟨k1, -, k3⟩ := c131_duplexer d
  refine ⟨?_, ?_⟩
  · rw [← hin, Ne, k1]; simp
  · rw [k3, hin, c59_drop_iff _ hw a b hs ho T hT]

/-- A line and a half are read after a prompt: abandoning panics but does not abort, since the line excuses the prompt. -/
example : let d : Duplexer := .make false false ([['y', '\n', 'b']].map (fun c => .data c .active) ++ [.err]) (.new goodSink)
    ReadsLine d [.op (.str ['?'])] (.read 136) ∧ (drun ucd15 d [.op (.str ['?']), .read 136]).abandonFate = .unwinds ∧
    (drun ucd15 d [.op (.str ['?']), .read 136]).src = [.err] ∧
    readOuts (dresults ucd15 d [.op (.str ['?']), .read 136]) = [(.ok 2 .active, ['y', '\n'])] := by
  intro d
  exact ⟨⟨2, .active, ['y', '\n'], by decide +kernel, by decide⟩, by decide +kernel, by decide +kernel, by decide +kernel⟩

end Verif
