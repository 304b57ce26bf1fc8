import Verif.Duplexer
import Verif.Props.Copy

/-!
# Properties of the duplexer (C45, C59, C60)
-/

namespace Verif
open Ucd Spec

/-! ## C45 -/

/-- A duplexer over `goodSink`. -/
def demoDuplexer : Duplexer := .make false false [.data ['y', 'e', 's', '\n'] .active, .data ['n', 'o'] .end_] (.new goodSink)

/-- C45: reading never changes what has been sent, nor anything else about the inner stream's writing side. -/
theorem c45_reads_send_nothing (d : Duplexer) (lens : List Nat) : (drun ucd15 d (lens.map .read)).output.sink = d.output.sink := by
  induction lens generalizing d with
  | nil => rfl
  | cons n lens ih => exact (ih _).trans (dread_sink n d)

/-- C45: after a read that delivered text ending with a newline, and any number of further reads, closing and dropping
succeed, whatever had been written before. -/
theorem c45_newline_read_then_close (d : Duplexer) (ops : List DOp) (n : Nat) (lens : List Nat)
    (hok : ((drun ucd15 d ops).read ucd15 n).2.1.isOk = true) (hl : ((drun ucd15 d ops).read ucd15 n).2.2.getLast? = some '\n')
    (hd : (drun ucd15 d ops).output.sink.dead = false) (hs : (drun ucd15 d ops).output.sink.script = []) :
    let e := drun ucd15 ((drun ucd15 d ops).read ucd15 n).1 (lens.map .read)
    dropPanics e.output = false ∧ (dstep ucd15 e (.op .close)).2 = .op .ok := by
  generalize drun ucd15 d ops = d at hok hl hd hs ⊢
  have h0 : (d.read ucd15 n).1.output.state = .ground .newline := by rw [dread_output, if_pos ⟨hok, hl⟩]; rfl
  have hstate : ∀ (lens : List Nat) (e : Duplexer), e.output.state = .ground .newline → (drun ucd15 e (lens.map .read)).output.state = .ground .newline := by
    intro lens
    induction lens with
    | nil => intro e he; exact he
    | cons m lens ih =>
      intro e he
      refine ih _ ?_
      show (e.read ucd15 m).1.output.state = _
      rw [dread_output]
      split
      · rfl
      · exact he
  intro e
  have h1 : e.output.state = .ground .newline := hstate lens _ h0
  have h2 : e.output.sink = d.output.sink := (c45_reads_send_nothing _ lens).trans (dread_sink n d)
  refine ⟨by simp [dropPanics, h1], ?_⟩
  rw [dstep_op (by simp)]
  simp only [step, close, checkNl, h1, if_true, h2, Sink.close, Sink.flush, hd, hs, Bool.false_eq_true, if_false]

example : let d := drun ucd15 demoDuplexer [.op (.str ['?'])]
    (d.read ucd15 136).2 = (.ok 4 .active, ['y', 'e', 's', '\n']) ∧ d.output.sink = { goodSink with sent := ['?'] } ∧
    (close d.output).2 = .err := by decide +kernel

/-- C45: any other read leaves the output half as it was; in particular a newline is then required as before. -/
theorem c45_other_reads (d : Duplexer) (n : Nat)
    (h : (d.read ucd15 n).2.1.isOk = false ∨ (d.read ucd15 n).2.2.getLast? ≠ some '\n') : (d.read ucd15 n).1.output = d.output := by
  rw [dread_output, if_neg]
  rintro ⟨h1, h2⟩
  rcases h with h | h
  · rw [h1] at h; simp at h
  · exact h h2

/-! ## C59 -/

/-- C59 (what holds), the output half: with color off, interleaving reads with writes sends the same, and each write
has the same result, as making the writes on a writer. -/
theorem c59_writes_as_writer_partial (d : Duplexer) (ha : d.output.ansi = false) (hg : ∃ g, d.output.state = .ground g) (ops : List DOp)
    (hw : ∀ o ∈ writes ops, o.isWrite = true) :
    (drun ucd15 d ops).output.sink = (run ucd15 d.output (writes ops)).sink ∧ writeOuts (dresults ucd15 d ops) = results ucd15 d.output (writes ops) :=
  writes_alone ops d d.output (.refl ha hg) hw

/-- C59 (what holds), the output half: with color off, if the writes, flushes and the closing all succeed on a writer, then they
succeed on the duplexer with reads in between, and send the same. -/
theorem c59_calls_as_writer_partial (d : Duplexer) (ha : d.output.ansi = false) (hg : ∃ g, d.output.state = .ground g) (ops : List DOp)
    (hw : ∀ o ∈ writes ops, o ≠ .abandon) (hok : ∀ x ∈ results ucd15 d.output (writes ops), x = .ok) :
    (drun ucd15 d ops).output.sink = (run ucd15 d.output (writes ops)).sink ∧ writeOuts (dresults ucd15 d ops) = results ucd15 d.output (writes ops) :=
  ops_alone ops d d.output (.refl ha hg) hw hok

example : let ops : List DOp := [.op (.str ['?']), .read 136, .op .flush, .op (.text ['a', '\n']), .read 200, .op .close]
    (∀ o ∈ writes ops, o ≠ .abandon) ∧ (∀ x ∈ results ucd15 demoDuplexer.output (writes ops), x = .ok) := by decide +kernel

/-- C59, the input half: as long as the writes succeed and the stream is not closed or abandoned, the reads give
exactly what the same reads give on a reader. -/
theorem c59_reads_as_reader (d : Duplexer) (hd : d.output.sink.dead = false) (ops : List DOp) (hw : ∀ o ∈ writes ops, o ≠ .close ∧ o ≠ .abandon)
    (hok : ∀ x ∈ writeOuts (dresults ucd15 d ops), x = .ok) :
    readOuts (dresults ucd15 d ops) = (readMany ucd15 (reads ops) d.input d.src).map fun r => (r.ret, r.out) :=
  (reads_alone textLaws15 ops d hd hw hok).1

example : let ops : List DOp := [.op (.str ['?']), .read 136, .op .flush, .op (.text ['a', '\n']), .read 200]
    (∀ o ∈ writes ops, o ≠ .close ∧ o ≠ .abandon) ∧ (∀ x ∈ writeOuts (dresults ucd15 demoDuplexer ops), x = .ok) := by decide +kernel

/-- C59: a new duplexer reads what a new reader with the same modes reads from the stream. -/
theorem c59_new (nel lsps : Bool) (src : List Event) (w : Writer) (hd : w.sink.dead = false) (lens : List Nat) :
    readOuts (dresults ucd15 (.make nel lsps src w) (lens.map .read)) =
      (readMany ucd15 lens (.new nel lsps) src).map fun r => (r.ret, r.out) := by
  have h1 : ∀ l : List Nat, writes (l.map DOp.read) = [] := by intro l; induction l <;> simp_all [writes]
  have h2 : ∀ l : List Nat, reads (l.map DOp.read) = l := by intro l; induction l <;> simp_all [reads]
  have h3 : ∀ (l : List Nat) (d : Duplexer), writeOuts (dresults ucd15 d (l.map DOp.read)) = [] := by
    intro l
    induction l with
    | nil => intro d; rfl
    | cons n l ih => intro d; exact ih _
  have := c59_reads_as_reader (.make nel lsps src w) hd (lens.map .read) (by rw [h1]; simp) (by rw [h3]; simp)
  rw [h2] at this
  exact this

example : readOuts (dresults ucd15 (.make true false [.data ['a', '\u0085', '\u2028', 'b', '\n'] .end_] (.new goodSink)) ([136].map .read)) =
    [(.ok 5 .end_, ['a', '\n', ' ', 'b', '\n'])] := by decide +kernel

theorem dead_dstep {d : Duplexer} (hd : d.output.sink.dead = true) (o : DOp) :
    (dstep ucd15 d o).1.output.sink.dead = true ∧ (dstep ucd15 d o).1.output.sink.sent = d.output.sink.sent ∧ (dstep ucd15 d o).1.src = d.src ∧
    ∀ op, o = .op op → op ≠ .abandon → (dstep ucd15 d o).2 = .op .err := by
  cases o with
  | read n =>
    refine ⟨by rw [show (dstep ucd15 d (.read n)).1 = (d.read ucd15 n).1 from rfl, dread_sink]; exact hd,
      by rw [show (dstep ucd15 d (.read n)).1 = (d.read ucd15 n).1 from rfl, dread_sink], ?_, fun _ h => by simp at h⟩
    simp [dstep, Duplexer.read, hd]
  | op o =>
    by_cases ha : o = .abandon
    · subst ha
      unfold dstep Duplexer.abandon
      cases d.input.abandon with
      | none => exact ⟨hd, rfl, rfl, fun op h1 h2 => absurd (DOp.op.inj h1).symm h2⟩
      | some t => exact ⟨rfl, rfl, rfl, fun op h1 h2 => absurd (DOp.op.inj h1).symm h2⟩
    · rw [dstep_op ha]
      obtain ⟨h1, h2, h3⟩ := dead_step textLaws15 o hd
      exact ⟨h2, h1, rfl, fun _ _ _ => by simp only [h3 ha]⟩

/-- C59: once the stream has been abandoned, or a write or closing it has failed, nothing more is sent and nothing more is taken from
the source, whatever is called, and every further write, flush and closing fails. -/
theorem c59_over (d : Duplexer) (o : Op) (h : (o = .abandon ∧ (dstep ucd15 d (.op o)).2 = .op .ok) ∨
    (o ≠ .abandon ∧ o ≠ .flush ∧ (dstep ucd15 d (.op o)).2 = .op .err)) (ops : List DOp) :
    let e := (dstep ucd15 d (.op o)).1
    (drun ucd15 e ops).output.sink.sent = e.output.sink.sent ∧ (drun ucd15 e ops).src = d.src ∧
    ∀ op, op ≠ .abandon → (dstep ucd15 (drun ucd15 e ops) (.op op)).2 = .op .err := by
  have hd : (dstep ucd15 d (.op o)).1.output.sink.dead = true ∧ (dstep ucd15 d (.op o)).1.src = d.src := by
    rcases h with ⟨rfl, h⟩ | ⟨h1, h2, h3⟩
    · unfold dstep Duplexer.abandon at h ⊢
      cases ht : d.input.abandon with
      | none => rw [ht] at h; simp at h
      | some t => exact ⟨rfl, rfl⟩
    · rw [dstep_op h1] at h3 ⊢
      exact ⟨(failed_dead textLaws15 (DOut.op.inj h3) h2).1, rfl⟩
  intro e
  obtain ⟨hd, hs⟩ := hd
  rw [← hs]
  change e.output.sink.dead = true at hd
  show _ ∧ (drun ucd15 e ops).src = e.src ∧ _
  clear_value e
  clear hs h
  induction ops generalizing e with
  | nil => exact ⟨rfl, rfl, fun op ho => (dead_dstep hd _).2.2.2 op rfl ho⟩
  | cons x ops ih =>
    obtain ⟨h1, h2, h3, -⟩ := dead_dstep hd x
    obtain ⟨i1, i2, i3⟩ := ih (dstep ucd15 e x).1 h1
    exact ⟨i1.trans h2, i2.trans h3, i3⟩

example : (dstep ucd15 demoDuplexer (.op .abandon)).2 = .op .ok ∧
    dresults ucd15 (dstep ucd15 demoDuplexer (.op .abandon)).1 [.op (.str ['a', '\n']), .read 136, .op .close] =
      [.op .err, .read .sourceError [], .op .err] := by decide +kernel

/-- C59 fails with color: reading a line in the middle of a color sequence makes the writer forget it. -/
theorem c59_refuted_color :
    let d := { demoDuplexer with output := .newAnsi true goodSink }
    let ops : List DOp := [.op (.str [ESC, '[', '3']), .read 136, .op (.str ['1', 'm', '\n']), .op .close]
    (run ucd15 d.output (writes ops)).sink.sent = [ESC, '[', '3', '1', 'm', '\n'] ∧
    (drun ucd15 d ops).output.sink.sent = ['1', 'm', '\n'] ∧
    writeOuts (dresults ucd15 d ops) = [.ok, .ok, .ok] := by decide +kernel

/-- C59 fails for flushing: reading a line makes the writer forget that what it wrote may not be followed by a flush. -/
theorem c59_refuted_flush :
    let ops : List DOp := [.op (.str ['a', '‍']), .read 136, .op .flush]
    results ucd15 demoDuplexer.output (writes ops) = [.ok, .err] ∧
    writeOuts (dresults ucd15 demoDuplexer ops) = [.ok, .ok] ∧ (drun ucd15 demoDuplexer ops).output.sink.sent = ['a', '‍'] := by decide +kernel

/-! ## C60 -/

/-- C60 fails: reading exactly nothing panics in debug builds. -/
theorem c60_refuted (d : Duplexer) (fuel : Nat) : d.readExactStr ucd15 true (fuel + 1) 0 = some (d, .panic, []) := by
  simp [Duplexer.readExactStr, Duplexer.readExact]

/-- `read_exact` on the duplexer reads as `read_exact` on a reader does. -/
theorem readExact_reader (U : Ucd) : ∀ (fuel len : Nat) (d : Duplexer), d.output.sink.dead = false →
    (d.readExact U fuel len).map (fun x => (x.2.1, x.2.2, x.1.input, x.1.src)) =
      (readExact U fuel len d.input d.src).map fun x => (x.ret, x.out, x.input, x.src) := by
  intro fuel
  induction fuel with
  | zero => intro len d _; rfl
  | succ fuel ih =>
    intro len d hd
    rw [Duplexer.readExact, readExact]
    by_cases h0 : len = 0
    · rw [if_pos h0, if_pos h0]; rfl
    · rw [if_neg h0, if_neg h0]
      obtain ⟨e1, e2, e3⟩ := dread_input (U := U) len hd
      have hd' : (d.read U len).1.output.sink.dead = false := by rw [dread_sink]; exact hd
      generalize d.read U len = x at *
      generalize readWithStatus U len d.input d.src = r at *
      obtain ⟨d', ret, out⟩ := x
      simp only [Prod.mk.injEq] at e1 e2 e3 hd' ⊢
      obtain ⟨rfl, rfl⟩ := e3
      cases stdRet r.ret with
      | ok n =>
        cases n with
        | zero => simp [e1, e2]
        | succ n =>
          have := ih (len - (n + 1)) d' hd'
          rw [e1, e2] at this
          simp only
          generalize Duplexer.readExact U fuel (len - (n + 1)) d' = y at *
          generalize readExact U fuel (len - (n + 1)) r.input r.src = z at *
          cases y <;> cases z <;> simp_all
      | interrupted =>
        have := ih len d' hd'
        rw [e1, e2] at this
        simp only
        generalize Duplexer.readExact U fuel len d' = y at *
        generalize readExact U fuel len r.input r.src = z at *
        cases y <;> cases z <;> simp_all
      | _ => simp [e1, e2]

/-- C60 (what holds): for a buffer that is not empty, `read_exact_str` on the duplexer returns and reads what it does on a
reader. -/
theorem c60_exact_partial (d : Duplexer) (debug : Bool) (fuel len : Nat) (hl : len ≠ 0) (hd : d.output.sink.dead = false) :
    (d.readExactStr ucd15 debug fuel len).map (fun x => (x.2.1, x.2.2, x.1.input, x.1.src)) =
      (readExact ucd15 fuel len d.input d.src).map fun x => (x.ret, x.out, x.input, x.src) := by
  rw [← readExact_reader ucd15 fuel len d hd]
  unfold Duplexer.readExactStr
  generalize Duplexer.readExact ucd15 fuel len d = y
  cases y with
  | none => rfl
  | some y =>
    obtain ⟨d', ret, out⟩ := y
    simp only [Option.map_some, hl, if_false]
    split
    · rename_i h; simp [h]
    · rfl

/-- C60: the output half after a successful `read_exact_str` is what the reads left: its own check for a newline never
finds one, because a read never fills a buffer with anything but a four-byte scalar at the end. -/
theorem c60_exact_never_ends_with_newline (d : Duplexer) (fuel len : Nat) (hl : len ≠ 0) (hd : d.output.sink.dead = false)
    (d' : Duplexer) (out : List Char) (h : d.readExactStr ucd15 false fuel len = some (d', .ok, out)) :
    out.getLast? ≠ some '\n' ∧ d.readExact ucd15 fuel len = some (d', .ok, out) := by
  have key := readExact_reader ucd15 fuel len d hd
  unfold Duplexer.readExactStr at h
  generalize Duplexer.readExact ucd15 fuel len d = y at h key ⊢
  cases y with
  | none => simp at h
  | some y =>
    obtain ⟨e, ret, o⟩ := y
    simp only [Option.map_some, hl, if_false] at h
    by_cases hr : ret = .ok
    · subst hr
      simp only [if_true, Option.some.injEq, Prod.mk.injEq, true_and] at h
      obtain ⟨h1, rfl⟩ := h
      cases hx : readExact ucd15 fuel len d.input d.src with
      | none => rw [hx] at key; simp at key
      | some x =>
        rw [hx] at key
        simp only [Option.map_some, Option.some.injEq, Prod.mk.injEq] at key
        obtain ⟨k1, k2, -, -⟩ := key
        obtain ⟨l1, l2⟩ := readExact_ok fuel len _ _ x hx k1.symm
        obtain ⟨c, hc, h4⟩ := l2 hl
        rw [← k2] at hc l1
        have hnl : o.getLast? ≠ some '\n' := by
          intro hn
          rw [hn] at hc
          simp at hc
          subst hc
          revert h4; decide
        refine ⟨hnl, ?_⟩
        have : newline e.output ((encode o)[len - 1]? == some 10) = e.output := by
          unfold newline
          rw [if_neg]
          rw [← l1]
          simp only [beq_iff_eq]
          exact fun h => hnl (encode_getLast.1 h)
        rw [this] at h1
        rw [← h1]
    · simp [hr] at h

example : ((Duplexer.make false false [.data (List.replicate 34 '😀' ++ ['\n']) .end_] (.new goodSink)).readExactStr ucd15 true 5 136).map (fun x => x.2.1) = some .ok := by
  decide +kernel

end Verif
