import Verif.Props.Duplexer

/-!
# Reading between writes with color (C59)
-/

namespace Verif
open Ucd Spec

variable {U : Ucd}

/-- The output half of a duplexer, and a writer on which the same calls have been made: they are the same, or both are outside color sequences and reading a
line has made the one forget what was written last. -/
structure CTwin (a b : Writer) : Prop where
  eq : b = { a with state := b.state }
  state : b.state = a.state ∨ (b.state = .ground .newline ∧ ∃ g, a.state = .ground g)

theorem CTwin.refl (w : Writer) : CTwin w w := ⟨rfl, .inl rfl⟩

theorem CTwin.reset {a b : Writer} (h : CTwin a b) (hg : ∃ g, a.state = .ground g) : CTwin a b.reset := by
  refine ⟨?_, .inr ⟨rfl, hg⟩⟩
  rw [h.eq]; rfl

/-- The same change that sets the state. -/
theorem CTwin.map {a b : Writer} (h : CTwin a b) (f : Writer → Writer) (hf : ∀ w s, f { w with state := s } = f w) : CTwin (f a) (f b) := by
  have : f b = f a := by rw [h.eq, hf]
  rw [this]
  exact CTwin.refl _

theorem CTwin.fail {a b : Writer} (h : CTwin a b) : CTwin a.fail b.fail := h.map Writer.fail fun _ _ => rfl

/-- Either the writers are equal or both are outside sequences. -/
theorem CTwin.cases {a b : Writer} (h : CTwin a b) : b = a ∨ ∃ g, a.state = .ground g ∧ b.state = .ground .newline := by
  rcases h.state with h1 | ⟨h1, g, h2⟩
  · left
    rw [h.eq, h1]
  · exact .inr ⟨g, h2, h1⟩

theorem putChar_ctwin {a b : Writer} (h : CTwin a b) (rej : Bool) (c : Char) :
    CTwin (putChar rej a c).1 (putChar rej b c).1 ∧ (putChar rej b c).2 = (putChar rej a c).2 := by
  rcases h.cases with rfl | ⟨g, hg, hg'⟩
  · exact ⟨.refl _, rfl⟩
  have hb : b.ansi = a.ansi := by rw [h.eq]
  unfold putChar
  rw [hg, hg']
  simp only
  split
  · by_cases ha : a.ansi = true
    · rw [if_pos ha, if_pos (hb.trans ha)]
      exact ⟨h.map (fun w => { w with state := .esc, seq := [ESC] }) fun _ _ => rfl, rfl⟩
    · rw [if_neg ha, if_neg (by rw [hb]; exact ha)]
      exact ⟨h.fail, rfl⟩
  split
  · exact ⟨h.map (fun w => { w with state := .ground .newline, buffer := w.buffer ++ [c] }) fun _ _ => rfl, rfl⟩
  split
  · exact ⟨h.fail, rfl⟩
  · exact ⟨h.map (fun w => { w with state := .ground (groundOf c), buffer := w.buffer ++ [c] }) fun _ _ => rfl, rfl⟩

theorem putAll_ctwin (rej : Bool) : ∀ (s : List Char) {a b : Writer}, CTwin a b →
    CTwin (putAll rej a s).1 (putAll rej b s).1 ∧ (putAll rej b s).2 = (putAll rej a s).2 := by
  intro s
  induction s with
  | nil => intro a b h; exact ⟨h, rfl⟩
  | cons c s ih =>
    intro a b h
    obtain ⟨h1, h2⟩ := putChar_ctwin h rej c
    rw [putAll, putAll]
    generalize putChar rej a c = x at *
    generalize putChar rej b c = y at *
    obtain ⟨a', o⟩ := x
    obtain ⟨b', o'⟩ := y
    simp only at h1 h2
    subst h2
    cases o' with
    | ok => exact ih h1
    | err => exact ⟨h1, rfl⟩
    | panic => exact ⟨h1, rfl⟩

theorem stateMachine_ctwin {a b : Writer} (h : CTwin a b) (s : List Char) :
    CTwin (stateMachine U a s).1 (stateMachine U b s).1 ∧ (stateMachine U b s).2 = (stateMachine U a s).2 := by
  unfold stateMachine
  simp only
  split
  · exact putAll_ctwin _ _ h
  · exact putAll_ctwin _ _ h

theorem crlfLoop_ctwin {xs : List (List Char)} {a b : Writer} (h : CTwin a b) :
    CTwin (crlfLoop U a xs).1 (crlfLoop U b xs).1 ∧ (crlfLoop U b xs).2 = (crlfLoop U a xs).2 := by
  have rest : ∀ (xs : List (List Char)) {a b : Writer}, CTwin a b →
      CTwin (crlfRest U a xs).1 (crlfRest U b xs).1 ∧ (crlfRest U b xs).2 = (crlfRest U a xs).2 := by
    intro xs
    induction xs with
    | nil => intro a b h; exact ⟨h, rfl⟩
    | cons s xs ih =>
      intro a b h
      obtain ⟨h1, h2⟩ := stateMachine_ctwin (U := U)
        (h.map (fun w => { w with state := .ground .newline, buffer := w.buffer ++ ['\r', '\n'] }) fun _ _ => rfl) s
      rw [crlfRest, crlfRest]
      generalize stateMachine U _ s = x at *
      generalize stateMachine U _ s = y at *
      obtain ⟨a', o⟩ := x
      obtain ⟨b', o'⟩ := y
      simp only at h1 h2
      subst h2
      cases o' with
      | ok => exact ih h1
      | err => exact ⟨h1, rfl⟩
      | panic => exact ⟨h1, rfl⟩
  cases xs with
  | nil => exact ⟨h, rfl⟩
  | cons s xs =>
    obtain ⟨h1, h2⟩ := stateMachine_ctwin (U := U) h s
    rw [crlfLoop, crlfLoop]
    generalize stateMachine U a s = x at *
    generalize stateMachine U b s = y at *
    obtain ⟨a', o⟩ := x
    obtain ⟨b', o'⟩ := y
    simp only at h1 h2
    subst h2
    cases o' with
    | ok => exact rest _ h1
    | err => exact ⟨h1, rfl⟩
    | panic => exact ⟨h1, rfl⟩

theorem prepStr_ctwin {a b : Writer} (h : CTwin a b) (s : List Char) :
    CTwin (prepStr U a s).1 (prepStr U b s).1 ∧ (prepStr U b s).2 = (prepStr U a s).2 := by
  have hc : b.crlf = a.crlf := by rw [h.eq]
  unfold prepStr
  rw [hc]
  split
  · exact crlfLoop_ctwin h
  · exact stateMachine_ctwin h s

theorem writeBuffer_ctwin {a b : Writer} (h : CTwin a b) : CTwin (writeBuffer U a).1 (writeBuffer U b).1 ∧ (writeBuffer U b).2 = (writeBuffer U a).2 := by
  obtain ⟨h1, h4⟩ := h
  generalize b.state = s at *
  subst h1
  unfold writeBuffer
  simp only
  split
  · exact ⟨⟨rfl, .inl rfl⟩, rfl⟩
  · rcases a.sink.writeStr a.buffer with ⟨sink, o⟩
    cases o with
    | true => exact ⟨⟨rfl, h4⟩, rfl⟩
    | false => exact ⟨⟨rfl, .inl rfl⟩, rfl⟩

theorem load_ctwin {a b : Writer} (h : CTwin a b) (op : Op) : CTwin (load U a op).1 (load U b op).1 ∧ (load U b op).2 = (load U a op).2 := by
  cases op with
  | str s => exact prepStr_ctwin h s
  | text s =>
    refine ⟨?_, rfl⟩
    show CTwin (prepText a s) (prepText b s)
    rw [prepText_eq, prepText_eq]
    exact h.map (fun w => { w with buffer := w.buffer ++ (if w.crlf then toCrlf s else s), state := .ground (groundAfter s) }) fun _ _ => rfl
  | bytes s =>
    simp only [load]
    split
    · exact prepStr_ctwin h _
    · exact ⟨h.fail, rfl⟩
  | _ => exact ⟨h, rfl⟩

theorem write_ctwin {a b : Writer} (h : CTwin a b) {op : Op} (hw : op.isWrite = true) :
    CTwin (step U a op).1 (step U b op).1 ∧ (step U b op).2 = (step U a op).2 := by
  obtain ⟨h1, h2⟩ := load_ctwin (U := U) h op
  rw [step_write hw, step_write hw]
  generalize load U a op = x at *
  generalize load U b op = y at *
  obtain ⟨a', o⟩ := x
  obtain ⟨b', o'⟩ := y
  simp only at h1 h2
  subst h2
  cases o' with
  | ok => exact writeBuffer_ctwin h1
  | err => exact ⟨h1, rfl⟩
  | panic => exact ⟨h1, rfl⟩

theorem step_ctwin {a b : Writer} (h : CTwin a b) {op : Op} (hok : (step U a op).2 = .ok) :
    CTwin (step U a op).1 (step U b op).1 ∧ (step U b op).2 = .ok := by
  cases hw : op.isWrite with
  | true =>
    obtain ⟨h1, h2⟩ := write_ctwin (U := U) h hw
    exact ⟨h1, h2.trans hok⟩
  | false =>
    rcases h.cases with rfl | ⟨g, hg, hg'⟩
    · exact ⟨.refl _, hok⟩
    obtain ⟨h1, -⟩ := h
    generalize b.state = s at *
    subst h1
    subst hg'
    cases op with
    | flush =>
      simp only [step, flush, hg] at hok ⊢
      cases g with
      | zwjOrPrepend => simp at hok
      | newline => exact ⟨⟨by simp, .inr ⟨rfl, _, rfl⟩⟩, hok⟩
      | other => exact ⟨⟨by simp, .inr ⟨rfl, _, rfl⟩⟩, hok⟩
    | close =>
      simp only [step, close, checkNl, hg] at hok ⊢
      by_cases hn : g = .newline
      · subst hn
        simp only [if_true] at hok ⊢
        exact ⟨⟨by simp, .inr ⟨rfl, _, rfl⟩⟩, hok⟩
      · rw [if_neg (by simp [hn])] at hok
        simp at hok
    | abandon => exact ⟨⟨rfl, .inl rfl⟩, rfl⟩
    | _ => simp [Op.isWrite] at hw

/-- No line is read in the middle of a color sequence: whenever a read delivers text that ends with a newline, the calls made so far have not left a writer
that has no other calls made on it inside an escape sequence. -/
def Spec.ReadsOutside (U : Ucd) (d : Duplexer) (ops : List DOp) : Prop :=
  ∀ ops1 n ops2, ops = ops1 ++ .read n :: ops2 → ((drun U d ops1).read U n).2.1.isOk = true → ((drun U d ops1).read U n).2.2.getLast? = some '\n' →
    ∃ g, (run U d.output (writes ops1)).state = .ground g

/-- The same between a writer and a duplexer in the course of the calls. -/
def OutsideFrom (U : Ucd) (d : Duplexer) (w : Writer) (ops : List DOp) : Prop :=
  ∀ ops1 n ops2, ops = ops1 ++ .read n :: ops2 → ((drun U d ops1).read U n).2.1.isOk = true → ((drun U d ops1).read U n).2.2.getLast? = some '\n' →
    ∃ g, (run U w (writes ops1)).state = .ground g

theorem OutsideFrom.op {d : Duplexer} {w : Writer} {o : Op} (hne : o ≠ .abandon) {ops : List DOp} (h : OutsideFrom U d w (.op o :: ops)) :
    OutsideFrom U { d with output := (step U d.output o).1 } (step U w o).1 ops := by
  intro ops1 n ops2 e h1 h2
  have := h (.op o :: ops1) n ops2 (by rw [e]; rfl)
  rw [drun, dstep_op hne] at this
  exact this h1 h2

theorem OutsideFrom.read {d : Duplexer} {w : Writer} {n : Nat} {ops : List DOp} (h : OutsideFrom U d w (.read n :: ops)) :
    OutsideFrom U (d.read U n).1 w ops := by
  intro ops1 m ops2 e h1 h2
  exact h (.read n :: ops1) m ops2 (by rw [e]; rfl) h1 h2

theorem read_ctwin {d : Duplexer} {w : Writer} {n : Nat} {ops : List DOp} (h : CTwin w d.output) (ho : OutsideFrom U d w (.read n :: ops)) :
    CTwin w (d.read U n).1.output := by
  rw [dread_output]
  split
  · rename_i hr
    exact h.reset (ho [] n ops rfl hr.1 hr.2)
  · exact h

theorem writes_color : ∀ (ops : List DOp) (d : Duplexer) (w : Writer), CTwin w d.output → OutsideFrom U d w ops → (∀ o ∈ writes ops, o.isWrite = true) →
    (drun U d ops).output.sink = (run U w (writes ops)).sink ∧ writeOuts (dresults U d ops) = results U w (writes ops) := by
  intro ops
  induction ops with
  | nil => intro d w h _ _; exact ⟨by rw [show (drun U d []).output = d.output from rfl, h.eq]; rfl, rfl⟩
  | cons o ops ih =>
    intro d w h ho hw
    cases o with
    | read n => exact ih _ w (read_ctwin h ho) ho.read hw
    | op o =>
      have hi : o.isWrite = true := hw o (by simp [writes])
      have hne : o ≠ .abandon := by rintro rfl; simp [Op.isWrite] at hi
      obtain ⟨h1, h2⟩ := write_ctwin (U := U) h hi
      rw [drun, dresults, dstep_op hne, writes, run, results, writeOuts, h2]
      obtain ⟨i1, i2⟩ := ih { d with output := (step U d.output o).1 } _ h1 (ho.op hne) (fun x hx => hw x (by simp [writes, hx]))
      exact ⟨i1, by rw [i2]⟩

theorem ops_color : ∀ (ops : List DOp) (d : Duplexer) (w : Writer), CTwin w d.output → OutsideFrom U d w ops → (∀ o ∈ writes ops, o ≠ .abandon) →
    (∀ x ∈ results U w (writes ops), x = .ok) →
    (drun U d ops).output.sink = (run U w (writes ops)).sink ∧ writeOuts (dresults U d ops) = results U w (writes ops) := by
  intro ops
  induction ops with
  | nil => intro d w h _ _ _; exact ⟨by rw [show (drun U d []).output = d.output from rfl, h.eq]; rfl, rfl⟩
  | cons o ops ih =>
    intro d w h hr hw hok
    cases o with
    | read n => exact ih _ w (read_ctwin h hr) hr.read hw hok
    | op o =>
      have hne : o ≠ .abandon := hw o (by simp [writes])
      rw [writes, results] at hok
      have ho := hok _ (List.mem_cons_self)
      obtain ⟨h1, h2⟩ := step_ctwin (U := U) h ho
      rw [drun, dresults, dstep_op hne, writes, run, results, writeOuts, h2, ho]
      obtain ⟨i1, i2⟩ := ih { d with output := (step U d.output o).1 } _ h1 (hr.op hne) (fun x hx => hw x (by simp [writes, hx])) (fun x hx => hok x (by simp [hx]))
      exact ⟨i1, by rw [i2]⟩

/-- C59 (what holds), the output half, with color too: if no line is read in the middle of a color sequence, interleaving reads with writes sends the same,
and each write has the same result, as making the writes on a writer. -/
theorem c59_color_writes_partial (d : Duplexer) (ops : List DOp) (hr : ReadsOutside ucd15 d ops) (hw : ∀ o ∈ writes ops, o.isWrite = true) :
    (drun ucd15 d ops).output.sink = (run ucd15 d.output (writes ops)).sink ∧ writeOuts (dresults ucd15 d ops) = results ucd15 d.output (writes ops) :=
  writes_color ops d d.output (.refl _) hr hw

/-- C59 (what holds), the output half, with color too, for flushes and closing: if all calls succeed on a writer they do on the duplexer and send the same. -/
theorem c59_color_calls_partial (d : Duplexer) (ops : List DOp) (hr : ReadsOutside ucd15 d ops) (hw : ∀ o ∈ writes ops, o ≠ .abandon)
    (hok : ∀ x ∈ results ucd15 d.output (writes ops), x = .ok) :
    (drun ucd15 d ops).output.sink = (run ucd15 d.output (writes ops)).sink ∧ writeOuts (dresults ucd15 d ops) = results ucd15 d.output (writes ops) :=
  ops_color ops d d.output (.refl _) hr hw hok

/-- A question in color, an answer, and thanks in color: every line is read outside the sequences. -/
def colorTalk : List DOp :=
  [.op (.str [ESC, '[', '1', 'm', '?']), .read 136, .op (.str [ESC, '[', '0', 'm', '\n']), .op .flush, .read 200, .op .close]

example : let d := { demoDuplexer with output := .newAnsi true goodSink }
    ReadsOutside ucd15 d colorTalk ∧ (∀ o ∈ writes colorTalk, o ≠ .abandon) ∧ (∀ x ∈ results ucd15 d.output (writes colorTalk), x = .ok) ∧
    (drun ucd15 d colorTalk).output.sink.sent = [ESC, '[', '1', 'm', '?', ESC, '[', '0', 'm', '\n'] ∧
    ((drun ucd15 d [.op (.str [ESC, '[', '1', 'm', '?'])]).read ucd15 136).2.2 = ['y', 'e', 's', '\n'] := by
  refine ⟨?_, by decide, by decide +kernel, by decide +kernel, by decide +kernel⟩
  intro ops1 n ops2 e _ _
  rcases ops1 with _ | ⟨a1, _ | ⟨a2, _ | ⟨a3, _ | ⟨a4, _ | ⟨a5, _ | ⟨a6, ops1⟩⟩⟩⟩⟩⟩ <;>
    simp only [colorTalk, List.nil_append, List.cons_append, List.cons.injEq, reduceCtorEq, false_and, and_false] at e
  · obtain ⟨rfl, -⟩ := e
    exact ⟨.other, by decide +kernel⟩
  · obtain ⟨rfl, rfl, rfl, rfl, -⟩ := e
    exact ⟨.newline, by decide +kernel⟩
  · simp at e

/-- The sequence that `c59_refuted_color` breaks is one in which a line is read. -/
theorem c59_color_needed :
    let d := { demoDuplexer with output := .newAnsi true goodSink }
    ¬ ReadsOutside ucd15 d [.op (.str [ESC, '[', '3']), .read 136, .op (.str ['1', 'm', '\n']), .op .close] := by
  intro d h
  obtain ⟨g, hg⟩ := h [.op (.str [ESC, '[', '3'])] 136 _ rfl (by decide +kernel) (by decide +kernel)
  have : (run ucd15 d.output (writes [.op (.str [ESC, '[', '3'])])).state = .csi := by decide +kernel
  rw [this] at hg
  simp at hg

end Verif
