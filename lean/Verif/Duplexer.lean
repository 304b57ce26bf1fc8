import Verif.Copy
import Verif.Lines
import Verif.WriterModes

/-!
# `TextDuplexer`

Model of `src/text_duplexer.rs`.  The input half, the output half and the inner stream, of which `src` is what reading gives
and `output.sink` is what has been written.
-/

namespace Verif
open Ucd
variable {U : Ucd}

/-- `TextDuplexer` (`src/text_duplexer.rs:35-45`). -/
structure Duplexer where
  input : TextInput
  src : List Event
  output : Writer
  deriving DecidableEq, Repr

/-- `TextDuplexer::new` and the other constructors (`src/text_duplexer.rs:60-152`), which differ in `nel`, `lsps` and the
way the output half is made. -/
def Duplexer.make (nel lsps : Bool) (src : List Event) (output : Writer) : Duplexer := { input := .new nel lsps, src, output }

/-- What reading from the inner stream gives: an error once it has been abandoned or closed. -/
def Duplexer.source (d : Duplexer) : List Event := if d.output.sink.dead then [.err] else d.src

/-- `read_with_status` (`src/text_duplexer.rs:228-240`), for a buffer of `len` bytes. -/
def Duplexer.read (U : Ucd) (len : Nat) (d : Duplexer) : Duplexer × Ret × List Char :=
  let r := readWithStatus U len d.input d.source
  let nl := match r.ret with
    | .ok size _ => decide (size ≠ 0) && (encode r.out)[size - 1]? == some 10
    | _ => false
  ({ input := r.input, src := if d.output.sink.dead then d.src else r.src, output := newline d.output nl }, r.ret, r.out)

/-- `abandon` (`src/text_duplexer.rs:257-260`): `none` when the assertion in `TextInput::abandon` panics. -/
def Duplexer.abandon (d : Duplexer) : Option Duplexer :=
  d.input.abandon.map fun t => { d with input := t, output := Verif.abandon d.output }

/-- A call on the duplexer: a read, or one of the calls of the writer, which go to the output half
(`src/text_duplexer.rs:349-397`); `abandon` goes to both. -/
inductive DOp where
  | read (len : Nat)
  | op (o : Op)
  deriving DecidableEq, Repr

/-- The result of a call. -/
inductive DOut where
  | read (ret : Ret) (out : List Char)
  | op (o : Out)
  deriving DecidableEq, Repr

/-- One call. -/
def dstep (U : Ucd) (d : Duplexer) : DOp → Duplexer × DOut
  | .read len => let r := d.read U len; (r.1, .read r.2.1 r.2.2)
  | .op .abandon =>
    match d.abandon with
    | some d => (d, .op .ok)
    | none => (d, .op .panic)
  | .op o => let r := step U d.output o; ({ d with output := r.1 }, .op r.2)

/-- A sequence of calls, going on after failures. -/
def drun (U : Ucd) : Duplexer → List DOp → Duplexer
  | d, [] => d
  | d, o :: os => drun U (dstep U d o).1 os

def dresults (U : Ucd) : Duplexer → List DOp → List DOut
  | _, [] => []
  | d, o :: os => (dstep U d o).2 :: dresults U (dstep U d o).1 os

/-- `io::default_read_exact` over the duplexer's `read`; see `readExact`. -/
def Duplexer.readExact (U : Ucd) : Nat → Nat → Duplexer → Option (Duplexer × ExactRet × List Char)
  | 0, _, _ => none
  | fuel + 1, len, d =>
    if len = 0 then some (d, .ok, [])
    else
      let (d', ret, out) := d.read U len
      match stdRet ret with
      | .ok 0 => some (d', .unexpectedEof, out)
      | .ok (n + 1) => (Duplexer.readExact U fuel (len - (n + 1)) d').map fun x => (x.1, x.2.1, out ++ x.2.2)
      | .interrupted => (Duplexer.readExact U fuel len d').map fun x => (x.1, x.2.1, out ++ x.2.2)
      | .invalidInput => some (d', .invalidInput, out)
      | .sourceError => some (d', .sourceError, out)
      | .panic => some (d', .panic, out)

/-- `read_exact_str` (`src/text_duplexer.rs:270-281`) and `read_exact_text_substr` (`303-314`), which evaluate `buf.len() - 1`:
for an empty buffer that panics in debug builds, and in others is an index where there is no byte. -/
def Duplexer.readExactStr (U : Ucd) (debug : Bool) (fuel len : Nat) (d : Duplexer) : Option (Duplexer × ExactRet × List Char) :=
  (d.readExact U fuel len).map fun (d', ret, out) =>
    if ret = .ok then
      if len = 0 then (if debug then (d', .panic, out) else (d', .ok, out))
      else ({ d' with output := newline d'.output ((encode out)[len - 1]? == some 10) }, .ok, out)
    else (d', ret, out)

/-! ## Theory -/

theorem encode_getLast {s : List Char} : (encode s)[(encode s).length - 1]? = some 10 ↔ s.getLast? = some '\n' := by
  rw [← List.getLast?_eq_getElem?]
  rcases List.eq_nil_or_concat s with rfl | ⟨s, c, rfl⟩
  · simp [encode]
  · rw [List.concat_eq_append, encode_append]
    have hne : encode [c] ≠ [] := by
      have := length_le_encode [c]
      intro h; rw [h] at this; simp at this
    have hc : encode [c] = encodeChar c := by simp [encode]
    rw [List.getLast?_append, List.getLast?_append]
    constructor
    · intro h
      cases hq : (encode [c]).getLast? with
      | none => rw [List.getLast?_eq_none_iff] at hq; exact absurd hq hne
      | some b =>
        rw [hq] at h
        simp at h
        subst h
        rw [hc] at hq
        simp [encodeChar_last hq]
    · intro h
      simp at h
      subst h
      rw [encode_nl]; rfl

/-- What a read does to the output half. -/
theorem dread_output (len : Nat) (d : Duplexer) :
    (d.read U len).1.output = if (d.read U len).2.1.isOk ∧ (d.read U len).2.2.getLast? = some '\n' then d.output.reset else d.output := by
  have key := @ok_length U len d.input d.source
  unfold Duplexer.read newline
  simp only
  generalize readWithStatus U len d.input d.source = r at key ⊢
  obtain ⟨ret, out, t, src⟩ := r
  cases ret with
  | ok size st =>
    have hl := key rfl
    simp only at hl
    simp only [Ret.isOk, true_and]
    by_cases hn : out.getLast? = some '\n'
    · rw [if_pos hn, if_pos]
      have h1 := encode_getLast.2 hn
      rw [← hl] at h1
      have h2 : size ≠ 0 := by
        rintro rfl
        have := length_le_encode out
        have : out = [] := List.length_eq_zero_iff.1 (by omega)
        rw [this] at hn
        simp at hn
      simp [h1, h2]
    · rw [if_neg hn, if_neg]
      rw [hl]
      simp only [Bool.and_eq_true, beq_iff_eq, not_and]
      intro _ h
      exact hn (encode_getLast.1 h)
  | _ => simp [Ret.isOk]

theorem dread_input (len : Nat) {d : Duplexer} (h : d.output.sink.dead = false) :
    (d.read U len).1.input = (readWithStatus U len d.input d.src).input ∧ (d.read U len).1.src = (readWithStatus U len d.input d.src).src ∧
    (d.read U len).2 = ((readWithStatus U len d.input d.src).ret, (readWithStatus U len d.input d.src).out) := by
  unfold Duplexer.read Duplexer.source
  simp [h]

theorem dread_sink (len : Nat) (d : Duplexer) : (d.read U len).1.output.sink = d.output.sink := by
  rw [dread_output]; split <;> rfl

/-! ### Reading in between writes -/

/-- The output half of a duplexer, and a writer on which the same calls have been made. -/
structure Twin (a b : Writer) : Prop where
  eq : b = { a with state := b.state }
  ansi : a.ansi = false
  ground : ∃ g, a.state = .ground g
  state : b.state = a.state ∨ b.state = .ground .newline

theorem Twin.refl {w : Writer} (ha : w.ansi = false) (hg : ∃ g, w.state = .ground g) : Twin w w := ⟨rfl, ha, hg, .inl rfl⟩

theorem Twin.reset {a b : Writer} (h : Twin a b) : Twin a b.reset := by
  obtain ⟨h1, h2, h3, h4⟩ := h
  refine ⟨?_, h2, h3, .inr rfl⟩
  rw [h1]; rfl

theorem Twin.fail {a b : Writer} (h : Twin a b) : Twin a.fail b.fail := by
  obtain ⟨h1, h2, h3, h4⟩ := h
  refine ⟨?_, h2, ⟨_, rfl⟩, .inl rfl⟩
  rw [h1]; rfl

/-- The same change that sets the state. -/
theorem Twin.map {a b : Writer} (h : Twin a b) (f : Writer → Writer) (hf : ∀ w s, f { w with state := s } = f w) (ha : (f a).ansi = a.ansi)
    (hg : ∃ g, (f a).state = .ground g) : Twin (f a) (f b) := by
  have : f b = f a := by rw [h.eq, hf]
  rw [this]
  exact Twin.refl (ha.trans h.ansi) hg

theorem putChar_twin {a b : Writer} (h : Twin a b) (rej : Bool) (c : Char) :
    Twin (putChar rej a c).1 (putChar rej b c).1 ∧ (putChar rej b c).2 = (putChar rej a c).2 := by
  obtain ⟨g, hg⟩ := h.ground
  obtain ⟨g', hg'⟩ : ∃ g, b.state = .ground g := by
    rcases h.state with h | h
    · exact ⟨g, h.trans hg⟩
    · exact ⟨_, h⟩
  have hb : b.ansi = false := by rw [h.eq]; exact h.ansi
  unfold putChar
  rw [hg, hg']
  simp only
  split
  · rw [if_neg (by simp [h.ansi]), if_neg (by simp [hb])]; exact ⟨h.fail, rfl⟩
  split
  · exact ⟨h.map (fun w => { w with state := .ground .newline, buffer := w.buffer ++ [c] }) (fun _ _ => rfl) rfl ⟨_, rfl⟩, rfl⟩
  split
  · exact ⟨h.fail, rfl⟩
  · exact ⟨h.map (fun w => { w with state := .ground (groundOf c), buffer := w.buffer ++ [c] }) (fun _ _ => rfl) rfl ⟨_, rfl⟩, rfl⟩

theorem putAll_twin (rej : Bool) : ∀ (s : List Char) {a b : Writer}, Twin a b →
    Twin (putAll rej a s).1 (putAll rej b s).1 ∧ (putAll rej b s).2 = (putAll rej a s).2 := by
  intro s
  induction s with
  | nil => intro a b h; exact ⟨h, rfl⟩
  | cons c s ih =>
    intro a b h
    obtain ⟨h1, h2⟩ := putChar_twin h rej c
    rw [putAll, putAll]
    generalize putChar rej a c = x at *
    generalize putChar rej b c = y at *
    obtain ⟨a', o⟩ := x
    obtain ⟨b', o'⟩ := y
    simp only at h1 h2
    subst h2
    cases o' with
    | ok => exact ih h1
    | err => exact ⟨h1, rfl⟩
    | panic => exact ⟨h1, rfl⟩

theorem stateMachine_twin {a b : Writer} (h : Twin a b) (s : List Char) :
    Twin (stateMachine U a s).1 (stateMachine U b s).1 ∧ (stateMachine U b s).2 = (stateMachine U a s).2 := by
  unfold stateMachine
  simp only
  split
  · exact putAll_twin _ _ h
  · exact putAll_twin _ _ h

theorem crlfRest_twin : ∀ (xs : List (List Char)) {a b : Writer}, Twin a b →
    Twin (crlfRest U a xs).1 (crlfRest U b xs).1 ∧ (crlfRest U b xs).2 = (crlfRest U a xs).2 := by
  intro xs
  induction xs with
  | nil => intro a b h; exact ⟨h, rfl⟩
  | cons s xs ih =>
    intro a b h
    obtain ⟨h1, h2⟩ := stateMachine_twin (U := U) (h.map (fun w => { w with state := .ground .newline, buffer := w.buffer ++ ['\r', '\n'] }) (fun _ _ => rfl) rfl ⟨_, rfl⟩) s
    rw [crlfRest, crlfRest]
    generalize stateMachine U _ s = x at *
    generalize stateMachine U _ s = y at *
    obtain ⟨a', o⟩ := x
    obtain ⟨b', o'⟩ := y
    simp only at h1 h2
    subst h2
    cases o' with
    | ok => exact ih h1
    | err => exact ⟨h1, rfl⟩
    | panic => exact ⟨h1, rfl⟩

theorem crlfLoop_twin {xs : List (List Char)} {a b : Writer} (h : Twin a b) :
    Twin (crlfLoop U a xs).1 (crlfLoop U b xs).1 ∧ (crlfLoop U b xs).2 = (crlfLoop U a xs).2 := by
  cases xs with
  | nil => exact ⟨h, rfl⟩
  | cons s xs =>
    obtain ⟨h1, h2⟩ := stateMachine_twin (U := U) h s
    rw [crlfLoop, crlfLoop]
    generalize stateMachine U a s = x at *
    generalize stateMachine U b s = y at *
    obtain ⟨a', o⟩ := x
    obtain ⟨b', o'⟩ := y
    simp only at h1 h2
    subst h2
    cases o' with
    | ok => exact crlfRest_twin _ h1
    | err => exact ⟨h1, rfl⟩
    | panic => exact ⟨h1, rfl⟩

theorem prepStr_twin {a b : Writer} (h : Twin a b) (s : List Char) :
    Twin (prepStr U a s).1 (prepStr U b s).1 ∧ (prepStr U b s).2 = (prepStr U a s).2 := by
  have hc : b.crlf = a.crlf := by rw [h.eq]
  unfold prepStr
  rw [hc]
  split
  · exact crlfLoop_twin h
  · exact stateMachine_twin h s

theorem prepText_twin {a b : Writer} (h : Twin a b) (s : List Char) : Twin (prepText a s) (prepText b s) := by
  rw [prepText_eq, prepText_eq]
  exact h.map (fun w => { w with buffer := w.buffer ++ enc w.crlf s, state := .ground (groundAfter s) }) (fun _ _ => rfl) rfl ⟨_, rfl⟩

theorem writeBuffer_twin {a b : Writer} (h : Twin a b) : Twin (writeBuffer U a).1 (writeBuffer U b).1 ∧ (writeBuffer U b).2 = (writeBuffer U a).2 := by
  obtain ⟨h1, h2, h3, h4⟩ := h
  generalize b.state = s at *
  subst h1
  have ht : Twin a { a with state := s } := ⟨rfl, h2, h3, h4⟩
  unfold writeBuffer
  simp only
  split
  · exact ⟨⟨rfl, h2, ⟨_, rfl⟩, .inl rfl⟩, rfl⟩
  · rcases a.sink.writeStr a.buffer with ⟨sink, o⟩
    cases o with
    | true => exact ⟨⟨rfl, h2, h3, h4⟩, rfl⟩
    | false => exact ⟨⟨rfl, h2, ⟨_, rfl⟩, .inl rfl⟩, rfl⟩

theorem load_twin {a b : Writer} (h : Twin a b) (op : Op) : Twin (load U a op).1 (load U b op).1 ∧ (load U b op).2 = (load U a op).2 := by
  cases op with
  | str s => exact prepStr_twin h s
  | text s => exact ⟨prepText_twin h s, rfl⟩
  | bytes s =>
    simp only [load]
    split
    · exact prepStr_twin h _
    · exact ⟨h.fail, rfl⟩
  | _ => exact ⟨h, rfl⟩

/-- Writes do the same on both. -/
theorem write_twin {a b : Writer} (h : Twin a b) {op : Op} (hw : op.isWrite = true) :
    Twin (step U a op).1 (step U b op).1 ∧ (step U b op).2 = (step U a op).2 := by
  obtain ⟨h1, h2⟩ := load_twin (U := U) h op
  rw [step_write hw, step_write hw]
  generalize load U a op = x at *
  generalize load U b op = y at *
  obtain ⟨a', o⟩ := x
  obtain ⟨b', o'⟩ := y
  simp only at h1 h2
  subst h2
  cases o' with
  | ok => exact writeBuffer_twin h1
  | err => exact ⟨h1, rfl⟩
  | panic => exact ⟨h1, rfl⟩

/-- Other calls do the same on both if they succeed on the writer. -/
theorem step_twin {a b : Writer} (h : Twin a b) {op : Op} (hok : (step U a op).2 = .ok) :
    Twin (step U a op).1 (step U b op).1 ∧ (step U b op).2 = .ok := by
  cases hw : op.isWrite with
  | true =>
    obtain ⟨h1, h2⟩ := write_twin (U := U) h hw
    exact ⟨h1, h2.trans hok⟩
  | false =>
    obtain ⟨h1, h2, ⟨g, h3⟩, h4⟩ := h
    generalize b.state = s at *
    subst h1
    have hs : ∃ g', s = .ground g' ∧ (g' = g ∨ g' = .newline) := by
      rcases h4 with h4 | h4
      · exact ⟨g, h4.trans h3, .inl rfl⟩
      · exact ⟨_, h4, .inr rfl⟩
    obtain ⟨g', rfl, hg'⟩ := hs
    cases op with
    | flush =>
      simp only [step, flush, h3] at hok ⊢
      cases g with
      | zwjOrPrepend => simp at hok
      | newline =>
        have : g' = .newline := by grind
        subst this
        exact ⟨⟨by simp, h2, ⟨_, rfl⟩, .inl rfl⟩, hok⟩
      | other =>
        rcases hg' with rfl | rfl
        · exact ⟨⟨by simp, h2, ⟨_, rfl⟩, .inl rfl⟩, hok⟩
        · exact ⟨⟨by simp, h2, ⟨_, rfl⟩, .inr rfl⟩, hok⟩
    | close =>
      simp only [step, close, checkNl, h3] at hok ⊢
      by_cases hn : g = .newline
      · subst hn
        have : g' = .newline := by grind
        subst this
        simp only [if_true] at hok ⊢
        exact ⟨⟨by simp, h2, ⟨_, rfl⟩, .inl rfl⟩, hok⟩
      · rw [if_neg (by simp [hn])] at hok
        simp at hok
    | abandon => exact ⟨⟨rfl, h2, ⟨_, rfl⟩, .inl rfl⟩, rfl⟩
    | _ => simp [Op.isWrite] at hw

/-- The calls on the output half. -/
def writes : List DOp → List Op
  | [] => []
  | .read _ :: os => writes os
  | .op o :: os => o :: writes os

/-- The sizes of the buffers of the reads. -/
def reads : List DOp → List Nat
  | [] => []
  | .read n :: os => n :: reads os
  | .op _ :: os => reads os

/-- The results of the reads. -/
def readOuts : List DOut → List (Ret × List Char)
  | [] => []
  | .read r s :: os => (r, s) :: readOuts os
  | .op _ :: os => readOuts os

/-- The results of the other calls. -/
def writeOuts : List DOut → List Out
  | [] => []
  | .read _ _ :: os => writeOuts os
  | .op o :: os => o :: writeOuts os

theorem dstep_op {o : Op} (h : o ≠ .abandon) (d : Duplexer) : dstep U d (.op o) = ({ d with output := (step U d.output o).1 }, .op (step U d.output o).2) := by
  cases o <;> first | rfl | exact absurd rfl h

/-- Interleaved reads do not disturb writes. -/
theorem writes_alone : ∀ (ops : List DOp) (d : Duplexer) (w : Writer), Twin w d.output → (∀ o ∈ writes ops, o.isWrite = true) →
    (drun U d ops).output.sink = (run U w (writes ops)).sink ∧ writeOuts (dresults U d ops) = results U w (writes ops) := by
  intro ops
  induction ops with
  | nil => intro d w h _; exact ⟨by rw [show (drun U d []).output = d.output from rfl, h.eq]; rfl, rfl⟩
  | cons o ops ih =>
    intro d w h hw
    cases o with
    | read n =>
      refine ih _ w ?_ hw
      show Twin w (d.read U n).1.output
      rw [dread_output]
      split
      · exact h.reset
      · exact h
    | op o =>
      have ho : o.isWrite = true := hw o (by simp [writes])
      have hne : o ≠ .abandon := by rintro rfl; simp [Op.isWrite] at ho
      obtain ⟨h1, h2⟩ := write_twin (U := U) h ho
      rw [drun, dresults, dstep_op hne, writes, run, results, writeOuts, h2]
      obtain ⟨i1, i2⟩ := ih { d with output := (step U d.output o).1 } _ h1 (fun x hx => hw x (by simp [writes, hx]))
      exact ⟨i1, by rw [i2]⟩

/-- As long as the calls succeed on the writer by itself, interleaved reads do not disturb any of them. -/
theorem ops_alone : ∀ (ops : List DOp) (d : Duplexer) (w : Writer), Twin w d.output → (∀ o ∈ writes ops, o ≠ .abandon) →
    (∀ x ∈ results U w (writes ops), x = .ok) →
    (drun U d ops).output.sink = (run U w (writes ops)).sink ∧ writeOuts (dresults U d ops) = results U w (writes ops) := by
  intro ops
  induction ops with
  | nil => intro d w h _ _; exact ⟨by rw [show (drun U d []).output = d.output from rfl, h.eq]; rfl, rfl⟩
  | cons o ops ih =>
    intro d w h hw hok
    cases o with
    | read n =>
      refine ih _ w ?_ hw hok
      show Twin w (d.read U n).1.output
      rw [dread_output]
      split
      · exact h.reset
      · exact h
    | op o =>
      have hne : o ≠ .abandon := hw o (by simp [writes])
      rw [writes, results] at hok
      have ho := hok _ (List.mem_cons_self)
      obtain ⟨h1, h2⟩ := step_twin (U := U) h ho
      rw [drun, dresults, dstep_op hne, writes, run, results, writeOuts, h2, ho]
      obtain ⟨i1, i2⟩ := ih { d with output := (step U d.output o).1 } _ h1 (fun x hx => hw x (by simp [writes, hx])) (fun x hx => hok x (by simp [hx]))
      exact ⟨i1, by rw [i2]⟩

/-- A call that succeeds leaves the inner stream alive unless it is meant to end it. -/
theorem step_alive (hU : TextLaws U) {w : Writer} {op : Op} (h : (step U w op).2 = .ok) (hc : op ≠ .close) (ha : op ≠ .abandon) (hd : w.sink.dead = false) :
    (step U w op).1.sink.dead = false := by
  cases hw : op.isWrite with
  | true =>
    rcases write_cases hU hw w with ⟨p, w', hl, hs, hS⟩ | ⟨p, w', hl, hs, hB⟩ | ⟨w', hl, hs, hF⟩
    · rw [hs]; exact hS.alive'
    · rw [hs] at h; simp at h
    · rw [hs] at h; simp at h
  | false =>
    cases op with
    | flush =>
      simp only [step, flush] at h ⊢
      split
      · rename_i hg; rw [hg] at h; simp at h
      · exact (sink_flush_sent w.sink).2.trans hd
      · exact hd
    | close => exact absurd rfl hc
    | abandon => exact absurd rfl ha
    | _ => simp [Op.isWrite] at hw

/-- Interleaved writes do not disturb reads. -/
theorem reads_alone (hU : TextLaws U) : ∀ (ops : List DOp) (d : Duplexer), d.output.sink.dead = false →
    (∀ o ∈ writes ops, o ≠ .close ∧ o ≠ .abandon) → (∀ x ∈ writeOuts (dresults U d ops), x = .ok) →
    readOuts (dresults U d ops) = (readMany U (reads ops) d.input d.src).map (fun r => (r.ret, r.out)) ∧
    ((drun U d ops).input, (drun U d ops).src) = finalState d.input d.src (readMany U (reads ops) d.input d.src) := by
  intro ops
  induction ops with
  | nil => intro d _ _ _; exact ⟨rfl, rfl⟩
  | cons o ops ih =>
    intro d hd hw hok
    cases o with
    | read n =>
      obtain ⟨e1, e2, e3⟩ := dread_input (U := U) n hd
      obtain ⟨i1, i2⟩ := ih (d.read U n).1 (by rw [dread_sink]; exact hd) hw hok
      rw [e1, e2] at i1 i2
      constructor
      · show ((d.read U n).2.1, (d.read U n).2.2) :: readOuts (dresults U (d.read U n).1 ops) = _
        rw [i1, reads, readMany, e3]; rfl
      · show ((drun U (d.read U n).1 ops).input, (drun U (d.read U n).1 ops).src) = _
        rw [i2, reads, readMany]
        unfold finalState
        rw [List.getLast?_cons]
        cases (readMany U (reads ops) (readWithStatus U n d.input d.src).input (readWithStatus U n d.input d.src).src).getLast? <;> rfl
    | op o =>
      obtain ⟨hc, ha⟩ := hw o (by simp [writes])
      rw [dresults, dstep_op ha] at hok ⊢
      rw [writeOuts] at hok
      have ho := hok _ (List.mem_cons_self)
      obtain ⟨i1, i2⟩ := ih { d with output := (step U d.output o).1 } (step_alive hU ho hc ha hd) (fun x hx => hw x (by simp [writes, hx])) (fun x hx => hok x (by simp [hx]))
      rw [drun, dstep_op ha]
      exact ⟨i1, i2⟩

end Verif
