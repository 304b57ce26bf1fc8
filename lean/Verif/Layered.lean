import Verif.WriterModes
import Verif.ExactWhole

/-!
# A writer on a writer

`TextWriter<Inner>` is itself `WriteStr + WriteLayered` (`/repo/src/text_writer.rs:168-199`), so it can be the inner stream of another one
(`/repo/src/text_writer.rs:79-131`).
-/

namespace Verif
open Ucd

variable {U : Ucd}

/-- `TextWriter<TextWriter<Inner>>`.  `outer.sink` stands for nothing: the inner stream of the outer writer is `inner`. -/
structure Layered where
  outer : Writer
  inner : Writer
  deriving DecidableEq, Repr

/-- `prepare_failure` (`src/text_output.rs:557-562`) with a writer inside. -/
def Layered.fail (l : Layered) : Layered := { outer := l.outer.fail, inner := Verif.abandon l.inner }

/-- `write_buffer` (`src/text_output.rs:262-292`) with a writer inside: the whole buffer in one `write_str`. -/
def Layered.writeBuffer (U : Ucd) (l : Layered) : Layered × Out :=
  let bad := l.outer.expectStarter && !(l.outer.buffer.head?.map (isStart U)).getD true
  let o := { l.outer with expectStarter := false }
  if bad then (Layered.fail { l with outer := o }, .err)
  else
    match writeStr U l.inner o.buffer with
    | (i, .ok) => ({ outer := { o with buffer := [] }, inner := i }, .ok)
    | (i, .err) => (Layered.fail { outer := { o with buffer := [] }, inner := i }, .err)
    | (i, .panic) => ({ outer := o, inner := i }, .panic)

/-- The end of `write_str` (`src/text_output.rs:179-211`) after the state machine has run: it does nothing to the inner stream but
abandon it when it fails. -/
def Layered.finish (U : Ucd) (l : Layered) : Writer × Out → Layered × Out
  | (o, .ok) => Layered.writeBuffer U { l with outer := o }
  | (o, r) => ({ outer := o, inner := Verif.abandon l.inner }, r)

/-- `write_str` (`src/text_output.rs:461-470`, `179-211`) with a writer inside. -/
def Layered.writeStr (U : Ucd) (l : Layered) (s : List Char) : Layered × Out :=
  Layered.finish U l (if l.outer.crlf then crlfLoop U l.outer (splitNl s) else stateMachine U l.outer s)

/-- `write_text_substr` (`src/text_output.rs:450-459`, `213-260`) with a writer inside. -/
def Layered.writeText (U : Ucd) (l : Layered) (s : List Char) : Layered × Out :=
  Layered.writeBuffer U { l with outer := if l.outer.crlf then crlfTextLoop l.outer (splitNl s)
    else { l.outer with buffer := l.outer.buffer ++ s, state := .ground (groundAfter s) } }

/-- `write` (`src/text_output.rs:472-489`) with a writer inside, without the count. -/
def Layered.writeBytes (U : Ucd) (l : Layered) (b : Bytes) : Layered × Out :=
  let (s, rest) := decodePrefix b
  if rest = [] then Layered.writeStr U l s
  else if (encode s).length ≠ 0 then Layered.writeStr U l s
  else (l.fail, .err)

/-- `flush` (`src/text_output.rs:492-513`) with a writer inside. -/
def Layered.flush (l : Layered) : Layered × Out :=
  match l.outer.state with
  | .ground .zwjOrPrepend => (l.fail, .err)
  | .ground _ =>
    let (i, r) := Verif.flush l.inner
    ({ outer := { l.outer with expectStarter := true }, inner := i }, r)
  | _ => (l, .err)

/-- `close` (`src/text_output.rs:428-434`, `399-426`) with a writer inside. -/
def Layered.close (l : Layered) : Layered × Out :=
  let o := { l.outer with expectStarter := true }
  if o.state = .ground .newline then
    let (i, r) := Verif.close l.inner
    ({ outer := o, inner := i }, r)
  else (Layered.fail { l with outer := o }, .err)

/-- One call on the outer writer. -/
def Layered.step (U : Ucd) (l : Layered) : Op → Layered × Out
  | .str s => l.writeStr U s
  | .text s => l.writeText U s
  | .bytes b => l.writeBytes U b
  | .flush => l.flush
  | .close => l.close
  | .abandon => (l.fail, .ok)

/-- A sequence of calls on the outer writer, going on after failures. -/
def Layered.run (U : Ucd) : Layered → List Op → Layered
  | l, [] => l
  | l, op :: ops => Layered.run U (l.step U op).1 ops

/-- And their results. -/
def Layered.results (U : Ucd) : Layered → List Op → List Out
  | _, [] => []
  | l, op :: ops => (l.step U op).2 :: Layered.results U (l.step U op).1 ops

/-- `Drop` of both (`src/text_output.rs:565-573`), the outer one first: how many of the two panic.  Two panics are an abort. -/
def Layered.dropPanics (l : Layered) : Nat := (if Verif.dropPanics l.outer then 1 else 0) + (if Verif.dropPanics l.inner then 1 else 0)

/-! ## It is a writer -/

/-- Text written as text that the inner writer does not change and that is not empty. -/
def Op.Firm (U : Ucd) : Op → Prop
  | .text s => isBasicTextSubstr U s = true ∧ s ≠ [] ∧ normChain U s = s
  | _ => True

theorem Op.Firm.ok {op : Op} (h : op.Firm U) : op.Ok U := by
  cases op with
  | text s => exact h.1
  | _ => trivial

theorem layered_write (l : Layered) {op : Op} (h : op.isWrite = true) : l.step U op =
    match load U l.outer op with
    | (o, .ok) => Layered.writeBuffer U { l with outer := o }
    | (o, r) => ({ outer := o, inner := Verif.abandon l.inner }, r) := by
  cases op with
  | str s => rfl
  | text s => rfl
  | bytes b =>
    simp only [Layered.step, Layered.writeBytes, load]
    cases hd : decodePrefix b with
    | mk s rest =>
      simp only
      by_cases h1 : rest = []
      · rw [if_pos h1, if_pos (Or.inl h1)]; rfl
      · by_cases h2 : (encode s).length ≠ 0
        · rw [if_neg h1, if_pos h2, if_pos (Or.inr h2)]; rfl
        · rw [if_neg h1, if_neg h2, if_neg (by simp only [h1, false_or]; exact h2)]; rfl
  | _ => simp [Op.isWrite] at h

/-- The three writers keep step: `w` alone in the mode of the inner one. -/
structure Live (w : Writer) (l : Layered) : Prop where
  crlf : l.outer.crlf = false
  mode : l.inner.crlf = w.crlf
  sink : l.inner.sink = w.sink
  ground : ∃ g, w.state = .ground g ∧ l.outer.state = .ground g ∧ l.inner.state = .ground g
  expect : l.outer.expectStarter = w.expectStarter ∧ l.inner.expectStarter = w.expectStarter
  buffer : w.buffer = [] ∧ l.outer.buffer = [] ∧ l.inner.buffer = []
  ansi : w.ansi = false ∧ l.outer.ansi = false

/-- The inner stream is gone. -/
structure Gone (w : Writer) (l : Layered) : Prop where
  sink : l.inner.sink = w.sink
  dead : w.sink.dead = true
  state : w.state = .ground .newline ∧ l.outer.state = .ground .newline ∧ l.inner.state = .ground .newline

theorem abandon_dead {k : Sink} (h : k.dead = true) : k.abandon = k := by cases k; cases h; rfl

theorem writeBuffer_dead {w : Writer} (h : w.sink.dead = true) :
    (writeBuffer U w).2 = .err ∧ (writeBuffer U w).1.sink = w.sink ∧ (writeBuffer U w).1.state = .ground .newline := by
  unfold writeBuffer
  simp only [Sink.writeStr, h, if_true]
  split <;> exact ⟨rfl, abandon_dead h, rfl⟩

theorem dead_write (hU : TextLaws U) {w : Writer} (h : w.sink.dead = true) {op : Op} (hw : op.isWrite = true) (ho : op.Ok U) :
    (step U w op).2 = .err ∧ (step U w op).1.sink = w.sink ∧ (step U w op).1.state = .ground .newline := by
  rw [step_write hw]
  cases hl : load U w op with
  | mk p o =>
    cases o with
    | ok =>
      have e := (load_ok hU ho hl).1.sink
      have := writeBuffer_dead (U := U) (w := p) (by rw [e]; exact h)
      rw [e] at this
      exact this
    | err =>
      obtain ⟨-, f⟩ := load_not_ok hU hl (by simp)
      exact ⟨rfl, by rw [f.sink, abandon_dead h], f.state⟩
    | panic => exact absurd (load_not_ok hU hl (by simp)).1 (by simp)

theorem dead_flush {w : Writer} (h : w.sink.dead = true) (hs : w.state = .ground .newline) :
    (flush w).2 = .err ∧ (flush w).1.sink = w.sink ∧ (flush w).1.state = .ground .newline := by
  simp [flush, hs, Sink.flush, h]

theorem dead_close {w : Writer} (h : w.sink.dead = true) (hs : w.state = .ground .newline) :
    (close w).2 = .err ∧ (close w).1.sink = w.sink ∧ (close w).1.state = .ground .newline := by
  simp only [close, checkNl, hs, if_true, Sink.close, Sink.flush, h]
  refine ⟨rfl, ?_, trivial⟩
  have := abandon_dead h
  exact this

theorem gone_step (hU : TextLaws U) {w : Writer} {l : Layered} (h : Gone w l) {op : Op} (ho : op.Ok U) :
    Gone (step U w op).1 (l.step U op).1 ∧ (l.step U op).2 = (step U w op).2 := by
  have hd : l.inner.sink.dead = true := by rw [h.sink]; exact h.dead
  have ha : (abandon l.inner).sink = w.sink := by
    show l.inner.sink.abandon = _
    rw [abandon_dead hd, h.sink]
  cases hw : op.isWrite with
  | true =>
    obtain ⟨a1, a2, a3⟩ := dead_write hU h.dead hw ho
    suffices key : (l.step U op).2 = .err ∧ (l.step U op).1.inner.sink = w.sink ∧ (l.step U op).1.inner.state = .ground .newline ∧
        (l.step U op).1.outer.state = .ground .newline from
      ⟨⟨by rw [a2, key.2.1], by rw [a2]; exact h.dead, a3, key.2.2.2, key.2.2.1⟩, by rw [a1, key.1]⟩
    rw [layered_write l hw]
    cases hl : load U l.outer op with
    | mk o r =>
      cases r with
      | ok =>
        simp only [Layered.writeBuffer]
        obtain ⟨b1, b2, b3⟩ := dead_write hU hd (op := .str o.buffer) rfl trivial
        split
        · exact ⟨rfl, ha, rfl, rfl⟩
        · have e : (writeStr U l.inner o.buffer) = ((writeStr U l.inner o.buffer).1, .err) := Prod.ext rfl b1
          rw [e]
          refine ⟨rfl, ?_, rfl, rfl⟩
          show (step U l.inner (.str o.buffer)).1.sink.abandon = _
          rw [b2, abandon_dead hd, h.sink]
      | err => exact ⟨rfl, ha, rfl, (load_not_ok hU hl (by simp)).2.state⟩
      | panic => exact absurd (load_not_ok hU hl (by simp)).1 (by simp)
  | false =>
    cases op with
    | flush =>
      obtain ⟨a1, a2, a3⟩ := dead_flush h.dead h.state.1
      obtain ⟨b1, b2, b3⟩ := dead_flush hd h.state.2.2
      simp only [step, Layered.step, Layered.flush, h.state.2.1]
      exact ⟨⟨by rw [a2, b2, h.sink], by rw [a2]; exact h.dead, a3, rfl, b3⟩, by rw [a1, b1]⟩
    | close =>
      obtain ⟨a1, a2, a3⟩ := dead_close h.dead h.state.1
      obtain ⟨b1, b2, b3⟩ := dead_close hd h.state.2.2
      simp only [step, Layered.step, Layered.close, h.state.2.1, if_true]
      exact ⟨⟨by rw [a2, b2, h.sink], by rw [a2]; exact h.dead, a3, rfl, b3⟩, by rw [a1, b1]⟩
    | abandon =>
      refine ⟨⟨?_, rfl, rfl, rfl, rfl⟩, rfl⟩
      show l.inner.sink.abandon = w.sink.abandon
      rw [h.sink]
    | _ => simp [Op.isWrite] at hw

theorem head_ok_enc (hU : TextLaws U) (crlf : Bool) (d : List Char) :
    ((enc crlf d).head?.map (isStart U)).getD true = (d.head?.map (isStart U)).getD true := by
  have key : ∀ x : List Char, ((x.head?.map (isStart U)).getD true = true ↔ ∀ c, x.head? = some c → isStart U c = true) := by
    intro x
    cases x <;> simp
  rw [Bool.eq_iff_iff, key, key]
  exact head_enc U hU

theorem live_write (hU : TextLaws U) {w : Writer} {l : Layered} (h : Live w l) {op : Op} (hw : op.isWrite = true) (ho : op.Firm U) :
    (Live (step U w op).1 (l.step U op).1 ∨ Gone (step U w op).1 (l.step U op).1) ∧ (l.step U op).2 = (step U w op).2 := by
  obtain ⟨g, g1, g2, g3⟩ := h.ground
  have gone : ∀ {w' : Writer} {l' : Layered}, w'.sink = w.sink.abandon → w'.state = .ground .newline → l'.inner.sink = w.sink.abandon →
      l'.inner.state = .ground .newline → l'.outer.state = .ground .newline → Gone w' l' := by
    intro w' l' a b c d e
    exact ⟨by rw [c, a], by rw [a]; rfl, b, e, d⟩
  rw [layered_write l hw, step_write hw]
  by_cases hc : Clean op
  · have hl := load_plain hU hw g2 hc
    have hl' := load_plain hU hw g1 hc
    rw [hl, hl']
    simp only [h.crlf, h.buffer.1, h.buffer.2.1, List.nil_append]
    have ed : enc false (said U op) = said U op := rfl
    rw [ed]
    have hd : normChain U (said U op) = said U op := by
      cases op with
      | text s => exact ho.2.2
      | str s => exact normChain_idem hU s
      | bytes b => exact normChain_idem hU _
      | _ => rfl
    have hk : ∀ c ∈ said U op, okChar c = true := by
      cases op with
      | text s => exact (substr_iff.1 ho.1).1
      | str s => exact ok_normChain hU fun c hc' => Or.inl (hc c hc')
      | bytes b => exact ok_normChain hU fun c hc' => Or.inl (hc.1 c hc')
      | _ => simp [said]
    have hg : groundNext U g op = groundFrom g (said U op) := by
      cases op with
      | text s => simp [groundNext, groundFrom, said, ho.2.1]
      | _ => rfl
    have hi : writeStr U l.inner (said U op) = writeBuffer U { l.inner with buffer := enc w.crlf (said U op), state := .ground (groundNext U g op) } := by
      simp only [writeStr_eq, prepStr_plain hU g3 hk, hd, h.buffer.2.2, h.mode, hg, List.nil_append]
    simp only [Layered.writeBuffer, hi]
    simp only [writeBuffer, head_ok_enc hU, h.expect.1, h.expect.2, h.sink]
    split
    · rename_i hbad
      refine ⟨Or.inr (gone rfl rfl ?_ rfl rfl), rfl⟩
      show l.inner.sink.abandon = _
      rw [h.sink]
    · cases hs : w.sink.writeStr (enc w.crlf (said U op)) with
      | mk k b =>
        cases b with
        | true => exact ⟨Or.inl ⟨rfl, h.mode, rfl, ⟨_, rfl, rfl, rfl⟩, ⟨rfl, rfl⟩, ⟨rfl, rfl, rfl⟩, h.ansi⟩, rfl⟩
        | false => exact ⟨Or.inr ⟨rfl, rfl, rfl, rfl, rfl⟩, rfl⟩
  · have hb : (load U w op).2 ≠ .ok := fun e => hc (load_plain_ok hU g1 h.ansi.1 e)
    have hb' : (load U l.outer op).2 ≠ .ok := fun e => hc (load_plain_ok hU g2 h.ansi.2 e)
    cases hl : load U w op with
    | mk p o =>
      cases hl' : load U l.outer op with
      | mk p' o' =>
        rw [hl] at hb
        rw [hl'] at hb'
        obtain ⟨rfl, f⟩ := load_not_ok hU hl hb
        obtain ⟨rfl, f'⟩ := load_not_ok hU hl' hb'
        refine ⟨Or.inr (gone f.sink f.state ?_ rfl f'.state), rfl⟩
        show l.inner.sink.abandon = _
        rw [h.sink]

theorem live_step (hU : TextLaws U) {w : Writer} {l : Layered} (h : Live w l) {op : Op} (ho : op.Firm U) :
    (Live (step U w op).1 (l.step U op).1 ∨ Gone (step U w op).1 (l.step U op).1) ∧ (l.step U op).2 = (step U w op).2 := by
  obtain ⟨g, g1, g2, g3⟩ := h.ground
  cases hw : op.isWrite with
  | true => exact live_write hU h hw ho
  | false =>
    cases op with
    | flush =>
      cases g with
      | zwjOrPrepend =>
        simp only [step, Layered.step, Layered.flush, flush, g1, g2]
        refine ⟨Or.inr ⟨?_, rfl, rfl, rfl, rfl⟩, trivial⟩
        show l.inner.sink.abandon = w.sink.abandon
        rw [h.sink]
      | _ =>
        simp only [step, Layered.step, Layered.flush, flush, g1, g2, g3, h.sink]
        exact ⟨Or.inl ⟨h.crlf, h.mode, rfl, ⟨_, rfl, rfl, rfl⟩, ⟨rfl, rfl⟩, h.buffer, h.ansi⟩, trivial⟩
    | close =>
      by_cases hn : g = .newline
      · subst hn
        simp only [step, Layered.step, Layered.close, close, checkNl, g1, g2, g3, h.sink, if_true]
        exact ⟨Or.inr ⟨rfl, rfl, rfl, rfl, rfl⟩, trivial⟩
      · simp only [step, Layered.step, Layered.close, close, checkNl, g1, g2, WState.ground.injEq, hn, if_false]
        refine ⟨Or.inr ⟨?_, rfl, rfl, rfl, rfl⟩, trivial⟩
        show l.inner.sink.abandon = w.sink.abandon
        rw [h.sink]
    | abandon =>
      refine ⟨Or.inr ⟨?_, rfl, rfl, rfl, rfl⟩, rfl⟩
      show l.inner.sink.abandon = w.sink.abandon
      rw [h.sink]
    | _ => simp [Op.isWrite] at hw

theorem layered_run (hU : TextLaws U) {ops : List Op} : ∀ {w : Writer} {l : Layered}, (Live w l ∨ Gone w l) → (∀ op ∈ ops, op.Firm U) →
    (Live (run U w ops) (l.run U ops) ∨ Gone (run U w ops) (l.run U ops)) ∧ l.results U ops = results U w ops := by
  induction ops with
  | nil => intro w l h _; exact ⟨h, rfl⟩
  | cons op ops ih =>
    intro w l h ho
    have := ho op (by simp)
    have key : (Live (step U w op).1 (l.step U op).1 ∨ Gone (step U w op).1 (l.step U op).1) ∧ (l.step U op).2 = (step U w op).2 := by
      rcases h with h | h
      · exact live_step hU h this
      · exact ⟨Or.inr (gone_step hU h this.ok).1, (gone_step hU h this.ok).2⟩
    obtain ⟨h1, h2⟩ := ih key.1 fun o h => ho o (by simp [h])
    exact ⟨h1, by simp only [Layered.results, results]; rw [key.2, h2]⟩

end Verif
