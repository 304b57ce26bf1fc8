import Verif.WriterTheory

/-!
# Runs of the writer

Any sequence of calls on a `TextWriter`, whatever their results.
-/

namespace Verif
open Ucd
variable {U : Ucd}

/-- A call on the writer. -/
inductive Op where
  | str (s : List Char)
  | text (s : List Char)
  | bytes (b : Bytes)
  | flush
  | close
  | abandon
  deriving DecidableEq, Repr

/-- The calls that write something. -/
def Op.isWrite : Op → Bool
  | .str _ | .text _ | .bytes _ => true
  | _ => false

/-- `write_text_substr` takes a `TextSubstr`, which is valid by its type. -/
def Op.Ok (U : Ucd) : Op → Prop
  | .text s => isBasicTextSubstr U s = true
  | _ => True

/-- One call and its result. -/
def step (U : Ucd) (w : Writer) : Op → Writer × Out
  | .str s => writeStr U w s
  | .text s => writeText U w s
  | .bytes b => let r := writeBytes U w b; (r.1, r.2.1)
  | .flush => flush w
  | .close => close w
  | .abandon => (abandon w, .ok)

/-- A sequence of calls, going on after failures. -/
def run (U : Ucd) : Writer → List Op → Writer
  | w, [] => w
  | w, op :: ops => run U (step U w op).1 ops

theorem run_append (w : Writer) (a b : List Op) : run U w (a ++ b) = run U (run U w a) b := by
  induction a generalizing w with
  | nil => rfl
  | cons op a ih => exact ih _

/-- Filling the buffer, the first half of a write. -/
def load (U : Ucd) (w : Writer) : Op → Writer × Out
  | .str s => prepStr U w s
  | .text s => (prepText w s, .ok)
  | .bytes b => if (decodePrefix b).2 = [] ∨ (encode (decodePrefix b).1).length ≠ 0 then prepStr U w (decodePrefix b).1 else (w.fail, .err)
  | _ => (w, .ok)

theorem step_write {op : Op} (h : op.isWrite = true) (w : Writer) : step U w op =
    match load U w op with
    | (w, .ok) => writeBuffer U w
    | r => r := by
  cases op with
  | str s => exact writeStr_eq U w s
  | text s => exact writeText_eq U w s
  | bytes b =>
    simp only [step, writeBytes, load]
    by_cases h1 : (decodePrefix b).2 = []
    · simp only [h1, if_true, true_or]; exact writeStr_eq U w _
    · simp only [h1, if_false, false_or]
      split
      · exact writeStr_eq U w _
      · rfl
  | _ => simp [Op.isWrite] at h

theorem load_ok (hU : TextLaws U) {op : Op} (ho : op.Ok U) {w w' : Writer} (h : load U w op = (w', .ok)) :
    Same w w' ∧ (SeqOk w → Items w.crlf w.ansi w.buffer → SeqOk w' ∧ Items w'.crlf w'.ansi w'.buffer) := by
  cases op with
  | str s => have := prepStr_ok hU h; exact ⟨this.1, this.2.2⟩
  | text s =>
    simp only [load, Prod.mk.injEq, and_true] at h
    subst h
    refine ⟨?_, fun _ hi => prepText_items (substr_iff.1 ho).1 hi⟩
    rw [prepText_eq]; exact ⟨rfl, rfl, rfl, rfl⟩
  | bytes b =>
    simp only [load] at h
    split at h
    · have := prepStr_ok hU h; exact ⟨this.1, this.2.2⟩
    · simp at h
  | _ => simp [load] at h; subst h; exact ⟨.refl _, fun h1 h2 => ⟨h1, h2⟩⟩

theorem load_not_ok (hU : TextLaws U) {op : Op} {w w' : Writer} {o : Out} (h : load U w op = (w', o)) (hn : o ≠ .ok) :
    o = .err ∧ Failed w w' := by
  cases op with
  | str s => exact prepStr_not_ok hU h hn
  | bytes b =>
    simp only [load] at h
    split at h
    · exact prepStr_not_ok hU h hn
    · simp only [Prod.mk.injEq] at h
      rw [← h.1, ← h.2]; exact ⟨rfl, fail_failed w⟩
  | _ => simp [load] at h; exact absurd h.2.symm hn

/-- The three ways a write can end. -/
theorem write_cases (hU : TextLaws U) {op : Op} (hw : op.isWrite = true) (w : Writer) :
    (∃ p w', load U w op = (p, .ok) ∧ step U w op = (w', .ok) ∧ Sent U p w') ∨
    (∃ p w', load U w op = (p, .ok) ∧ step U w op = (w', .err) ∧ Broken p w') ∨
    (∃ w', load U w op = (w', .err) ∧ step U w op = (w', .err) ∧ Failed w w') := by
  rw [step_write hw]
  cases hl : load U w op with
  | mk p o =>
    cases o with
    | ok =>
      rcases writeBuffer_cases U p with ⟨w', h1, h2⟩ | ⟨w', h1, h2⟩
      · exact Or.inl ⟨p, w', rfl, h1, h2⟩
      · exact Or.inr (Or.inl ⟨p, w', rfl, h1, h2⟩)
    | err => exact Or.inr (Or.inr ⟨p, rfl, rfl, (load_not_ok hU hl (by simp)).2⟩)
    | panic => exact absurd (load_not_ok hU hl (by simp)).1 (by simp)

/-! ## The other calls -/

theorem sink_flush_sent (k : Sink) : k.flush.1.sent = k.sent ∧ k.flush.1.dead = k.dead := by
  unfold Sink.flush
  split
  · exact ⟨rfl, rfl⟩
  · split <;> exact ⟨rfl, rfl⟩

theorem flush_cases (w : Writer) :
    (flush w = (w.fail, .err) ∧ w.state = .ground .zwjOrPrepend) ∨
    (flush w = (w, .err) ∧ (w.state = .esc ∨ w.state = .csi)) ∨
    ((∃ g, w.state = .ground g ∧ g ≠ .zwjOrPrepend) ∧
      flush w = ({ w with expectStarter := true, sink := w.sink.flush.1 }, if w.sink.flush.2 then .ok else .err)) := by
  unfold flush
  split
  · rename_i h; exact Or.inl ⟨rfl, h⟩
  · rename_i g hg h; exact Or.inr (Or.inr ⟨⟨g, h, fun he => hg (he ▸ rfl)⟩, rfl⟩)
  · rename_i h1 h2
    refine Or.inr (Or.inl ⟨rfl, ?_⟩)
    cases hs : w.state with
    | ground g => exact absurd hs (h2 g)
    | esc => exact Or.inl rfl
    | csi => exact Or.inr rfl

theorem close_cases (w : Writer) :
    (close w = ({ w with expectStarter := true }.fail, .err) ∧ w.state ≠ .ground .newline) ∨
    (w.state = .ground .newline ∧
      close w = ({ w with expectStarter := true, sink := w.sink.close.1 }, if w.sink.close.2 then .ok else .err)) := by
  unfold close checkNl
  split
  · rename_i w1 h
    split at h
    · rename_i hs; simp at h; subst h; exact Or.inr ⟨hs, rfl⟩
    · simp at h
  · rename_i h
    split at h
    · simp at h
    · rename_i h2; rw [if_neg h2]; exact Or.inl ⟨rfl, h2⟩

/-- No call ever panics. -/
theorem step_no_panic (hU : TextLaws U) (w : Writer) (op : Op) : (step U w op).2 ≠ .panic := by
  cases hw : op.isWrite with
  | true => rcases write_cases hU hw w with ⟨p, w', -, h, -⟩ | ⟨p, w', -, h, -⟩ | ⟨w', -, h, -⟩ <;> rw [h] <;> simp
  | false =>
    cases op with
    | flush =>
      simp only [step]
      rcases flush_cases w with ⟨h, -⟩ | ⟨h, -⟩ | ⟨-, h⟩ <;> rw [h]
      · simp
      · simp
      · simp only; split <;> simp
    | close =>
      simp only [step]
      rcases close_cases w with ⟨h, -⟩ | ⟨-, h⟩ <;> rw [h]
      · simp
      · simp only; split <;> simp
    | abandon => simp [step]
    | _ => simp [Op.isWrite] at hw

/-! ## What the sink gets -/

/-- `base` is what the sink held when the writer was made. -/
structure Safe (base : List Char) (w : Writer) : Prop where
  pre : ∃ T x, w.sink.sent = base ++ T ∧ Items w.crlf w.ansi (T ++ x)
  live : w.sink.dead = false → w.buffer = [] ∧ SeqOk w ∧ ∃ T, w.sink.sent = base ++ T ∧ Items w.crlf w.ansi T

theorem Safe.failed {base : List Char} {w w' : Writer} (h : Safe base w) (hf : Failed w w') : Safe base w' := by
  refine ⟨?_, ?_⟩
  · obtain ⟨T, x, h1, h2⟩ := h.pre
    exact ⟨T, x, by rw [hf.sink]; exact h1, by rw [hf.crlf, hf.ansi]; exact h2⟩
  · intro hd; rw [hf.sink] at hd; simp [Sink.abandon] at hd

theorem safe_step (hU : TextLaws U) {base : List Char} {w : Writer} {op : Op} (ho : op.Ok U) (h : Safe base w) :
    Safe base (step U w op).1 := by
  cases hw : op.isWrite with
  | true =>
    rcases write_cases hU hw w with ⟨p, w', hl, hs, hS⟩ | ⟨p, w', hl, hs, hB⟩ | ⟨w', hl, hs, hF⟩
    · rw [hs]
      obtain ⟨a1, a2⟩ := load_ok hU ho hl
      have hd : w.sink.dead = false := by rw [← a1.sink]; exact hS.alive
      obtain ⟨b1, b2, T, b3, b4⟩ := h.live hd
      obtain ⟨c1, c2⟩ := a2 b2 (by rw [b1]; exact .nil)
      have hT : w'.sink.sent = base ++ (T ++ p.buffer) := by rw [hS.sent, a1.sink, b3]; simp
      have hI : Items w'.crlf w'.ansi (T ++ p.buffer) := by
        rw [hS.crlf, hS.ansi]
        refine Items.append ?_ c2
        rw [a1.crlf, a1.ansi]; exact b4
      refine ⟨⟨_, [], hT, by simpa using hI⟩, fun _ => ⟨hS.buffer, ?_, _, hT, hI⟩⟩
      unfold SeqOk at c1 ⊢
      rw [hS.state, hS.seq, hS.ansi]; exact c1
    · rw [hs]
      obtain ⟨a1, a2⟩ := load_ok hU ho hl
      refine ⟨?_, fun hd => by rw [hB.dead] at hd; simp at hd⟩
      obtain ⟨q, x, e1, e2, e3, -⟩ := hB.sent
      cases hd : w.sink.dead with
      | true =>
        have hq : q = [] := e3 (by rw [a1.sink]; exact hd)
        obtain ⟨T, y, f1, f2⟩ := h.pre
        refine ⟨T, y, by rw [e2, hq, a1.sink, f1]; simp, ?_⟩
        rw [hB.crlf, hB.ansi, a1.crlf, a1.ansi]; exact f2
      | false =>
        obtain ⟨b1, b2, T, b3, b4⟩ := h.live hd
        obtain ⟨c1, c2⟩ := a2 b2 (by rw [b1]; exact .nil)
        refine ⟨T ++ q, x, by rw [e2, a1.sink, b3]; simp, ?_⟩
        rw [List.append_assoc, ← e1, hB.crlf, hB.ansi]
        refine Items.append ?_ c2
        rw [a1.crlf, a1.ansi]; exact b4
    · rw [hs]; exact h.failed hF
  | false =>
    cases op with
    | flush =>
      simp only [step]
      rcases flush_cases w with ⟨hf, -⟩ | ⟨hf, -⟩ | ⟨-, hf⟩ <;> rw [hf]
      · exact h.failed (fail_failed w)
      · exact h
      · have hk := sink_flush_sent w.sink
        refine ⟨?_, ?_⟩
        · simp only [hk.1]; exact h.pre
        · simp only [hk.1, hk.2]; exact h.live
    | close =>
      simp only [step]
      rcases close_cases w with ⟨hf, -⟩ | ⟨-, hf⟩ <;> rw [hf]
      · exact h.failed ⟨rfl, rfl, rfl, rfl⟩
      · have hk := sink_flush_sent w.sink
        refine ⟨?_, ?_⟩
        · simp only [Sink.close, hk.1]; exact h.pre
        · intro hd; simp [Sink.close] at hd
    | abandon => exact h.failed ⟨rfl, rfl, rfl, rfl⟩
    | _ => simp [Op.isWrite] at hw

theorem safe_run (hU : TextLaws U) {base : List Char} {ops : List Op} : ∀ {w : Writer}, (∀ op ∈ ops, op.Ok U) → Safe base w →
    Safe base (run U w ops) := by
  induction ops with
  | nil => intro w _ h; exact h
  | cons op ops ih => intro w ho h; exact ih (fun o h => ho o (by simp [h])) (safe_step hU (ho op (by simp)) h)

/-- A writer as the constructors make it: nothing buffered, at a line start, expecting a starter. -/
structure Fresh (w : Writer) : Prop where
  buffer : w.buffer = []
  state : w.state = .ground .newline
  expect : w.expectStarter = true
  seq : w.seq = []
  mode : w.crlf = false ∨ w.ansi = false

theorem Fresh.safe {w : Writer} (h : Fresh w) : Safe w.sink.sent w := by
  refine ⟨⟨[], [], by simp, .nil⟩, fun _ => ⟨h.buffer, ?_, [], by simp, .nil⟩⟩
  unfold SeqOk; rw [h.state]; trivial

theorem fresh_new (k : Sink) : Fresh (.new k) := ⟨rfl, rfl, rfl, rfl, Or.inl rfl⟩
theorem fresh_crlf (k : Sink) : Fresh (.newCrlf k) := ⟨rfl, rfl, rfl, rfl, Or.inr rfl⟩
theorem fresh_ansi (a : Bool) (k : Sink) : Fresh (.newAnsi a k) := ⟨rfl, rfl, rfl, rfl, Or.inl rfl⟩

/-! ## After a failure -/

/-- The sink no longer changes once it is dead. -/
theorem dead_step (hU : TextLaws U) {w : Writer} (op : Op) (hd : w.sink.dead = true) :
    (step U w op).1.sink.sent = w.sink.sent ∧ (step U w op).1.sink.dead = true ∧ (op ≠ .abandon → (step U w op).2 = .err) := by
  have hfl : w.sink.flush = (w.sink, false) := by unfold Sink.flush; simp [hd]
  cases hw : op.isWrite with
  | true =>
    rcases write_cases hU hw w with ⟨p, w', hl, hs, hS⟩ | ⟨p, w', hl, hs, hB⟩ | ⟨w', hl, hs, hF⟩
    · have : p.sink = w.sink := by
        cases op with
        | str s => exact (prepStr_ok hU hl).1.sink
        | text s => simp [load] at hl; rw [← hl, prepText_eq]
        | bytes b =>
          simp only [load] at hl
          split at hl
          · exact (prepStr_ok hU hl).1.sink
          · simp at hl
        | _ => simp [Op.isWrite] at hw
      have := hS.alive
      simp_all
    · have hp : p.sink = w.sink := by
        cases op with
        | str s => exact (prepStr_ok hU hl).1.sink
        | text s => simp [load] at hl; rw [← hl, prepText_eq]
        | bytes b =>
          simp only [load] at hl
          split at hl
          · exact (prepStr_ok hU hl).1.sink
          · simp at hl
        | _ => simp [Op.isWrite] at hw
      rw [hs]
      obtain ⟨q, x, -, e2, e3, -⟩ := hB.sent
      rw [e3 (by rw [hp]; exact hd), hp] at e2
      exact ⟨by simpa using e2, hB.dead, fun _ => rfl⟩
    · rw [hs]
      exact ⟨by rw [hF.sink]; rfl, by rw [hF.sink]; rfl, fun _ => rfl⟩
  | false =>
    cases op with
    | flush =>
      simp only [step]
      rcases flush_cases w with ⟨hf, -⟩ | ⟨hf, -⟩ | ⟨-, hf⟩ <;> rw [hf]
      · exact ⟨rfl, rfl, fun _ => rfl⟩
      · exact ⟨rfl, hd, fun _ => rfl⟩
      · rw [hfl]; exact ⟨rfl, hd, fun _ => rfl⟩
    | close =>
      simp only [step]
      rcases close_cases w with ⟨hf, -⟩ | ⟨-, hf⟩ <;> rw [hf]
      · exact ⟨rfl, rfl, fun _ => rfl⟩
      · unfold Sink.close; rw [hfl]; exact ⟨rfl, rfl, fun _ => rfl⟩
    | abandon => exact ⟨rfl, rfl, fun h => absurd rfl h⟩
    | _ => simp [Op.isWrite] at hw

theorem dead_run (hU : TextLaws U) {ops : List Op} : ∀ {w : Writer}, w.sink.dead = true →
    (run U w ops).sink.sent = w.sink.sent ∧ (run U w ops).sink.dead = true := by
  induction ops with
  | nil => intro w h; exact ⟨rfl, h⟩
  | cons op ops ih =>
    intro w h
    obtain ⟨h1, h2, -⟩ := dead_step hU op h
    obtain ⟨i1, i2⟩ := ih h2
    exact ⟨i1.trans h1, i2⟩

/-- A failed write or close, and a flush refused because of an unfinished grapheme, end the stream. -/
theorem failed_dead (hU : TextLaws U) {w : Writer} {op : Op} (h : (step U w op).2 = .err) (hf : op ≠ .flush) :
    (step U w op).1.sink.dead = true ∧ (step U w op).1.state = .ground .newline := by
  cases hw : op.isWrite with
  | true =>
    rcases write_cases hU hw w with ⟨p, w', hl, hs, hS⟩ | ⟨p, w', hl, hs, hB⟩ | ⟨w', hl, hs, hF⟩
    · rw [hs] at h; simp at h
    · rw [hs]; exact ⟨hB.dead, hB.state⟩
    · rw [hs]; exact ⟨by rw [hF.sink]; rfl, hF.state⟩
  | false =>
    cases op with
    | flush => exact absurd rfl hf
    | close =>
      simp only [step]
      rcases close_cases w with ⟨hf, -⟩ | ⟨h1, hf⟩ <;> rw [hf]
      · exact ⟨rfl, rfl⟩
      · exact ⟨rfl, h1⟩
    | abandon => exact ⟨rfl, rfl⟩
    | _ => simp [Op.isWrite] at hw

end Verif
