import Verif.Props.CallErrors
import Verif.Props.Crlf
import Verif.Props.OneWrite

/-!
# Nothing accepted by a writer is lost (C100)

What the inner stream of a writer has received, compared with what the calls were given (`src/text_output.rs:179-426`).
-/

namespace Verif
open Ucd Spec

/-- What a call on a writer is given to send: a text as it is, a string in normalized form, of bytes the whole scalars they begin with. -/
def Spec.given (U : Ucd) : Op → List Char
  | .text s => s
  | .str s => normChain U s
  | .bytes b => normChain U (decodePrefix b).1
  | _ => []

/-- No call to `write_text` comes while part of a color sequence is held back. -/
def Spec.Unbroken (w : Writer) (ops : List Op) : Prop := ∀ a s b, ops = a ++ .text s :: b → pend (run ucd15 w a) = []

theorem prepStr_given {w p : Writer} {s : List Char} (hc : w.crlf = false) (h : prepStr ucd15 w s = (p, .ok)) :
    Same w p ∧ p.buffer ++ pend p = w.buffer ++ pend w ++ normChain ucd15 s := by
  unfold prepStr at h
  rw [hc] at h
  obtain ⟨-, h2⟩ := stateMachine_ok textLaws15 h
  obtain ⟨h3, h4, -⟩ := putAll_ok h2
  exact ⟨h3, h4⟩

/-- One call that succeeds. -/
theorem step_given {w : Writer} {op : Op} (hc : w.crlf = false) (hb : w.buffer = []) (hop : op ≠ .abandon) (hok : (step ucd15 w op).2 = .ok) :
    (step ucd15 w op).1.crlf = false ∧ (step ucd15 w op).1.buffer = [] ∧
    (((∀ s, op ≠ .text s) ∨ pend w = []) → (step ucd15 w op).1.sink.sent ++ pend (step ucd15 w op).1 = w.sink.sent ++ pend w ++ given ucd15 op) ∧
    (∀ s, op = .text s → (step ucd15 w op).1.sink.sent ++ pend (step ucd15 w op).1 = w.sink.sent ++ s) := by
  cases hw : op.isWrite with
  | true =>
    rcases write_cases textLaws15 hw w with ⟨p, w', hl, hs, hS⟩ | ⟨p, w', hl, hs, -⟩ | ⟨w', hl, hs, -⟩
    · rw [hs]
      have hpend : pend w' = pend p := by unfold pend; rw [hS.state, hS.seq]
      have key : ∀ s, prepStr ucd15 w s = (p, .ok) → given ucd15 op = normChain ucd15 s →
          w'.crlf = false ∧ w'.sink.sent ++ pend w' = w.sink.sent ++ pend w ++ given ucd15 op := by
        intro s h1 h2
        obtain ⟨h3, h4⟩ := prepStr_given hc h1
        refine ⟨by rw [hS.crlf, h3.crlf, hc], ?_⟩
        rw [hS.sent, hpend, List.append_assoc, h4, h3.sink, hb, h2]
        simp
      cases op with
      | str s =>
        obtain ⟨h1, h2⟩ := key s hl rfl
        exact ⟨h1, hS.buffer, fun _ => h2, by simp⟩
      | bytes b =>
        simp only [load] at hl
        split at hl
        · obtain ⟨h1, h2⟩ := key _ hl rfl
          exact ⟨h1, hS.buffer, fun _ => h2, by simp⟩
        · simp at hl
      | text s =>
        simp only [load, prepText, hc, Prod.mk.injEq, and_true] at hl
        simp only [Bool.false_eq_true, if_false, hb, List.nil_append] at hl
        have h2 : w'.sink.sent ++ pend w' = w.sink.sent ++ s := by
          rw [hpend, hS.sent, ← hl]
          simp [pend]
        refine ⟨by rw [hS.crlf, ← hl], hS.buffer, ?_, ?_⟩
        · rintro (h | h)
          · exact absurd rfl (h s)
          · simp only [h2, h, given, List.append_nil]
        · rintro _ ⟨⟩; exact h2
      | _ => simp [Op.isWrite] at hw
    · rw [hs] at hok; simp at hok
    · rw [hs] at hok; simp at hok
  | false =>
    cases op with
    | flush =>
      simp only [step] at hok ⊢
      rcases flush_cases w with ⟨hf, -⟩ | ⟨hf, -⟩ | ⟨-, hf⟩ <;> rw [hf] at hok ⊢
      · simp at hok
      · simp at hok
      · refine ⟨hc, hb, fun _ => ?_, by simp⟩
        simp [given, pend, (sink_flush_sent w.sink).1]
    | close =>
      simp only [step] at hok ⊢
      rcases close_cases w with ⟨hf, -⟩ | ⟨-, hf⟩ <;> rw [hf] at hok ⊢
      · simp at hok
      · refine ⟨hc, hb, fun _ => ?_, by simp⟩
        simp [given, pend, Sink.close, (sink_flush_sent w.sink).1]
    | abandon => exact absurd rfl hop
    | _ => simp [Op.isWrite] at hw

theorem unbroken_cons {w : Writer} {op : Op} {ops : List Op} :
    Unbroken w (op :: ops) ↔ ((∃ s, op = .text s) → pend w = []) ∧ Unbroken (step ucd15 w op).1 ops := by
  constructor
  · intro h
    refine ⟨?_, fun a s b hx => ?_⟩
    · rintro ⟨s, rfl⟩; exact h [] s ops rfl
    · have := h (op :: a) s b (by rw [hx]; rfl)
      exact this
  · rintro ⟨h1, h2⟩ a s b hx
    cases a with
    | nil =>
      simp only [List.nil_append, List.cons.injEq] at hx
      exact h1 ⟨s, hx.1⟩
    | cons o a =>
      simp only [List.cons_append, List.cons.injEq] at hx
      rw [← hx.1]
      exact h2 a s b hx.2

theorem run_given : ∀ (ops : List Op) (w : Writer), w.crlf = false → w.buffer = [] → .abandon ∉ ops →
    (∀ r ∈ results ucd15 w ops, r = .ok) →
    (Unbroken w ops → (run ucd15 w ops).sink.sent ++ pend (run ucd15 w ops) = w.sink.sent ++ pend w ++ ops.flatMap (given ucd15)) ∧
    ((run ucd15 w ops).sink.sent ++ pend (run ucd15 w ops)).length ≤ (w.sink.sent ++ pend w ++ ops.flatMap (given ucd15)).length ∧
    (¬ Unbroken w ops → ((run ucd15 w ops).sink.sent ++ pend (run ucd15 w ops)).length < (w.sink.sent ++ pend w ++ ops.flatMap (given ucd15)).length) := by
  intro ops
  induction ops with
  | nil =>
    intro w _ _ _ _
    refine ⟨fun _ => by simp [run], by simp [run], fun h => absurd ?_ h⟩
    intro a s b hx; simp at hx
  | cons op ops ih =>
    intro w hc hb ha hr
    obtain ⟨h1, h2, h3, h4⟩ := step_given (op := op) hc hb (by rintro rfl; simp at ha) (hr _ (by simp [results]))
    obtain ⟨i1, i2, i3⟩ := ih (step ucd15 w op).1 h1 h2 (fun h => ha (by simp [h])) (fun r h => hr r (by simp [results, h]))
    simp only [run, List.flatMap_cons, ← List.append_assoc]
    have hle : ((step ucd15 w op).1.sink.sent ++ pend (step ucd15 w op).1).length ≤ (w.sink.sent ++ pend w ++ given ucd15 op).length := by
      by_cases hx : (∀ s, op ≠ .text s) ∨ pend w = []
      · rw [h3 hx]; exact Nat.le_refl _
      · simp only [not_or, Classical.not_forall, Classical.not_not] at hx
        obtain ⟨⟨s, hs⟩, -⟩ := hx
        rw [h4 s hs, hs]
        simp only [given, List.length_append]
        omega
    simp only [List.length_append] at hle i2 i3 ⊢
    refine ⟨fun hA => ?_, by omega, fun hA => ?_⟩
    · rw [unbroken_cons] at hA
      have hx : (∀ s, op ≠ .text s) ∨ pend w = [] := by
        by_cases h : ∃ s, op = .text s
        · exact Or.inr (hA.1 h)
        · exact Or.inl (fun s hs => h ⟨s, hs⟩)
      rw [i1 hA.2, h3 hx]
    · rw [unbroken_cons, Classical.not_and_iff_not_or_not] at hA
      rcases hA with hA | hA
      · simp only [Classical.not_imp] at hA
        obtain ⟨⟨s, hs⟩, hp⟩ := hA
        have := congrArg List.length (h4 s hs)
        have hp := List.length_pos_iff.2 hp
        rw [hs] at this i2 ⊢
        simp only [given, List.length_append] at this ⊢
        omega
      · have := i3 hA
        omega

/-- C100, exactly: after calls on a new LF-mode writer that all succeeded, what was sent, followed by the color sequence still held
back, is what the calls were given, if and only if no `write_text` came while part of a color sequence was held back.
Otherwise it is shorter. -/
theorem c100_conserved (w : Writer) (hw : Fresh w) (hc : w.crlf = false) (ops : List Op) (ha : .abandon ∉ ops)
    (hr : ∀ r ∈ results ucd15 w ops, r = .ok) :
    ((run ucd15 w ops).sink.sent ++ pend (run ucd15 w ops) = w.sink.sent ++ ops.flatMap (given ucd15) ↔ Unbroken w ops) ∧
    (¬ Unbroken w ops → ((run ucd15 w ops).sink.sent ++ pend (run ucd15 w ops)).length < (w.sink.sent ++ ops.flatMap (given ucd15)).length) := by
  obtain ⟨h1, -, h3⟩ := run_given ops w hc hw.buffer ha hr
  have hp : pend w = [] := by simp [pend, hw.state]
  rw [hp, List.append_nil] at h1 h3
  refine ⟨⟨fun h => ?_, h1⟩, h3⟩
  refine Classical.byContradiction fun hA => ?_
  have := h3 hA
  rw [h] at this
  omega

/-- What is held back is nothing, or in color mode a color sequence without its end. -/
theorem c100_held (w : Writer) (hw : Fresh w) (ops : List Op) (ho : ∀ op ∈ ops, op.Ok ucd15) (hd : (run ucd15 w ops).sink.dead = false) :
    pend (run ucd15 w ops) = [] ∨ (w.ansi = true ∧ (pend (run ucd15 w ops) = [ESC] ∨
      ∃ ps, pend (run ucd15 w ops) = ESC :: '[' :: ps ∧ ∀ p ∈ ps, 0x20 ≤ p.toNat ∧ p.toNat ≤ 0x3f)) := by
  obtain ⟨-, h2, -⟩ := (safe_run textLaws15 ho hw.safe).live hd
  have hm := (run_mode textLaws15 (w := w) ho).2
  unfold SeqOk at h2
  unfold pend
  split at h2
  · rename_i hs; rw [hs]; exact Or.inl rfl
  · rename_i hs; rw [hs]; exact Or.inr ⟨by rw [← hm]; exact h2.2, Or.inl h2.1⟩
  · rename_i hs
    rw [hs]
    obtain ⟨⟨ps, h3, h4⟩, h5⟩ := h2
    exact Or.inr ⟨by rw [← hm]; exact h5, Or.inr ⟨ps, h4, fun p hp => by simpa [between] using h3 p hp⟩⟩

theorem pend_plain {w : Writer} (hw : Fresh w) (ha : w.ansi = false) (ops : List Op) (ho : ∀ op ∈ ops, op.Ok ucd15) : pend (run ucd15 w ops) = [] := by
  cases hd : (run ucd15 w ops).sink.dead with
  | true =>
    have : Over w := fun _ => hw.state
    simp [pend, over_run textLaws15 (ops := ops) this hd]
  | false =>
    rcases c100_held w hw ops ho hd with h | h
    · exact h
    · rw [ha] at h; simp at h

/-- Without color nothing is ever held back or lost, on any sink. -/
theorem c100_plain (k : Sink) (ops : List Op) (ho : ∀ op ∈ ops, op.Ok ucd15) (ha : .abandon ∉ ops)
    (hr : ∀ r ∈ results ucd15 (.new k) ops, r = .ok) : (run ucd15 (.new k) ops).sink.sent = k.sent ++ ops.flatMap (given ucd15) := by
  have hf : Fresh (Writer.new k) := fresh_new k
  have hU : Unbroken (.new k) ops := by
    rintro a s b rfl
    exact pend_plain hf rfl a (fun op h => ho op (by simp [h]))
  have h1 := ((c100_conserved (.new k) hf rfl ops ha hr).1).2 hU
  rwa [pend_plain hf rfl ops ho, List.append_nil] at h1

theorem results_concat (w : Writer) (a : List Op) (o : Op) : results ucd15 w (a ++ [o]) = results ucd15 w a ++ [(step ucd15 (run ucd15 w a) o).2] := by
  induction a generalizing w with
  | nil => rfl
  | cons x a ih => simp only [List.cons_append, results, run, ih]

/-- Nor in CRLF mode, where U+D is sent before each U+A. -/
theorem c100_crlf (k : Sink) (ops : List Op) (ho : ∀ op ∈ ops, op.Ok ucd15) (ha : .abandon ∉ ops)
    (hr : ∀ r ∈ results ucd15 (.newCrlf k) ops, r = .ok) : (run ucd15 (.newCrlf k) ops).sink.sent = k.sent ++ wire true (ops.flatMap (given ucd15)) := by
  have alive : ∀ ops : List Op, (∀ op ∈ ops, op.Ok ucd15) → .abandon ∉ ops → (∀ r ∈ results ucd15 (.newCrlf k) ops, r = .ok) →
      (run ucd15 (.newCrlf k) ops).sink.dead = false →
      (run ucd15 (.newCrlf k) ops).sink.sent = k.sent ++ wire true (ops.flatMap (given ucd15)) := by
    intro ops ho ha hr hd
    obtain ⟨h1, T, t, t', s, h2, h3, -, -, h4⟩ := c37_crlf_any_sink k k rfl rfl ops ho
    have hp := c100_plain k ops ho ha (h1 ▸ hr)
    have hdd : (run ucd15 (.new k) ops).sink.dead = false := by
      have h : CrlfAlike k.sent k.sent (.new k) (.newCrlf k) :=
        ⟨⟨[], [], [], [], by simp [Writer.new], by simp [Writer.newCrlf, Writer.new, toCrlf_nil], List.nil_prefix, List.nil_prefix, fun _ => ⟨rfl, rfl⟩⟩,
          ⟨rfl, rfl⟩, ⟨rfl, rfl⟩, rfl, fun _ => ⟨⟨rfl, rfl⟩, rfl, rfl, rfl, .newline, rfl, rfl⟩⟩
      have := (crlf_alike_run textLaws15 ho h).2.dead
      rw [← this]; exact hd
    obtain ⟨rfl, rfl⟩ := h4 hdd
    rw [h2, List.append_nil] at hp
    have := List.append_cancel_left hp
    rw [h3, this, List.append_nil]
    rfl
  rcases List.eq_nil_or_concat ops with rfl | ⟨pre, o, rfl⟩
  · simp [run, wire, Writer.newCrlf, Writer.new]
  · rw [List.concat_eq_append] at *
    have hpre : ∀ op ∈ pre, op.Ok ucd15 := fun op h => ho op (by simp [h])
    rw [results_concat] at hr
    have hro := hr (step ucd15 (run ucd15 (.newCrlf k) pre) o).2 (by simp)
    have hd : (run ucd15 (.newCrlf k) pre).sink.dead = false := by
      cases hd : (run ucd15 (.newCrlf k) pre).sink.dead with
      | false => rfl
      | true =>
        have := (dead_step textLaws15 o hd).2.2 (fun h => ha (by simp [h]))
        rw [this] at hro; cases hro
    cases hw : o.isWrite with
    | true =>
      obtain ⟨b, hb, -⟩ := c127_write _ o hw (ho o (by simp)) hro
      refine alive _ ho ha (by rw [results_concat]; exact hr) ?_
      rw [run_append]
      show (step ucd15 (run ucd15 (.newCrlf k) pre) o).1.sink.dead = false
      revert hb
      unfold Sink.writeStr
      rw [if_neg (by simp [hd])]
      split <;> intro hb <;> injection hb with h1 h2
      · rw [← h1]; exact hd
      · rw [← h1]; exact hd
      · cases h2
    | false =>
      have hg : given ucd15 o = [] := by cases o <;> first | rfl | simp [Op.isWrite] at hw
      rw [run_append]
      show (step ucd15 (run ucd15 (.newCrlf k) pre) o).1.sink.sent = _
      rw [(c127_others _).2.2.2 o hw, alive pre hpre (fun h => ha (by simp [h])) (fun r h => hr r (by simp [h])) hd]
      simp [hg]

example : results ucd15 (.newAnsi true goodSink) [.str ['a', ESC, '['], .bytes [0x31, 0x6d, 0xe2], .text ['b'], .str ['\n', ESC]] = [.ok, .ok, .ok, .ok] ∧
    (run ucd15 (.newAnsi true goodSink) [.str ['a', ESC, '['], .bytes [0x31, 0x6d, 0xe2], .text ['b'], .str ['\n', ESC]]).sink.sent =
      ['a', ESC, '[', '1', 'm', 'b', '\n'] ∧
    pend (run ucd15 (.newAnsi true goodSink) [.str ['a', ESC, '['], .bytes [0x31, 0x6d, 0xe2], .text ['b'], .str ['\n', ESC]]) = [ESC] := by
  decide +kernel

example : ∀ r ∈ results ucd15 (.new goodSink) [.str ['A', '\u030a'], .bytes [0x0a], .close], r = .ok := by decide +kernel

/-- In CRLF mode, on a sink that would fail at the fourth operation. -/
example : let k : Sink := ⟨['x'], false, [.ok, .ok, .ok, .fail 0]⟩
    (∀ r ∈ results ucd15 (.newCrlf k) [.str ['A', '\u030a'], .bytes [0x0a], .close], r = .ok) ∧
    (run ucd15 (.newCrlf k) [.str ['A', '\u030a'], .bytes [0x0a], .close]).sink.sent = ['x', '\u00c5', '\r', '\n'] := by decide +kernel

/-- C100 fails: a text written after the beginning of a color sequence replaces it; all calls report success, and the rest of the
sequence is sent as text. -/
theorem c100_refuted : results ucd15 (.newAnsi true goodSink) [.str [ESC, '[', '3'], .text ['a'], .str ['1', 'm', '\n'], .close] = [.ok, .ok, .ok, .ok] ∧
    (run ucd15 (.newAnsi true goodSink) [.str [ESC, '[', '3'], .text ['a'], .str ['1', 'm', '\n'], .close]).sink.sent = ['a', '1', 'm', '\n'] := by
  decide +kernel

/-! ## C33, C35, C40

In the following `T` is what the inner stream got since the last `write_text` of an empty text, or from the beginning if there is none. -/

theorem ground_newline_iff {T : List Char} : groundAfter T = .newline ↔ T = [] ∨ T.getLast? = some '\n' := by
  refine ⟨groundAfter_newline, ?_⟩
  rintro (rfl | h)
  · rfl
  · simp [groundAfter, h]

/-- C33, exactly: close succeeds iff nothing is held back, the inner stream closes, and `T` is empty or ends with U+A or the stream is over. -/
theorem c33_close_iff (w : Writer) (hw : Fresh w) (a b : List Op) (hs : Since a b) (ho : ∀ op ∈ a ++ b, op.Ok ucd15) (T : List Char)
    (hT : (run ucd15 w (a ++ b)).sink.sent = (run ucd15 w a).sink.sent ++ T) :
    (step ucd15 (run ucd15 w (a ++ b)) .close).2 = .ok ↔ pend (run ucd15 w (a ++ b)) = [] ∧ (run ucd15 w (a ++ b)).sink.close.2 = true ∧
      ((run ucd15 w (a ++ b)).sink.dead = true ∨ T = [] ∨ T.getLast? = some '\n') := by
  have h := state_of w hw a b hs ho T hT
  generalize run ucd15 w (a ++ b) = v at *
  simp only [step]
  rcases h with ⟨h1, h2, h3⟩ | ⟨h1, h2, h3⟩ | ⟨h1, h2, h3⟩
  · rcases close_cases v with ⟨hf, -⟩ | ⟨hn, -⟩
    · rw [hf]; simp [h1]
    · rcases h3 with h3 | h3 <;> rw [h3] at hn <;> simp at hn
  · rcases close_cases v with ⟨hf, hn⟩ | ⟨hn, hf⟩
    · rw [hf]
      rw [h3, Ne, WState.ground.injEq, ground_newline_iff] at hn
      simp only [h2]
      exact iff_of_false (by simp) (fun hx => hn (hx.2.2.resolve_left (by simp)))
    · rw [hf]
      rw [h3, WState.ground.injEq, ground_newline_iff] at hn
      simp [h1, h2, hn]
  · rcases close_cases v with ⟨hf, hn⟩ | ⟨hn, hf⟩
    · exact absurd h3 hn
    · rw [hf]; simp [h1, h2]

/-- C35, exactly: dropping the writer panics iff the stream is not over and part of a color sequence is held back or `T` ends otherwise
than with U+A. -/
theorem c35_drop_iff (w : Writer) (hw : Fresh w) (a b : List Op) (hs : Since a b) (ho : ∀ op ∈ a ++ b, op.Ok ucd15) (T : List Char)
    (hT : (run ucd15 w (a ++ b)).sink.sent = (run ucd15 w a).sink.sent ++ T) :
    dropPanics (run ucd15 w (a ++ b)) = true ↔ (run ucd15 w (a ++ b)).sink.dead = false ∧
      (pend (run ucd15 w (a ++ b)) ≠ [] ∨ ∃ c ∈ T.getLast?, c ≠ '\n') := by
  have h := state_of w hw a b hs ho T hT
  generalize run ucd15 w (a ++ b) = v at *
  unfold dropPanics
  rcases h with ⟨h1, h2, h3 | h3⟩ | ⟨h1, h2, h3⟩ | ⟨h1, h2, h3⟩
  · simp [h1, h2, h3]
  · simp [h1, h2, h3]
  · have hg := @ground_newline_iff T
    rw [h3]
    simp only [bne_iff_ne, ne_eq, WState.ground.injEq, hg, h2, h1, not_true_eq_false, false_or, true_and]
    cases hc : T.getLast? with
    | none => simp [List.getLast?_eq_none_iff.1 hc]
    | some c =>
      have : T ≠ [] := by rintro rfl; simp at hc
      simp [this]
  · simp [h1, h2, h3]

/-- C40, exactly: flush succeeds iff nothing is held back, the inner stream's flush succeeds, and the last scalar of `T` may end Basic Text. -/
theorem c40_flush_iff (w : Writer) (hw : Fresh w) (a b : List Op) (hs : Since a b) (ho : ∀ op ∈ a ++ b, op.Ok ucd15) (T : List Char)
    (hT : (run ucd15 w (a ++ b)).sink.sent = (run ucd15 w a).sink.sent ++ T) :
    (step ucd15 (run ucd15 w (a ++ b)) .flush).2 = .ok ↔ pend (run ucd15 w (a ++ b)) = [] ∧ (run ucd15 w (a ++ b)).sink.flush.2 = true ∧
      ((run ucd15 w (a ++ b)).sink.dead = true ∨ ∀ c ∈ T.getLast?, isEnd c = true) := by
  obtain ⟨n, r, h1, h2, -⟩ := c99_calls (run ucd15 w (a ++ b)) .flush
  have h := c99_flush w hw a b hs ho T hT n
  rw [h1 n (Nat.le_refl _), Option.map_some, Option.some.injEq] at h
  rw [← h2]
  generalize run ucd15 w (a ++ b) = v at *
  simp only [h]
  by_cases hp : pend v = []
  · rw [if_neg (by simp [hp])]
    by_cases hj : v.sink.dead = false ∧ ∃ c ∈ T.getLast?, isEnd c = false
    · rw [if_pos hj]
      obtain ⟨hd, c, hc, he⟩ := hj
      simp only [OutF.out, hd]
      refine iff_of_false (by simp) (fun hx => ?_)
      have := (hx.2.2.resolve_left (by simp)) c hc
      rw [he] at this; simp at this
    · rw [if_neg hj]
      have hj' : v.sink.dead = true ∨ ∀ c ∈ T.getLast?, isEnd c = true := by
        cases hd : v.sink.dead with
        | true => exact Or.inl rfl
        | false =>
          refine Or.inr (fun c hc => ?_)
          cases he : isEnd c with
          | true => rfl
          | false => exact absurd ⟨hd, c, hc, he⟩ hj
      cases hf : v.sink.flush.2 with
      | false => simp [OutF.out]
      | true => simp only [if_true, OutF.out, hp, true_and]; exact iff_of_true trivial hj'
  · rw [if_pos hp]; simp [OutF.out, hp]

example : Since [.str ['a', ZWJ], .text []] [.str ['b']] ∧
    results ucd15 (.new goodSink) [.str ['a', ZWJ], .text [], .flush, .close] = [.ok, .ok, .ok, .ok] :=
  ⟨⟨Or.inr ⟨[.str ['a', ZWJ]], rfl⟩, by simp⟩, by decide +kernel⟩

/-- The inner stream is not over, and its next call does not fail. -/
def Spec.Answers (k : Sink) : Prop := k.dead = false ∧ ∀ e ∈ k.script.head?, e = .ok

theorem flush_answers (k : Sink) : k.flush.2 = true ↔ Answers k := by
  unfold Sink.flush Answers
  cases k.dead <;> rcases k.script with - | ⟨_ | _, _⟩ <;> simp

/-- C33, exactly, in terms of the inner stream: close succeeds iff nothing is held back, `T` is empty or ends with U+A, and the inner stream
is not over and does not fail. -/
theorem c33_close_iff_sink (w : Writer) (hw : Fresh w) (a b : List Op) (hs : Since a b) (ho : ∀ op ∈ a ++ b, op.Ok ucd15) (T : List Char)
    (hT : (run ucd15 w (a ++ b)).sink.sent = (run ucd15 w a).sink.sent ++ T) :
    (step ucd15 (run ucd15 w (a ++ b)) .close).2 = .ok ↔ pend (run ucd15 w (a ++ b)) = [] ∧ Answers (run ucd15 w (a ++ b)).sink ∧
      (T = [] ∨ T.getLast? = some '\n') := by
  rw [c33_close_iff w hw a b hs ho T hT, show ∀ k : Sink, k.close.2 = k.flush.2 from fun _ => rfl, flush_answers]
  refine and_congr_right fun _ => and_congr_right fun h => ?_
  rw [h.1]; simp

/-- C40, exactly, in terms of the inner stream. -/
theorem c40_flush_iff_sink (w : Writer) (hw : Fresh w) (a b : List Op) (hs : Since a b) (ho : ∀ op ∈ a ++ b, op.Ok ucd15) (T : List Char)
    (hT : (run ucd15 w (a ++ b)).sink.sent = (run ucd15 w a).sink.sent ++ T) :
    (step ucd15 (run ucd15 w (a ++ b)) .flush).2 = .ok ↔ pend (run ucd15 w (a ++ b)) = [] ∧ Answers (run ucd15 w (a ++ b)).sink ∧
      ∀ c ∈ T.getLast?, isEnd c = true := by
  rw [c40_flush_iff w hw a b hs ho T hT, flush_answers]
  refine and_congr_right fun _ => and_congr_right fun h => ?_
  rw [h.1]; simp

example : results ucd15 (.new ⟨[], false, [.ok, .ok, .fail 0]⟩) [.str ['a', '\n'], .flush, .flush] = [.ok, .ok, .err] ∧
    results ucd15 (.new ⟨[], false, [.ok, .ok, .fail 0]⟩) [.str ['a', '\n'], .close] = [.ok, .ok] ∧
    results ucd15 (.new ⟨[], false, [.ok, .fail 0]⟩) [.str ['a', '\n'], .close] = [.ok, .err] := by decide +kernel

end Verif
