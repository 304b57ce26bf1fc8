import Verif.CallErrors
import Verif.IntoInner
import Verif.Props.Conserve

/-!
# C103: taking the inner stream back
-/

namespace Verif
open Ucd Spec

theorem takeClosed_ok {w : Writer} (h : w.state = .ground .newline) : takeClosed w = { back := some w.sink, lost := none, panics := false } := by
  simp [takeClosed, checkNl, h, dropPanics]

theorem takeClosed_fail {w : Writer} (h : w.state ≠ .ground .newline) : takeClosed w = { back := none, lost := some w.sink.abandon, panics := false } := by
  simp [takeClosed, checkNl, h, dropPanics, Writer.fail, Writer.reset]

/-- C103: `close_into_inner` and `abandon_into_inner` never panic, and the inner stream is either returned just as it is, neither
flushed nor closed, or, if `close_into_inner` fails, it is abandoned. -/
theorem c103_outcome (w : Writer) :
    (takeAbandoned w = { back := some w.sink, lost := none, panics := false }) ∧ abandonIntoInner w = w.sink ∧
    (takeClosed w = { back := some w.sink, lost := none, panics := false } ∨
      takeClosed w = { back := none, lost := some w.sink.abandon, panics := false }) := by
  refine ⟨rfl, rfl, ?_⟩
  by_cases h : w.state = .ground .newline
  · exact Or.inl (takeClosed_ok h)
  · exact Or.inr (takeClosed_fail h)

/-- C103: `close_into_inner` succeeds exactly if nothing is held back and the text sent is empty or ends with U+A, or the stream is over.
`T` is what was sent since construction or the last empty `write_text` (`Since`). -/
theorem c103_close_iff (w : Writer) (hw : Fresh w) (a b : List Op) (hs : Since a b) (ho : ∀ op ∈ a ++ b, op.Ok ucd15) (T : List Char)
    (hT : (run ucd15 w (a ++ b)).sink.sent = (run ucd15 w a).sink.sent ++ T) :
    (takeClosed (run ucd15 w (a ++ b))).back = some (run ucd15 w (a ++ b)).sink ↔ pend (run ucd15 w (a ++ b)) = [] ∧
      ((run ucd15 w (a ++ b)).sink.dead = true ∨ T = [] ∨ T.getLast? = some '\n') := by
  have h := state_of w hw a b hs ho T hT
  generalize run ucd15 w (a ++ b) = v at *
  rcases h with ⟨h1, h2, h3⟩ | ⟨h1, h2, h3⟩ | ⟨h1, h2, h3⟩
  · rw [takeClosed_fail (by rcases h3 with h3 | h3 <;> rw [h3] <;> simp)]; simp [h1]
  · by_cases hn : v.state = .ground .newline
    · rw [takeClosed_ok hn]
      rw [h3] at hn
      have := ground_newline_iff.1 (WState.ground.inj hn)
      simp [h1, this]
    · rw [takeClosed_fail hn]
      rw [h3] at hn
      have : ¬ (T = [] ∨ T.getLast? = some '\n') := fun h => hn (by rw [ground_newline_iff.2 h])
      simp [h1, h2, this]
  · rw [takeClosed_ok h3]; simp [h1, h2]

/-- C103: a new writer on the stream that was taken back continues as the old one would after a flush: every call has the same
result, and the inner stream receives the same. -/
theorem c103_resume (w : Writer) (hw : Fresh w) (ops : List Op) (ho : ∀ op ∈ ops, op.Ok ucd15) (k : Sink)
    (hk : (takeClosed (run ucd15 w ops)).back = some k) (hf : k.flush = (k, true)) (ops' : List Op) :
    results ucd15 { w with sink := k } ops' = results ucd15 (run ucd15 w (ops ++ [.flush])) ops' ∧
    (run ucd15 { w with sink := k } ops').sink = (run ucd15 w (ops ++ [.flush] ++ ops')).sink := by
  have hn : (run ucd15 w ops).state = .ground .newline := by
    by_cases h : (run ucd15 w ops).state = .ground .newline
    · exact h
    · rw [takeClosed_fail h] at hk; simp at hk
  rw [takeClosed_ok hn] at hk
  simp only [Option.some.injEq] at hk
  have hd : k.dead = false := by
    unfold Sink.flush at hf
    split at hf
    · simp at hf
    · rename_i h; simpa using h
  have hm := run_mode textLaws15 (w := w) ho
  have hb := ((safe_run textLaws15 ho hw.safe).live (by rw [hk]; exact hd)).1
  have hfl : run ucd15 w (ops ++ [.flush]) = { run ucd15 w ops with expectStarter := true } := by
    rw [run_append]
    simp only [run, step, flush, hn, hk, hf]
  have ha : Alike (run ucd15 w (ops ++ [.flush])) { w with sink := k } := by
    rw [hfl]
    refine ⟨[], ?_, Or.inr ⟨_, hn⟩⟩
    obtain ⟨b1, b2, b3, b4, b5⟩ := hw
    revert hm hb hk hn
    generalize run ucd15 w ops = v
    intro hn hk hm hb
    rcases v with ⟨v1, v2, v3, v4, v5, v6, v7⟩
    rcases w with ⟨w1, w2, w3, w4, w5, w6, w7⟩
    simp_all
  obtain ⟨h1, h2⟩ := alike_run (U := ucd15) ops' ha
  refine ⟨h2.symm, ?_⟩
  rw [run_append]
  obtain ⟨q, hq, -⟩ := h1
  rw [hq]

/-- C103: `close_into_inner` fails exactly if `close` fails before it gets to the inner stream, and then with the same error. -/
theorem c103_errors (w : Writer) :
    (∀ r, closeIntoInnerF w = .inr r ↔ (closeF w).2 = r ∧ r ≠ .ok ∧ r ≠ .fault .inner) ∧
    ((closeF w).2 = .ok ∨ (closeF w).2 = .fault .inner → closeIntoInnerF w = .inl w.sink) := by
  rcases w with ⟨b, c, e, a, s, q, k⟩
  cases s with
  | ground g =>
    cases g
    all_goals simp only [closeIntoInnerF, closeF, checkNlF]
    case newline => cases k.close.2 <;> simp
    all_goals simp
    all_goals grind
  | esc => simp [closeIntoInnerF, closeF, checkNlF]
  | csi => simp [closeIntoInnerF, closeF, checkNlF]

example : closeIntoInnerF (run ucd15 (.new goodSink) [.str ['a']]) = .inr (.fault .endLine) := by decide +kernel

/-- C103: contrary to its documentation, `close_into_inner` does not flush or close the inner stream: it succeeds and returns it open
though flushing it fails, with which `close` fails. -/
theorem c103_refuted_closes : results ucd15 (.new { sent := [], dead := false, script := [.ok, .fail 0] }) [.str ['a', '\n'], .close] = [.ok, .err] ∧
    takeClosed (run ucd15 (.new { sent := [], dead := false, script := [.ok, .fail 0] }) [.str ['a', '\n']]) =
      { back := some { sent := ['a', '\n'], dead := false, script := [.fail 0] }, lost := none, panics := false } := by decide +kernel

/-- `abandon_into_inner` does not abandon it. -/
example : takeAbandoned (run ucd15 (.new goodSink) [.str ['a']]) =
    { back := some { sent := ['a'], dead := false, script := [] }, lost := none, panics := false } := by decide +kernel

example : takeClosed (run ucd15 (.newAnsi true goodSink) [.str ['a', '\x1b', '[', '1', 'm', '\n']]) =
    { back := some { sent := ['a', '\x1b', '[', '1', 'm', '\n'], dead := false, script := [] }, lost := none, panics := false } := by decide +kernel

example : takeClosed (run ucd15 (.newAnsi true goodSink) [.str ['a', '\x1b', '[', '1', 'm']]) =
    { back := none, lost := some { sent := ['a', '\x1b', '[', '1', 'm'], dead := true, script := [] }, panics := false } := by decide +kernel

end Verif
