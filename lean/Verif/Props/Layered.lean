import Verif.Layered
import Verif.Props.CutPlaces
import Verif.Props.Writer

/-!
# Property C114: a writer on a writer
-/

namespace Verif
open Ucd Spec

/-- What is written as text: a `TextSubstr`, not empty, in which every unassigned scalar comes directly after a U+34F. -/
def Spec.Proper : Op → Prop
  | .text s => isBasicTextSubstr ucd15 s = true ∧ s ≠ [] ∧ Preceded ucd15 s
  | _ => True

theorem Spec.Proper.firm {op : Op} (h : Proper op) : op.Firm ucd15 := by
  cases op with
  | text s =>
    refine ⟨h.1, h.2.1, ?_⟩
    rw [normChain_of_nss textLaws15 (substr_iff.1 h.1).2]
    exact (isolate_fix textLaws15 s).2 h.2.2
  | _ => trivial

/-- A new writer on `inner`. -/
def onTop (inner : Writer) : Layered := { outer := .new goodSink, inner }

/-- C114: whatever is done with a new writer on a new writer, plain or in CRLF mode, on any inner stream, the calls return the same and the
inner stream gets the same as if there were only the inner writer. -/
theorem c114_same (crlf : Bool) (k : Sink) (ops : List Op) (ho : ∀ op ∈ ops, Proper op) :
    let w : Writer := if crlf then .newCrlf k else .new k
    ((onTop w).results ucd15 ops = results ucd15 w ops) ∧ ((onTop w).run ucd15 ops).inner.sink = (run ucd15 w ops).sink := by
  have h : Live (if crlf then .newCrlf k else .new k) (onTop (if crlf then .newCrlf k else .new k)) := by
    cases crlf <;> exact ⟨rfl, rfl, rfl, ⟨_, rfl, rfl, rfl⟩, ⟨rfl, rfl⟩, ⟨rfl, rfl, rfl⟩, ⟨rfl, rfl⟩⟩
  obtain ⟨h1, h2⟩ := layered_run textLaws15 (Or.inl h) fun op hop => (ho op hop).firm
  refine ⟨h2, ?_⟩
  rcases h1 with h1 | h1
  · exact h1.sink
  · exact h1.sink

/-- C114: dropping the pair panics exactly if dropping the one writer would, but then both panic, which is an abort. -/
theorem c114_drop (crlf : Bool) (k : Sink) (ops : List Op) (ho : ∀ op ∈ ops, Proper op) :
    let w : Writer := if crlf then .newCrlf k else .new k
    ((onTop w).run ucd15 ops).dropPanics = if dropPanics (run ucd15 w ops) then 2 else 0 := by
  have h : Live (if crlf then .newCrlf k else .new k) (onTop (if crlf then .newCrlf k else .new k)) := by
    cases crlf <;> exact ⟨rfl, rfl, rfl, ⟨_, rfl, rfl, rfl⟩, ⟨rfl, rfl⟩, ⟨rfl, rfl, rfl⟩, ⟨rfl, rfl⟩⟩
  obtain ⟨h1, -⟩ := layered_run textLaws15 (Or.inl h) fun op hop => (ho op hop).firm
  simp only [Layered.dropPanics, dropPanics]
  rcases h1 with h1 | h1
  · obtain ⟨g, e1, e2, e3⟩ := h1.ground
    simp only [e1, e2, e3]
    split <;> rfl
  · simp only [h1.state.1, h1.state.2.1, h1.state.2.2]
    rfl

/-- C114: the modes belong to the inner writer.  A writer in CRLF mode on a writer cannot write any string with a newline … -/
theorem c114_crlf_refused (k : Sink) (s : List Char) (h : '\n' ∈ s) :
    (Layered.step ucd15 { outer := .newCrlf goodSink, inner := .new k } (.str s)).2 = .err := by
  rw [layered_write _ rfl]
  have hc : load ucd15 (.newCrlf goodSink) (.str s) = prepStr ucd15 (.newCrlf goodSink) s := rfl
  cases hl : load ucd15 (.newCrlf goodSink) (.str s) with
  | mk o r =>
    cases r with
    | ok =>
      have hk := prepStr_plain_ok textLaws15 (w := .newCrlf goodSink) rfl rfl (s := s) (by rw [← hc, hl])
      have hp := prepStr_plain textLaws15 (w := .newCrlf goodSink) rfl hk
      rw [← hc, hl] at hp
      have hb : o.buffer = toCrlf (normChain ucd15 s) := by
        have := congrArg Writer.buffer (Prod.ext_iff.1 hp).1
        exact this
      have hr : '\r' ∈ o.buffer := by
        rw [hb]
        exact List.mem_flatMap.2 ⟨'\n', normChain_keeps textLaws15 (by decide) h, by simp⟩
      simp only [Layered.writeBuffer]
      split
      · rfl
      · obtain ⟨e1, e2⟩ := stateMachine_bad textLaws15 hr (by decide +kernel) (.new k)
        have e : writeStr ucd15 (.new k) o.buffer = ((stateMachine ucd15 (.new k) o.buffer).1, .err) := by
          rw [writeStr_eq]
          have : prepStr ucd15 (.new k) o.buffer = ((stateMachine ucd15 (.new k) o.buffer).1, .err) := Prod.ext rfl e1
          rw [this]
        rw [e]
    | err => rfl
    | panic => exact absurd (load_not_ok textLaws15 hl (by simp)).1 (by simp)

/-- C114: … and a writer in BOM mode on a writer cannot be made: the first thing it writes is refused. -/
theorem c114_bom_refused (crlf : Bool) (k : Sink) :
    (writeStr ucd15 (if crlf then .newCrlf k else .new k) [BOM]).2 = .err := by
  have h : ∀ w : Writer, w.crlf = crlf → (writeStr ucd15 w [BOM]).2 = .err := by
    intro w hw
    have h1 : stateMachine ucd15 w [BOM] = ((stateMachine ucd15 w [BOM]).1, .err) :=
      Prod.ext rfl (stateMachine_bad textLaws15 (c := BOM) (by simp) (by decide +kernel) w).1
    have h2 : splitNl [BOM] = [[BOM]] := by decide
    rw [writeStr]
    cases crlf with
    | true => simp only [hw, if_true, h2, crlfLoop]; rw [h1]
    | false => simp only [hw, Bool.false_eq_true, if_false]; rw [h1]
  exact h _ (by cases crlf <;> rfl)

/-- What is written as text has to be as required in `Proper`: the outer writer sends it as it is, the inner one takes it for a string; and
after an empty text the outer writer thinks that a line has ended. -/
theorem c114_refuted_text :
    ((onTop (.new goodSink)).run ucd15 [.text ['͸', '\n']]).inner.sink.sent = ['͏', '͸', '͏', '\n'] ∧
    (run ucd15 (.new goodSink) [.text ['͸', '\n']]).sink.sent = ['͸', '\n'] ∧
    (onTop (.new goodSink)).results ucd15 [.str ['a'], .text [], .close] = [.ok, .ok, .err] ∧
    results ucd15 (.new goodSink) [.str ['a'], .text [], .close] = [.ok, .ok, .ok] := by decide +kernel

/-- Writing, failing, and going on: the same with one writer and with two. -/
example : (onTop (.newCrlf goodSink)).results ucd15 [.str ['e', '́', '\n'], .flush, .text ['x'], .str ['̈', '\n'], .str ['\r'], .flush] =
      [.ok, .ok, .ok, .ok, .err, .err] ∧
    ((onTop (.newCrlf goodSink)).run ucd15 [.str ['e', '́', '\n'], .flush, .text ['x'], .str ['̈', '\n'], .str ['\r'], .flush]).inner.sink.sent =
      ['é', '\r', '\n', 'x', '̈', '\r', '\n'] ∧ Proper (.text ['x']) := by
  refine ⟨by decide +kernel, by decide +kernel, by decide +kernel, by simp, ?_⟩
  exact (isolate_fix textLaws15 _).1 (by decide +kernel)

end Verif
