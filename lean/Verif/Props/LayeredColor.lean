import Verif.LayeredColor
import Verif.Props.Layered

/-!
# Property C114: a writer on a writer, with color
-/

namespace Verif
open Ucd Spec

/-- C114: a plain writer on a writer in color mode is a plain writer: the inner one never gets anything to allow. -/
theorem c114_plain_on_color (k : Sink) (ops : List Op) (ho : ∀ op ∈ ops, Proper op) :
    (onTop (.newAnsi true k)).results ucd15 ops = results ucd15 (.new k) ops ∧
    ((onTop (.newAnsi true k)).run ucd15 ops).inner.sink = (run ucd15 (.new k) ops).sink := by
  have h : Live (.new k) (onTop (.newAnsi true k)) := ⟨rfl, rfl, rfl, ⟨_, rfl, rfl, rfl⟩, ⟨rfl, rfl⟩, ⟨rfl, rfl, rfl⟩, ⟨rfl, rfl⟩⟩
  obtain ⟨h1, h2⟩ := layered_run textLaws15 (Or.inl h) fun op hop => (ho op hop).firm
  refine ⟨h2, ?_⟩
  rcases h1 with h1 | h1
  · exact h1.sink
  · exact h1.sink

/-- A new writer in color mode on a new writer in color mode. -/
def colorTop (k : Sink) : Layered := { outer := .newAnsi true goodSink, inner := .newAnsi true k }

theorem colorTop_live (k : Sink) : ColorLive (.newAnsi true k) (colorTop k) :=
  ⟨rfl, rfl, rfl, rfl, trivial, ⟨rfl, rfl, rfl⟩, rfl, rfl, ⟨_, rfl, fun _ h => (WState.ground.inj h).symm⟩⟩

/-- C114: whatever is done with a new writer in color mode on a new writer in color mode, color sequences cut between two writes included,
the calls return the same and the inner stream gets the same as if there were only one of them. -/
theorem c114_color (k : Sink) (ops : List Op) (ho : ∀ op ∈ ops, Proper op) :
    (colorTop k).results ucd15 ops = results ucd15 (.newAnsi true k) ops ∧
    ((colorTop k).run ucd15 ops).inner.sink = (run ucd15 (.newAnsi true k) ops).sink := by
  obtain ⟨h1, h2⟩ := color_run textLaws15 (Or.inl (colorTop_live k)) fun op hop => (ho op hop).firm
  refine ⟨h2, ?_⟩
  rcases h1 with h1 | h1
  · exact h1.sink
  · exact h1.sink

/-- C114: dropping the two panics exactly if dropping the one would; the inner one panics too, unless what it has got ends in a newline and
only the beginning of a color sequence has come after it. -/
theorem c114_color_drop (k : Sink) (ops : List Op) (ho : ∀ op ∈ ops, Proper op) :
    (((colorTop k).run ucd15 ops).dropPanics = 0 ↔ dropPanics (run ucd15 (.newAnsi true k) ops) = false) ∧
    (dropPanics ((colorTop k).run ucd15 ops).outer = dropPanics (run ucd15 (.newAnsi true k) ops)) := by
  obtain ⟨h1, -⟩ := color_run textLaws15 (Or.inl (colorTop_live k)) fun op hop => (ho op hop).firm
  generalize (colorTop k).run ucd15 ops = l at *
  generalize run ucd15 (.newAnsi true k) ops = w at *
  have key : l.outer.state = w.state ∧ (w.state = .ground .newline → l.inner.state = .ground .newline) := by
    rcases h1 with h1 | h1
    · obtain ⟨g, g1, g2⟩ := h1.ground
      refine ⟨by rw [h1.outer]; rfl, fun hw => ?_⟩
      rw [g1, ← g2 _ hw]
    · exact ⟨by rw [h1.state.1, h1.state.2.1], fun _ => h1.state.2.2⟩
  simp only [Layered.dropPanics, dropPanics, key.1, and_true]
  by_cases hw : w.state = .ground .newline
  · simp [hw, key.2 hw]
  · simp [hw]

/-- C114: the mode belongs to the inner writer: color mode on a plain writer takes the beginning of a color sequence, says that it is
written, and fails when the sequence is complete; a plain writer fails at once. -/
theorem c114_color_on_plain_refuted :
    Layered.results ucd15 { outer := .newAnsi true goodSink, inner := .new goodSink } [.str [ESC], .str ['['], .str ['m']] = [.ok, .ok, .err] ∧
    results ucd15 (.new goodSink) [.str [ESC], .str ['['], .str ['m']] = [.err, .err, .err] ∧
    results ucd15 (.newAnsi true goodSink) [.str [ESC], .str ['['], .str ['m']] = [.ok, .ok, .ok] := by decide +kernel

-- a color sequence in three writes, and a newline in between and after it; a flush inside of the sequence is refused and harms nothing
example : (∀ op ∈ [Op.str ['a', ESC], .str ['[', '3'], .flush, .str ['1', 'm', 'b'], .text ['c', '\n'], .flush, .str [ESC, '[', 'm', '\n'], .close], Proper op) ∧
    (colorTop goodSink).results ucd15 [Op.str ['a', ESC], .str ['[', '3'], .flush, .str ['1', 'm', 'b'], .text ['c', '\n'], .flush, .str [ESC, '[', 'm', '\n'], .close]
      = [.ok, .ok, .err, .ok, .ok, .ok, .ok, .ok] ∧
    ((colorTop goodSink).run ucd15 [Op.str ['a', ESC], .str ['[', '3'], .flush, .str ['1', 'm', 'b'], .text ['c', '\n'], .flush, .str [ESC, '[', 'm', '\n'], .close]).inner.sink.sent
      = ['a', ESC, '[', '3', '1', 'm', 'b', 'c', '\n', ESC, '[', 'm', '\n'] := by
  refine ⟨?_, by decide +kernel, by decide +kernel⟩
  intro op hop
  simp only [List.mem_cons, List.not_mem_nil, or_false] at hop
  rcases hop with rfl | rfl | rfl | rfl | rfl | rfl | rfl | rfl <;> try trivial
  exact ⟨by decide +kernel, by simp, (isolate_fix textLaws15 _).1 (by decide +kernel)⟩

-- one panic only: the inner writer has got nothing, the outer one holds back an ESC
example : ((colorTop goodSink).run ucd15 [.str [ESC]]).dropPanics = 1 ∧ ((colorTop goodSink).run ucd15 [.str ['a', ESC]]).dropPanics = 2 := by decide +kernel

end Verif
