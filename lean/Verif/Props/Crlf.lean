import Verif.WriterCrlf
import Verif.Props.Writer

/-!
# C37 on sinks that fail
-/

namespace Verif
open Ucd

/-- C37 on any sinks: if the operations of the two sinks succeed and fail alike, every call returns the same result in both modes, and what the
sinks have received corresponds, up to what has gone out of a failing write. -/
theorem c37_crlf_any_sink (k k' : Sink) (hd : k'.dead = k.dead) (hs : k'.script.map SinkEvent.isOk = k.script.map SinkEvent.isOk) (ops : List Op)
    (ho : ∀ op ∈ ops, op.Ok ucd15) :
    results ucd15 (.new k) ops = results ucd15 (.newCrlf k') ops ∧
    ∃ T t t' s, (run ucd15 (.new k) ops).sink.sent = k.sent ++ T ++ t ∧
      (run ucd15 (.newCrlf k') ops).sink.sent = k'.sent ++ (T.flatMap fun c => if c = '\n' then ['\r', '\n'] else [c]) ++ t' ∧
      t <+: s ∧ t' <+: (s.flatMap fun c => if c = '\n' then ['\r', '\n'] else [c]) ∧ ((run ucd15 (.new k) ops).sink.dead = false → t = [] ∧ t' = []) := by
  have h : CrlfAlike k.sent k'.sent (.new k) (.newCrlf k') :=
    ⟨⟨[], [], [], [], by simp [Writer.new], by simp [Writer.newCrlf, Writer.new, toCrlf_nil], List.nil_prefix, List.nil_prefix, fun _ => ⟨rfl, rfl⟩⟩,
      ⟨rfl, rfl⟩, ⟨rfl, rfl⟩, hd, fun _ => ⟨⟨hd, hs⟩, rfl, rfl, rfl, .newline, rfl, rfl⟩⟩
  obtain ⟨h1, h2⟩ := crlf_alike_run textLaws15 ho h
  exact ⟨h1, h2.text⟩

/-- A second write that fails, with different amounts gone out. -/
example : results ucd15 (.new ⟨[], false, [.ok, .fail 2]⟩) [.str ['a', '\n'], .str ['\n', 'b', '\n'], .flush] = [.ok, .err, .err] ∧
    (run ucd15 (.new ⟨[], false, [.ok, .fail 2]⟩) [.str ['a', '\n'], .str ['\n', 'b', '\n'], .flush]).sink.sent = ['a', '\n', '\n', 'b'] ∧
    (run ucd15 (.newCrlf ⟨[], false, [.ok, .fail 1]⟩) [.str ['a', '\n'], .str ['\n', 'b', '\n'], .flush]).sink.sent = ['a', '\r', '\n', '\r'] := by
  decide +kernel

end Verif
