import Verif.Copy
import Verif.Props.Reader
import Verif.Props.Writer

/-!
# Properties of copying (C44)
-/

namespace Verif
open Ucd Spec

theorem Ready.willing {w : Writer} (h : Ready w) : Willing w := ⟨h.state, h.buffer, h.alive, h.reliable⟩

/-- C44, whatever the source and the sink do: when `copy_text` ends, a beginning of the text that the reads have
delivered has been sent; if it returns `Ok(n)`, all of it, and `n` is its length in bytes. -/
theorem c44_copy_text_safe (len fuel : Nat) (t : TextInput) (src : List Event) (w : Writer) (hb : w.buffer = []) (res : CopyResult)
    (h : copyText ucd15 len fuel t src w 0 = some res) :
    ∃ k, let T := delivered (readMany ucd15 (List.replicate k len) t src)
      (∃ p, res.writer.sink.sent = w.sink.sent ++ p ∧ p <+: wire w.crlf T) ∧
      ∀ n, res.ret = .ok n → n = (encode T).length ∧ res.writer.sink.sent = w.sink.sent ++ wire w.crlf T := by
  obtain ⟨j, -, ⟨p, h1, h2, h3⟩, h4⟩ := copy_any len fuel t src w 0 res hb h
  refine ⟨j, ⟨p, h1, h2⟩, fun n hn => ⟨?_, ?_⟩⟩
  · rw [h4 n hn, Nat.zero_add]
  · rw [h1, h3 n hn]; rfl

/-- C44, the same for `copy_text_using_status`. -/
theorem c44_copy_using_status_safe (len fuel : Nat) (t : TextInput) (src : List Event) (w : Writer) (hb : w.buffer = []) (res : CopyResult)
    (h : copyTextUsingStatus ucd15 len fuel t src w 0 = some res) :
    ∃ k, let T := delivered (readMany ucd15 (List.replicate k len) t src)
      (∃ p, res.writer.sink.sent = w.sink.sent ++ p ∧ p <+: wire w.crlf T) ∧
      ∀ n, res.ret = .ok n → n = (encode T).length ∧ res.writer.sink.sent = w.sink.sent ++ wire w.crlf T := by
  obtain ⟨j, -, ⟨p, h1, h2, h3⟩, h4⟩ := copyStatus_any len fuel t src w 0 res hb h
  refine ⟨j, ⟨p, h1, h2⟩, fun n hn => ⟨?_, ?_⟩⟩
  · rw [h4 n hn, Nat.zero_add]
  · rw [h1, h3 n hn]; rfl

theorem constant_reach (nel lsps : Bool) (src : List Event) (len : Nat) (hl : normalizationBufferSize ≤ len) :
    ∃ k r, (readMany ucd15 (List.replicate k len) (.new nel lsps) src).getLast? = some r ∧ ∃ n, r.ret = .ok n .end_ := by
  obtain ⟨k, r, h⟩ := reach textLaws15 (ctl_new (U := ucd15) nel lsps) (fun _ => len) (fun _ => hl) (.new nel lsps) src [] [] 1 0 (Rel.init nel lsps) (by simp)
  refine ⟨k, r, ?_⟩
  have : (List.range' 0 k).map (fun _ => len) = List.replicate k len := by simp [List.map_const']
  rwa [this] at h

/-- C44: `copy_text` from a fresh reader, on a source that comes to an end without failing, to a writer whose sink works:
it returns, the sink has received exactly the text that reading the source delivers, with whatever buffers it is read, and
the returned number is its length in bytes. -/
theorem c44_copy_text (nel lsps : Bool) (src : List Event) (hsrc : Ending src) (len : Nat) (hl : normalizationBufferSize ≤ len) (w : Writer) (hw : Ready w)
    (lens : List Nat) (hc : Completes ucd15 nel lsps src lens) :
    ∃ res, (∃ k, ∀ fuel, k ≤ fuel → copyText ucd15 len fuel (.new nel lsps) src w 0 = some res) ∧
      res.ret = .ok (encode (output ucd15 nel lsps src lens)).length ∧
      res.writer.sink.sent = w.sink.sent ++ wire w.crlf (output ucd15 nel lsps src lens) ∧
      (w.state = .ground .newline → res.writer.state = .ground .newline) := by
  obtain ⟨k, r, hr, n, hn⟩ := constant_reach nel lsps src len hl
  have hnext := read_after_end textLaws15 hsrc hr hn hl
  have hrun : readMany ucd15 (List.replicate (k + 1) len) (.new nel lsps) src =
      readMany ucd15 (List.replicate k len) (.new nel lsps) src ++ [readWithStatus ucd15 len r.input r.src] := by
    rw [List.replicate_succ', readMany_append, show finalState _ _ _ = (r.input, r.src) by simp [finalState, hr]]; rfl
  have htame : Tame false src := fun e he => ⟨hsrc.no_err e he, by simp⟩
  obtain ⟨-, -, -, -, hnp⟩ := run_rel textLaws15 (List.replicate (k + 1) len) (.new nel lsps) src [] [] (Rel.init nel lsps)
  have hok := readMany_tame (U := ucd15) hl (k + 1) (.new nel lsps) src htame (by simp) hnp
  obtain ⟨j, r', w', h1, h2, h3, h4⟩ := copy_reads textLaws15 len (k + 1) (.new nel lsps) src w 0 hw.willing
    (fun r hr => by obtain ⟨st, h, -⟩ := hok r hr; exact ⟨st, h⟩)
    ⟨_, by rw [hrun]; simp, hnext⟩
    (fun _ j _ => by
      rw [run_delivered textLaws15 nel lsps hsrc.no_err]
      exact (run_valid textLaws15 nel lsps src _).2)
  have hT : delivered (readMany ucd15 (List.replicate j len) (.new nel lsps) src) = output ucd15 nel lsps src lens :=
    c16_buffer_independent nel lsps src hsrc _ _ ⟨r', 0, h1, h2⟩ hc
  have hend := (run_end textLaws15 h1 h2).1
  rw [← run_delivered textLaws15 nel lsps hsrc.no_err] at hend
  rw [hT] at h3 h4 hend
  refine ⟨_, ⟨k + 1, fun fuel hf => copyText_mono h3 fuel hf⟩, by rw [Nat.zero_add], ?_, ?_⟩
  · show w'.sink.sent = _
    rw [h4.sent]; rfl
  · intro hs
    exact h4.newline (hend.elim (fun h => .inr ⟨h, hs⟩) .inl)

/-- C44 (what holds for `copy_text_using_status`): the same, for sources that do not report a push. -/
theorem c44_copy_using_status_partial (nel lsps : Bool) (src : List Event) (hsrc : Ending src) (hq : ∀ s, .data s .push ∉ src) (len : Nat)
    (hl : normalizationBufferSize ≤ len) (w : Writer) (hw : Ready w) (lens : List Nat) (hc : Completes ucd15 nel lsps src lens) :
    ∃ res, (∃ k, ∀ fuel, k ≤ fuel → copyTextUsingStatus ucd15 len fuel (.new nel lsps) src w 0 = some res) ∧
      res.ret = .ok (encode (output ucd15 nel lsps src lens)).length ∧
      res.writer.sink.sent = w.sink.sent ++ wire w.crlf (output ucd15 nel lsps src lens) ∧
      (w.state = .ground .newline → res.writer.state = .ground .newline) := by
  obtain ⟨k, r, hr, n, hn⟩ := constant_reach nel lsps src len hl
  have htame : Tame true src := fun e he => ⟨hsrc.no_err e he, fun _ s hs => hq s (hs ▸ he)⟩
  obtain ⟨-, -, -, -, hnp⟩ := run_rel textLaws15 (List.replicate k len) (.new nel lsps) src [] [] (Rel.init nel lsps)
  have hok := readMany_tame (U := ucd15) hl k (.new nel lsps) src htame (by simp [TextInput.new]) hnp
  obtain ⟨j, r', m, w', h1, h2, h3, h4⟩ := copyStatus_reads textLaws15 len k (.new nel lsps) src w 0 hw.willing
    (fun r hr => by obtain ⟨st, h, h'⟩ := hok r hr; exact ⟨st, h, h' rfl⟩)
    ⟨r, List.mem_of_getLast? hr, n, hn⟩
    (fun _ j _ => by
      rw [run_delivered textLaws15 nel lsps hsrc.no_err]
      exact (run_valid textLaws15 nel lsps src _).2)
  have hT : delivered (readMany ucd15 (List.replicate j len) (.new nel lsps) src) = output ucd15 nel lsps src lens :=
    c16_buffer_independent nel lsps src hsrc _ _ ⟨r', m, h1, h2⟩ hc
  have hend := (run_end textLaws15 h1 h2).1
  rw [← run_delivered textLaws15 nel lsps hsrc.no_err] at hend
  rw [hT] at h3 h4 hend
  refine ⟨_, ⟨k, fun fuel hf => copyStatus_mono h3 fuel hf⟩, by rw [Nat.zero_add], ?_, ?_⟩
  · show w'.sink.sent = _
    rw [h4.sent]; rfl
  · intro hs
    exact h4.newline (hend.elim (fun h => .inr ⟨h, hs⟩) .inl)

/-- A source with a push in the middle. -/
def pushSource : List Event := [.data ['a', '\n', '́'] .push, .data ['b'] .end_]

example : Ready (.newCrlf goodSink) ∧ Ending pushSource ∧ Completes ucd15 false false pushSource [136, 136, 136] :=
  ⟨⟨⟨_, rfl⟩, rfl, rfl, rfl⟩, ⟨[.data ['a', '\n', '́'] .push], ['b'], rfl, fun e he => ⟨_, _, List.mem_singleton.1 he, by simp⟩⟩, completes_of (by decide +kernel)⟩

example : (copyText ucd15 4096 8 (.new false false) [.data ['a', '\r'] .active, .err, .data ['b'] .end_] (.newCrlf goodSink) 0).isSome = true := by
  decide +kernel

/-- C44 fails for `copy_text_using_status` when the source reports a push: the writer is flushed and then does not accept what
the reader still holds.  `copy_text` copies the same source. -/
theorem c44_refuted_using_status :
    (copyText ucd15 4096 8 (.new false false) pushSource (.new goodSink) 0).map (fun r => (r.ret, r.writer.sink.sent)) =
      some (.ok 6, ['a', '\n', '́', 'b', '\n']) ∧
    (copyTextUsingStatus ucd15 4096 8 (.new false false) pushSource (.new goodSink) 0).map (fun r => (r.ret, r.writer.sink.sent)) =
      some (.writeError, ['a', '\n']) := by
  constructor <;> decide +kernel

end Verif
