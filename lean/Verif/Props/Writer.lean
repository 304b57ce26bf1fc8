import Verif.Props.Reader
import Verif.WriterReader

/-!
# The writer properties C30 to C40, C49, C52, C55

`run ucd15 w ops` makes the calls `ops` one after the other, whatever each returns; `w` is a writer just made by one of
the constructors (`Fresh`) over any sink; the sink's script says which of its own operations fail, and after how many
scalars.  `Op.Ok` says that the argument of a `write_text` is a `TextSubstr`, as its type demands.
-/

namespace Verif
open Ucd Spec

/-- Used in examples: write "a\n", flush, write the bytes of "é", write the text "\n", close. -/
def demoOps : List Op := [.str ['a', '\n'], .flush, .bytes (encode ['e', '́'] ++ [0xff]), .text ['\n'], .close]

theorem demoOps_ok : ∀ op ∈ demoOps, op.Strict ucd15 := by
  intro op h
  simp only [demoOps, List.mem_cons, List.not_mem_nil, or_false] at h
  rcases h with rfl | rfl | rfl | rfl | rfl
  · trivial
  · trivial
  · trivial
  · exact ⟨by decide +kernel, by decide⟩
  · trivial

/-- An empty stream that never fails. -/
def goodSink : Sink := { sent := [], dead := false, script := [] }

example : (run ucd15 (.new goodSink) demoOps).sink.sent = ['a', '\n', 'é', '\n'] ∧
    results ucd15 (.new goodSink) demoOps = [.ok, .ok, .ok, .ok, .ok] := by decide +kernel

/-! ## C30 -/

/-- C30: every scalar that reaches the sink is allowed by Basic Text (`checkChar` accepts it and it is not U+1B), or is
the U+D of CRLF mode, or the U+1B of color mode; `T` is everything sent since construction. -/
theorem c30_sink_scalars (w : Writer) (hw : Fresh w) (ops : List Op) (ho : ∀ op ∈ ops, op.Ok ucd15) :
    ∃ T, (run ucd15 w ops).sink.sent = w.sink.sent ++ T ∧
      ∀ c ∈ T, (checkChar c = none ∧ c ≠ ESC) ∨ (w.crlf = true ∧ c = '\r') ∨ (w.ansi = true ∧ c = ESC) := by
  obtain ⟨T, x, h1, h2⟩ := (safe_run textLaws15 ho hw.safe).pre
  have hm := run_mode textLaws15 (w := w) ho
  rw [hm.1, hm.2] at h2
  refine ⟨T, h1, fun c hc => ?_⟩
  have := items_chars h2 c (by simp [hc])
  rwa [okChar_check] at this

/-- C30: a U+D is only ever the first half of U+D U+A; if the sink does not fail, the U+A has been sent too. -/
theorem c30_cr_before_lf (w : Writer) (hw : Fresh w) (ops : List Op) (ho : ∀ op ∈ ops, op.Ok ucd15) :
    ∃ T x, (run ucd15 w ops).sink.sent = w.sink.sent ++ T ∧ (w.sink.script = [] → x = []) ∧
      ∀ a b, T ++ x = a ++ '\r' :: b → ∃ c, b = '\n' :: c := by
  by_cases hs : w.sink.script = []
  · obtain ⟨T, h1, h2⟩ := whole_run textLaws15 ho hw.safe hs ⟨[], by simp, .nil⟩
    exact ⟨T, [], h1, fun _ => rfl, by rw [List.append_nil]; exact items_cr h2⟩
  · obtain ⟨T, x, h1, h2⟩ := (safe_run textLaws15 ho hw.safe).pre
    exact ⟨T, x, h1, fun h => absurd h hs, items_cr h2⟩

example : Fresh (.newCrlf { goodSink with script := [.ok, .fail 1] }) ∧
    (run ucd15 (.newCrlf { goodSink with script := [.ok, .fail 1] }) [.str ['a', '\n'], .str ['\n', 'b'], .str ['c']]).sink.sent = ['a', '\r', '\n', '\r'] :=
  ⟨fresh_crlf _, by decide +kernel⟩

/-! ## C31 -/

/-- C31, per call: what one call sends is stream-safe NFC. -/
theorem c31_write_nfc (w : Writer) (hw : Fresh w) (ops : List Op) (ho : ∀ op ∈ ops, op.Ok ucd15) (op : Op) (hop : op.Ok ucd15) :
    ∃ d, (run ucd15 w (ops ++ [op])).sink.sent = (run ucd15 w ops).sink.sent ++ d ∧ ucd15.isNfcStreamSafe d = true := by
  have hm := run_mode textLaws15 (w := w) ho
  obtain ⟨d, h1, h2⟩ := step_nss textLaws15 hop (safe_run textLaws15 ho hw.safe) (by rw [hm.1, hm.2]; exact hw.mode)
  refine ⟨d, ?_, h2⟩
  rw [run_append]
  exact h1

/-- C31, whole stream (what holds): without color, if what is passed to each write call begins with a scalar that may start
Basic Text and is not a conjoining vowel or final jamo, then the whole stream is stream-safe NFC. -/
theorem c31_stream_nfc_partial (w : Writer) (hw : Fresh w) (ha : w.ansi = false) (ops : List Op) (ho : ∀ op ∈ ops, op.Ok ucd15)
    (hh : ∀ op ∈ ops, ∀ c ∈ op.src.head?, isStart ucd15 c = true ∧ isJamoVT c = false) :
    ∃ T, (run ucd15 w ops).sink.sent = w.sink.sent ++ T ∧ ucd15.isNfcStreamSafe T = true :=
  nss_run textLaws15 startLaws15 ho hh hw.safe ha (by simp) nss_nil

example : ∀ op ∈ demoOps, ∀ c ∈ op.src.head?, isStart ucd15 c = true ∧ isJamoVT c = false := by decide +kernel

/-- C31 fails for the whole stream: each write is normalized on its own. -/
theorem c31_refuted : results ucd15 (.new goodSink) [.str ['A'], .str ['̊', '\n'], .close] = [.ok, .ok, .ok] ∧
    ucd15.isNfcStreamSafe (run ucd15 (.new goodSink) [.str ['A'], .str ['̊', '\n'], .close]).sink.sent = false := by decide +kernel

/-- C31 fails for the whole stream even if every string written is valid Basic Text: conjoining jamo compose. -/
theorem c31_refuted_by_valid_text : isBasicText ucd15 ['ᄀ'] = true ∧ isBasicText ucd15 ['ᅡ'] = true ∧
    results ucd15 (.new goodSink) [.text ['ᄀ'], .text ['ᅡ']] = [.ok, .ok] ∧
    ucd15.isNfcStreamSafe (run ucd15 (.new goodSink) [.text ['ᄀ'], .text ['ᅡ']]).sink.sent = false := by decide +kernel

/-! ## C32 -/

/-- C32 (what holds): without color, if no write is empty, the first scalar sent may start Basic Text. -/
theorem c32_stream_start_partial (w : Writer) (hw : Fresh w) (ha : w.ansi = false) (ops : List Op) (ho : ∀ op ∈ ops, op.Ok ucd15)
    (hne : ∀ op ∈ ops, op.isWrite = true → op.src ≠ []) :
    ∃ T, (run ucd15 w ops).sink.sent = w.sink.sent ++ T ∧ ∀ c ∈ T.head?, isStart ucd15 c = true :=
  start_run textLaws15 ho hne hw.safe ha hw.expect

/-- C32 (what holds): the same for the first scalar sent after a flush that succeeded, whatever came before the flush. -/
theorem c32_after_flush_partial (w : Writer) (hw : Fresh w) (ha : w.ansi = false) (ops ops' : List Op) (ho : ∀ op ∈ ops, op.Ok ucd15)
    (ho' : ∀ op ∈ ops', op.Ok ucd15) (hf : (step ucd15 (run ucd15 w ops) .flush).2 = .ok)
    (hne : ∀ op ∈ ops', op.isWrite = true → op.src ≠ []) :
    ∃ T, (run ucd15 w (ops ++ .flush :: ops')).sink.sent = (run ucd15 w ops).sink.sent ++ T ∧ ∀ c ∈ T.head?, isStart ucd15 c = true := by
  have hs := safe_run textLaws15 ho hw.safe
  have hm := run_mode textLaws15 (w := w) ho
  have hs' := safe_step (op := .flush) textLaws15 trivial hs
  have hm' := step_mode (op := .flush) textLaws15 trivial (run ucd15 w ops)
  have hflush : (flush (run ucd15 w ops)).1.expectStarter = true ∧ (flush (run ucd15 w ops)).1.sink.sent = (run ucd15 w ops).sink.sent := by
    change (flush (run ucd15 w ops)).2 = .ok at hf
    rcases flush_cases (run ucd15 w ops) with ⟨h, -⟩ | ⟨h, -⟩ | ⟨-, h⟩ <;> rw [h] at hf ⊢
    · simp at hf
    · simp at hf
    · exact ⟨rfl, (sink_flush_sent _).1⟩
  obtain ⟨T, h1, h2⟩ := start_run textLaws15 ho' hne hs' (by rw [hm'.2, hm.2]; exact ha) hflush.1
  refine ⟨T, ?_, h2⟩
  rw [run_append]
  show (run ucd15 (step ucd15 (run ucd15 w ops) .flush).1 ops').sink.sent = _
  rw [h1]
  congr 1
  exact hflush.2

example : (∀ op ∈ demoOps, op.isWrite = true → op.src ≠ []) ∧ (step ucd15 (run ucd15 (.new goodSink) [.str ['a', '\n']]) .flush).2 = .ok := by
  decide +kernel

/-- C32 for a single call, in any mode and whatever is written: the call after construction, or after a successful
flush, sends nothing or begins with a scalar that may start Basic Text. -/
theorem c32_next_call (w : Writer) (hw : w.expectStarter = true) (op : Op) (ho : op.Ok ucd15) :
    ∃ d, (step ucd15 w op).1.sink.sent = w.sink.sent ++ d ∧ ∀ c ∈ d.head?, isStart ucd15 c = true := by
  cases h : op.isWrite with
  | true =>
    rw [step_write h]
    cases hl : load ucd15 w op with
    | mk p o =>
      cases o with
      | ok =>
        have hsame := (load_ok textLaws15 ho hl).1
        obtain ⟨d, h1, h2, -⟩ := writeBuffer_start (U := ucd15) p (by rw [hsame.expect]; exact hw)
        exact ⟨d, by unfold Delta at h1; rw [h1, hsame.sink], h2⟩
      | err => exact ⟨[], by simp [(load_not_ok textLaws15 hl (by simp)).2.sink, Sink.abandon], by simp⟩
      | panic => exact absurd (load_not_ok textLaws15 hl (by simp)).1 (by simp)
  | false =>
    obtain ⟨d, hd⟩ := step_delta textLaws15 ho w
    refine ⟨[], ?_, by simp⟩
    cases op with
    | flush =>
      show (flush w).1.sink.sent = _
      rcases flush_cases w with ⟨h, -⟩ | ⟨h, -⟩ | ⟨-, h⟩ <;> rw [h]
      · simp [Writer.fail, Writer.reset, Sink.abandon]
      · simp
      · simp [(sink_flush_sent w.sink).1]
    | close =>
      show (close w).1.sink.sent = _
      rcases close_cases w with ⟨h, -⟩ | ⟨-, h⟩ <;> rw [h]
      · simp [Writer.fail, Writer.reset, Sink.abandon]
      · simp [Sink.close, (sink_flush_sent w.sink).1]
    | abandon => simp [step, abandon, Sink.abandon, Writer.reset]
    | _ => simp [Op.isWrite] at h

/-- C32 fails: an empty write uses up the check. -/
theorem c32_refuted : results ucd15 (.new goodSink) [.str [], .str ['́', '\n'], .close] = [.ok, .ok, .ok] ∧
    (run ucd15 (.new goodSink) [.str [], .str ['́', '\n'], .close]).sink.sent = ['́', '\n'] ∧ isStart ucd15 '́' = false := by decide +kernel

/-- C32 fails after a flush in the same way. -/
theorem c32_refuted_after_flush : results ucd15 (.new goodSink) [.str ['a'], .flush, .str [], .str ['́', '\n'], .close] = [.ok, .ok, .ok, .ok, .ok] := by
  decide +kernel

/-! ## C33 -/

/-- C33 (what holds): if no `write_text` was given an empty text, then when close succeeds the stream is empty or ends
with U+A. -/
theorem c33_closed_newline_partial (w : Writer) (hw : Fresh w) (ops : List Op) (ho : ∀ op ∈ ops, op.Strict ucd15)
    (hc : (step ucd15 (run ucd15 w ops) .close).2 = .ok) :
    ∃ T, (run ucd15 w (ops ++ [.close])).sink.sent = w.sink.sent ++ T ∧ (T = [] ∨ T.getLast? = some '\n') := by
  have ht := tracked_run textLaws15 ho hw.tracked
  cases hd : (run ucd15 w ops).sink.dead with
  | true =>
    have := (dead_step textLaws15 (w := run ucd15 w ops) .close hd).2.2 (by simp)
    rw [hc] at this
    simp at this
  | false =>
    obtain ⟨-, T, h1, h2⟩ := ht hd
    refine ⟨T, ?_, ?_⟩
    · rw [run_append]
      show (close (run ucd15 w ops)).1.sink.sent = _
      rw [← h1]
      rcases close_cases (run ucd15 w ops) with ⟨h, -⟩ | ⟨-, h⟩ <;> rw [h]
      · rfl
      · exact (sink_flush_sent _).1
    · change (close (run ucd15 w ops)).2 = .ok at hc
      rcases close_cases (run ucd15 w ops) with ⟨h, -⟩ | ⟨hst, h⟩
      · rw [h] at hc; simp at hc
      · exact groundAfter_newline (h2 _ hst).symm

example : (step ucd15 (run ucd15 (.newCrlf goodSink) [.str ['a'], .text ['\n']]) .close).2 = .ok := by decide +kernel

/-- C33, converse: closing fails if the text sent does not end with U+A. -/
theorem c33_close_fails (w : Writer) (hw : Fresh w) (ops : List Op) (ho : ∀ op ∈ ops, op.Strict ucd15) (T : List Char)
    (hT : (run ucd15 w ops).sink.sent = w.sink.sent ++ T) (h1 : T ≠ []) (h2 : T.getLast? ≠ some '\n') :
    (step ucd15 (run ucd15 w ops) .close).2 = .err := by
  have hnp := step_no_panic textLaws15 (run ucd15 w ops) .close
  cases h : (step ucd15 (run ucd15 w ops) .close).2 with
  | err => rfl
  | panic => exact absurd h hnp
  | ok =>
    exfalso
    obtain ⟨T', h3, h4⟩ := c33_closed_newline_partial w hw ops ho h
    have : (run ucd15 w (ops ++ [.close])).sink.sent = (run ucd15 w ops).sink.sent := by
      rw [run_append]
      show (close (run ucd15 w ops)).1.sink.sent = _
      rcases close_cases (run ucd15 w ops) with ⟨h, -⟩ | ⟨-, h⟩ <;> rw [h]
      · rfl
      · exact (sink_flush_sent _).1
    rw [this, hT] at h3
    have h3 := List.append_cancel_left h3
    subst h3
    rcases h4 with h4 | h4
    · exact h1 h4
    · exact h2 h4

/-- C33 fails: writing an empty text makes the writer believe it is at the start of a line. -/
theorem c33_refuted : results ucd15 (.new goodSink) [.str ['a'], .text [], .close] = [.ok, .ok, .ok] ∧
    (run ucd15 (.new goodSink) [.str ['a'], .text [], .close]).sink.sent = ['a'] ∧ isBasicTextSubstr ucd15 [] = true := by decide +kernel

/-! ## C34 -/

/-- C34: after a failed write nothing more reaches the sink, and every later write, flush or close fails. -/
theorem c34_failed_write_final (w : Writer) (op : Op) (hw : op.isWrite = true) (hf : (step ucd15 w op).2 = .err) (ops : List Op) :
    (run ucd15 (step ucd15 w op).1 ops).sink.sent = (step ucd15 w op).1.sink.sent ∧
    (run ucd15 (step ucd15 w op).1 ops).sink.dead = true ∧
    ∀ op', op' ≠ .abandon → (step ucd15 (run ucd15 (step ucd15 w op).1 ops) op').2 = .err := by
  have hd := (failed_dead textLaws15 hf (by rintro rfl; simp [Op.isWrite] at hw)).1
  have hr := dead_run textLaws15 (ops := ops) hd
  exact ⟨hr.1, hr.2, fun op' h => (dead_step textLaws15 op' hr.2).2.2 h⟩

/-- C34: a write that fails because of its text, not the sink, has sent nothing. -/
theorem c34_rejected_sends_nothing (w : Writer) (op : Op) (ho : op.Ok ucd15) (hw : op.isWrite = true) (hs : w.sink.script = [])
    (hf : (step ucd15 w op).2 = .err) : (step ucd15 w op).1.sink.sent = w.sink.sent := by
  rcases write_cases textLaws15 hw w with ⟨p, w', hl, hst, hS⟩ | ⟨p, w', hl, hst, hB⟩ | ⟨w', hl, hst, hF⟩ <;> rw [hst] at hf ⊢
  · simp at hf
  · obtain ⟨q, x, -, h2, -, h4⟩ := hB.sent
    have hsame := (load_ok textLaws15 ho hl).1.sink
    rw [hsame] at h2 h4
    rw [h2, h4 hs]; simp
  · rw [hF.sink]; rfl

example : (step ucd15 (run ucd15 (.new goodSink) [.str ['a']]) (.str ['b', '\x00', 'c'])).2 = .err := by decide +kernel
example : (step ucd15 (.new { goodSink with script := [.fail 1] }) (.text ['b', 'c'])).2 = .err := by decide +kernel

/-! ## C35 -/

/-- C35: no call panics, whatever state the writer is in. -/
theorem c35_no_panic (w : Writer) (op : Op) : (step ucd15 w op).2 ≠ .panic := step_no_panic textLaws15 w op

/-- C35 (what holds): after a failed write or close, dropping the writer does not panic. -/
theorem c35_drop_after_failure_partial (w : Writer) (op : Op) (hop : op ≠ .flush) (hf : (step ucd15 w op).2 = .err) :
    dropPanics (step ucd15 w op).1 = false := by
  simp [dropPanics, (failed_dead textLaws15 hf hop).2]

/-- C35: after a successful close, and after abandoning, dropping does not panic. -/
theorem c35_drop_after_close (w : Writer) (hc : (step ucd15 w .close).2 = .ok) :
    dropPanics (step ucd15 w .close).1 = false ∧ dropPanics (step ucd15 w .abandon).1 = false := by
  refine ⟨?_, rfl⟩
  change (close w).2 = .ok at hc
  show dropPanics (close w).1 = false
  rcases close_cases w with ⟨h, -⟩ | ⟨hst, h⟩ <;> rw [h] at hc ⊢
  · simp at hc
  · simp [dropPanics, hst]

/-- C35 (what holds): after a flush refused because of a joiner or prepend scalar, dropping does not panic. -/
theorem c35_drop_after_flush_partial (w : Writer) (hs : w.state = .ground .zwjOrPrepend) :
    (step ucd15 w .flush).2 = .err ∧ dropPanics (step ucd15 w .flush).1 = false := by
  show (flush w).2 = .err ∧ dropPanics (flush w).1 = false
  rcases flush_cases w with ⟨h, -⟩ | ⟨-, h⟩ | ⟨⟨g, h, h'⟩, -⟩
  · rw [h]; exact ⟨rfl, rfl⟩
  · rcases h with h | h <;> rw [h] at hs <;> simp at hs
  · rw [h] at hs; simp at hs; exact absurd hs h'

example : (run ucd15 (.new goodSink) [.str ['a', '‍']]).state = .ground .zwjOrPrepend := by decide +kernel

/-- C35 fails: a flush in the middle of a color sequence reports an error and dropping the writer then panics. -/
theorem c35_refuted_color : results ucd15 (.newAnsi true goodSink) [.str [ESC, '['], .flush] = [.ok, .err] ∧
    dropPanics (run ucd15 (.newAnsi true goodSink) [.str [ESC, '['], .flush]) = true := by decide +kernel

/-- C35 fails: a flush that fails in the sink in the middle of a line reports an error and dropping the writer then panics. -/
theorem c35_refuted_sink : results ucd15 (.new { goodSink with script := [.ok, .fail 0] }) [.str ['a'], .flush] = [.ok, .err] ∧
    dropPanics (run ucd15 (.new { goodSink with script := [.ok, .fail 0] }) [.str ['a'], .flush]) = true := by decide +kernel

/-! ## C36 -/

/-- C36: every U+1B that reaches the sink begins ESC '[' (U+20..U+3F)* 'm'; `x` is the part a sink that failed half way
through a write has not received, so it is empty if the sink does not fail. -/
theorem c36_color_sequences (w : Writer) (hw : Fresh w) (ha : w.ansi = true) (ops : List Op) (ho : ∀ op ∈ ops, op.Ok ucd15) :
    ∃ T x, (run ucd15 w ops).sink.sent = w.sink.sent ++ T ∧ (w.sink.script = [] → x = []) ∧
      ∀ a b, T ++ x = a ++ ESC :: b → ∃ ps c, (∀ p ∈ ps, 0x20 ≤ p.toNat ∧ p.toNat ≤ 0x3f) ∧ b = '[' :: ps ++ 'm' :: c := by
  have conv : ∀ {T : List Char}, Items w.crlf w.ansi T → ∀ a b, T = a ++ ESC :: b →
      ∃ ps c, (∀ p ∈ ps, 0x20 ≤ p.toNat ∧ p.toNat ≤ 0x3f) ∧ b = '[' :: ps ++ 'm' :: c := by
    intro T h a b hT
    rw [ha] at h
    obtain ⟨ps, c, h1, h2⟩ := items_esc h a b hT
    exact ⟨ps, c, fun p hp => by simpa [between] using h1 p hp, h2⟩
  have hm := run_mode textLaws15 (w := w) ho
  by_cases hs : w.sink.script = []
  · obtain ⟨T, h1, h2⟩ := whole_run textLaws15 ho hw.safe hs ⟨[], by simp, .nil⟩
    exact ⟨T, [], h1, fun _ => rfl, by rw [List.append_nil]; exact conv h2⟩
  · obtain ⟨T, x, h1, h2⟩ := (safe_run textLaws15 ho hw.safe).pre
    rw [hm.1, hm.2] at h2
    exact ⟨T, x, h1, fun h => absurd h hs, conv h2⟩

/-- C36: without color no U+1B reaches the sink. -/
theorem c36_no_escape (w : Writer) (hw : Fresh w) (ha : w.ansi = false) (ops : List Op) (ho : ∀ op ∈ ops, op.Ok ucd15) :
    ∃ T, (run ucd15 w ops).sink.sent = w.sink.sent ++ T ∧ ESC ∉ T := by
  obtain ⟨T, h1, h2⟩ := c30_sink_scalars w hw ops ho
  refine ⟨T, h1, fun h => ?_⟩
  rcases h2 ESC h with h | ⟨-, h⟩ | ⟨h, -⟩
  · exact h.2 rfl
  · exact absurd h (by decide)
  · rw [ha] at h; simp at h

/-- A sequence split over three writes comes out whole. -/
example : results ucd15 (.newAnsi true goodSink) [.str ['a', ESC], .str ['[', '1'], .str [';', '2', 'm', '\n'], .close] = [.ok, .ok, .ok, .ok] ∧
    (run ucd15 (.newAnsi true goodSink) [.str ['a', ESC], .str ['[', '1'], .str [';', '2', 'm', '\n'], .close]).sink.sent =
      ['a', ESC, '[', '1', ';', '2', 'm', '\n'] := by decide +kernel

/-! ## C37 -/

/-- C37: on a sink that does not fail, CRLF mode sends the LF-mode text with each U+A replaced by U+D U+A, and every call
returns the same result. -/
theorem c37_crlf (k k' : Sink) (hd : k'.dead = k.dead) (hs : k.script = []) (hs' : k'.script = []) (ops : List Op) (ho : ∀ op ∈ ops, op.Ok ucd15) :
    results ucd15 (.new k) ops = results ucd15 (.newCrlf k') ops ∧
    ∃ T, (run ucd15 (.new k) ops).sink.sent = k.sent ++ T ∧
      (run ucd15 (.newCrlf k') ops).sink.sent = k'.sent ++ T.flatMap fun c => if c = '\n' then ['\r', '\n'] else [c] := by
  have h : CrlfRel k.sent k'.sent (.new k) (.newCrlf k') :=
    ⟨⟨[], by simp [Writer.new], by simp [Writer.newCrlf, Writer.new, toCrlf_nil]⟩, ⟨rfl, rfl⟩, ⟨rfl, rfl⟩, hd, ⟨hs, hs'⟩,
      fun _ => ⟨rfl, rfl, rfl, .newline, rfl, rfl⟩⟩
  obtain ⟨h1, h2⟩ := crlf_run textLaws15 ho h
  exact ⟨h1, h2.text⟩

example : (run ucd15 (.newCrlf goodSink) demoOps).sink.sent = ['a', '\r', '\n', 'é', '\r', '\n'] := by decide +kernel

/-! ## C38 -/

/-- A writer on which nothing has failed and which is not inside a color sequence. -/
structure Ready (w : Writer) : Prop where
  state : ∃ g, w.state = .ground g
  buffer : w.buffer = []
  alive : w.sink.dead = false
  reliable : w.sink.script = []

/-- Such writers are what any sequence of calls leads to while the sink is good and no color sequence is pending. -/
theorem ready_run (w : Writer) (hw : Fresh w) (hs : w.sink.script = []) (ops : List Op) (ho : ∀ op ∈ ops, op.Ok ucd15)
    (hd : (run ucd15 w ops).sink.dead = false) (ha : w.ansi = false) : Ready (run ucd15 w ops) := by
  have h := (safe_run textLaws15 ho hw.safe).live hd
  refine ⟨?_, h.1, hd, ?_⟩
  · exact seqOk_ground h.2.1 (by rw [(run_mode textLaws15 ho).2]; exact ha)
  · exact runs_script textLaws15 ho hs

/-- What the sink receives for the text `s` in each mode. -/
def wire (crlf : Bool) (s : List Char) : List Char := if crlf then s.flatMap fun c => if c = '\n' then ['\r', '\n'] else [c] else s

/-- C38: `write_str` of valid Basic Text without unassigned scalars sends exactly it, in the middle of a stream too. -/
theorem c38_write_str_exact (w : Writer) (hw : Ready w) (s : List Char) (hv : isBasicText ucd15 s = true)
    (ha : ∀ c ∈ s, isAssigned ucd15 c = true) :
    (step ucd15 w (.str s)).2 = .ok ∧ (step ucd15 w (.str s)).1.sink.sent = w.sink.sent ++ wire w.crlf s := by
  obtain ⟨g, hg⟩ := hw.state
  obtain ⟨h1, -, h3⟩ := text_iff.1 hv
  have hn : normChain ucd15 s = s := normChain_of_assigned textLaws15 (substr_iff.1 h3).2 ha
  rw [step_good (op := .str s) textLaws15 rfl hg hw.buffer hw.alive hw.reliable ⟨(substr_iff.1 h3).1, fun _ c hc => ?_⟩]
  · refine ⟨rfl, ?_⟩
    show _ ++ enc _ (normChain ucd15 s) = _
    rw [hn]; rfl
  · change (normChain ucd15 s).head? = some c at hc
    rw [hn] at hc
    exact h1 c hc

/-- C38: `write_text` of valid text sends exactly it, with unassigned scalars too. -/
theorem c38_write_text_exact (w : Writer) (hw : Ready w) (s : List Char) (hv : isBasicText ucd15 s = true) :
    (step ucd15 w (.text s)).2 = .ok ∧ (step ucd15 w (.text s)).1.sink.sent = w.sink.sent ++ wire w.crlf s := by
  obtain ⟨g, hg⟩ := hw.state
  obtain ⟨h1, -, h3⟩ := text_iff.1 hv
  rw [step_good (op := .text s) textLaws15 rfl hg hw.buffer hw.alive hw.reliable ⟨trivial, fun _ c hc => h1 c hc⟩]
  exact ⟨rfl, rfl⟩

/-- C38: `write_text` of a substring sends exactly it, unless a start is expected and it does not begin properly, in
which case it fails and sends nothing. -/
theorem c38_write_substr_exact (w : Writer) (hw : Ready w) (ha : w.ansi = false) (s : List Char) (_hv : isBasicTextSubstr ucd15 s = true) :
    if w.expectStarter = true ∧ s.head?.any (fun c => !isStart ucd15 c) = true then
      (step ucd15 w (.text s)).2 = .err ∧ (step ucd15 w (.text s)).1.sink.sent = w.sink.sent
    else (step ucd15 w (.text s)).2 = .ok ∧ (step ucd15 w (.text s)).1.sink.sent = w.sink.sent ++ wire w.crlf s := by
  obtain ⟨g, hg⟩ := hw.state
  split
  · rename_i h
    obtain ⟨h1, h2⟩ := h
    obtain ⟨e1, e2, -⟩ := step_bad (op := .text s) textLaws15 rfl hg ha hw.buffer (fun hgood => by
      cases hs : s.head? with
      | none => rw [hs] at h2; simp at h2
      | some c =>
        have := hgood.2 h1 c hs
        rw [hs] at h2
        simp [this] at h2)
    exact ⟨e1, by rw [e2]; rfl⟩
  · rename_i h
    rw [step_good (op := .text s) textLaws15 rfl hg hw.buffer hw.alive hw.reliable ⟨trivial, fun he c hc => ?_⟩]
    · exact ⟨rfl, rfl⟩
    · change s.head? = some c at hc
      cases hst : isStart ucd15 c with
      | true => rfl
      | false => exact absurd ⟨he, by simp [hc, hst]⟩ h

example : Ready (run ucd15 (.new goodSink) [.str ['a', '\n']]) := ready_run _ (fresh_new _) rfl _ (by simp [Op.Ok]) (by decide +kernel) rfl
example : isBasicText ucd15 ['é', '\n', 'b'] = true ∧ ∀ c ∈ ['é', '\n', 'b'], isAssigned ucd15 c = true := by decide +kernel

/-- C38: `write_str` of any string: accepted exactly if every scalar is allowed and, where a start is expected, the
normalized text begins properly; what is sent is the normalized text. -/
theorem c38_write_str_accepts (w : Writer) (hw : Ready w) (ha : w.ansi = false) (s : List Char) :
    ((step ucd15 w (.str s)).2 = .ok ↔ (∀ c ∈ s, checkChar c = none ∧ c ≠ ESC) ∧
      (w.expectStarter = true → ∀ c ∈ s.head?, isStart ucd15 c = true)) ∧
    ((step ucd15 w (.str s)).2 = .ok → (step ucd15 w (.str s)).1.sink.sent = w.sink.sent ++ wire w.crlf (normChain ucd15 s)) := by
  obtain ⟨g, hg⟩ := hw.state
  have hgood : Good ucd15 w.expectStarter (.str s) ↔ (∀ c ∈ s, checkChar c = none ∧ c ≠ ESC) ∧
      (w.expectStarter = true → ∀ c ∈ s.head?, isStart ucd15 c = true) := by
    have e1 : (∀ c ∈ s, okChar c = true) ↔ ∀ c ∈ s, checkChar c = none ∧ c ≠ ESC := by
      constructor <;> intro h c hc
      · exact okChar_check.1 (h c hc)
      · exact okChar_check.2 (h c hc)
    show (∀ c ∈ s, okChar c = true) ∧ _ ↔ _
    rw [e1]
    constructor
    · intro ⟨h1, h2⟩
      exact ⟨h1, fun he => head_normChain_conv textLaws15 startLaws15 (h2 he)⟩
    · intro ⟨h1, h2⟩
      exact ⟨h1, fun he => head_normChain textLaws15 (h2 he)⟩
  rw [← hgood]
  by_cases h : Good ucd15 w.expectStarter (.str s)
  · rw [step_good textLaws15 rfl hg hw.buffer hw.alive hw.reliable h]
    exact ⟨⟨fun _ => h, fun _ => rfl⟩, fun _ => rfl⟩
  · have hb := (step_bad textLaws15 rfl hg ha hw.buffer h).1
    rw [hb]
    exact ⟨⟨fun h' => absurd h' (by simp), fun h' => absurd h' h⟩, fun h' => absurd h' (by simp)⟩

/-! ## C39 -/

/-- C39: let `s` be the longest string whose encoding is a prefix of the bytes.  If it is not empty, or there are no
bytes, `write` does what `write_str s` does and the count is the length of the encoding; otherwise it fails. -/
theorem c39_byte_writes (w : Writer) (b r : Bytes) (s : List Char) (hs : b = encode s ++ r)
    (hmax : ∀ s' r', b = encode s' ++ r' → s'.length ≤ s.length) :
    (s ≠ [] ∨ b = [] → writeBytes ucd15 w b = ((writeStr ucd15 w s).1, (writeStr ucd15 w s).2, (encode s).length)) ∧
    (s = [] → b ≠ [] → (writeBytes ucd15 w b).2 = (.err, 0) ∧ (writeBytes ucd15 w b).1.sink = w.sink.abandon) := by
  have hd : decodePrefix b = (s, r) := by
    obtain ⟨t, ht⟩ := decodePrefix_maximal s r
    rw [← hs] at ht
    have hsp := decodePrefix_spec b
    have := hmax (decodePrefix b).1 (decodePrefix b).2 hsp.1.symm
    rw [ht, List.length_append] at this
    have htn : t = [] := List.length_eq_zero_iff.1 (by omega)
    rw [htn, List.append_nil] at ht
    have h2 := hsp.1
    rw [ht, hs] at h2
    have h2 := List.append_cancel_left h2
    rw [← hs] at h2
    rw [← ht, ← h2]
  constructor
  · intro h
    unfold writeBytes
    rw [hd]
    simp only
    by_cases hr : r = []
    · rw [if_pos hr, hs, hr, List.append_nil]
    · rw [if_neg hr, if_pos]
      apply encode_ne.2
      rcases h with h | h
      · exact h
      · rw [h] at hs
        have := List.append_eq_nil_iff.1 hs.symm
        exact absurd this.2 hr
  · intro h hb
    unfold writeBytes
    rw [hd]
    simp only
    subst h
    rw [if_neg (by rintro rfl; exact hb hs), if_neg (by simp [encode])]
    exact ⟨rfl, rfl⟩

/-- The hypotheses of C39 can always be met. -/
theorem c39_longest_exists (b : Bytes) : ∃ s r, b = encode s ++ r ∧ ∀ s' r', b = encode s' ++ r' → s'.length ≤ s.length := by
  refine ⟨(decodePrefix b).1, (decodePrefix b).2, (decodePrefix_spec b).1.symm, ?_⟩
  rintro s' r' rfl
  obtain ⟨t, ht⟩ := decodePrefix_maximal s' r'
  rw [ht]; simp

/-- C39: the count is never more than was given, and a call that succeeds on non-empty bytes consumes at least one. -/
theorem c39_count (w : Writer) (b : Bytes) : (writeBytes ucd15 w b).2.2 ≤ b.length ∧
    (b ≠ [] → (writeBytes ucd15 w b).2.1 = .ok → 0 < (writeBytes ucd15 w b).2.2) := by
  obtain ⟨s, r, hs, hmax⟩ := c39_longest_exists b
  obtain ⟨h1, h2⟩ := c39_byte_writes w b r s hs hmax
  by_cases h : s ≠ [] ∨ b = []
  · rw [h1 h]
    refine ⟨by rw [hs]; simp, fun hb _ => ?_⟩
    rcases h with h | h
    · exact Nat.pos_of_ne_zero (encode_ne.2 h)
    · exact absurd h hb
  · have hs0 : s = [] := by
      apply Classical.byContradiction
      intro hn; exact h (Or.inl hn)
    have hb : b ≠ [] := fun hb => h (Or.inr hb)
    obtain ⟨h3, -⟩ := h2 hs0 hb
    rw [h3]
    exact ⟨by simp, fun _ h => absurd h (by simp)⟩

example : (writeBytes ucd15 (.new goodSink) [0x61, 0xc3]).2 = (.ok, 1) ∧ (writeBytes ucd15 (.new goodSink) [0xc3]).2 = (.err, 0) := by decide +kernel

/-! ## C40 -/

/-- C40: flush fails while a color sequence is incomplete, and while the last scalar sent may not end Basic Text. -/
theorem c40_flush_fails (w : Writer) (hw : Fresh w) (ops : List Op) (ho : ∀ op ∈ ops, op.Strict ucd15) (T : List Char)
    (hT : (run ucd15 w ops).sink.sent = w.sink.sent ++ T) (h : pend (run ucd15 w ops) ≠ [] ∨ ∃ c ∈ T.getLast?, isEnd c = false) :
    (step ucd15 (run ucd15 w ops) .flush).2 = .err := by
  have ht := tracked_run textLaws15 ho hw.tracked
  cases hd : (run ucd15 w ops).sink.dead with
  | true => exact (dead_step textLaws15 .flush hd).2.2 (by simp)
  | false =>
    obtain ⟨-, T', h1, h2⟩ := ht hd
    rw [hT] at h1
    have h1 := List.append_cancel_left h1
    subst h1
    show (flush (run ucd15 w ops)).2 = .err
    rcases flush_cases (run ucd15 w ops) with ⟨h', -⟩ | ⟨h', -⟩ | ⟨⟨g, h3, h4⟩, -⟩
    · rw [h']
    · rw [h']
    · exfalso
      rcases h with h | ⟨c, hc, he⟩
      · unfold pend at h; rw [h3] at h; exact h rfl
      · have := groundAfter_end (T := T) (by rw [← h2 g h3]; exact h4) c hc
        rw [he] at this; simp at this

/-- C40 (what holds): if no `write_text` was given an empty text, then when flush succeeds the text sent ends with a scalar
that may end Basic Text, and no color sequence is pending. -/
theorem c40_flush_ok_partial (w : Writer) (hw : Fresh w) (ops : List Op) (ho : ∀ op ∈ ops, op.Strict ucd15)
    (hf : (step ucd15 (run ucd15 w ops) .flush).2 = .ok) :
    ∃ T, (run ucd15 w ops).sink.sent = w.sink.sent ++ T ∧ (∀ c ∈ T.getLast?, isEnd c = true) ∧ pend (run ucd15 w ops) = [] := by
  have ht := tracked_run textLaws15 ho hw.tracked
  cases hd : (run ucd15 w ops).sink.dead with
  | true =>
    have := (dead_step textLaws15 (w := run ucd15 w ops) .flush hd).2.2 (by simp)
    rw [hf] at this; simp at this
  | false =>
    obtain ⟨-, T, h1, h2⟩ := ht hd
    change (flush (run ucd15 w ops)).2 = .ok at hf
    rcases flush_cases (run ucd15 w ops) with ⟨h', -⟩ | ⟨h', -⟩ | ⟨⟨g, h3, h4⟩, -⟩
    · rw [h'] at hf; simp at hf
    · rw [h'] at hf; simp at hf
    · exact ⟨T, h1, groundAfter_end (by rw [← h2 g h3]; exact h4), by unfold pend; rw [h3]⟩

example : (step ucd15 (run ucd15 (.new goodSink) [.str ['a', '‍']]) .flush).2 = .err ∧
    (step ucd15 (run ucd15 (.new goodSink) [.str ['a', '‍', 'b']]) .flush).2 = .ok ∧
    pend (run ucd15 (.newAnsi true goodSink) [.str ['a', ESC]]) ≠ [] := by decide +kernel

/-- C40 fails: an empty `write_text` after a joiner lets flush succeed. -/
theorem c40_refuted : results ucd15 (.new goodSink) [.str ['a', '‍'], .text [], .flush] = [.ok, .ok, .ok] ∧
    (run ucd15 (.new goodSink) [.str ['a', '‍'], .text [], .flush]).sink.sent = ['a', '‍'] ∧ isEnd '‍' = false := by decide +kernel

/-! ## C49 -/

/-- C49: if a fresh writer accepts `s` in one `write_str` and sends `T`, then a reader given `s` in one read delivers `T`
followed by what a stream needs at its end: nothing after U+A, U+A after a scalar that may end Basic Text, U+34F U+A
after any other. -/
theorem c49_writer_reader (k : Sink) (hd : k.dead = false) (hk : k.script = []) (nel lsps : Bool) (s T : List Char) (lens : List Nat)
    (hw : (step ucd15 (.new k) (.str s)).2 = .ok) (hT : (step ucd15 (.new k) (.str s)).1.sink.sent = k.sent ++ T)
    (hr : Completes ucd15 nel lsps (script [] s) lens) :
    output ucd15 nel lsps (script [] s) lens = T ++ endTail T := by
  obtain ⟨h1, h2⟩ := c38_write_str_accepts (.new k) ⟨⟨_, rfl⟩, rfl, hd, hk⟩ rfl s
  obtain ⟨h3, h4⟩ := h1.1 hw
  have h5 := h2 hw
  rw [hT] at h5
  have h5 : T = normChain ucd15 s := List.append_cancel_left h5
  have hok : ∀ c ∈ s, okChar c = true := fun c hc => okChar_check.2 (h3 c hc)
  rw [output_single textLaws15 hr, ok_dropBom hok, normChain_translate textLaws15 (h4 rfl) hok, h5]

/-- C49 for every split of the bytes, if `s` has no U+34F directly before an unassigned scalar. -/
theorem c49_writer_reader_split_partial (k : Sink) (hd : k.dead = false) (hk : k.script = []) (nel lsps : Bool) (T : List Char)
    (chunks : List (List Char)) (last : List Char) (lens : List Nat)
    (hn : Clear ucd15 nel lsps (chunks.flatten ++ last))
    (hw : (step ucd15 (.new k) (.str (chunks.flatten ++ last))).2 = .ok)
    (hT : (step ucd15 (.new k) (.str (chunks.flatten ++ last))).1.sink.sent = k.sent ++ T)
    (hr : Completes ucd15 nel lsps (script chunks last) lens) :
    output ucd15 nel lsps (script chunks last) lens = T ++ endTail T := by
  obtain ⟨n, hc⟩ := c15_reader_reaches_end nel lsps (script [] (chunks.flatten ++ last)) (fun _ => normalizationBufferSize) (fun _ => Nat.le_refl _)
  rw [← c49_writer_reader k hd hk nel lsps _ T _ hw hT hc]
  have hbom : (chunks.flatten ++ last).head? ≠ some BOM := by
    intro h
    have := ((c38_write_str_accepts (.new k) ⟨⟨_, rfl⟩, rfl, hd, hk⟩ rfl _).1.1 hw).1 BOM (List.mem_of_mem_head? h)
    exact absurd this.1 (by decide)
  exact c16_chunk_independent_partial nel lsps chunks [] last _ lens _ (by simp) (Or.inr hbom) (Or.inr (by simpa using hbom)) hn hr hc

example : (step ucd15 (.new goodSink) (.str ['e', '́', '‍'])).2 = .ok ∧
    output ucd15 false false (script [] ['e', '́', '‍']) [136] = ['é', '‍', CGJ, '\n'] := by decide +kernel

/-! ## C52 -/

/-- C52: a BOM-mode writer sends U+FEFF at construction and then exactly what a plain writer would send over the same sink,
with the same results; `w.sink.script` is what is left of the sink's script. -/
theorem c52_bom_writer (k : Sink) (w : Writer) (hw : Writer.newBom k = some w) (ops : List Op) :
    ∃ d, (run ucd15 w ops).sink.sent = k.sent ++ [BOM] ++ d ∧
      (run ucd15 (.new { k with script := w.sink.script }) ops).sink.sent = k.sent ++ d ∧
      results ucd15 w ops = results ucd15 (.new { k with script := w.sink.script }) ops := by
  have hd : k.dead = false ∧ w = .new { k with sent := k.sent ++ [BOM], script := w.sink.script } := by
    unfold Writer.newBom Sink.writeStr at hw
    cases hd : k.dead with
    | true => simp [hd] at hw
    | false =>
      rw [if_neg (by simp [hd])] at hw
      cases hs : k.script with
      | nil => simp [hs] at hw; exact ⟨rfl, by rw [← hw]; simp [Writer.new, hd]⟩
      | cons e r =>
        cases e with
        | ok => simp [hs] at hw; exact ⟨rfl, by rw [← hw]; simp [Writer.new, hd]⟩
        | fail n => simp [hs] at hw
  generalize w.sink.script = sc at hd ⊢
  obtain ⟨-, rfl⟩ := hd
  have h1 := run_shift (U := ucd15) (k.sent ++ [BOM]) ops (.new { k with sent := [], script := sc })
  have h2 := run_shift (U := ucd15) k.sent ops (.new { k with sent := [], script := sc })
  have e1 : Writer.shift (k.sent ++ [BOM]) (.new { k with sent := [], script := sc }) = .new { k with sent := k.sent ++ [BOM], script := sc } := by
    simp [Writer.shift, Writer.new]
  have e2 : Writer.shift k.sent (.new { k with sent := [], script := sc }) = .new { k with script := sc } := by
    simp [Writer.shift, Writer.new]
  rw [e1] at h1
  rw [e2] at h2
  exact ⟨_, by rw [h1.1]; rfl, by rw [h2.1]; rfl, by rw [h1.2, h2.2]⟩

/-- C52: a reader of what a BOM-mode writer sent delivers the same text as a reader of what a plain writer sent, for all
splits in which the first read is not empty, if no U+34F comes directly before an unassigned scalar. -/
theorem c52_bom_read_back_partial (k : Sink) (hk : k.sent = []) (w : Writer) (hw : Writer.newBom k = some w) (ops : List Op) (ho : ∀ op ∈ ops, op.Ok ucd15)
    (nel lsps : Bool) (chunks chunks' : List (List Char)) (last last' : List Char) (lens lens' : List Nat)
    (h1 : chunks.flatten ++ last = (run ucd15 w ops).sink.sent)
    (h2 : chunks'.flatten ++ last' = (run ucd15 (.new { k with script := w.sink.script }) ops).sink.sent)
    (hfirst : (chunks ++ [last]).head? ≠ some [])
    (hn : Clear ucd15 nel lsps (chunks'.flatten ++ last'))
    (h : Completes ucd15 nel lsps (script chunks last) lens) (h' : Completes ucd15 nel lsps (script chunks' last') lens') :
    output ucd15 nel lsps (script chunks last) lens = output ucd15 nel lsps (script chunks' last') lens' := by
  obtain ⟨d, e1, e2, -⟩ := c52_bom_writer k w hw ops
  obtain ⟨T, hT1, hT2⟩ := c30_sink_scalars (.new { k with script := w.sink.script }) (fresh_new _) ops ho
  rw [hk] at e1
  rw [e2] at hT1
  have hT1 : d = T := List.append_cancel_left hT1
  rw [show k.sent ++ d = d by simp [hk]] at e2
  rw [hT1] at e1 e2
  rw [e2] at h2
  refine c24_bom_dropped_partial nel lsps T chunks chunks' last last' lens lens' (by rw [h1, e1]; rfl) h2 ?_ hfirst (by rw [← h2]; exact hn) h h'
  intro hb
  rcases hT2 BOM (List.mem_of_mem_head? hb) with h | ⟨h, -⟩ | ⟨h, -⟩
  · exact absurd h.1 (by decide)
  · exact absurd h (by simp [Writer.new])
  · exact absurd h (by simp [Writer.new])

example : (Writer.newBom goodSink).isSome = true ∧ ((Writer.newBom goodSink).map fun w => (run ucd15 w [.str ['a', '\n']]).sink.sent) = some [BOM, 'a', '\n'] := by
  decide +kernel

/-! ## C55 -/

/-- What a plain writer has sent after calls that never pass an empty string and always begin at a boundary, once
closed, is valid Basic Text ending with U+A. -/
theorem c55_closed_stream_valid (k : Sink) (hk : k.sent = []) (ops : List Op) (ho : ∀ op ∈ ops, op.Strict ucd15)
    (hne : ∀ op ∈ ops, op.isWrite = true → op.src ≠ [])
    (hh : ∀ op ∈ ops, ∀ c ∈ op.src.head?, isStart ucd15 c = true ∧ isJamoVT c = false)
    (hc : (step ucd15 (run ucd15 (.new k) ops) .close).2 = .ok) :
    isBasicText ucd15 (run ucd15 (.new k) (ops ++ [.close])).sink.sent = true ∧
    ((run ucd15 (.new k) (ops ++ [.close])).sink.sent = [] ∨ (run ucd15 (.new k) (ops ++ [.close])).sink.sent.getLast? = some '\n') := by
  have hok : ∀ op ∈ ops, op.Ok ucd15 := fun op h => (ho op h).ok
  have hok' : ∀ op ∈ ops ++ [.close], op.Ok ucd15 := by
    intro op h
    rcases List.mem_append.1 h with h | h
    · exact hok op h
    · simp at h; subst h; trivial
  obtain ⟨T1, e1, p1⟩ := c33_closed_newline_partial (.new k) (fresh_new k) ops ho hc
  obtain ⟨T2, e2, p2⟩ := c30_sink_scalars (.new k) (fresh_new k) _ hok'
  obtain ⟨T3, e3, p3⟩ := c31_stream_nfc_partial (.new k) (fresh_new k) rfl (ops ++ [.close]) hok' (by
    intro op h
    rcases List.mem_append.1 h with h | h
    · exact hh op h
    · simp at h; subst h; simp [Op.src])
  obtain ⟨T4, e4, p4⟩ := c32_stream_start_partial (.new k) (fresh_new k) rfl (ops ++ [.close]) hok' (by
    intro op h
    rcases List.mem_append.1 h with h | h
    · exact hne op h
    · simp at h; subst h; simp [Op.isWrite])
  have hs : (Writer.new k).sink.sent = [] := hk
  rw [hs, List.nil_append] at e1 e2 e3 e4
  rw [← e1] at p1
  rw [← e2] at p2
  rw [← e3] at p3
  rw [← e4] at p4
  refine ⟨text_iff.2 ⟨p4, ?_, substr_iff.2 ⟨?_, p3⟩⟩, p1⟩
  · intro c hc
    rcases p1 with p1 | p1
    · rw [p1] at hc; simp at hc
    · rw [p1] at hc; simp at hc; subst hc; exact end_nl
  · intro c hc
    rcases p2 c hc with h | ⟨h, -⟩ | ⟨h, -⟩
    · exact okChar_check.2 h
    · exact absurd h (by simp [Writer.new])
    · exact absurd h (by simp [Writer.new])

/-- C55 for LF mode: the closed stream of such calls, with no unassigned scalar in it, is read back unchanged for every
split. -/
theorem c55_round_trip_lf (k : Sink) (hk : k.sent = []) (ops : List Op) (ho : ∀ op ∈ ops, op.Strict ucd15)
    (hne : ∀ op ∈ ops, op.isWrite = true → op.src ≠ [])
    (hh : ∀ op ∈ ops, ∀ c ∈ op.src.head?, isStart ucd15 c = true ∧ isJamoVT c = false)
    (hc : (step ucd15 (run ucd15 (.new k) ops) .close).2 = .ok)
    (ha : ∀ c ∈ (run ucd15 (.new k) (ops ++ [.close])).sink.sent, isAssigned ucd15 c = true)
    (nel lsps : Bool) (chunks : List (List Char)) (last : List Char) (lens : List Nat)
    (hsplit : chunks.flatten ++ last = (run ucd15 (.new k) (ops ++ [.close])).sink.sent)
    (h : Completes ucd15 nel lsps (script chunks last) lens) :
    output ucd15 nel lsps (script chunks last) lens = (run ucd15 (.new k) (ops ++ [.close])).sink.sent := by
  obtain ⟨h1, h2⟩ := c55_closed_stream_valid k hk ops ho hne hh hc
  rw [← hsplit] at h1 h2 ha ⊢
  exact c18_reader_identity nel lsps chunks last lens h1 ha h2 h

/-- C55 for CRLF mode: what the reader delivers is what the LF-mode writer would have sent. -/
theorem c55_round_trip_crlf (k : Sink) (hk : k.sent = []) (hs : k.script = []) (ops : List Op) (ho : ∀ op ∈ ops, op.Strict ucd15)
    (hne : ∀ op ∈ ops, op.isWrite = true → op.src ≠ [])
    (hh : ∀ op ∈ ops, ∀ c ∈ op.src.head?, isStart ucd15 c = true ∧ isJamoVT c = false)
    (hc : (step ucd15 (run ucd15 (.new k) ops) .close).2 = .ok)
    (ha : ∀ c ∈ (run ucd15 (.new k) (ops ++ [.close])).sink.sent, isAssigned ucd15 c = true)
    (nel lsps : Bool) (chunks : List (List Char)) (last : List Char) (lens : List Nat)
    (hsplit : chunks.flatten ++ last = (run ucd15 (.newCrlf k) (ops ++ [.close])).sink.sent)
    (h : Completes ucd15 nel lsps (script chunks last) lens) :
    output ucd15 nel lsps (script chunks last) lens = (run ucd15 (.new k) (ops ++ [.close])).sink.sent := by
  have hok' : ∀ op ∈ ops ++ [.close], op.Ok ucd15 := by
    intro op h
    rcases List.mem_append.1 h with h | h
    · exact (ho op h).ok
    · simp at h; subst h; trivial
  obtain ⟨-, T, e1, e2⟩ := c37_crlf k k rfl hs hs _ hok'
  rw [hk, List.nil_append] at e1 e2
  rw [e2] at hsplit
  change _ = toCrlf T at hsplit
  have hv := (c55_closed_stream_valid k hk ops ho hne hh hc).1
  rw [e1] at hv ha
  have hokT := (substr_iff.1 (text_iff.1 hv).2.2).1
  have hcr : '\r' ∉ T := fun h => absurd (hokT _ h) (by decide)
  have hmem : ∀ c ∈ chunks.flatten ++ last, c = '\r' ∨ c ∈ T := by
    intro c hc
    rw [hsplit] at hc
    simp only [toCrlf, List.mem_flatMap] at hc
    obtain ⟨d, hd, hc⟩ := hc
    split at hc
    · rename_i hdn
      simp at hc
      rcases hc with hc | hc
      · exact Or.inl hc
      · right; rw [hc, ← hdn]; exact hd
    · simp at hc; subst hc; exact Or.inr hd
  obtain ⟨n, hcomp⟩ := c15_reader_reaches_end nel lsps (script [] T) (fun _ => normalizationBufferSize) (fun _ => Nat.le_refl _)
  have hT : output ucd15 nel lsps (script [] T) _ = _ := c55_round_trip_lf k hk ops ho hne hh hc (by rw [e1]; exact ha) nel lsps [] T _ (by rw [e1]; simp) hcomp
  rw [← hT]
  have hbomT : BOM ∉ T := fun h => absurd (hokT _ h) (by decide)
  have hne1 : ∀ c, c ≠ '\r' → c ∉ T → c ∉ chunks.flatten ++ last := by
    intro c h1 h2 h3
    rcases hmem c h3 with h | h
    · exact h1 h
    · exact h2 h
  refine c22_newline_forms nel lsps chunks [] last T lens _ ?_ ?_ ?_ ?_ (clear_of textLaws15 (Or.inl ?_)) h hcomp
  · rw [hsplit, toLF_toCrlf hcr]; simp
  · exact hne1 _ (by decide) (fun h => absurd (hokT _ h) (by decide))
  · exact bomSafe_of_no_bom fun h => hne1 BOM (by decide) hbomT (List.mem_of_mem_head? h)
  · exact bomSafe_of_no_bom fun h => hbomT (List.mem_of_mem_head? (by simpa using h))
  · intro c hc
    rcases hmem c hc with rfl | h
    · decide +kernel
    · exact ha c h

/-- C55 for BOM mode, for every split in which the first read is not empty. -/
theorem c55_round_trip_bom_partial (k : Sink) (hk : k.sent = []) (w : Writer) (hw : Writer.newBom k = some w) (ops : List Op)
    (ho : ∀ op ∈ ops, op.Strict ucd15) (hne : ∀ op ∈ ops, op.isWrite = true → op.src ≠ [])
    (hh : ∀ op ∈ ops, ∀ c ∈ op.src.head?, isStart ucd15 c = true ∧ isJamoVT c = false)
    (hc : (step ucd15 (run ucd15 (.new { k with script := w.sink.script }) ops) .close).2 = .ok)
    (ha : ∀ c ∈ (run ucd15 (.new { k with script := w.sink.script }) (ops ++ [.close])).sink.sent, isAssigned ucd15 c = true)
    (nel lsps : Bool) (chunks : List (List Char)) (last : List Char) (lens : List Nat)
    (hsplit : chunks.flatten ++ last = (run ucd15 w (ops ++ [.close])).sink.sent) (hfirst : (chunks ++ [last]).head? ≠ some [])
    (h : Completes ucd15 nel lsps (script chunks last) lens) :
    output ucd15 nel lsps (script chunks last) lens = (run ucd15 (.new { k with script := w.sink.script }) (ops ++ [.close])).sink.sent := by
  have hok' : ∀ op ∈ ops ++ [.close], op.Ok ucd15 := by
    intro op h
    rcases List.mem_append.1 h with h | h
    · exact (ho op h).ok
    · simp at h; subst h; trivial
  obtain ⟨n, hcomp⟩ := c15_reader_reaches_end nel lsps (script [] (run ucd15 (.new { k with script := w.sink.script }) (ops ++ [.close])).sink.sent)
    (fun _ => normalizationBufferSize) (fun _ => Nat.le_refl _)
  rw [c52_bom_read_back_partial k hk w hw _ hok' nel lsps chunks [] last _ lens _ hsplit (by simp) hfirst (clear_of textLaws15 (Or.inl (by simpa using ha))) h hcomp]
  exact c55_round_trip_lf { k with script := w.sink.script } hk ops ho hne hh hc ha nel lsps [] _ _ (by simp) hcomp

/-- C55 for one write of any string of assigned scalars that is accepted and closed: only assigned scalars are sent, so
the theorems above apply. -/
theorem c55_single_write (k : Sink) (hk : k.sent = []) (hd : k.dead = false) (hs : k.script = []) (s : List Char) (ha : ∀ c ∈ s, isAssigned ucd15 c = true)
    (hw : (step ucd15 (.new k) (.str s)).2 = .ok) (hc : (step ucd15 (run ucd15 (.new k) [.str s]) .close).2 = .ok)
    (nel lsps : Bool) (chunks : List (List Char)) (last : List Char) (lens : List Nat)
    (hsplit : chunks.flatten ++ last = (run ucd15 (.new k) [.str s, .close]).sink.sent)
    (h : Completes ucd15 nel lsps (script chunks last) lens) :
    output ucd15 nel lsps (script chunks last) lens = (run ucd15 (.new k) [.str s, .close]).sink.sent := by
  obtain ⟨h1, h2⟩ := c38_write_str_accepts (.new k) ⟨⟨_, rfl⟩, rfl, hd, hs⟩ rfl s
  obtain ⟨h3, h4⟩ := h1.1 hw
  have hok : ∀ c ∈ s, okChar c = true := fun c hc => okChar_check.2 (h3 c hc)
  have hsent : (run ucd15 (.new k) [.str s, .close]).sink.sent = normChain ucd15 s := by
    show (close (step ucd15 (.new k) (.str s)).1).1.sink.sent = _
    have : (step ucd15 (.new k) (.str s)).1.sink.sent = normChain ucd15 s := by rw [h2 hw]; simp [Writer.new, hk, wire]
    rw [← this]
    rcases close_cases (step ucd15 (.new k) (.str s)).1 with ⟨h, -⟩ | ⟨-, h⟩ <;> rw [h]
    · rfl
    · exact (sink_flush_sent _).1
  obtain ⟨T1, e1, p1⟩ := c33_closed_newline_partial (.new k) (fresh_new k) [.str s] (by simp [Op.Strict]) hc
  have hk' : (Writer.new k).sink.sent = [] := hk
  rw [hk', List.nil_append] at e1
  rw [← e1] at p1
  change (run ucd15 (.new k) [.str s, .close]).sink.sent = [] ∨ (run ucd15 (.new k) [.str s, .close]).sink.sent.getLast? = some '\n' at p1
  rw [hsent] at p1 hsplit ⊢
  have hlast : ∀ c ∈ (normChain ucd15 s).getLast?, isEnd c = true := by
    intro c hc
    rcases p1 with p1 | p1
    · rw [p1] at hc; simp at hc
    · rw [p1] at hc; simp at hc; subst hc; exact end_nl
  rw [← hsplit]
  apply c18_reader_identity nel lsps chunks last lens
  · rw [hsplit]
    exact text_iff.2 ⟨head_normChain textLaws15 (h4 rfl), hlast,
      substr_iff.2 ⟨ok_normChain textLaws15 (fun c hc => Or.inl (hok c hc)), normChain_nss textLaws15 s⟩⟩
  · rw [hsplit]; exact assigned_normChain textLaws15 ha
  · rw [hsplit]; exact p1
  · exact h

example : (step ucd15 (run ucd15 (.new goodSink) [.str ['a', '\n'], .text ['b', '\n']]) .close).2 = .ok ∧
    (∀ c ∈ (run ucd15 (.new goodSink) [.str ['a', '\n'], .text ['b', '\n'], .close]).sink.sent, isAssigned ucd15 c = true) := by decide +kernel
example : Completes ucd15 false false (script [['a', '\r'], ['\n', 'b']] ['\r', '\n']) [136, 136, 136] := completes_of (by decide +kernel)

end Verif
