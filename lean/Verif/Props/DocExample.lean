import Verif.DocExample
import Verif.Props.Bytes
import Verif.Props.Pieces

/-!
# C109: the example program of the documentation
-/

namespace Verif

open DocExample

/-- C109: on a standard output that accepts everything, whatever it has received before, no `unwrap` of the example panics, the invalid line gives the error that
`unwrap_err` expects, what is sent is what was meant and nothing of the invalid line, and dropping the writer at the end does not panic. -/
theorem c109_writes (k : Sink) (hd : k.dead = false) (hs : k.script = []) :
    ∃ w, writes ucd15 (.new k) = some w ∧ w.sink.sent = k.sent ++ (greeting ++ dog ++ vest ++ valid) ∧ w.sink.dead = true ∧ dropPanics w = false := by
  have good : ∀ (w : Writer) (op : Op), op.isWrite = true → Ready w → w.crlf = false → w.ansi = false → Good ucd15 w.expectStarter op →
      ∃ w', step ucd15 w op = (w', .ok) ∧ Ready w' ∧ w'.crlf = false ∧ w'.ansi = false ∧ w'.expectStarter = false ∧ w'.sink.sent = w.sink.sent ++ said ucd15 op := by
    intro w op ho hw hc ha hg
    obtain ⟨g, hst⟩ := hw.state
    refine ⟨_, step_good textLaws15 ho hst hw.buffer hw.alive hw.reliable hg, ⟨⟨_, rfl⟩, hw.buffer, hw.alive, hw.reliable⟩, hc, ha, rfl, ?_⟩
    simp [hc, enc]
  have r0 : Ready (.new k) := ⟨⟨_, rfl⟩, rfl, hd, hs⟩
  obtain ⟨w1, e1, r1, c1, a1, x1, s1⟩ := good (.new k) (.text greeting) rfl r0 rfl rfl ⟨trivial, fun _ c hc => by
    have : c = 'H' := by simpa [said, greeting] using hc.symm
    subst this; decide +kernel⟩
  obtain ⟨w2, e2, r2, c2, a2, x2, s2⟩ := good w1 (.text dog) rfl r1 c1 a1 ⟨trivial, fun h => by rw [x1] at h; cases h⟩
  obtain ⟨w3, e3, r3, c3, a3, x3, s3⟩ := good w2 (.text vest) rfl r2 c2 a2 ⟨trivial, fun h => by rw [x2] at h; cases h⟩
  obtain ⟨w4, e4, r4, c4, a4, x4, s4⟩ := good w3 (.str valid) rfl r3 c3 a3 ⟨by unfold Clean; decide +kernel, fun h => by rw [x3] at h; cases h⟩
  obtain ⟨g4, hg4⟩ := r4.state
  obtain ⟨e5, s5, st5, -⟩ := step_bad (op := .str invalid) textLaws15 rfl hg4 a4 r4.buffer (fun h => by
    have := h.1
    revert this
    unfold Clean
    decide +kernel)
  have l1 : textLit ucd15 greeting = some greeting := by decide +kernel
  have l2 : textSubstrLit ucd15 dog = some dog := by decide +kernel
  have l3 : textSubstrLit ucd15 vest = some vest := by decide +kernel
  have n4 : normChain ucd15 valid = valid := by decide +kernel
  simp only [step] at e1 e2 e3 e4 e5 s5 st5
  have f4 : writeFmt ucd15 w3 [valid] = some (w4, .ok) := by
    simp [writeFmt, writeChunks, writeAll_encode w3 (s := valid) (by decide), e4]
  have f5 : writeFmt ucd15 w4 [invalid] = some ((writeStr ucd15 w4 invalid).1, .err) := by
    have h : writeStr ucd15 w4 invalid = ((writeStr ucd15 w4 invalid).1, .err) := by rw [← e5]
    simp only [writeFmt, writeChunks, List.map, writeAll_encode w4 (s := invalid) (by decide)]
    rw [h]
  refine ⟨(writeStr ucd15 w4 invalid).1, ?_, ?_, ?_, ?_⟩
  · simp [writes, l1, l2, l3, e1, e2, e3, f4, f5, unwrapOk, unwrapErr]
  · rw [s5]
    simp only [Sink.abandon]
    rw [s4, s3, s2, s1]
    simp [said, n4, Writer.new]
  · rw [s5]; rfl
  · simp [dropPanics, st5]

/-- C109: the service dog is Basic Text, and its first part is a substring only: `text!` of it would not compile. -/
theorem c109_dog : textLit ucd15 (dog ++ vest) = some (dog ++ vest) ∧ textLit ucd15 dog = none ∧ textSubstrLit ucd15 dog = some dog := by decide +kernel

/-- C109: "a Basic Text reader, on the other hand, always succeeds": whatever bytes standard input has and in whatever pieces they come, `unwrap` does not panic,
and the string is then Basic Text. -/
theorem c109_reads (b : Bytes) (chunks : List (List Char)) (last : List Char) (_ : Delivers b chunks last) (lens : Nat → Nat) (hl : ∀ i, 136 ≤ lens i) :
    ∃ n s, reading ucd15 ((List.range n).map lens) (script chunks last) = some s ∧ isBasicText ucd15 s = true := by
  obtain ⟨n, text, h⟩ := readToEnd_total textLaws15 false false (no_err_in_script chunks last) lens hl
  obtain ⟨lens', r, m, -, h1, h2, h3⟩ := readToEnd_run _ _ _ _ h
  have hv : isBasicText ucd15 text = true := by
    have := (c14_reader_output_valid false false _ (no_err_in_script chunks last) lens').2.2 ⟨r, m, h1, h2⟩
    rw [← h3]
    exact this
  refine ⟨n, text, ?_, hv⟩
  unfold reading
  rw [h, readTo_some (text_iff.1 hv).1]
  rfl

example : ∃ s, reading ucd15 [136, 136] (script [['a']] ['\x07', 'b']) = some s ∧ s = ['a', '\ufffd', 'b', '\n'] ∧ Delivers [0x61, 0x07, 0x62] [['a']] ['\x07', 'b'] :=
  ⟨_, by decide +kernel, rfl, by unfold Delivers; decide⟩

end Verif
