import Verif.Props.CutIsolated

/-!
# A byte order mark at the beginning, call by call (C24, C52)
-/

namespace Verif
open Ucd Spec
variable {U : Ucd}

theorem readWithStatus_mark (nel lsps : Bool) {len : Nat} (hl : normalizationBufferSize ≤ len) {s : List Char} (hs : s.head? ≠ some BOM) (st : Status)
    (es : List Event) : readWithStatus U len (.new nel lsps) (.data (BOM :: s) st :: es) = readWithStatus U len (.new nel lsps) (.data s st :: es) := by
  have hd : drain U (len + 1) len (.new nel lsps) = (.empty, [], .new nel lsps) := rfl
  have hp : processRaw U (TextInput.new nel lsps).ctl (BOM :: s) = processRaw U (TextInput.new nel lsps).ctl s := by
    have h2 : (s.head? == some BOM) = false := by simpa using hs
    simp [processRaw, TextInput.new, h2]
  unfold readWithStatus
  rw [if_neg (by omega), if_neg (by omega), hd]
  simp only [nextEvent, hp]
  rfl

/-- C24, call by call: if the first read of the source brings something that begins with U+FEFF, every call on the reader returns and delivers what it would
without it, whatever comes then, pushes and errors included. -/
theorem c24_same_calls (nel lsps : Bool) (s : List Char) (hs : s.head? ≠ some BOM) (st : Status) (es : List Event) (lens : List Nat) :
    (readMany ucd15 lens (.new nel lsps) (.data (BOM :: s) st :: es)).map (fun r => (r.ret, r.out)) =
    (readMany ucd15 lens (.new nel lsps) (.data s st :: es)).map (fun r => (r.ret, r.out)) := by
  induction lens with
  | nil => rfl
  | cons len lens ih =>
    by_cases hl : len < normalizationBufferSize
    · have h : ∀ src, readWithStatus ucd15 len (.new nel lsps) src = { ret := .invalidInput, out := [], input := .new nel lsps, src } := by
        intro src; rw [readWithStatus, if_pos hl]
      simp only [readMany, h, List.map_cons, ih]
    · simp only [readMany, readWithStatus_mark nel lsps (Nat.le_of_not_lt hl) hs]

/-- A source that begins with U+FEFF, pushes and fails; the first call has too small a buffer. -/
example : (readMany ucd15 [1, 136, 136, 136] (.new false false) [.data [BOM, 'a', '\r'] .push, .err, .data ['b'] .end_]).map (fun r => (r.ret, r.out)) =
    [(.invalidInput, []), (.ok 2 .push, ['a', '\n']), (.sourceError, []), (.ok 2 .end_, ['b', '\n'])] := by decide +kernel

/-- C52, call by call: if what a writer in BOM mode has sent comes in the reads in which what a plain writer has sent would come, except that the first
brings the U+FEFF too, every call on the reader returns and delivers the same, whatever was written. -/
theorem c52_same_calls (k : Sink) (hk : k.sent = []) (w : Writer) (hw : Writer.newBom k = some w) (ops : List Op) (ho : ∀ op ∈ ops, op.Ok ucd15)
    (nel lsps : Bool) (c : List Char) (chunks : List (List Char)) (last : List Char) (lens : List Nat)
    (h : (c :: chunks).flatten ++ last = (run ucd15 (.new { k with script := w.sink.script }) ops).sink.sent) :
    ((BOM :: c) :: chunks).flatten ++ last = (run ucd15 w ops).sink.sent ∧
    (readMany ucd15 lens (.new nel lsps) (script ((BOM :: c) :: chunks) last)).map (fun r => (r.ret, r.out)) =
    (readMany ucd15 lens (.new nel lsps) (script (c :: chunks) last)).map (fun r => (r.ret, r.out)) := by
  obtain ⟨d, e1, e2, -⟩ := c52_bom_writer k w hw ops
  obtain ⟨T, hT1, hT2⟩ := c30_sink_scalars (.new { k with script := w.sink.script }) (fresh_new _) ops ho
  rw [e2] at hT1 h
  have hT1 : d = T := List.append_cancel_left hT1
  subst hT1
  rw [hk, List.nil_append] at h
  refine ⟨by rw [e1, hk, ← h]; simp, ?_⟩
  refine c24_same_calls nel lsps c ?_ .active _ lens
  intro hb
  have : BOM ∈ d := by
    rw [← h]
    simp only [List.flatten_cons, List.mem_append]
    exact Or.inl (Or.inl (List.mem_of_mem_head? hb))
  rcases hT2 BOM this with h | ⟨h, -⟩ | ⟨h, -⟩
  · exact absurd h.1 (by decide)
  · exact absurd h (by simp [Writer.new])
  · exact absurd h (by simp [Writer.new])

end Verif
