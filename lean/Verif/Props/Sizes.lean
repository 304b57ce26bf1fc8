import Verif.Sizes
import Verif.Props.Copy

/-!
# Property C129: buffers of the sizes that streams report suffice
-/

namespace Verif
open Ucd Spec

/-- C129: whatever the stream at the bottom says, a reader or duplexer, or any number of them on each other, asks for at least 136 bytes, for
no less than the stream at the bottom, and suggests no less than it asks for; and for no more than that. -/
theorem c129_sizes (k : Stack) (hk : k.isText = true) :
    136 ≤ k.sizes.min ∧ k.bottom.min ≤ k.sizes.min ∧ k.sizes.min ≤ k.sizes.suggested ∧ k.bottom.suggested ≤ k.sizes.suggested ∧
    (k.sizes.min = 136 ∨ k.sizes.min = k.bottom.min) ∧ (k.sizes.suggested = k.sizes.min ∨ k.sizes.suggested = k.bottom.suggested) := by
  have hn : normalizationBufferSize = 136 := rfl
  rw [k.sizes_eq hk, hn]
  simp only
  omega

/-- C129: a buffer of the size asked for is never refused, in whatever state the reader is and whatever its source does. -/
theorem c129_read (k : Stack) (hk : k.isText = true) (len : Nat) (hl : k.sizes.min ≤ len) (t : TextInput) (src : List Event) :
    (readWithStatus ucd15 len t src).ret ≠ .invalidInput ∧ stdRet (readWithStatus ucd15 len t src).ret ≠ .invalidInput := by
  have h : normalizationBufferSize ≤ len := Nat.le_trans (c129_sizes k hk).1 hl
  exact ⟨fun hs => by have := read_invalid.1 hs; omega, std_invalid h⟩

/-- C129: a reader asks for no more than it needs, unless its source does. -/
theorem c129_least (k : Stack) (hk : k.isText = true) (hb : k.bottom.min ≤ 136) (len : Nat) (t : TextInput) (src : List Event) :
    (readWithStatus ucd15 len t src).ret = .invalidInput ↔ len < k.sizes.min := by
  obtain ⟨h1, h2, -, -, h3, -⟩ := c129_sizes k hk
  rw [read_invalid, show normalizationBufferSize = 136 from rfl]
  omega

/-- C129: the buffers of `copy_text` and `copy_text_using_status` are never refused. -/
theorem c129_copy (k : Stack) (hk : k.isText = true) (out : Sizes) (fuel : Nat) (t : TextInput) (src : List Event) (w : Writer) (n : Nat) (res : CopyResult)
    (h : copyText ucd15 (copySize k.sizes out.writer) fuel t src w n = some res ∨
      copyTextUsingStatus ucd15 (copySize k.sizes out.writer) fuel t src w n = some res) :
    res.ret ≠ .readError .invalidInput := by
  have hl : normalizationBufferSize ≤ copySize k.sizes out.writer := by
    have := c129_sizes k hk
    show 136 ≤ max _ _
    omega
  rcases h with h | h
  · exact copy_not_invalid hl _ _ _ _ _ _ h
  · exact copyStatus_not_invalid hl _ _ _ _ _ _ h

/-- C129: so `copy_text` copies everything, whatever sizes the streams report. -/
theorem c129_copy_all (k : Stack) (hk : k.isText = true) (out : Sizes) (nel lsps : Bool) (src : List Event) (hsrc : Ending src) (w : Writer) (hw : Ready w)
    (lens : List Nat) (hc : Completes ucd15 nel lsps src lens) :
    ∃ res, (∃ n, ∀ fuel, n ≤ fuel → copyText ucd15 (copySize k.sizes out.writer) fuel (.new nel lsps) src w 0 = some res) ∧
      res.ret = .ok (encode (output ucd15 nel lsps src lens)).length ∧
      res.writer.sink.sent = w.sink.sent ++ wire w.crlf (output ucd15 nel lsps src lens) := by
  have hl : normalizationBufferSize ≤ copySize k.sizes out.writer := by
    have := c129_sizes k hk
    show 136 ≤ max _ _
    omega
  obtain ⟨res, h1, h2, h3, -⟩ := c44_copy_text nel lsps src hsrc _ hl w hw lens hc
  exact ⟨res, h1, h2, h3⟩

/-- C129: the reads that a reader makes of a reader or duplexer below it are never refused for the size of the buffer. -/
theorem c129_inside (t : TextInput) (src : List Event) : (readWithStatus ucd15 4096 t src).ret ≠ .invalidInput := by
  intro h
  have := read_invalid.1 h
  rw [show normalizationBufferSize = 136 from rfl] at this
  omega

/-- C129: but a source that needs more than 4096 bytes is never read: the reader asks its caller for that many bytes and then passes 4096
to the source.  Every read fails, however large the buffers are. -/
theorem c129_refuted_large (nel lsps : Bool) (m : Nat) (hm : 4096 < m) (lens : List Nat) (hl : ∀ l ∈ lens, (Stack.reader (.base ⟨m, m⟩)).sizes.min ≤ l)
    (src : List Event) (hs : src.length = lens.length) :
    ∀ r ∈ readMany ucd15 lens (.new nel lsps) (src.map (ask m)), r.ret = .sourceError ∧ r.out = [] := by
  have e : src.map (ask m) = List.replicate lens.length .err := by
    rw [← hs, List.eq_replicate_iff]
    refine ⟨by simp, ?_⟩
    intro x hx
    obtain ⟨y, -, rfl⟩ := List.mem_map.1 hx
    simp [ask, hm]
  rw [e]
  refine reads_of_errors (fun len _ => rfl) rfl lens fun l h => ?_
  have h1 := (c129_sizes (.reader (.base ⟨m, m⟩)) rfl).1
  have h2 := hl l h
  show 136 ≤ l
  omega

-- a reader on a reader on a file; a source that wants 8192 bytes
example : (Stack.reader (.reader (.base ⟨0, 8192⟩))).sizes = ⟨136, 8192⟩ ∧ (Stack.duplexer (.reader (.base ⟨5000, 100⟩))).sizes = ⟨5000, 5000⟩ ∧
    copySize (Stack.reader (.base ⟨0, 1⟩)).sizes (Sizes.writer ⟨0, 500⟩) = 500 := by decide

example : (readMany ucd15 [8192, 8192] (.new false false) ([.data ['a'] .active, .data ['b'] .end_].map (ask 8192))).map (·.ret) = [.sourceError, .sourceError] ∧
    (readMany ucd15 [8192, 8192] (.new false false) ([.data ['a'] .active, .data ['b'] .end_].map (ask 4096))).map (·.out) = [[], ['a', 'b', '\n']] := by
  decide +kernel

end Verif
