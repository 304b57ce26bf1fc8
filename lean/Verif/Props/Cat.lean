import Verif.IoCopy
import Verif.Props.Copy
import Verif.Props.Pieces

/-!
# `examples/text-cat.rs` (C93)

`ioCopy … (byteScript bs last)` is `std::io::copy` from a `TextReader` on a byte source that delivers the pieces `bs` and, with its end,
`last`, to a byte sink.
-/

namespace Verif
open Ucd Spec

/-- C93, whatever the source and the sink do: what has been written is a beginning of the UTF-8 of text that the reads have delivered, and
that text is acceptable as a substring; if the copy succeeds all of it has been written and the number returned is its length in bytes. -/
theorem c93_safe (nel lsps : Bool) (src : List Event) (len fuel : Nat) (w : ByteSink) (res : IoCopyResult)
    (hsrc : ∀ e ∈ src, e ≠ .err)
    (h : ioCopy ucd15 len fuel (.new nel lsps) src w 0 = some res) :
    ∃ text p, res.sink.sent = w.sent ++ p ∧ p <+: encode text ∧ fromText (isBasicTextSubstr ucd15) text = .ok text ∧
      (∀ c ∈ text.head?, isStart ucd15 c = true) ∧
      ∀ m, res.ret = .ok m → p = encode text ∧ m = p.length ∧ fromText (isBasicText ucd15) text = .ok text := by
  obtain ⟨j, p, h1, h2, h3⟩ := ioCopy_any len fuel _ _ _ _ _ h
  refine ⟨_, p, h1, h2, ?_, ?_, fun m hm => ?_⟩
  · rw [run_delivered textLaws15 nel lsps hsrc]
    exact fromText_ok (run_valid textLaws15 nel lsps src _).1
  · rw [run_delivered textLaws15 nel lsps hsrc]
    exact (run_valid textLaws15 nel lsps src _).2
  · obtain ⟨a1, a2, r, a3, a4⟩ := h3 m hm
    refine ⟨a1, by omega, ?_⟩
    exact fromText_ok ((c14_reader_output_valid nel lsps _ hsrc _).2.2 ⟨r, 0, a3, a4⟩)

/-- C93: on a source that comes to an end without failing and a sink that works, the copy succeeds, and writes exactly what reading the
source gives, with whatever buffers. -/
theorem copy_output (nel lsps : Bool) (src : List Event) (hsrc : Ending src) (len : Nat) (hl : normalizationBufferSize ≤ len)
    (w : ByteSink) (hw : w.script = []) (lens : List Nat) (hc : Completes ucd15 nel lsps src lens) :
    ∃ res, (∃ k, ∀ fuel, k ≤ fuel → ioCopy ucd15 len fuel (.new nel lsps) src w 0 = some res) ∧
      res.ret = .ok (encode (output ucd15 nel lsps src lens)).length ∧ res.sink.sent = w.sent ++ encode (output ucd15 nel lsps src lens) := by
  obtain ⟨k, r, hr, n, hn⟩ := constant_reach nel lsps src len hl
  have hnext := read_after_end textLaws15 hsrc hr hn hl
  have hrun : readMany ucd15 (List.replicate (k + 1) len) (.new nel lsps) src =
      readMany ucd15 (List.replicate k len) (.new nel lsps) src ++ [readWithStatus ucd15 len r.input r.src] := by
    rw [List.replicate_succ', readMany_append, show finalState _ _ _ = (r.input, r.src) by simp [finalState, hr]]; rfl
  have htame : Tame false src := fun e he => ⟨hsrc.no_err e he, by simp⟩
  obtain ⟨-, -, -, -, hnp⟩ := run_rel textLaws15 (List.replicate (k + 1) len) (.new nel lsps) src [] [] (Rel.init nel lsps)
  have hok := readMany_tame (U := ucd15) hl (k + 1) (.new nel lsps) src htame (by simp) hnp
  obtain ⟨res, m, h1, h2⟩ := ioCopy_ends (U := ucd15) len (k + 1) (.new nel lsps) src w 0 hw
    (fun r hr => by obtain ⟨st, h, -⟩ := hok r hr; exact ⟨st, h⟩) ⟨_, by rw [hrun]; simp, hnext⟩
  obtain ⟨j, p, a1, -, a3⟩ := ioCopy_any len _ _ _ _ _ _ h1
  obtain ⟨b1, b2, r', b3, b4⟩ := a3 m h2
  have hT : delivered (readMany ucd15 (List.replicate j len) (.new nel lsps) src) = output ucd15 nel lsps src lens :=
    c16_buffer_independent nel lsps src hsrc _ _ ⟨r', 0, b3, b4⟩ hc
  rw [hT] at b1
  exact ⟨res, ⟨k + 1, fun fuel hf => ioCopy_mono h1 fuel hf⟩, by rw [h2, b2, b1, Nat.zero_add], by rw [a1, b1]⟩

/-- C93: `text-cat` on any bytes in any pieces ends without an error, and what it writes is well-formed UTF-8 of Basic Text that is empty or ends
with a newline, and its length is what `io::copy` returns. -/
theorem c93_cat (bs : List Bytes) (last : Bytes) (len : Nat) (hl : 136 ≤ len) :
    ∃ res text, (∃ k, ∀ fuel, k ≤ fuel → ioCopy ucd15 len fuel (.new false false) (byteScript bs last) ⟨[], []⟩ 0 = some res) ∧
      res.sink.sent = encode text ∧ res.ret = .ok (encode text).length ∧ Sane text ∧ fromText (isBasicText ucd15) text = .ok text := by
  obtain ⟨n, hc⟩ := c67_bytes_end (bs.flatten ++ last) false false _ _ (c74_pieces_decode bs last) (fun _ => len) (fun _ => hl)
  obtain ⟨res, h1, h2, h3⟩ := copy_output false false (byteScript bs last) (ending_script _ _) len hl ⟨[], []⟩ rfl _ hc
  obtain ⟨h4, h5⟩ := c67_bytes_read (bs.flatten ++ last) false false _ _ (c74_pieces_decode bs last) _ hc
  exact ⟨res, _, h1, by simpa using h3, h2, h4, h5⟩

/-- C93: `text-cat` copies Basic Text of assigned scalars that is empty or ends with a newline byte for byte, in whatever pieces it comes. -/
theorem c93_cat_unchanged (s : List Char) (hv : fromText (isBasicText ucd15) s = .ok s) (ha : ∀ c ∈ s, isAssigned ucd15 c = true)
    (hnl : s = [] ∨ s.getLast? = some '\n') (bs : List Bytes) (last : Bytes) (hs : bs.flatten ++ last = encode s) (len : Nat) (hl : 136 ≤ len) :
    ∃ res, (∃ k, ∀ fuel, k ≤ fuel → ioCopy ucd15 len fuel (.new false false) (byteScript bs last) ⟨[], []⟩ 0 = some res) ∧
      res.sink.sent = encode s ∧ res.ret = .ok (encode s).length := by
  have hd : (decodeReads [] bs last).1.flatten ++ (decodeReads [] bs last).2 = s := by
    have := c74_pieces_decode bs last
    rw [Delivers, hs, utf8Lossy_encode] at this
    exact this
  obtain ⟨n, hc⟩ := c67_bytes_end (bs.flatten ++ last) false false _ _ (c74_pieces_decode bs last) (fun _ => len) (fun _ => hl)
  obtain ⟨res, h1, h2, h3⟩ := copy_output false false (byteScript bs last) (ending_script _ _) len hl ⟨[], []⟩ rfl _ hc
  have h4 := c18_reader_identity false false _ _ _ (by rw [hd]; exact (fromText_ok_iff.1 hv).1) (by rw [hd]; exact ha) (by rw [hd]; exact hnl) hc
  rw [hd] at h4
  unfold byteScript at h2 h3
  rw [h4] at h2 h3
  exact ⟨res, h1, by simpa using h3, h2⟩

/-- C93 (what holds): `text-cat | text-cat` writes what `text-cat` writes, if all scalars written are assigned. -/
theorem c93_cat_twice_partial (bs bs' : List Bytes) (last last' : Bytes) (len len' : Nat) (hl : 136 ≤ len) (hl' : 136 ≤ len') (fuel : Nat)
    (res : IoCopyResult) (text : List Char) (h : ioCopy ucd15 len fuel (.new false false) (byteScript bs last) ⟨[], []⟩ 0 = some res)
    (ht : res.sink.sent = encode text) (ha : ∀ c ∈ text, isAssigned ucd15 c = true) (hs : bs'.flatten ++ last' = res.sink.sent) :
    ∃ res', (∃ k, ∀ fuel, k ≤ fuel → ioCopy ucd15 len' fuel (.new false false) (byteScript bs' last') ⟨[], []⟩ 0 = some res') ∧
      res'.sink.sent = res.sink.sent ∧ res'.ret = res.ret := by
  obtain ⟨res0, text0, ⟨k, h0⟩, h1, h2, h3, h4⟩ := c93_cat bs last len hl
  have e : res0 = res := by
    have := h0 (k + fuel) (by omega)
    rw [ioCopy_mono h (k + fuel) (by omega)] at this
    injection this with this
    exact this.symm
  subst e
  have : text = text0 := encode_injective (ht.symm.trans h1)
  subst this
  obtain ⟨res', g1, g2, g3⟩ := c93_cat_unchanged text h4 ha h3.newline bs' last' (hs.trans h1) len' hl'
  exact ⟨res', g1, by rw [g2, h1], by rw [g3, h2]⟩

/-- With unassigned scalars it need not: if the pipe hands over the first U+034F by itself, the second run adds another one. -/
theorem c93_refuted_twice :
    (ioCopy ucd15 8192 4 (.new false false) (byteScript [] (encode ['\u0378', '\n'])) ⟨[], []⟩ 0).map (·.sink.sent) =
      some (encode ['\u034f', '\u0378', '\u034f', '\n']) ∧
    (ioCopy ucd15 8192 4 (.new false false) (byteScript [encode ['\u034f']] (encode ['\u0378', '\u034f', '\n'])) ⟨[], []⟩ 0).map (·.sink.sent) =
      some (encode ['\u034f', '\u034f', '\u0378', '\u034f', '\n']) := by
  decide +kernel

example : (ioCopy ucd15 8192 4 (.new false false) (byteScript [[0x61, 0xc3]] [0xa9, 0x0d, 0xff]) ⟨[], []⟩ 0).map (fun r => (r.sink.sent, r.ret)) =
    some (encode ['a', 'é', '\n', '�', '\n'], .ok 8) := by decide +kernel

end Verif
