import Verif.TextFile
import Verif.Props.Reader
import Verif.Props.Writer
import Verif.Props.Everyday

/-!
# C122: the bytes are a text file
-/

namespace Verif

open Spec

theorem tab_or_nl {c : Char} (hc : okChar c = true) {b : UInt8} (hb : ControlByte b) (e : c = Char.ofNat b.toNat) : b = 9 ∨ b = 10 := by
  subst e
  have h : b.toNat < 256 := b.toNat_lt
  have key : ∀ n < 128, okChar (Char.ofNat n) = true → n < 0x20 ∨ n = 0x7f → n = 9 ∨ n = 10 := by decide +kernel
  have h7 : b = 0x7f → b.toNat = 0x7f := fun h => by rw [h]; rfl
  have hb' : b.toNat < 0x20 ∨ b.toNat = 0x7f := hb.imp id h7
  rcases key b.toNat (by omega) hc hb' with h | h
  · exact .inl (UInt8.toNat_inj.1 h)
  · exact .inr (UInt8.toNat_inj.1 h)

theorem control_low {b : UInt8} (h : ControlByte b) : b.toNat < 0x80 := by
  rcases h with h | rfl
  · omega
  · decide

theorem bytes_ok {s : List Char} (h : ∀ c ∈ s, okChar c = true) {b : UInt8} (hb : b ∈ encode s) (hc : ControlByte b) : b = 9 ∨ b = 10 :=
  tab_or_nl (h _ (encode_low_mem hb (control_low hc))) hc rfl

/-- C122: the UTF-8 of a text, whole or part, has no control bytes but 0x9 and 0xA; cut at the bytes 0xA it gives the UTF-8 of the
pieces of the text between its newlines, each of which is text again (a `TextSubstr`). -/
theorem c122_text (s : List Char) (hs : isBasicTextSubstr ucd15 s = true) :
    (∀ b ∈ encode s, ControlByte b → b = 9 ∨ b = 10) ∧
    pieces 10 (encode s) = (pieces '\n' s).map encode ∧
    ∀ p ∈ pieces '\n' s, '\n' ∉ p ∧ isBasicTextSubstr ucd15 p = true := by
  refine ⟨fun b hb => bytes_ok (substr_iff.1 hs).1 hb, pieces_encode s, ?_⟩
  intro p hp
  obtain ⟨h1, a, b, rfl⟩ := pieces_mem hp
  exact ⟨h1, substr_infix textLaws15 hs⟩

example : isBasicTextSubstr ucd15 ['é', '\t', '\n', '\n', '中'] = true ∧
    pieces 10 (encode ['é', '\t', '\n', '\n', '中']) = [[0xc3, 0xa9, 9], [], [0xe4, 0xb8, 0xad]] := by decide +kernel

/-- C122: what a reader has put into the buffers at any time, whatever the source does, is that way; and when the end has been reported
every line of it is terminated: the bytes are the lines, with a byte 0xA after each. -/
theorem c122_read (nel lsps : Bool) (src : List Event) (lens : List Nat) :
    (∀ b ∈ encode (written (readMany ucd15 lens (.new nel lsps) src)), ControlByte b → b = 9 ∨ b = 10) ∧
    ∀ r n, (readMany ucd15 lens (.new nel lsps) src).getLast? = some r → r.ret = .ok n .end_ →
      ∃ ls : List (List Char), (∀ l ∈ ls, '\n' ∉ l ∧ isBasicTextSubstr ucd15 l = true) ∧
        pieces 10 (encode (written (readMany ucd15 lens (.new nel lsps) src))) = ls.map encode ++ [[]] ∧
        encode (written (readMany ucd15 lens (.new nel lsps) src)) = ls.flatMap fun l => encode l ++ [10] := by
  have hv := (c14_reader_writes_valid nel lsps src lens).1
  obtain ⟨h1, h2, h3⟩ := c122_text _ hv
  refine ⟨h1, fun r n hr hok => ?_⟩
  have he := (c15_reader_ends_newline nel lsps src lens r n hr hok).1
  revert h1 h2 h3 he
  generalize written (readMany ucd15 lens (.new nel lsps) src) = T
  intro h1 h2 h3 he
  obtain ⟨ls, l, hl⟩ : ∃ ls l, pieces '\n' T = ls ++ [l] := by
    rcases List.eq_nil_or_concat (pieces '\n' T) with h | ⟨ls, l, h⟩
    · exact absurd h (pieces_ne_nil _ T)
    · exact ⟨ls, l, by rw [h, List.concat_eq_append]⟩
  have hlast := (pieces_last '\n' T).2 he
  rw [hl, List.getLast?_concat] at hlast
  obtain rfl : l = [] := Option.some.inj hlast
  refine ⟨ls, fun l h => h3 l (by rw [hl]; simp [h]), by rw [h2, hl]; simp [encode], ?_⟩
  have hj := pieces_join '\n' T
  rw [hl] at hj
  simp only [List.flatMap_append, List.flatMap_cons, List.flatMap_nil, List.append_nil, List.nil_append] at hj
  replace hj := List.append_cancel_right hj
  rw [← hj]
  clear hj hl h3 h2 h1 hlast he hv
  induction ls with
  | nil => rfl
  | cons l ls ih => simp [encode_append, ih, encode_cons, show encodeChar '\n' = [10] by decide]

example : Completes ucd15 false false (script [] ['a', '\x07', '\r', '\n', '\x00', 'b']) [136] ∧
    encode (written (readMany ucd15 [136] (.new false false) (script [] ['a', '\x07', '\r', '\n', '\x00', 'b']))) =
      [0x61, 0xef, 0xbf, 0xbd, 10, 0xef, 0xbf, 0xbd, 0x62, 10] := ⟨completes_of (by decide +kernel), by decide +kernel⟩

/-- C122: what a writer has sent since it was made, whatever the calls and the sink do, has as UTF-8 no control bytes but 0x9 and 0xA, with
CR LF compatibility the bytes 0xD that stand directly before a byte 0xA (or where a failing sink cut the text), and with color the bytes 0x1B;
cut at the bytes 0xA it is the text cut at its newlines. -/
theorem c122_written (w : Writer) (hw : Fresh w) (ops : List Op) (ho : ∀ op ∈ ops, op.Ok ucd15) (T : List Char)
    (hT : (run ucd15 w ops).sink.sent = w.sink.sent ++ T) :
    (∀ b ∈ encode T, ControlByte b → b = 9 ∨ b = 10 ∨ (w.crlf = true ∧ b = 13) ∨ (w.ansi = true ∧ b = 27)) ∧
    (∀ x y, encode T = x ++ 13 :: y → (∃ z, y = 10 :: z) ∨ (y = [] ∧ w.sink.script ≠ [])) ∧
    pieces 10 (encode T) = (pieces '\n' T).map encode := by
  refine ⟨fun b hb hc => ?_, fun x y e => ?_, pieces_encode T⟩
  · obtain ⟨T', h1, h2⟩ := c30_sink_scalars w hw ops ho
    obtain rfl : T = T' := List.append_cancel_left (hT.symm.trans h1)
    have hm := encode_low_mem hb (control_low hc)
    have inj : ∀ k : UInt8, k.toNat < 0x80 → Char.ofNat b.toNat = Char.ofNat k.toNat → b = k := by
      intro k hk e
      have hlt := control_low hc
      have key : ∀ m < 128, (Char.ofNat m).toNat = m := by decide +kernel
      have := congrArg Char.toNat e
      rw [key _ hlt, key _ hk] at this
      exact UInt8.toNat_inj.1 this
    rcases h2 _ hm with h | ⟨hcr, h⟩ | ⟨han, h⟩
    · rcases tab_or_nl (okChar_check.2 h) hc rfl with h | h
      · exact .inl h
      · exact .inr (.inl h)
    · exact .inr (.inr (.inl ⟨hcr, inj 13 (by decide) (h.trans (by decide))⟩))
    · exact .inr (.inr (.inr ⟨han, inj 27 (by decide) (h.trans (by decide))⟩))
  · obtain ⟨T', z, h1, h2, h3⟩ := c30_cr_before_lf w hw ops ho
    obtain rfl : T = T' := List.append_cancel_left (hT.symm.trans h1)
    obtain ⟨u, v, rfl, rfl, rfl⟩ := encode_low e (by decide)
    obtain ⟨c, hc⟩ := h3 u (v ++ z) (by simp)
    cases v with
    | nil =>
      refine .inr ⟨rfl, fun hs => ?_⟩
      rw [h2 hs] at hc
      simp at hc
    | cons d v =>
      rw [List.cons_append] at hc
      obtain ⟨rfl, -⟩ := List.cons.inj hc
      exact .inl ⟨encode v, by rw [encode_cons]; rfl⟩

example : (run ucd15 (.newCrlf goodSink) [.str ['é', '\n'], .text ['b', '\n']]).sink.sent = ['é', '\r', '\n', 'b', '\r', '\n'] ∧
    encode ['é', '\r', '\n', 'b', '\r', '\n'] = [0xc3, 0xa9, 13, 10, 0x62, 13, 10] := by decide +kernel

/-- C122: and once a close has succeeded every line of it is terminated by a byte 0xA, unless an empty text was written (C33). -/
theorem c122_closed_partial (w : Writer) (hw : Fresh w) (ops : List Op) (ho : ∀ op ∈ ops, op.Strict ucd15)
    (hc : (step ucd15 (run ucd15 w ops) .close).2 = .ok) (T : List Char)
    (hT : (run ucd15 w (ops ++ [.close])).sink.sent = w.sink.sent ++ T) :
    (pieces 10 (encode T)).getLast? = some [] := by
  obtain ⟨T', h1, h2⟩ := c33_closed_newline_partial w hw ops ho hc
  obtain rfl : T = T' := List.append_cancel_left (hT.symm.trans h1)
  rw [pieces_encode, List.getLast?_map, (pieces_last '\n' T).2 h2]
  rfl

/-- C122 fails there: the last line is not terminated. -/
theorem c122_refuted_closed : results ucd15 (.new goodSink) [.str ['a'], .text [], .close] = [.ok, .ok, .ok] ∧
    pieces 10 (encode (run ucd15 (.new goodSink) [.str ['a'], .text [], .close]).sink.sent) = [[0x61]] := by decide +kernel

example : (step ucd15 (run ucd15 (.new goodSink) [.str ['a', '\n']]) .close).2 = .ok ∧
    (run ucd15 (.new goodSink) ([.str ['a', '\n']] ++ [.close])).sink.sent = goodSink.sent ++ ['a', '\n'] := by decide +kernel

end Verif
