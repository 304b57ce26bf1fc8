import Verif.Props.Cat
import Verif.Props.Cats
import Verif.Props.CutAdds
import Verif.Props.Equivalence

/-!
# C142: the project's filters one after another

`examples/utf8-cat.rs`, `examples/text-cat.rs`, `examples/nfc-cat.rs` and `examples/ssnfc-cat.rs`, each reading what another has written, in whatever
pieces it comes.
-/

namespace Verif
open Ucd Spec

/-- `main` of `examples/utf8-cat.rs:4-10` on a standard input that comes in pieces: `std::io::copy` (standard library) writes what each read of the
`Utf8Reader` delivers; a read that delivers nothing before the end is reported as `Interrupted` and repeated.  Simplification: standard output accepts
everything. -/
def utf8Cat (bs : List Bytes) (last : Bytes) : Bytes := ((decodeReads [] bs last).1 ++ [(decodeReads [] bs last).2]).flatMap encode

theorem encode_flatMap (ss : List (List Char)) : ss.flatMap encode = encode ss.flatten := by
  induction ss with
  | nil => rfl
  | cons s ss ih => rw [List.flatMap_cons, ih, List.flatten_cons, encode_append]

/-- C142: `utf8-cat` writes the bytes with each ill-formed sequence replaced, whatever the pieces. -/
theorem c142_utf8_cat (bs : List Bytes) (last : Bytes) : utf8Cat bs last = encode (utf8Lossy (bs.flatten ++ last)) := by
  unfold utf8Cat
  rw [encode_flatMap, ← c74_pieces_decode bs last]
  simp

/-- C142: it copies UTF-8 unchanged, and nothing else. -/
theorem c142_utf8_unchanged (bs : List Bytes) (last : Bytes) : utf8Cat bs last = bs.flatten ++ last ↔ ∃ s, bs.flatten ++ last = encode s := by
  rw [c142_utf8_cat]
  constructor
  · intro h
    exact ⟨_, h.symm⟩
  · rintro ⟨s, h⟩
    rw [h, utf8Lossy_encode]

/-- C142: what `text-cat` writes, whatever the bytes it has read, passes unchanged through each of the other filters. -/
theorem c142_after_text (bs : List Bytes) (last : Bytes) (len : Nat) (hl : 136 ≤ len) :
    ∃ res n, (∃ k, ∀ fuel, k ≤ fuel → ioCopy ucd15 len fuel (.new false false) (byteScript bs last) ⟨[], []⟩ 0 = some res) ∧
      res.ret = .ok res.sink.sent.length ∧
      (∀ bs' last', bs'.flatten ++ last' = res.sink.sent → utf8Cat bs' last' = res.sink.sent) ∧
      (∀ src fuel, Steady src → bytesOf src = res.sink.sent → n ≤ fuel →
        nfcCat ucd15 fuel src = some (res.sink.sent, true) ∧ ssnfcCat ucd15 fuel src = some (res.sink.sent, true)) := by
  obtain ⟨n, hc⟩ := c67_bytes_end (bs.flatten ++ last) false false _ _ (c74_pieces_decode bs last) (fun _ => len) (fun _ => hl)
  obtain ⟨res, h1, h2, h3⟩ := copy_output false false (byteScript bs last) (ending_script _ _) len hl ⟨[], []⟩ rfl _ hc
  obtain ⟨h4, h5⟩ := c67_bytes_read (bs.flatten ++ last) false false _ _ (c74_pieces_decode bs last) _ hc
  replace h3 : res.sink.sent = encode (output ucd15 false false (byteScript bs last) (List.map (fun _ => len) (List.range n))) := by simpa using h3
  refine ⟨res, (output ucd15 false false (byteScript bs last) (List.map (fun _ => len) (List.range n))).length + 1, h1, by rw [h3]; exact h2, fun bs' last' h => ?_, fun src fuel hs hb hf => ?_⟩
  · rw [c142_utf8_cat, h, h3, utf8Lossy_encode]
  · rw [h3] at hb ⊢
    exact c97_text_unchanged _ h5 (h4.newline) src hs hb fuel hf

/-- C142: `utf8-cat` before `text-cat` changes at most U+34F, if the first pieces are not shorter than U+FEFF or there is none at the beginning; and
nothing at all, if there is no U+34F directly before an unassigned scalar. -/
theorem c142_utf8_first (bs bs' : List Bytes) (last last' : Bytes) (lens lens' : List Nat) (heq : bs'.flatten ++ last' = utf8Cat bs last)
    (hb : (∀ b ∈ (bs ++ [last]).head?, 3 ≤ b.length) ∨ (utf8Lossy (bs.flatten ++ last)).head? ≠ some BOM)
    (hb' : (∀ b ∈ (bs' ++ [last']).head?, 3 ≤ b.length) ∨ (utf8Lossy (bs.flatten ++ last)).head? ≠ some BOM)
    (h : Completes ucd15 false false (byteScript bs last) lens) (h' : Completes ucd15 false false (byteScript bs' last') lens') :
    (output ucd15 false false (byteScript bs last) lens).filter (· ≠ CGJ) = (output ucd15 false false (byteScript bs' last') lens').filter (· ≠ CGJ) ∧
    (Clear ucd15 false false (utf8Lossy (bs.flatten ++ last)) →
      output ucd15 false false (byteScript bs last) lens = output ucd15 false false (byteScript bs' last') lens') := by
  have e : utf8Lossy (bs'.flatten ++ last') = utf8Lossy (bs.flatten ++ last) := by rw [heq, c142_utf8_cat, utf8Lossy_encode]
  have e1 : (decodeReads [] bs last).1.flatten ++ (decodeReads [] bs last).2 = utf8Lossy (bs.flatten ++ last) := c74_pieces_decode bs last
  have e2 : (decodeReads [] bs' last').1.flatten ++ (decodeReads [] bs' last').2 = utf8Lossy (bs.flatten ++ last) := by
    rw [← e]; exact c74_pieces_decode bs' last'
  have f1 := first_read hb
  have f2 := first_read (bs := bs') (last := last') (by rw [e]; exact hb')
  constructor
  · refine (c16_same_scalars_iff false false _ _ _ _ (by rw [e1, e2]) lens lens' h h').2 fun hm => ?_
    rw [e1] at f1 hm
    rw [e2] at f2
    have g1 := f1.resolve_right (fun x => x hm)
    have g2 := f2.resolve_right (fun x => x hm)
    exact ⟨fun x => absurd x g1, fun x => absurd x g2⟩
  · intro hn
    exact c16_chunk_independent_partial false false _ _ _ _ lens lens' (by rw [e1, e2]) f1 f2 (by rw [e1]; exact hn) h h'

/-- C142: `nfc-cat` before `text-cat` changes nothing of UTF-8 with Unix line ends that has no escape sequences, CJK compatibility ideographs, U+2329
or U+232A, no U+34F directly before an unassigned scalar, and as text no more than 30 nonstarters in a row. -/
theorem c142_nfc_first (s : List Char) (src : List BufEvent) (hs : Steady src) (hb : bytesOf src = encode s) (fuel : Nat) (hf : s.length < fuel)
    (hu : ∀ a b, s ≠ a ++ '\r' :: '\n' :: b) (hn : s = [] ∨ s.getLast? = some '\n') (ho : Ordinary s) (hss : StreamSafe (form ucd15 false false s))
    (hbom : s.head? ≠ some BOM) (bs : List Bytes) (last : Bytes) (he : bs.flatten ++ last = encode s) (lens : List Nat)
    (h : Completes ucd15 false false (byteScript bs last) lens) :
    ∃ out, nfcCat ucd15 fuel src = some (out, true) ∧ ∀ bs' last' lens', bs'.flatten ++ last' = out →
      Completes ucd15 false false (byteScript bs' last') lens' →
      output ucd15 false false (byteScript bs' last') lens' = output ucd15 false false (byteScript bs last) lens := by
  have hul : unixLines s = s := unixLines_self hu hn
  refine ⟨_, c97_nfc_cat s src hs hb fuel hf, fun bs' last' lens' he' h' => ?_⟩
  rw [hul] at he'
  have e1 : (decodeReads [] bs last).1.flatten ++ (decodeReads [] bs last).2 = s := by
    rw [← utf8Lossy_encode s, ← he]; exact c74_pieces_decode bs last
  have e2 : (decodeReads [] bs' last').1.flatten ++ (decodeReads [] bs' last').2 = ucd15.nfc s := by
    rw [← utf8Lossy_encode (ucd15.nfc s), ← he']; exact c74_pieces_decode bs' last'
  have hbom' : (ucd15.nfc s).head? ≠ some BOM := by
    rw [Ne, bom_nfd (faithful_nfc ho.1), nfd_nfc lawful15, ← bom_nfd ho.1]
    exact hbom
  exact (c106_reader_partial false false _ _ _ _ lens lens' (by rw [e1, e2]; exact canonicallyEquivalent_iff.2 (nfd_nfc lawful15 s).symm) (by rw [e1]; exact ho)
    (by rw [e2]; exact faithful_nfc ho.1) (by rw [e1]; exact hss) (by right; rw [e1]; exact hbom) (by right; rw [e2]; exact hbom') h h').symm

/-- C142: `nfc-cat` after `ssnfc-cat` changes nothing, exactly if the input has no "\r\r\n" and does not end with U+D. -/
theorem c142_nfc_last (s : List Char) (src src' : List BufEvent) (hs : Steady src) (hb : bytesOf src = encode s) (fuel : Nat) (hf : s.length < fuel)
    (out : List Char) (h : ssnfcCat ucd15 fuel src = some (encode out, true)) (hs' : Steady src') (hb' : bytesOf src' = encode out) (fuel' : Nat)
    (hf' : out.length < fuel') :
    nfcCat ucd15 fuel' src' = some (encode out, true) ↔ (∀ a b, s ≠ a ++ '\r' :: '\r' :: '\n' :: b) ∧ s.getLast? ≠ some '\r' := by
  rw [c97_ssnfc_cat s src hs hb fuel hf] at h
  simp only [Option.some.injEq, Prod.mk.injEq, and_true] at h
  have e := encode_injective h
  subst e
  have hfix : ucd15.nfc (ucd15.nfc (ucd15.streamSafe 0 (unixLines s))) = ucd15.nfc (ucd15.streamSafe 0 (unixLines s)) := nfc_nfc lawful15 _
  rw [c97_nfc_cat _ src' hs' hb' fuel' hf', ← noCrlf_unixLines]
  simp only [Option.some.injEq, Prod.mk.injEq, and_true]
  constructor
  · intro h
    have h1 := congrArg (List.count '\r') (encode_injective h)
    rw [keeps_nfc.count _ _ (Nat.le_refl _)] at h1
    exact (keeps_ssnfc.noCrlf _ _ (Nat.le_refl _)).1 ((unixLines_count _).2 h1)
  · intro h
    have h2 : NoCrlf (ucd15.nfc (ucd15.streamSafe 0 (unixLines s))) := (keeps_ssnfc.noCrlf _ _ (Nat.le_refl _)).2 h
    rw [unixLines_self h2 ?_, hfix]
    rcases unixLines_end s with h0 | h0
    · left; rw [h0]; exact keeps_ssnfc.nil
    · right
      obtain ⟨r, hr⟩ := List.getLast?_eq_some_iff.1 h0
      have := keeps_ssnfc.nl r []
      rw [hr, this]
      rw [show ucd15.nfc (ucd15.streamSafe 0 []) = [] from keeps_ssnfc.nil]
      simp

/-- Not so in general: `nfc-cat` before `text-cat` takes away the variation sequence of a CJK compatibility ideograph, turns U+2329 into another bracket,
and makes one line end of "\r\r\n", where `text-cat` sees two. -/
theorem c142_refuted_nfc_first :
    (ioCopy ucd15 8192 4 (.new false false) (byteScript [] (encode ['\uf900', '\n'])) ⟨[], []⟩ 0).map (·.sink.sent) = some (encode ['\u8c48', '\ufe00', '\n']) ∧
    nfcCat ucd15 9 [.data (encode ['\uf900', '\n'])] = some (encode ['\u8c48', '\n'], true) ∧
    (ioCopy ucd15 8192 4 (.new false false) (byteScript [] (encode ['\u2329', '\n'])) ⟨[], []⟩ 0).map (·.sink.sent) = some (encode ['\ufffd', '\n']) ∧
    nfcCat ucd15 9 [.data (encode ['\u2329', '\n'])] = some (encode ['\u3008', '\n'], true) ∧
    (ioCopy ucd15 8192 4 (.new false false) (byteScript [] (encode ['\r', '\r', '\n'])) ⟨[], []⟩ 0).map (·.sink.sent) = some (encode ['\n', '\n']) ∧
    nfcCat ucd15 9 [.data (encode ['\r', '\r', '\n'])] = some (encode ['\r', '\n'], true) ∧
    (ioCopy ucd15 8192 4 (.new false false) (byteScript [] (encode ['\r', '\n'])) ⟨[], []⟩ 0).map (·.sink.sent) = some (encode ['\n']) := by
  decide +kernel

/-- Ill-formed bytes through `utf8-cat`, in pieces, and what `text-cat` makes of them either way. -/
example : utf8Cat [[0xc3], [0xa9, 0xff]] [0x61] = encode ['é', '�', 'a'] ∧
    (ioCopy ucd15 8192 9 (.new false false) (byteScript [[0xc3], [0xa9, 0xff]] [0x61]) ⟨[], []⟩ 0).map (·.sink.sent) = some (encode ['é', '�', 'a', '\n']) ∧
    (ioCopy ucd15 8192 9 (.new false false) (byteScript [] (encode ['é', '�', 'a'])) ⟨[], []⟩ 0).map (·.sink.sent) = some (encode ['é', '�', 'a', '\n']) := by
  decide +kernel

/-- A content as `c142_nfc_first` takes it. -/
example : Ordinary ['e', '\u0301', '\r', '\u0378', '\n'] ∧ StreamSafe (form ucd15 false false ['e', '\u0301', '\r', '\u0378', '\n']) ∧
    (∀ a b, ['e', '\u0301', '\r', '\u0378', '\n'] ≠ a ++ '\r' :: '\n' :: b) ∧
    nfcCat ucd15 9 [.data (encode ['e', '\u0301', '\r', '\u0378', '\n'])] = some (encode ['é', '\r', '\u0378', '\n'], true) ∧
    output ucd15 false false (byteScript [] (encode ['e', '\u0301', '\r', '\u0378', '\n'])) [136] = ['é', '\n', '\u034f', '\u0378', '\u034f', '\n'] := by
  refine ⟨⟨by decide +kernel, NoCgjUn.of_bool (by decide +kernel)⟩, streamSafe_iff.2 (by decide +kernel), ?_, by decide +kernel, by decide +kernel⟩
  exact (unixLines_fix.1 (by decide)).1

end Verif
