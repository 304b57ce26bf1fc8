import Verif.BytesIO
import Verif.Props.Join
import Verif.Props.Unicode
import Verif.Props.Reader
import Verif.Props.Writer

/-!
# Arbitrary bytes (C67–C70)

What the fuzz target (`fuzz/fuzz_targets/text.rs`) asserts for the bytes it tries, for all bytes.  A `Utf8Reader` over the bytes `b`
delivers `utf8Lossy b`, in pieces that depend on the source and the buffers; theorems are about all pieces.
-/

namespace Verif
open Ucd Spec

/-- `char::is_control`: General_Category Cc. -/
def Spec.IsControl (c : Char) : Prop := c.toNat ≤ 0x1f ∨ (0x7f ≤ c.toNat ∧ c.toNat ≤ 0x9f)

theorem control_ok : ∀ n < 0xa0, okChar (Char.ofNat n) = true → n ≤ 0x1f ∨ 0x7f ≤ n → n = 10 ∨ n = 9 := by decide +kernel

theorem ok_control {c : Char} (h : okChar c = true) (hc : IsControl c) : c = '\n' ∨ c = '\t' := by
  have e := Char.ofNat_toNat c
  have := control_ok c.toNat (by unfold IsControl at hc; omega) (by rw [e]; exact h) (by unfold IsControl at hc; omega)
  rcases this with h | h
  · exact Or.inl (by rw [← e, h])
  · exact Or.inr (by rw [← e, h])

/-- What the fuzz target asserts about the text read (`fuzz/fuzz_targets/text.rs:19-42`). -/
structure Spec.Sane (s : List Char) : Prop where
  noBom : '﻿' ∉ s
  noOrc : '￼' ∉ s
  newline : s = [] ∨ s.getLast? = some '\n'
  controls : ∀ c ∈ s, IsControl c → c = '\n' ∨ c = '\t'
  streamSafe : StreamSafe s
  nfc : InNfc s
  starter : ∀ c ∈ s.head?, ucd15.ccc c = 0

theorem sane_of {s : List Char} (h : isBasicText ucd15 s = true) (hn : s = [] ∨ s.getLast? = some '\n') : Sane s := by
  obtain ⟨h1, -, h3⟩ := text_iff.1 h
  have hk := (substr_iff.1 h3).1
  have hb := substring_iff.2 h3
  exact {
    noBom := fun hc => absurd (hk _ hc) (by decide)
    noOrc := fun hc => absurd (hk _ hc) (by decide)
    newline := hn
    controls := fun c hc => ok_control (hk c hc)
    streamSafe := hb.streamSafe
    nfc := hb.nfc
    starter := fun c hc => start_ccc textLaws15 (h1 c hc) }

/-- The pieces in which a `Utf8Reader` may deliver the bytes `b`. -/
def Delivers (b : Bytes) (chunks : List (List Char)) (last : List Char) : Prop := chunks.flatten ++ last = utf8Lossy b

/-! ## C67 -/

/-- C67: whatever the bytes, in whatever pieces they come and whatever the buffers, what a plain, NEL or LSPS reader delivers up to the
end has no byte-order mark, no object replacement character, no control codes but U+A and U+9, is empty or ends with U+A, is in NFC
and in Stream-Safe Text Format, and does not start with a non-starter; and `TextStr::from_text` accepts it. -/
theorem c67_bytes_read (b : Bytes) (nel lsps : Bool) (chunks : List (List Char)) (last : List Char) (_ : Delivers b chunks last) (lens : List Nat)
    (hc : Completes ucd15 nel lsps (script chunks last) lens) :
    Sane (output ucd15 nel lsps (script chunks last) lens) ∧
    fromText (isBasicText ucd15) (output ucd15 nel lsps (script chunks last) lens) = .ok (output ucd15 nel lsps (script chunks last) lens) := by
  have hs := no_err_in_script chunks last
  have hv := (c14_reader_output_valid nel lsps _ hs lens).2.2 hc
  refine ⟨sane_of hv ?_, fromText_ok hv⟩
  obtain ⟨r, n, hr, hok⟩ := hc
  unfold output
  rw [run_delivered textLaws15 nel lsps hs]
  exact (c15_reader_ends_newline nel lsps _ lens r n hr hok).1

/-- C67: with buffers of at least 136 bytes the end is reached. -/
theorem c67_bytes_end (b : Bytes) (nel lsps : Bool) (chunks : List (List Char)) (last : List Char) (_ : Delivers b chunks last)
    (lens : Nat → Nat) (hl : ∀ i, 136 ≤ lens i) : ∃ n, Completes ucd15 nel lsps (script chunks last) ((List.range n).map lens) :=
  c15_reader_reaches_end nel lsps _ lens hl

example : Delivers [0xef, 0xbb, 0xbf, 0x65, 0xcc, 0x81, 0x1b, 0xff, 0xe2, 0x80] [['﻿', 'e', '́']] ['\x1b', '�', '�'] ∧
    Completes ucd15 false false (script [['﻿', 'e', '́']] ['\x1b', '�', '�']) [136, 136] ∧
    output ucd15 false false (script [['﻿', 'e', '́']] ['\x1b', '�', '�']) [136, 136] = ['é', '�', '�', '\n'] :=
  ⟨by unfold Delivers; decide, completes_of (by decide +kernel), by decide +kernel⟩

/-! ## C68 -/

/-- C68: `write_all` of any bytes on any writer comes to an end, without panicking. -/
theorem c68_write_all_total (w : Writer) (b : Bytes) : ∃ w' o, writeAll ucd15 w b = some (w', o) ∧ o ≠ .panic :=
  writeAll_total textLaws15 w b

/-- C68: exactly which bytes can be written as a whole and the writer closed: the UTF-8 encodings of strings of allowed scalars whose
first may start Basic Text, that are empty or end with U+A. -/
theorem c68_write_close_iff (k : Sink) (hd : k.dead = false) (hk : k.script = []) (b : Bytes) :
    (∃ T, writeClose ucd15 (.new k) b = some T) ↔ ∃ s, b = encode s ∧ (∀ c ∈ s, checkChar c = none ∧ c ≠ ESC) ∧
      (∀ c ∈ s.head?, isStart ucd15 c = true) ∧ (s = [] ∨ s.getLast? = some '\n') := by
  constructor
  · rintro ⟨T, h⟩
    obtain ⟨s, h1, h2, h3, h4, -⟩ := (writeClose_iff textLaws15 hd hk).1 h
    exact ⟨s, h1, fun c hc => okChar_check.1 (h2 c hc), head_normChain_conv textLaws15 startLaws15 h3, h4⟩
  · rintro ⟨s, h1, h2, h3, h4⟩
    exact ⟨_, (writeClose_iff textLaws15 hd hk).2 ⟨s, h1, fun c hc => okChar_check.2 (h2 c hc), head_normChain textLaws15 h3, h4, rfl⟩⟩

/-- C68: if everything can be written and the writer closed, then a reader of these bytes in one piece delivers exactly what the sink has
got, and `TextStr::from_text` accepts it. -/
theorem c68_written_is_read (k : Sink) (hd : k.dead = false) (hk : k.script = []) (h0 : k.sent = []) (b : Bytes) (T : List Char)
    (hw : writeClose ucd15 (.new k) b = some T) (nel lsps : Bool) (lens : List Nat)
    (hr : Completes ucd15 nel lsps (script [] (utf8Lossy b)) lens) :
    output ucd15 nel lsps (script [] (utf8Lossy b)) lens = T ∧ fromText (isBasicText ucd15) T = .ok T := by
  obtain ⟨s, rfl, h2, h3, h4, h5⟩ := (writeClose_iff textLaws15 hd hk).1 hw
  rw [utf8Lossy_encode] at hr ⊢
  rw [h0, List.nil_append] at h5
  subst h5
  have hl : normChain ucd15 s = [] ∨ (normChain ucd15 s).getLast? = some '\n' := by
    rcases h4 with rfl | h4
    · exact Or.inl normChain_nil
    · exact Or.inr ((last_normChain_nl textLaws15).2 h4)
  have hs := head_normChain_conv textLaws15 startLaws15 h3
  constructor
  · rw [output_single textLaws15 hr, ok_dropBom h2, normChain_translate textLaws15 hs h2]
    rcases hl with hl | hl <;> simp [endTail, hl]
  · refine fromText_ok (normChain_valid textLaws15 ⟨h2, hs, ?_⟩)
    intro c hc
    rcases h4 with rfl | h4
    · simp at hc
    · rw [h4] at hc
      simp only [Option.mem_def, Option.some.injEq] at hc
      subst hc; decide

/-- C68 for bytes that come in any pieces, if no U+34F in them comes directly before an unassigned scalar.  Missing: bytes with such a pair. -/
theorem c68_written_is_read_split_partial (k : Sink) (hd : k.dead = false) (hk : k.script = []) (h0 : k.sent = []) (b : Bytes) (T : List Char)
    (hw : writeClose ucd15 (.new k) b = some T) (nel lsps : Bool) (chunks : List (List Char)) (last : List Char) (hb : Delivers b chunks last)
    (hn : Clear ucd15 nel lsps (utf8Lossy b)) (lens : List Nat)
    (hr : Completes ucd15 nel lsps (script chunks last) lens) : output ucd15 nel lsps (script chunks last) lens = T := by
  obtain ⟨n, hc⟩ := c15_reader_reaches_end nel lsps (script [] (utf8Lossy b)) (fun _ => normalizationBufferSize) (fun _ => Nat.le_refl _)
  rw [← (c68_written_is_read k hd hk h0 b T hw nel lsps _ hc).1]
  obtain ⟨s, rfl, h2, -⟩ := (writeClose_iff textLaws15 hd hk).1 hw
  unfold Delivers at hb
  rw [utf8Lossy_encode] at hb hn hc ⊢
  have hbom : s.head? ≠ some BOM := fun h => absurd (h2 BOM (List.mem_of_mem_head? h)) (by decide)
  exact c16_chunk_independent_partial nel lsps chunks [] last _ lens _ (by simpa using hb) (Or.inr (by rw [hb]; exact hbom)) (Or.inr (by simpa using hbom))
    (by rw [hb]; exact hn) hr hc

/-- With such a pair, the pieces matter. -/
theorem c68_refuted_split : ∃ b T chunks last lens, writeClose ucd15 (.new goodSink) b = some T ∧ Delivers b chunks last ∧
    Completes ucd15 false false (script chunks last) lens ∧ output ucd15 false false (script chunks last) lens ≠ T :=
  ⟨encode [CGJ, '͸', '\n'], [CGJ, '͸', '\n'], [[CGJ], ['͸', '\n']], [], [136, 136, 136], by decide +kernel,
    by unfold Delivers; decide +kernel, completes_of (by decide +kernel), by decide +kernel⟩

/-- C68: if the bytes cannot all be written and the writer closed, then every reader changes them, in whatever pieces they come; and if
they end with U+A, then neither `TextStr::from_text_bytes` nor `TextString::from_text_vec` accepts them. -/
theorem c68_rejected_is_changed (k : Sink) (hd : k.dead = false) (hk : k.script = []) (b : Bytes) (hw : writeClose ucd15 (.new k) b = none) :
    (∀ nel lsps chunks last lens, Delivers b chunks last → Completes ucd15 nel lsps (script chunks last) lens →
      encode (output ucd15 nel lsps (script chunks last) lens) ≠ b) ∧
    (b.getLast? = some 0xa → (∀ t, fromTextBytes (isBasicText ucd15) b ≠ .ok t) ∧ ∀ t, fromTextVec ucd15 (isBasicText ucd15) b ≠ .ok t) := by
  have key : ∀ s, b = encode s → (∀ c ∈ s, okChar c = true) → (∀ c ∈ s.head?, isStart ucd15 c = true) →
      s = [] ∨ s.getLast? = some '\n' → False := by
    intro s h1 h2 h3 h4
    have := (writeClose_iff textLaws15 hd hk).2 ⟨s, h1, h2, head_normChain textLaws15 h3, h4, rfl⟩
    rw [hw] at this
    simp at this
  constructor
  · intro nel lsps chunks last lens hb hc he
    obtain ⟨h1, h2⟩ := c67_bytes_read b nel lsps chunks last hb lens hc
    obtain ⟨h3, -, h4⟩ := text_iff.1 (fromText_ok_iff.1 h2).1
    exact key _ he.symm (substr_iff.1 h4).1 h3 h1.newline
  · intro hl
    have hlast : ∀ s, b = encode s → s.getLast? = some '\n' := by
      rintro s rfl
      rcases List.eq_nil_or_concat s with rfl | ⟨x, c, rfl⟩
      · simp [encode] at hl
      · rw [List.concat_eq_append] at hl ⊢
        rw [encode_append, List.getLast?_append] at hl
        have hne := encodeChar_ne_nil c
        have : (encodeChar c).getLast? = some 0xa := by
          have e : encode [c] = encodeChar c := by simp [encode]
          rw [e] at hl
          cases hq : (encodeChar c).getLast? with
          | none => rw [List.getLast?_eq_none_iff] at hq; contradiction
          | some d => rw [hq] at hl; simpa using hl
        have hc : c = '\n' := by
          obtain ⟨d, r, h1, h2, h3⟩ := encodeChar_head c
          rw [h1] at this
          rcases List.eq_nil_or_concat r with rfl | ⟨r', e, rfl⟩
          · simp only [List.getLast?_singleton, Option.some.injEq] at this
            subst this
            have := decode1_encode c []
            rw [h1] at this
            simp at this
            have h4 : decode1 [0xa] = some ('\n', []) := by decide
            rw [h4] at this
            simp at this
            exact this.symm
          · rw [List.concat_eq_append] at this h3
            rw [← List.cons_append, List.getLast?_append] at this
            have he : e = 0xa := by simpa using this
            have := h3 e (by simp)
            subst he
            exact absurd this (by decide)
        simp [hc]
    constructor
    · intro t ht
      obtain ⟨s, h1, h2⟩ := (c51_bytes_borrowed _ b t).1 ht
      obtain ⟨h3, -, h4⟩ := text_iff.1 (fromText_ok_iff.1 h2).1
      exact key s h1 (substr_iff.1 h4).1 h3 (Or.inr (hlast s h1))
    · intro t ht
      obtain ⟨s, h1, h2⟩ := (c51_bytes_owned _ b t).1 ht
      obtain ⟨h3, -⟩ := (owned_ok_iff isBasicText_nil).1 h2
      exact key s h1 h3.1 h3.2.1 (Or.inr (hlast s h1))

example : writeClose ucd15 (.new goodSink) (encode ['e', '́', '\n']) = some ['é', '\n'] ∧
    writeClose ucd15 (.new goodSink) [0x61, 0xff, 0xa] = none ∧ writeClose ucd15 (.new goodSink) (encode ['a']) = none ∧
    writeClose ucd15 (.new goodSink) (encode ['́', '\n']) = none := by decide +kernel

/-! ## C69 -/

/-- C69: what readers deliver is closed under concatenation: any two texts read to their ends make one Basic Text together, which is again
such as a reader delivers. -/
theorem c69_concatenation (nel lsps nel' lsps' : Bool) (src src' : List Event) (hs : ∀ e ∈ src, e ≠ .err) (hs' : ∀ e ∈ src', e ≠ .err)
    (lens lens' : List Nat) (hc : Completes ucd15 nel lsps src lens) (hc' : Completes ucd15 nel' lsps' src' lens') :
    fromText (isBasicText ucd15) (output ucd15 nel lsps src lens ++ output ucd15 nel' lsps' src' lens') =
      .ok (output ucd15 nel lsps src lens ++ output ucd15 nel' lsps' src' lens') ∧
    Sane (output ucd15 nel lsps src lens ++ output ucd15 nel' lsps' src' lens') := by
  have end_ : ∀ {nel lsps src lens}, (∀ e ∈ src, e ≠ .err) → Completes ucd15 nel lsps src lens →
      output ucd15 nel lsps src lens = [] ∨ (output ucd15 nel lsps src lens).getLast? = some '\n' := by
    intro nel lsps src lens hs hc
    obtain ⟨r, n, hr, hok⟩ := hc
    unfold output
    rw [run_delivered textLaws15 nel lsps hs]
    exact (c15_reader_ends_newline nel lsps _ lens r n hr hok).1
  have v := (c14_reader_output_valid nel lsps src hs lens).2.2 hc
  have v' := (c14_reader_output_valid nel' lsps' src' hs' lens').2.2 hc'
  have h := text_append_newline textLaws15 v v' (end_ hs hc)
  refine ⟨fromText_ok h, sane_of h ?_⟩
  rcases end_ hs' hc' with e | e
  · rw [e, List.append_nil]; exact end_ hs hc
  · right; rw [List.getLast?_append, e]; rfl

/-- C69: reading the concatenation, in whatever pieces, gives the concatenation, if every scalar is assigned. -/
theorem c69_concatenation_read (nel lsps nel' lsps' : Bool) (src src' : List Event) (hs : ∀ e ∈ src, e ≠ .err) (hs' : ∀ e ∈ src', e ≠ .err)
    (lens lens' : List Nat) (hc : Completes ucd15 nel lsps src lens) (hc' : Completes ucd15 nel' lsps' src' lens')
    (ha : ∀ c ∈ output ucd15 nel lsps src lens ++ output ucd15 nel' lsps' src' lens', isAssigned ucd15 c = true)
    (nel2 lsps2 : Bool) (chunks : List (List Char)) (last : List Char)
    (hd : chunks.flatten ++ last = output ucd15 nel lsps src lens ++ output ucd15 nel' lsps' src' lens') (lens2 : List Nat)
    (h2 : Completes ucd15 nel2 lsps2 (script chunks last) lens2) :
    output ucd15 nel2 lsps2 (script chunks last) lens2 = output ucd15 nel lsps src lens ++ output ucd15 nel' lsps' src' lens' := by
  obtain ⟨h1, h3⟩ := c69_concatenation nel lsps nel' lsps' src src' hs hs' lens lens' hc hc'
  rw [← hd] at h1 h3 ha ⊢
  exact c18_reader_identity nel2 lsps2 chunks last lens2 (fromText_ok_iff.1 h1).1 ha h3.newline h2

example : output ucd15 false false (script [] ['q', 'ᄀ']) [136] ++ output ucd15 false false (script [] ['ᅡ']) [136] =
    ['q', 'ᄀ', '\n', 'ᅡ', '\n'] := by decide +kernel

/-! ## C70 -/

/-- `TextString::from_text_bytes_lossy` (`src/text_string.rs:179-182`) of `b` gives `t`, when the slice reader of `from_text_lossy` hands over
`chunks` and `last`. -/
def ConvertsBytes (b : Bytes) (chunks : List (List Char)) (last : List Char) (lens : Nat → Nat) (t : List Char) : Prop :=
  Delivers b chunks last ∧ Converts chunks last lens t

/-- C70: `from_text_bytes_lossy` succeeds on all bytes, and the result is Basic Text. -/
theorem c70_bytes_lossy_total_valid (b : Bytes) (chunks : List (List Char)) (last : List Char) (hd : Delivers b chunks last)
    (hb : SliceReads chunks last) (lens : Nat → Nat) (hl : ∀ i, normalizationBufferSize ≤ lens i) :
    ∃ t, ConvertsBytes b chunks last lens t ∧ fromText (isBasicText ucd15) t = .ok t := by
  obtain ⟨t, h1, h2⟩ := c01_lossy_total_valid chunks last hb lens hl
  exact ⟨t, ⟨hd, h1⟩, h2⟩

/-- C70: on well-formed bytes it is `from_text_lossy` of the string they encode. -/
theorem c70_bytes_lossy_well_formed (s : List Char) (chunks : List (List Char)) (last : List Char) (lens : Nat → Nat) (t : List Char) :
    ConvertsBytes (encode s) chunks last lens t ↔ chunks.flatten ++ last = s ∧ Converts chunks last lens t := by
  unfold ConvertsBytes Delivers
  rw [utf8Lossy_encode]

/-- C70: it returns what `from_text_bytes` accepts, if every scalar is assigned. -/
theorem c70_bytes_lossy_accepted (b : Bytes) (t t' : List Char) (h : fromTextBytes (isBasicText ucd15) b = .ok t)
    (ha : ∀ c ∈ t, isAssigned ucd15 c = true) (chunks : List (List Char)) (last : List Char)
    (hb : SliceReads chunks last) (lens : Nat → Nat) (hl : ∀ i, normalizationBufferSize ≤ lens i) (hc : ConvertsBytes b chunks last lens t') :
    t' = t := by
  obtain ⟨s, rfl, h2⟩ := (c51_bytes_borrowed _ b t).1 h
  obtain ⟨h3, rfl⟩ := fromText_ok_iff.1 h2
  obtain ⟨h4, h5⟩ := (c70_bytes_lossy_well_formed _ _ _ _ _).1 hc
  exact h5.unique (c02_lossy_fixes_valid _ h2 ha chunks last h4 hb lens hl)

/-- C70: what ill-formed bytes become: the longest beginning of a well-formed sequence at the front, or one byte if there is none,
becomes one U+FFFD, and the rest is converted on its own; a well-formed sequence at the front becomes its scalar. -/
theorem c70_ill_formed (b : Bytes) (hb : b ≠ []) :
    (∃ c r, b = encodeChar c ++ r ∧ utf8Lossy b = c :: utf8Lossy r) ∨
    ((∀ c, ¬ encodeChar c <+: b) ∧ ∃ k, 0 < k ∧ k ≤ b.length ∧ (k = 1 ∨ Subpart (b.take k)) ∧
      (∀ j, k < j → j ≤ b.length → ¬ Subpart (b.take j)) ∧ utf8Lossy b = '�' :: utf8Lossy (b.drop k)) := by
  cases h : decode1 b with
  | some p =>
    obtain ⟨c, r⟩ := p
    exact Or.inl ⟨c, r, decode1_some h, utf8Lossy_good h⟩
  | none =>
    refine Or.inr ⟨?_, badLen b, badLen_pos hb, badLen_le b, ?_, (badLen_spec h).2, utf8Lossy_bad h hb⟩
    · rintro c ⟨r, rfl⟩
      rw [decode1_encode] at h; simp at h
    · have := badLen_pos hb
      exact (badLen_spec h).1.imp_left (by omega)

example : utf8Lossy [0x61, 0xf0, 0x9f, 0x98, 0xe2, 0x82, 0xac, 0xc0, 0x80, 0xed, 0xa0, 0x80] =
    ['a', '�', '€', '�', '�', '�', '�', '�'] := by decide

end Verif
