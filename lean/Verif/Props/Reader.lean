import Verif.ReaderFacts
import Verif.ReadStd
import Verif.SpecLaws
import Verif.Ucd15Text

/-!
# Properties of the reader (C14–C28)

All statements are about `ucd15`, the Unicode data of the library.  A source is a list of results of
inner reads (`Event`): any contents, any split, any statuses, any errors; `lens` are the lengths of the
client's buffers.
-/

namespace Verif
open Ucd Spec

/-! ## C14 -/

/-- Everything a reader has written to the client's buffers so far, whatever the source does, is a valid
substring and starts properly. -/
theorem c14_reader_writes_valid (nel lsps : Bool) (src : List Event) (lens : List Nat) :
    isBasicTextSubstr ucd15 (written (readMany ucd15 lens (.new nel lsps) src)) = true ∧
    ∀ c ∈ (written (readMany ucd15 lens (.new nel lsps) src)).head?, isStart ucd15 c = true :=
  run_valid textLaws15 nel lsps src lens

/-- C14: as long as the source does not fail, what has been delivered is a valid substring that starts
properly, and a valid Basic Text string once the end has been reported. -/
theorem c14_reader_output_valid (nel lsps : Bool) (src : List Event) (hs : ∀ e ∈ src, e ≠ .err) (lens : List Nat) :
    isBasicTextSubstr ucd15 (output ucd15 nel lsps src lens) = true ∧
    (∀ c ∈ (output ucd15 nel lsps src lens).head?, isStart ucd15 c = true) ∧
    (Completes ucd15 nel lsps src lens → isBasicText ucd15 (output ucd15 nel lsps src lens) = true) := by
  obtain ⟨h1, h2⟩ := run_valid textLaws15 nel lsps src lens
  unfold output
  rw [run_delivered textLaws15 nel lsps hs]
  refine ⟨h1, h2, ?_⟩
  rintro ⟨r, n, hr, hok⟩
  exact text_of_end h1 h2 (run_end textLaws15 hr hok).1

/-- A source that splits an escape sequence, pushes in the middle, and ends without newline. -/
def demoSrc : List Event := [.data ['a', '\x1b'] .active, .data ['[', '1'] .push, .data ['́', 'm', '\r'] .active, .data ['\n', 'b', '‍'] .end_]

example : Completes ucd15 false false demoSrc [200, 200, 136, 200] :=
  completes_of (by decide +kernel)

example : output ucd15 false false demoSrc [200, 200, 136, 200] = ['a', '͏', '́', 'm', '\n', 'b', '‍', '͏', '\n'] := by
  decide +kernel

/-! ## C15 -/

/-- C15: when the end is reported the text is empty or ends with a newline, and nothing is left inside. -/
theorem c15_reader_ends_newline (nel lsps : Bool) (src : List Event) (lens : List Nat) (r : ReadResult) (n : Nat)
    (hr : (readMany ucd15 lens (.new nel lsps) src).getLast? = some r) (hok : r.ret = .ok n .end_) :
    (written (readMany ucd15 lens (.new nel lsps) src) = [] ∨ (written (readMany ucd15 lens (.new nel lsps) src)).getLast? = some '\n') ∧
    r.input.queue = [] ∧ r.input.iter = [] ∧ r.input.quick = 0 :=
  run_end textLaws15 hr hok

/-- Reading on with buffers of at least 136 bytes gets to the end, whatever the source does. -/
theorem c15_reader_reaches_end (nel lsps : Bool) (src : List Event) (lens : Nat → Nat) (hl : ∀ i, normalizationBufferSize ≤ lens i) :
    ∃ n, Completes ucd15 nel lsps src ((List.range n).map lens) := by
  obtain ⟨n, r, h1, k, h2⟩ := reach textLaws15 (ctl_new (U := ucd15) nel lsps) lens hl (.new nel lsps) src [] [] 1 0
    (Rel.init nel lsps) (by simp)
  exact ⟨n, r, k, by rw [List.range_eq_range']; exact h1, h2⟩

/-! ## C16, C17 -/

/-- C17 (what holds): the text delivered for a content is its stream conversion, for every split of the
content and all buffers, provided the first read returns something or there is no byte-order mark,
and no U+34F comes directly before an unassigned scalar (`Clear`). -/
theorem c17_reader_is_stream_partial (nel lsps : Bool) (chunks : List (List Char)) (last : List Char) (lens : List Nat)
    (hb : (chunks ++ [last]).head? ≠ some [] ∨ (chunks.flatten ++ last).head? ≠ some BOM)
    (hn : Clear ucd15 nel lsps (chunks.flatten ++ last))
    (h : Completes ucd15 nel lsps (script chunks last) lens) :
    output ucd15 nel lsps (script chunks last) lens = stream ucd15 nel lsps (chunks.flatten ++ last) :=
  output_stream textLaws15 hb hn h

/-- C17 for a source that hands over its whole content in one read: the only difference to the stream
conversion is that the CGJ after an unassigned scalar that already has one before it is missing. -/
theorem c17_reader_single_read (nel lsps : Bool) (s : List Char) (lens : List Nat) (h : Completes ucd15 nel lsps (script [] s) lens) :
    output ucd15 nel lsps (script [] s) lens = normChain ucd15 (translate ucd15 nel lsps (dropBom s)) :=
  output_single textLaws15 h

example : Completes ucd15 false false (script [['a', '\r'], [], ['\n', '\x0c']] ['é']) [136, 136, 136, 136] :=
  completes_of (by decide +kernel)

/-- Contents with unassigned scalars and U+34F that are `Clear`. -/
example : Clear ucd15 false false ['͸', CGJ, 'a', '͸'] ∧ Clear ucd15 true true [CGJ, '\x1b', '[', 'm', 'a', '͸', '͹', CGJ] := by
  exact ⟨NoCgjUn.of_bool (by decide +kernel), NoCgjUn.of_bool (by decide +kernel)⟩

/-- C16 (what holds): under the same provisos the split and the buffers make no difference. -/
theorem c16_chunk_independent_partial (nel lsps : Bool) (chunks chunks' : List (List Char)) (last last' : List Char) (lens lens' : List Nat)
    (heq : chunks.flatten ++ last = chunks'.flatten ++ last')
    (hb : (chunks ++ [last]).head? ≠ some [] ∨ (chunks.flatten ++ last).head? ≠ some BOM)
    (hb' : (chunks' ++ [last']).head? ≠ some [] ∨ (chunks'.flatten ++ last').head? ≠ some BOM)
    (hn : Clear ucd15 nel lsps (chunks.flatten ++ last))
    (h : Completes ucd15 nel lsps (script chunks last) lens) (h' : Completes ucd15 nel lsps (script chunks' last') lens') :
    output ucd15 nel lsps (script chunks last) lens = output ucd15 nel lsps (script chunks' last') lens' := by
  rw [output_stream textLaws15 hb hn h, output_stream textLaws15 hb' (heq ▸ hn) h', heq]

/-- C16, buffers: for one and the same source the buffers never make a difference. -/
theorem c16_buffer_independent (nel lsps : Bool) (src : List Event) (hsrc : Ending src) (lens lens' : List Nat)
    (h : Completes ucd15 nel lsps src lens) (h' : Completes ucd15 nel lsps src lens') :
    output ucd15 nel lsps src lens = output ucd15 nel lsps src lens' := by
  obtain ⟨r, n, hr, hok⟩ := h
  obtain ⟨r', n', hr', hok'⟩ := h'
  exact ((run_exact textLaws15 hsrc hr hok).1).trans (run_exact textLaws15 hsrc hr' hok').1.symm

example : Ending demoSrc := ⟨demoSrc.take 3, ['\n', 'b', '‍'], rfl, by
  intro e he
  simp only [demoSrc, List.take, List.mem_cons, List.not_mem_nil, or_false] at he
  rcases he with rfl | rfl | rfl
  · exact ⟨_, .active, rfl, by simp⟩
  · exact ⟨_, .push, rfl, by simp⟩
  · exact ⟨_, .active, rfl, by simp⟩⟩

/-- C16 fails in general: an empty first read makes the reader keep a byte-order mark (as U+2060). -/
theorem c16_refuted_by_empty_read : ∃ chunks chunks' last lens lens',
    chunks.flatten ++ last = chunks'.flatten ++ last ∧ Completes ucd15 false false (script chunks last) lens ∧
    Completes ucd15 false false (script chunks' last) lens' ∧
    output ucd15 false false (script chunks last) lens ≠ output ucd15 false false (script chunks' last) lens' :=
  ⟨[], [[]], [BOM, 'a'], [136], [136, 136], by decide, completes_of (by decide +kernel), completes_of (by decide +kernel), by decide +kernel⟩

/-- C16 fails in general: an unassigned scalar after a U+34F of the content gets a U+34F or not, depending
on where the reads fall. -/
theorem c16_refuted_by_unassigned : ∃ chunks chunks' last lens lens',
    chunks.flatten ++ last = chunks'.flatten ++ last ∧ (chunks ++ [last]).head? ≠ some [] ∧ (chunks' ++ [last]).head? ≠ some [] ∧
    Completes ucd15 false false (script chunks last) lens ∧ Completes ucd15 false false (script chunks' last) lens' ∧
    output ucd15 false false (script chunks last) lens ≠ output ucd15 false false (script chunks' last) lens' :=
  ⟨[[CGJ], ['͸', '\n']], [[CGJ, '͸', '\n']], ['a'], [136, 136, 136], [136, 136], by decide, by decide, by decide,
    completes_of (by decide +kernel), completes_of (by decide +kernel), by decide +kernel⟩

/-! ## C18 -/

/-- C18: reading a Basic Text stream of assigned scalars is the identity, however it is split. -/
theorem c18_reader_identity (nel lsps : Bool) (chunks : List (List Char)) (last : List Char) (lens : List Nat)
    (hv : isBasicText ucd15 (chunks.flatten ++ last) = true) (ha : ∀ c ∈ chunks.flatten ++ last, isAssigned ucd15 c = true)
    (hnl : chunks.flatten ++ last = [] ∨ (chunks.flatten ++ last).getLast? = some '\n')
    (h : Completes ucd15 nel lsps (script chunks last) lens) :
    output ucd15 nel lsps (script chunks last) lens = chunks.flatten ++ last := by
  have hb : (chunks.flatten ++ last).head? ≠ some BOM := by
    intro hc
    obtain ⟨-, -, h3⟩ := text_iff.1 hv
    have := (substr_iff.1 h3).1 BOM (List.mem_of_mem_head? hc)
    exact (ok_not_special this).2.2.2.2.2.2 rfl
  rw [output_stream textLaws15 (Or.inr hb) (clear_of textLaws15 (Or.inl ha)) h, stream_valid textLaws15 hv ha, if_pos hnl]

/-- Without the final newline, one is added and nothing else. -/
theorem c18_reader_adds_newline (nel lsps : Bool) (chunks : List (List Char)) (last : List Char) (lens : List Nat)
    (hv : isBasicText ucd15 (chunks.flatten ++ last) = true) (ha : ∀ c ∈ chunks.flatten ++ last, isAssigned ucd15 c = true)
    (hne : chunks.flatten ++ last ≠ []) (hnl : (chunks.flatten ++ last).getLast? ≠ some '\n')
    (h : Completes ucd15 nel lsps (script chunks last) lens) :
    output ucd15 nel lsps (script chunks last) lens = chunks.flatten ++ last ++ ['\n'] := by
  have hb : (chunks.flatten ++ last).head? ≠ some BOM := by
    intro hc
    obtain ⟨-, -, h3⟩ := text_iff.1 hv
    have := (substr_iff.1 h3).1 BOM (List.mem_of_mem_head? hc)
    exact (ok_not_special this).2.2.2.2.2.2 rfl
  rw [output_stream textLaws15 (Or.inr hb) (clear_of textLaws15 (Or.inl ha)) h, stream_valid textLaws15 hv ha, if_neg (not_or.2 ⟨hne, hnl⟩)]

example : isBasicText ucd15 ['é', '각', '\n'] = true ∧ (∀ c ∈ ['é', '각', '\n'], isAssigned ucd15 c = true) ∧
    Completes ucd15 false false (script [['é']] ['각', '\n']) [136, 136] :=
  ⟨by decide +kernel, by decide +kernel, completes_of (by decide +kernel)⟩

/-! ## C19, C20 -/

/-- C19: in every state a reader can be in, a read does not panic; a buffer shorter than 136 bytes is
refused without effect; otherwise what is written fits the buffer, and the count returned is the number
of its bytes. -/
theorem c19_read_total (nel lsps : Bool) (src : List Event) (lens : List Nat) (t : TextInput) (rest : List Event)
    (ht : (t, rest) = finalState (.new nel lsps) src (readMany ucd15 lens (.new nel lsps) src)) (len : Nat) :
    (readWithStatus ucd15 len t rest).ret ≠ .panic ∧
    (len < normalizationBufferSize → readWithStatus ucd15 len t rest = { ret := .invalidInput, out := [], input := t, src := rest }) ∧
    (encode (readWithStatus ucd15 len t rest).out).length ≤ len ∧
    (normalizationBufferSize ≤ len → (readWithStatus ucd15 len t rest).ret = .sourceError ∨
      ∃ st, (readWithStatus ucd15 len t rest).ret = .ok (encode (readWithStatus ucd15 len t rest).out).length st) := by
  obtain ⟨es', -, h2, -, -⟩ := run_rel textLaws15 lens (.new nel lsps) src [] [] (Rel.init nel lsps)
  rw [← ht] at h2
  obtain ⟨k1, k2⟩ := read_rel textLaws15 h2 (len := len) (src := rest) rfl
  by_cases hl : len < normalizationBufferSize
  · refine ⟨by rw [k1 hl]; simp, k1, by rw [k1 hl]; simp [encode_nil], ?_⟩
    intro h; omega
  · obtain ⟨e, c1, c2, c3, c4, c5, -, -⟩ := k2 (by omega)
    have hcase : (readWithStatus ucd15 len t rest).ret = .sourceError ∨
        ∃ st, (readWithStatus ucd15 len t rest).ret = .ok (encode (readWithStatus ucd15 len t rest).out).length st := by
      by_cases he : e = [.err]
      · exact Or.inl (c4 he)
      · obtain ⟨st, h, -⟩ := c5 he; exact Or.inr ⟨st, h⟩
    refine ⟨?_, fun h => absurd h hl, c3, fun _ => hcase⟩
    rcases hcase with h | ⟨st, h⟩ <;> rw [h] <;> simp

theorem clearToBoundary_valid : ∀ (n : Nat) (s : List Char) (k : Nat), (encode s).length - k ≤ n → ∃ t, clearToBoundary ((encode s).drop k) = encode t := by
  intro n
  induction n with
  | zero =>
    intro s k h
    rw [List.drop_eq_nil_of_le (by omega)]
    exact ⟨[], rfl⟩
  | succ n ih =>
    intro s k h
    cases hd : (encode s).drop k with
    | nil => exact ⟨[], rfl⟩
    | cons b r =>
      by_cases hb : isBoundaryByte b = true
      · obtain ⟨x, y, -, -, h2⟩ := drop_boundary s k b r hd hb
        exact ⟨y, by rw [clearToBoundary, if_pos hb, ← h2]⟩
      · have hr : r = (encode s).drop (k + 1) := by
          rw [← List.drop_drop, hd]; rfl
        have hk : k < (encode s).length := by
          apply Classical.byContradiction
          intro hc
          rw [List.drop_eq_nil_of_le (by omega)] at hd
          simp at hd
        obtain ⟨t, ht⟩ := ih s (k + 1) (by omega)
        refine ⟨'\x00' :: t, ?_⟩
        rw [clearToBoundary, if_neg hb, hr, ht]
        rfl

/-- C20 (what holds): after a read that returned `Ok`, the whole `str` buffer is valid UTF-8. -/
theorem c20_read_str_utf8_partial (old : List Char) (t : TextInput) (rest : List Event)
    (hok : (readWithStatus ucd15 (encode old).length t rest).ret.isOk = true) :
    ∃ new, bufferAfter (encode old) (readWithStatus ucd15 (encode old).length t rest) = encode new := by
  generalize readWithStatus ucd15 (encode old).length t rest = r at hok
  unfold bufferAfter
  cases hr : r.ret with
  | ok n st =>
    obtain ⟨x, hx⟩ := clearToBoundary_valid _ old (encode r.out).length (Nat.le_refl _)
    exact ⟨r.out ++ x, by rw [encode_append, ← hx]⟩
  | _ => rw [hr] at hok; simp [Ret.isOk] at hok

/-- C20 (what holds on failure): a refused or failed read that has written nothing leaves the buffer as it was. -/
theorem c20_failed_read_untouched_partial (old : Bytes) (r : ReadResult) (h1 : r.ret.isOk = false) (h2 : r.out = []) :
    bufferAfter old r = old := by
  unfold bufferAfter
  cases hr : r.ret with
  | ok n st => rw [hr] at h1; simp [Ret.isOk] at h1
  | _ => simp [h2, encode_nil]

/-- A reader that still has "aaaa\\n" to deliver when its source fails. -/
def stuck : ReadResult := readWithStatus ucd15 136 (.new false false) [.data (List.replicate 137 'a' ++ ['\n']) .active, .err]

/-- C20 fails: a read that fails after having written something can leave a buffer that is not UTF-8. -/
theorem c20_refuted : ∃ (old : List Char),
    (readWithStatus ucd15 (encode old).length stuck.input stuck.src).ret = .sourceError ∧
    fromUtf8 (bufferAfter (encode old) (readWithStatus ucd15 (encode old).length stuck.input stuck.src)) = none :=
  ⟨List.replicate 68 'é', by decide +kernel, by decide +kernel⟩

/-! ## C21 -/

/-- C21 (what holds): the part of a `TextSubstr` buffer that a successful read reports as filled is a valid
substring; the rest is not touched except for zeros. -/
theorem c21_text_substr_prefix_partial (nel lsps : Bool) (src : List Event) (len : Nat) :
    isBasicTextSubstr ucd15 (readWithStatus ucd15 len (.new nel lsps) src).out = true := by
  have := (run_valid textLaws15 nel lsps src [len]).1
  simpa [readMany, written] using this

/-- C21 fails: the zeros written to get to a character boundary are not Basic Text. -/
theorem c21_refuted : ∃ (old new : List Char) (src : List Event), isBasicTextSubstr ucd15 old = true ∧
    (readWithStatus ucd15 (encode old).length (.new false false) src).ret = .ok 3 .end_ ∧
    fromUtf8 (bufferAfter (encode old) (readWithStatus ucd15 (encode old).length (.new false false) src)) = some new ∧
    isBasicTextSubstr ucd15 new = false :=
  ⟨List.replicate 68 'é', ['a', 'b', '\n', '\x00'] ++ List.replicate 66 'é', [.data ['a', 'b', '\n'] .end_],
    by decide +kernel, by decide +kernel, by decide +kernel, by decide +kernel⟩

/-- C21 fails even without them: the delivered text can compose with what is left of the old content. -/
theorem c21_refuted_seam : ∃ (old new : List Char) (src : List Event), isBasicTextSubstr ucd15 old = true ∧
    (readWithStatus ucd15 (encode old).length (.new false false) src).ret = .ok 133 .active ∧
    fromUtf8 (bufferAfter (encode old) (readWithStatus ucd15 (encode old).length (.new false false) src)) = some new ∧
    isBasicTextSubstr ucd15 new = false :=
  ⟨List.replicate 133 'x' ++ ['́', 'y'], List.replicate 133 'a' ++ ['́', 'y'], [.data (List.replicate 200 'a' ++ ['\n']) .end_],
    by decide +kernel, by decide +kernel, by decide +kernel, by decide +kernel⟩

/-! ## C22 -/

theorem mem_toLF : ∀ (n : Nat) (s : List Char) (c : Char), s.length ≤ n → c ∈ toLF s → c = '\n' ∨ c ∈ s := by
  intro n
  induction n with
  | zero =>
    intro s c hs h
    have : s = [] := List.length_eq_zero_iff.1 (by omega)
    subst this; simp [toLF] at h
  | succ n ih =>
    intro s c hs h
    cases s with
    | nil => simp [toLF] at h
    | cons d s =>
      simp only [List.length_cons] at hs
      by_cases hd : d = '\r'
      · subst hd
        rw [toLF_cr] at h
        rcases List.mem_cons.1 h with h | h
        · exact Or.inl h
        · have := dropOne_le (· = '\n') s
          rcases ih _ c (by omega) h with h | h
          · exact Or.inl h
          · exact Or.inr (List.mem_cons_of_mem _ (mem_dropOne h))
      · rw [toLF_cons hd] at h
        rcases List.mem_cons.1 h with h | h
        · exact Or.inr (by simp [h])
        · rcases ih _ c (by omega) h with h | h
          · exact Or.inl h
          · exact Or.inr (List.mem_cons_of_mem _ h)

/-- C22: for content without ESC, replacing every CRLF and every other CR by LF changes nothing. -/
theorem c22_newline_forms (nel lsps : Bool) (chunks chunks' : List (List Char)) (last last' : List Char) (lens lens' : List Nat)
    (heq : chunks'.flatten ++ last' = toLF (chunks.flatten ++ last)) (hesc : ESC ∉ chunks.flatten ++ last)
    (hb : BomSafe chunks last) (hb' : BomSafe chunks' last')
    (hn : Clear ucd15 nel lsps (chunks.flatten ++ last))
    (h : Completes ucd15 nel lsps (script chunks last) lens) (h' : Completes ucd15 nel lsps (script chunks' last') lens') :
    output ucd15 nel lsps (script chunks last) lens = output ucd15 nel lsps (script chunks' last') lens' := by
  have hf := form_toLF (U := ucd15) nel lsps hesc
  rw [output_stream textLaws15 hb hn h, output_stream textLaws15 hb' (by rw [heq]; exact hn.of_form hf) h', heq, stream_of_form hf]

/-- The single-read form needs no proviso. -/
theorem c22_newline_forms_single (nel lsps : Bool) (s : List Char) (hesc : ESC ∉ s) (lens lens' : List Nat)
    (h : Completes ucd15 nel lsps (script [] s) lens) (h' : Completes ucd15 nel lsps (script [] (toLF s)) lens') :
    output ucd15 nel lsps (script [] s) lens = output ucd15 nel lsps (script [] (toLF s)) lens' := by
  rw [output_single textLaws15 h, output_single textLaws15 h', translate_toLF nel lsps hesc]

example : toLF ['a', '\r', '\n', '\r', '\r', '\n', 'b', '\r'] = ['a', '\n', '\n', '\n', 'b', '\n'] := by decide

example : Completes ucd15 false false (script [['a', '\r']] ['\n', '\r', 'b']) [136, 136] ∧
    Completes ucd15 false false (script [] ['a', '\n', '\n', 'b']) [136] :=
  ⟨completes_of (by decide +kernel), completes_of (by decide +kernel)⟩

/-! ## C23 -/

/-- C23, first half: no ESC is ever delivered (indeed no scalar that Basic Text excludes). -/
theorem c23_no_escape (nel lsps : Bool) (src : List Event) (lens : List Nat) :
    ESC ∉ written (readMany ucd15 lens (.new nel lsps) src) := by
  intro h
  have := (substr_iff.1 (run_valid textLaws15 nel lsps src lens).1).1 ESC h
  exact (ok_not_special this).2.2.1 rfl

/-- C23, second half: a complete escape sequence in the middle of ordinary text contributes nothing.  (`Plain a`:
no ESC in `a`, and it does not end with CR or FF, which would look at what follows.) -/
theorem c23_escape_removed (nel lsps : Bool) (a e b : List Char) (chunks chunks' : List (List Char)) (last last' : List Char)
    (lens lens' : List Nat) (ha : Plain a) (he : IsEscape e) (hne : b ≠ []) (hbom : a ≠ [] ∨ b.head? ≠ some BOM)
    (h1 : chunks.flatten ++ last = a ++ e ++ b) (h2 : chunks'.flatten ++ last' = a ++ b)
    (hb : BomSafe chunks last) (hb' : BomSafe chunks' last')
    (hn : Clear ucd15 nel lsps (a ++ b))
    (h : Completes ucd15 nel lsps (script chunks last) lens) (h' : Completes ucd15 nel lsps (script chunks' last') lens') :
    output ucd15 nel lsps (script chunks last) lens = output ucd15 nel lsps (script chunks' last') lens' := by
  have hf := form_escape (U := ucd15) nel lsps ha he hne hbom
  rw [output_stream textLaws15 hb (h1 ▸ hn.of_form hf) h, output_stream textLaws15 hb' (h2 ▸ hn) h', h1, h2, stream_of_form hf]

/-- The same at the very end of the content, after an ordinary scalar. -/
theorem c23_escape_removed_at_end (nel lsps : Bool) (a e : List Char) (c : Char) (chunks chunks' : List (List Char)) (last last' : List Char)
    (lens lens' : List Nat) (ha : Plain (a ++ [c])) (hp : Plain a) (he : IsEscape e) (hc : c ≠ '\n' ∧ single nel lsps c ≠ .nl ∧ c ≠ BOM)
    (h1 : chunks.flatten ++ last = a ++ [c] ++ e) (h2 : chunks'.flatten ++ last' = a ++ [c])
    (hb : BomSafe chunks last) (hb' : BomSafe chunks' last')
    (hn : Clear ucd15 nel lsps (a ++ [c]))
    (h : Completes ucd15 nel lsps (script chunks last) lens) (h' : Completes ucd15 nel lsps (script chunks' last') lens') :
    output ucd15 nel lsps (script chunks last) lens = output ucd15 nel lsps (script chunks' last') lens' := by
  have hf := form_escape_end (U := ucd15) nel lsps ha hp he hc
  rw [output_stream textLaws15 hb (h1 ▸ hn.of_form hf) h, output_stream textLaws15 hb' (h2 ▸ hn) h', h1, h2, stream_of_form hf]

example : IsEscape ['\x1b', '[', '3', '8', ';', '5', 'm'] ∧ IsEscape ['\x1b', ']', '0', ';', 'é', '\x07'] ∧
    IsEscape ['\x1b', '[', '[', 'A'] ∧ IsEscape ['\x1b', 'c'] ∧ Plain ['a', '\r', '\n'] :=
  ⟨.csi ['3', '8', ';', '5'] 'm' (by decide) (by decide) (by decide), .osc ['0', ';', 'é'] '\x07' (by decide) (by decide),
    .linux 'A' (by decide), .two 'c' (by decide) (by decide) (by decide), by decide, by decide, by decide⟩

/-- An escape sequence after a final newline does leave a trace: another newline. -/
theorem c23_trailing_escape_adds_newline :
    output ucd15 false false (script [] ['a', '\n', '\x1b', '[', 'm']) [136] = ['a', '\n', '\n'] := by decide +kernel

/-! ## C24 -/

/-- C24 (what holds): a byte-order mark at the very start is not delivered, unless the first read is empty. -/
theorem c24_bom_dropped_partial (nel lsps : Bool) (s : List Char) (chunks chunks' : List (List Char)) (last last' : List Char)
    (lens lens' : List Nat) (h1 : chunks.flatten ++ last = BOM :: s) (h2 : chunks'.flatten ++ last' = s) (hs : s.head? ≠ some BOM)
    (hfirst : (chunks ++ [last]).head? ≠ some [])
    (hn : Clear ucd15 nel lsps s)
    (h : Completes ucd15 nel lsps (script chunks last) lens) (h' : Completes ucd15 nel lsps (script chunks' last') lens') :
    output ucd15 nel lsps (script chunks last) lens = output ucd15 nel lsps (script chunks' last') lens' := by
  have hf := form_bom (U := ucd15) nel lsps hs
  rw [output_stream textLaws15 (Or.inl hfirst) (h1 ▸ hn.of_form hf) h, output_stream textLaws15 (Or.inr (h2 ▸ hs)) (h2 ▸ hn) h', h1, h2, stream_of_form hf]

/-- C24, second mark: it is delivered as U+2060. -/
theorem c24_second_bom_partial (nel lsps : Bool) (s : List Char) (chunks chunks' : List (List Char)) (last last' : List Char)
    (lens lens' : List Nat) (h1 : chunks.flatten ++ last = BOM :: BOM :: s) (h2 : chunks'.flatten ++ last' = WJ :: s)
    (hfirst : (chunks ++ [last]).head? ≠ some [])
    (hn : Clear ucd15 nel lsps (WJ :: s))
    (h : Completes ucd15 nel lsps (script chunks last) lens) (h' : Completes ucd15 nel lsps (script chunks' last') lens') :
    output ucd15 nel lsps (script chunks last) lens = output ucd15 nel lsps (script chunks' last') lens' := by
  have hf := form_second_bom (U := ucd15) nel lsps s
  rw [output_stream textLaws15 (Or.inl hfirst) (h1 ▸ hn.of_form hf) h,
    output_stream textLaws15 (Or.inr (by rw [h2]; exact fun hc => absurd (Option.some.inj hc) (by decide))) (h2 ▸ hn) h', h1, h2, stream_of_form hf]

/-- C24 fails for a source whose first read is empty. -/
theorem c24_refuted : output ucd15 false false (script [[]] [BOM, 'a']) [136, 136] = [WJ, 'a', '\n'] ∧
    Completes ucd15 false false (script [[]] [BOM, 'a']) [136, 136] := ⟨by decide +kernel, completes_of (by decide +kernel)⟩

/-- An empty first read and a byte order mark read alone have the same effect. -/
theorem read_empty_bom (len : Nat) (nel lsps : Bool) (rest : List Event) (hl : normalizationBufferSize ≤ len) :
    readWithStatus ucd15 len (.new nel lsps) (.data [] .active :: rest) = readWithStatus ucd15 len (.new nel lsps) (.data [BOM] .active :: rest) := by
  have hN : normalizationBufferSize = 136 := rfl
  have hd : drain ucd15 (len + 1) len (.new nel lsps) = (.empty, [], .new nel lsps) := by rw [drain]; rfl
  rw [readWithStatus, readWithStatus, if_neg (by omega), if_neg (by omega), hd]
  rfl

theorem run_empty_bom (nel lsps : Bool) (rest : List Event) (lens : List Nat) (hl : ∀ len ∈ lens, normalizationBufferSize ≤ len) :
    readMany ucd15 lens (.new nel lsps) (.data [] .active :: rest) = readMany ucd15 lens (.new nel lsps) (.data [BOM] .active :: rest) := by
  cases lens with
  | nil => rfl
  | cons len lens => rw [readMany, readMany, read_empty_bom len nel lsps rest (hl len (by simp))]

/-- C24, exactly what goes wrong: an empty first read is taken for the byte order mark, so that a real one after it is delivered as U+2060,
like a second one. -/
theorem c24_empty_first (nel lsps : Bool) (s : List Char) (chunks chunks' : List (List Char)) (last last' : List Char)
    (lens lens' : List Nat) (h1 : chunks.flatten ++ last = BOM :: s) (h2 : chunks'.flatten ++ last' = WJ :: s)
    (hl : ∀ len ∈ lens, normalizationBufferSize ≤ len) (hn : Clear ucd15 nel lsps (WJ :: s))
    (h : Completes ucd15 nel lsps (script ([] :: chunks) last) lens) (h' : Completes ucd15 nel lsps (script chunks' last') lens') :
    output ucd15 nel lsps (script ([] :: chunks) last) lens = output ucd15 nel lsps (script chunks' last') lens' := by
  have he : readMany ucd15 lens (.new nel lsps) (script ([] :: chunks) last) = readMany ucd15 lens (.new nel lsps) (script ([BOM] :: chunks) last) :=
    run_empty_bom nel lsps (script chunks last) lens hl
  have hc : Completes ucd15 nel lsps (script ([BOM] :: chunks) last) lens := by
    unfold Completes at h ⊢
    rwa [← he]
  rw [output, he]
  exact c24_second_bom_partial nel lsps s ([BOM] :: chunks) chunks' last last' lens lens' (by simp [h1]) h2 (by simp) hn hc h'

example : Completes ucd15 false false (script ([] :: [[BOM], ['a']]) []) [136, 136, 136, 136] ∧ Completes ucd15 false false (script [] [WJ, 'a']) [136] :=
  ⟨completes_of (by decide +kernel), completes_of (by decide +kernel)⟩

/-! ## C25 -/

/-- C25: the modes make no difference to content without the scalars they are about. -/
theorem c25_modes_only_affect (nel lsps nel' lsps' : Bool) (chunks : List (List Char)) (last : List Char) (lens lens' : List Nat)
    (h1 : nel ≠ nel' → NEL ∉ chunks.flatten ++ last) (h2 : lsps ≠ lsps' → LS ∉ chunks.flatten ++ last ∧ PS ∉ chunks.flatten ++ last)
    (hb : BomSafe chunks last)
    (hn : Clear ucd15 nel lsps (chunks.flatten ++ last))
    (h : Completes ucd15 nel lsps (script chunks last) lens) (h' : Completes ucd15 nel' lsps' (script chunks last) lens') :
    output ucd15 nel lsps (script chunks last) lens = output ucd15 nel' lsps' (script chunks last) lens' := by
  rw [output_stream textLaws15 hb hn h, output_stream textLaws15 hb (hn.of_form (form_modes h1 h2).symm) h',
    stream_of_form (form_modes h1 h2)]

/-- C25: with the mode, U+85, U+2028 and U+2029 in ordinary text stand for a newline; without it for a space. -/
theorem c25_modes_translate (nel lsps : Bool) (a b : List Char) (c : Char) (hc : c = NEL ∨ c = LS ∨ c = PS)
    (chunks chunks' : List (List Char)) (last last' : List Char) (lens lens' : List Nat) (ha : Plain a)
    (h1 : chunks.flatten ++ last = a ++ c :: b)
    (h2 : chunks'.flatten ++ last' = a ++ (if (if c = NEL then nel else lsps) then '\n' else ' ') :: b)
    (hb : BomSafe chunks last) (hb' : BomSafe chunks' last')
    (hn : Clear ucd15 nel lsps (a ++ c :: b))
    (h : Completes ucd15 nel lsps (script chunks last) lens) (h' : Completes ucd15 nel lsps (script chunks' last') lens') :
    output ucd15 nel lsps (script chunks last) lens = output ucd15 nel lsps (script chunks' last') lens' := by
  have hf : form ucd15 nel lsps (a ++ c :: b) = form ucd15 nel lsps (a ++ (if (if c = NEL then nel else lsps) then '\n' else ' ') :: b) := by
    rcases hc with rfl | hc
    · rw [if_pos rfl]
      cases nel
      · exact form_nel_space lsps ha b
      · exact form_nel_newline lsps ha b
    · have : c ≠ NEL := by rcases hc with rfl | rfl <;> decide
      rw [if_neg this]
      cases lsps
      · exact form_lsps_space nel ha b hc
      · exact form_lsps_newline nel ha b hc
  rw [output_stream textLaws15 hb (h1 ▸ hn) h, output_stream textLaws15 hb' (h2 ▸ hn.of_form hf.symm) h', h1, h2, stream_of_form hf]

example : output ucd15 true false (script [] ['a', NEL, LS, 'b']) [136] = ['a', '\n', ' ', 'b', '\n'] := by decide +kernel

/-! ## C26 -/

/-- C26 (what holds): if what came before the (only) push ends with a newline, all of it has been delivered,
converted, by the time the push is reported. -/
theorem c26_push_after_newline_partial (nel lsps : Bool) (chunks : List (List Char)) (last : List Char) (rest : List Event)
    (hrest : ∀ s, .data s .push ∉ rest) (hesc : ESC ∉ chunks.flatten ++ last)
    (hnl : (chunks.flatten ++ last).getLast? = some '\n') (hb : BomSafe chunks last)
    (hn : Clear ucd15 nel lsps (chunks.flatten ++ last))
    (lens : List Nat) (r : ReadResult) (n : Nat)
    (hr : (readMany ucd15 lens (.new nel lsps) (scriptPush chunks last rest)).getLast? = some r) (hok : r.ret = .ok n .push) :
    output ucd15 nel lsps (scriptPush chunks last rest) lens = stream ucd15 nel lsps (chunks.flatten ++ last) :=
  output_push textLaws15 hrest hesc hnl hb hn hr hok

example : (readMany ucd15 [136] (.new false false) (scriptPush [] ['a', '\r', '\n'] [.data ['b'] .active])).map (·.ret) =
    [.ok 2 .push] := by decide +kernel

/-- In general: when a push or the end is reported, everything up to the last newline or U+34F has been
delivered, normalized; what is not delivered yet contains neither. -/
theorem c26_push_flushes_partial (nel lsps : Bool) (src : List Event) (lens : List Nat) (r : ReadResult) (n : Nat) (st : Status)
    (hr : (readMany ucd15 lens (.new nel lsps) src).getLast? = some r) (hok : r.ret = .ok n st) (hst : st ≠ .active) :
    ∃ es s, (∃ rest, Hist src (es ++ [.data s st]) rest) ∧
      ∃ segs : List (List Char), (absorbAll ucd15 ((TextInput.new nel lsps).ctl, []) (es ++ [.data s st])).2 = segs.flatten ++ r.input.queue ∧
        written (readMany ucd15 lens (.new nel lsps) src) = segs.flatMap (normChain ucd15) ∧
        r.input.iter = [] ∧ ∀ c ∈ r.input.queue, c ≠ '\n' ∧ c ≠ CGJ := by
  obtain ⟨es, s, h1, h2, h3⟩ := run_last textLaws15 (Rel.init nel lsps) hr hok hst
  refine ⟨es, s, ⟨_, h1⟩, ?_⟩
  obtain ⟨⟨segs, i1, i2, i3⟩, -, -⟩ := h2.inv
  refine ⟨segs, ?_, ?_, h3.iter, ?_⟩
  · simpa [h3.quick] using i1
  · simpa [h3.quick, h3.iter] using i2
  · intro c hc
    have := h3.queue c hc
    simpa [isBoundary] using this

/-- C26 fails: text after the last newline is not delivered when the push is reported. -/
theorem c26_refuted_text_kept : (readWithStatus ucd15 136 (.new false false) [.data ['a'] .push]).ret = .ok 0 .push := by decide +kernel

/-- C26 fails: if the text does not fit the buffer the push is never reported. -/
theorem c26_refuted_push_lost : (readMany ucd15 [136, 136, 136] (.new false false) [.data (List.replicate 140 'a' ++ ['\n']) .push]).map (·.ret) =
    [.ok 133 .active, .ok 8 .active, .ok 0 .end_] := by decide +kernel

/-- C26 fails: the first text delivered after a push need not begin with a scalar allowed at the start. -/
theorem c26_refuted_start : (readMany ucd15 [136, 136] (.new false false) [.data ['a', '\n', '́'] .push, .data ['\n'] .end_]).map (fun r => (r.ret, r.out)) =
    [(.ok 2 .push, ['a', '\n']), (.ok 3 .end_, ['́', '\n'])] ∧ isStart ucd15 '́' = false := by decide +kernel

/-! ## C27, C28 -/

/-- C27 (what holds): a failing source loses nothing when nothing was ready for delivery. -/
theorem c27_error_keeps_text_partial (t : TextInput) (rest : List Event) (len : Nat) (hl : normalizationBufferSize ≤ len)
    (hq : t.quick = 0) (hi : t.iter = []) (hb : ∀ c ∈ t.queue, c ≠ '\n' ∧ c ≠ CGJ) (hp : t.pending = .active) :
    readWithStatus ucd15 len t (.err :: rest) = { ret := .sourceError, out := [], input := t, src := rest } := by
  have hidle : Idle t := ⟨hq, hi, fun c hc => by simpa [isBoundary] using hb c hc⟩
  unfold readWithStatus
  rw [if_neg (by omega), drain, queueNext_none hidle]
  simp [hp, nextEvent]

example : (Idle (readWithStatus ucd15 136 (.new false false) [.data ['a', '\n', 'b'] .active]).input) := ⟨by decide +kernel, by decide +kernel, by decide +kernel⟩

/-- C27 fails: text that was ready is written to the buffer of the failing call and lost. -/
theorem c27_refuted : (readWithStatus ucd15 136 stuck.input stuck.src).ret = .sourceError ∧
    (readWithStatus ucd15 136 stuck.input stuck.src).out = ['a', 'a', 'a', 'a', '\n'] ∧
    output ucd15 false false [.data (List.replicate 137 'a' ++ ['\n']) .active, .err] [136, 136, 136] = List.replicate 133 'a' := by
  decide +kernel

/-- C28 (what holds): a reader that has reported the end, or has read nothing yet, can be abandoned. -/
theorem c28_abandon_partial (nel lsps : Bool) (src : List Event) (lens : List Nat) (r : ReadResult) (n : Nat)
    (hr : (readMany ucd15 lens (.new nel lsps) src).getLast? = some r) (hok : r.ret = .ok n .end_) :
    r.input.abandon.isSome = true ∧ (TextInput.new nel lsps).abandon.isSome = true := by
  have := (run_end textLaws15 hr hok).2.1
  simp [TextInput.abandon, this, TextInput.new]

/-- C28 fails: abandoning a reader in the middle of a line panics. -/
theorem c28_refuted : (readWithStatus ucd15 136 (.new false false) [.data ['a'] .active]).input.abandon = none := by decide +kernel

/-! ## C29 -/

/-- C29 (what holds): when `read_exact_str` succeeds the buffer is filled exactly, and an empty buffer succeeds at once. -/
theorem c29_read_exact_partial (fuel len : Nat) (t : TextInput) (src : List Event) (x : ExactResult)
    (h : readExact ucd15 fuel len t src = some x) (hok : x.ret = .ok) :
    (encode x.out).length = len ∧ readExact ucd15 (fuel + 1) 0 t src = some { ret := .ok, out := [], input := t, src } :=
  ⟨(readExact_ok fuel len t src x h hok).1, by simp [readExact]⟩

example : ((readExact ucd15 2 136 (.new false false) [.data (List.replicate 34 '𐀀' ++ ['\n']) .active]).map (·.ret)) = some .ok := by
  decide +kernel

/-- C29 fails: with a buffer that is not empty it never succeeds unless the text that fills it ends with a scalar
that takes four bytes.  For ASCII text, for example, there is no buffer length with which it succeeds. -/
theorem c29_refuted (fuel len : Nat) (t : TextInput) (src : List Event) (x : ExactResult)
    (h : readExact ucd15 fuel len t src = some x) (hl : len ≠ 0) (hne : ∀ c ∈ x.out.getLast?, utf8Len c ≠ 4) : x.ret ≠ .ok := by
  intro hok
  obtain ⟨c, hc, h4⟩ := (readExact_ok fuel len t src x h hok).2 hl
  exact hne c hc h4

example : ((readExact ucd15 3 200 (.new false false) [.data (List.replicate 400 'a' ++ ['\n']) .active]).map (·.ret)) = some .invalidInput := by
  decide +kernel

end Verif
