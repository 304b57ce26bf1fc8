import Verif.Utf8Stream
import Verif.WriteMany
import Verif.Props.Bytes

/-!
# Pieces (C74–C79)

Bytes read and written in pieces, vectored and formatted writes, generated texts, and strings built step by step.
-/

namespace Verif
open Ucd Spec

/-! ## C74 -/

/-- The reads of strings that a `TextReader` sees when the bytes come in the pieces `bs` and `last`. -/
def byteScript (bs : List Bytes) (last : Bytes) : List Event := script (decodeReads [] bs last).1 (decodeReads [] bs last).2

/-- C74: whatever the pieces, the strings are together the lossy decoding of all bytes. -/
theorem c74_pieces_decode (bs : List Bytes) (last : Bytes) :
    Delivers (bs.flatten ++ last) (decodeReads [] bs last).1 (decodeReads [] bs last).2 := by
  have := decodeReads_flatten bs [] last
  simpa [Delivers] using this

/-- C74: at every moment all but at most three bytes of what has come are delivered, and of well-formed text every scalar that is
complete. -/
theorem c74_prompt (b : Bytes) : (feedBytes b).2.length ≤ 3 ∧
    ∀ s x, encode s = b ++ x → ∃ t, s = (feedBytes b).1 ++ t ∧ (feedBytes b).2 ++ x = encode t :=
  ⟨feedBytes_kept b, fun _ _ h => feedBytes_encode h⟩

theorem first_piece {b x : Bytes} (hb : 3 ≤ b.length) (h : (utf8Lossy (b ++ x)).head? = some BOM) : (feedBytes b).1 ≠ [] := by
  have hne : b ++ x ≠ [] := by intro h0; rw [h0] at h; simp [utf8Lossy_nil] at h
  cases hd : decode1 (b ++ x) with
  | none =>
    rw [utf8Lossy_bad hd hne] at h
    simp at h
    exact absurd h (by decide)
  | some p =>
    obtain ⟨c, r⟩ := p
    rw [utf8Lossy_good hd] at h
    simp at h
    subst h
    have he := decode1_some hd
    have hl : (encodeChar BOM).length = 3 := by decide
    obtain ⟨y, hy⟩ := List.prefix_of_prefix_length_le (l₁ := encodeChar BOM) (l₂ := b) (l₃ := b ++ x) ⟨r, he.symm⟩ (List.prefix_append _ _) (by omega)
    have h2 := decode1_encode BOM y
    rw [hy] at h2
    unfold feedBytes
    cases hbl : b.length with
    | zero => omega
    | succ n => simp [feedBytesGo, h2]

theorem first_read {bs : List Bytes} {last : Bytes} (hb : (∀ b ∈ (bs ++ [last]).head?, 3 ≤ b.length) ∨ (utf8Lossy (bs.flatten ++ last)).head? ≠ some BOM) :
    ((decodeReads [] bs last).1 ++ [(decodeReads [] bs last).2]).head? ≠ some [] ∨
      ((decodeReads [] bs last).1.flatten ++ (decodeReads [] bs last).2).head? ≠ some BOM := by
  have hd : (decodeReads [] bs last).1.flatten ++ (decodeReads [] bs last).2 = utf8Lossy (bs.flatten ++ last) := c74_pieces_decode bs last
  by_cases hbom : (utf8Lossy (bs.flatten ++ last)).head? = some BOM
  · left
    have hb := hb.resolve_right (fun h => h hbom)
    cases bs with
    | nil =>
      simp only [decodeReads, List.nil_append, List.head?_cons, ne_eq, Option.some.injEq]
      intro h0
      simp [h0] at hbom
    | cons b bs =>
      have h3 := hb b (by simp)
      simp only [List.flatten_cons, List.append_assoc] at hbom
      have := first_piece h3 hbom
      simpa [decodeReads] using this
  · right; rw [hd]; exact hbom

/-- C74: bytes make the same text in whatever pieces they come, cut even inside scalars, and whatever the buffers: if the first
piece has three bytes or the content does not begin with U+FEFF, and it has no U+034F directly before an unassigned scalar. -/
theorem c74_split_anywhere_partial (nel lsps : Bool) (bs bs' : List Bytes) (last last' : Bytes) (lens lens' : List Nat)
    (heq : bs.flatten ++ last = bs'.flatten ++ last')
    (hb : (∀ b ∈ (bs ++ [last]).head?, 3 ≤ b.length) ∨ (utf8Lossy (bs.flatten ++ last)).head? ≠ some BOM)
    (hb' : (∀ b ∈ (bs' ++ [last']).head?, 3 ≤ b.length) ∨ (utf8Lossy (bs.flatten ++ last)).head? ≠ some BOM)
    (hn : Clear ucd15 nel lsps (utf8Lossy (bs.flatten ++ last)))
    (h : Completes ucd15 nel lsps (byteScript bs last) lens) (h' : Completes ucd15 nel lsps (byteScript bs' last') lens') :
    output ucd15 nel lsps (byteScript bs last) lens = output ucd15 nel lsps (byteScript bs' last') lens' := by
  have e1 : (decodeReads [] bs last).1.flatten ++ (decodeReads [] bs last).2 = utf8Lossy (bs.flatten ++ last) := c74_pieces_decode bs last
  have e2 : (decodeReads [] bs' last').1.flatten ++ (decodeReads [] bs' last').2 = utf8Lossy (bs.flatten ++ last) := by
    rw [heq]; exact c74_pieces_decode bs' last'
  exact c16_chunk_independent_partial nel lsps _ _ _ _ lens lens' (by rw [e1, e2]) (first_read hb) (first_read (by rw [← heq]; exact hb'))
    (by rw [e1]; exact hn) h h'

/-- A scalar and two ill-formed sequences, cut into single bytes. -/
example : Completes ucd15 false false (byteScript [[0xc3], [0xa9], [0xe2], [0x80], [0xff]] [0xa]) [136, 136, 136, 136, 136, 136] ∧
    output ucd15 false false (byteScript [[0xc3], [0xa9], [0xe2], [0x80], [0xff]] [0xa]) [136, 136, 136, 136, 136, 136] = ['é', '�', '�', '\n'] ∧
    output ucd15 false false (byteScript [] [0xc3, 0xa9, 0xe2, 0x80, 0xff, 0xa]) [136] = ['é', '�', '�', '\n'] ∧
    (utf8Lossy [0xc3, 0xa9, 0xe2, 0x80, 0xff, 0xa]).head? ≠ some BOM :=
  ⟨completes_of (by decide +kernel), by decide +kernel, by decide +kernel, by decide +kernel⟩

/-- A byte order mark of which the first read has only the first byte is not dropped: it becomes U+2060. -/
theorem c74_refuted_bom : ∃ bs bs' last lens lens', bs.flatten ++ last = bs'.flatten ++ last ∧
    Completes ucd15 false false (byteScript bs last) lens ∧ Completes ucd15 false false (byteScript bs' last) lens' ∧
    output ucd15 false false (byteScript bs last) lens = ['a', '\n'] ∧ output ucd15 false false (byteScript bs' last) lens' = ['⁠', 'a', '\n'] :=
  ⟨[[0xef, 0xbb, 0xbf]], [[0xef], [0xbb, 0xbf]], [0x61], [136, 136], [136, 136, 136], by decide, completes_of (by decide +kernel), completes_of (by decide +kernel),
    by decide +kernel, by decide +kernel⟩

/-! ## C75 -/

/-- C75: writing in pieces with `write_all` always comes to an end without panicking. -/
theorem c75_total (w : Writer) (bs : List Bytes) : ∃ w' o, writeChunks ucd15 w bs = some (w', o) ∧ o ≠ .panic := writeChunks_total textLaws15 w bs

/-- C75, exactly: all pieces are written if and only if each is well-formed UTF-8 by itself and is accepted as a string in its turn. -/
theorem c75_pieces_iff (w w' : Writer) (bs : List Bytes) : writeChunks ucd15 w bs = some (w', .ok) ↔
    ∃ ss : List (List Char), bs = ss.map encode ∧ writeFmt ucd15 w ss = some (w', .ok) := by
  constructor
  · intro h
    obtain ⟨ss, rfl⟩ := writeChunks_whole textLaws15 h
    exact ⟨ss, rfl, h⟩
  · rintro ⟨ss, rfl, h⟩; exact h

/-- C75: pieces that are whole lines are written as the whole is, on plain and CRLF writers. -/
theorem c75_lines_partial (w : Writer) (hw : WIdle w) (ss : List (List Char)) (hs : ∀ s ∈ ss, s = [] ∨ s.getLast? = some '\n') (w' : Writer) :
    writeChunks ucd15 w (ss.map encode) = some (w', .ok) ↔ writeAll ucd15 w (ss.map encode).flatten = some (w', .ok) := by
  have : (ss.map encode).flatten = encode ss.flatten := by
    clear hs
    induction ss with
    | nil => rfl
    | cons s ss ih => rw [List.map_cons, List.flatten_cons, List.flatten_cons, encode_append, ih]
  rw [this]
  exact writeChunks_lines textLaws15 hw hs w'

example : WIdle (.new goodSink) ∧ WIdle (.newCrlf goodSink) ∧ ((writeAll ucd15 (.newCrlf goodSink) (encode ['e', '́', '\n', 'b', '\n'])).map fun r => (r.1.sink.sent, r.2)) =
    some (['é', '\r', '\n', 'b', '\r', '\n'], .ok) := ⟨idle_new rfl rfl, idle_crlf rfl rfl, by decide +kernel⟩

/-- Text that can be written at once cannot be written in pieces cut inside a scalar, as by `io::copy` with a buffer that ends there. -/
theorem c75_refuted_cut : (writeAll ucd15 (.new goodSink) [0xc3, 0xa9, 0xa]).map (·.2) = some .ok ∧
    (writeChunks ucd15 (.new goodSink) [[0xc3], [0xa9, 0xa]]).map (·.2) = some .err := by decide +kernel

/-- Cut between scalars it may come out differently: not normalized. -/
theorem c75_refuted_mark : (writeAll ucd15 (.new goodSink) (encode ['e', '́', '\n'])).map (fun r => (r.1.sink.sent, r.2)) = some (['é', '\n'], .ok) ∧
    (writeChunks ucd15 (.new goodSink) [encode ['e'], encode ['́', '\n']]).map (fun r => (r.1.sink.sent, r.2)) = some (['e', '́', '\n'], .ok) := by
  decide +kernel

/-! ## C76 -/

/-- C76: `write_all_vectored` does what `write_all` of each buffer in turn does, whatever the buffers, and never panics or loops. -/
theorem c76_all_vectored (w : Writer) (bufs : List Bytes) : writeAllVectored ucd15 w bufs = writeChunks ucd15 w bufs ∧
    ∃ w' o, writeAllVectored ucd15 w bufs = some (w', o) ∧ o ≠ .panic := by
  rw [writeAllVectored_eq]
  exact ⟨rfl, writeChunks_total textLaws15 w bufs⟩

/-- C76: `write_vectored` writes the first buffer that is not empty as `write` does, and if it succeeds, counts at least one of its bytes
and not more than all. -/
theorem c76_vectored (w : Writer) (e : List Bytes) (he : ∀ b ∈ e, b = []) (b : Bytes) (hb : b ≠ []) (bufs : List Bytes) :
    writeVectored ucd15 w (e ++ b :: bufs) = writeBytes ucd15 w b ∧
    ∀ w' k, writeVectored ucd15 w (e ++ b :: bufs) = (w', .ok, k) → 0 < k ∧ k ≤ b.length := by
  have : writeVectored ucd15 w (e ++ b :: bufs) = writeBytes ucd15 w b := by
    unfold writeVectored
    congr 1
    induction e with
    | nil => cases b with | nil => exact absurd rfl hb | cons => rfl
    | cons x e ih =>
      have hx := he x (by simp)
      subst hx
      simpa using ih fun b hb => he b (List.mem_cons_of_mem _ hb)
  rw [this]
  exact ⟨rfl, fun w' k h => writeBytes_count hb h⟩

example : (writeAllVectored ucd15 (.new goodSink) [[], [0x61, 0xc3, 0xa9], [], [0xa]]).map (fun r => (r.1.sink.sent, r.2)) =
    some (['a', 'é', '\n'], .ok) := by decide +kernel

/-- With nothing in the buffers it is an empty write, which ends the wait for a starter: after it a combining mark can be written first. -/
theorem c76_empty : (writeVectored ucd15 (.new goodSink) [[], []]).2 = (.ok, 0) ∧
    (writeStr ucd15 (.new goodSink) ['́', '\n']).2 = .err ∧
    (writeStr ucd15 (writeVectored ucd15 (.new goodSink) [[], []]).1 ['́', '\n']).2 = .ok := by decide +kernel

/-! ## C77 -/

/-- C77: `write!` comes to an end without panicking, and if it succeeds the same writes with `write_str` do, in the same order and with
the same result, the empty ones left out. -/
theorem c77_fmt (w : Writer) (pieces : List (List Char)) :
    (∃ w' o, writeFmt ucd15 w pieces = some (w', o) ∧ o ≠ .panic) ∧
    ∀ w', writeFmt ucd15 w pieces = some (w', .ok) → w' = run ucd15 w ((pieces.filter fun s => !s.isEmpty).map .str) := by
  refine ⟨writeChunks_total textLaws15 w _, ?_⟩
  unfold writeFmt
  induction pieces generalizing w with
  | nil => intro w' h; simp [writeChunks] at h; exact h.symm
  | cons s pieces ih =>
    intro w' h
    by_cases hs : s = []
    · subst hs
      simp only [List.map_cons, encode_nil, writeChunks, writeAll_nil] at h
      simpa using ih w w' h
    · simp only [List.map_cons, writeChunks, writeAll_encode w hs] at h
      have he : s.isEmpty = false := by cases s with | nil => exact absurd rfl hs | cons => rfl
      simp only [List.filter_cons, he, Bool.not_false, if_true, List.map_cons, run, step]
      generalize writeStr ucd15 w s = r at h
      obtain ⟨w1, o⟩ := r
      cases o with
      | ok => exact ih w1 w' h
      | err => simp at h
      | panic => simp at h

/-- C77: if every piece is empty or ends with a newline, formatting writes what the formatted string would. -/
theorem c77_fmt_lines_partial (w : Writer) (hw : WIdle w) (pieces : List (List Char)) (hs : ∀ s ∈ pieces, s = [] ∨ s.getLast? = some '\n') (w' : Writer)
    (hne : pieces.flatten ≠ []) : writeFmt ucd15 w pieces = some (w', .ok) ↔ writeStr ucd15 w pieces.flatten = (w', .ok) := by
  unfold writeFmt
  rw [writeChunks_lines textLaws15 hw hs, writeAll_encode w hne, Option.some.injEq]

/-- `write!(w, "{}{}\n", "e", "\u{301}")` delivers what `w.write_str(&format!(…))` does not. -/
theorem c77_refuted : (writeFmt ucd15 (.new goodSink) [['e'], ['́'], ['\n']]).map (fun r => (r.1.sink.sent, r.2)) = some (['e', '́', '\n'], .ok) ∧
    (writeStr ucd15 (.new goodSink) ['e', '́', '\n']).1.sink.sent = ['é', '\n'] := by decide +kernel

/-! ## C78 -/

/-- `<&TextStr as Arbitrary>::arbitrary` (`src/text_string.rs:1392-1410`) when `size` is the length of `b` and the next bytes are `b`: the
text it makes, given as bytes, without check.  `none` is a panic. -/
def arbitraryText (U : Ucd) (b : Bytes) : Option Bytes :=
  match fromTextBytes (isBasicText U) b with
  | .ok t => some (encode t)
  | .err n => some (b.take n)
  | .panic => none

/-- `arbitrary_take_rest` (`src/text_string.rs:1412-1417`). -/
def arbitraryRest (U : Ucd) (b : Bytes) : Option Bytes :=
  match fromTextBytes (isBasicText U) b with
  | .ok t => some (encode t)
  | _ => none

/-- C78: from well-formed bytes `arbitrary` makes Basic Text, which is a beginning of them. -/
theorem c78_arbitrary_partial (s : List Char) : ∃ t, arbitraryText ucd15 (encode s) = some (encode t) ∧ fromText (isBasicText ucd15) t = .ok t ∧ t <+: s := by
  unfold arbitraryText
  cases h : fromTextBytes (isBasicText ucd15) (encode s) with
  | ok t =>
    obtain ⟨s', h1, h2⟩ := (c51_bytes_borrowed _ _ _).1 h
    have := encode_injective h1
    subst this
    obtain ⟨hv, rfl⟩ := fromText_ok_iff.1 h2
    exact ⟨_, rfl, h2, List.prefix_refl _⟩
  | err n =>
    obtain ⟨p, h1, h2⟩ := c58_bytes_valid_up_to_partial s n h
    unfold sliceTo at h1
    split at h1
    · rename_i hc
      obtain ⟨x, y, rfl, hn⟩ := isCharBoundary_iff.1 hc
      have he : (encode (x ++ y)).take n = encode x := by rw [encode_append, ← hn, List.take_left]
      rw [he, fromUtf8_encode] at h1
      cases h1
      exact ⟨p, by simp only [he], fromText_ok h2, List.prefix_append _ _⟩
    · simp at h1
  | panic =>
    by_cases hs : fromText (isBasicText ucd15) s = .ok s
    · rw [(c51_bytes_borrowed _ _ _).2 ⟨s, rfl, hs⟩] at h; simp at h
    · obtain ⟨m, h1, -⟩ := c07_valid_up_to_borrowed s hs
      rw [((c51_bytes_errors (isBasicText ucd15) (encode s) m).2.1 s rfl).2 h1] at h
      simp at h

/-- From ill-formed bytes it makes a `TextStr` that is not Basic Text: here U+0000. -/
theorem c78_refuted : arbitraryText ucd15 [0x00, 0xff] = some (encode ['\x00']) ∧ isBasicText ucd15 ['\x00'] = false := by decide +kernel

/-- C78: `arbitrary_take_rest` makes only Basic Text, from any bytes. -/
theorem c78_take_rest (b : Bytes) (x : Bytes) (h : arbitraryRest ucd15 b = some x) : x = b ∧ ∃ t, b = encode t ∧ fromText (isBasicText ucd15) t = .ok t := by
  unfold arbitraryRest at h
  cases hb : fromTextBytes (isBasicText ucd15) b with
  | ok t =>
    rw [hb] at h
    cases h
    obtain ⟨s', h1, h2⟩ := (c51_bytes_borrowed _ _ _).1 hb
    obtain ⟨hv, rfl⟩ := fromText_ok_iff.1 h2
    exact ⟨h1.symm, _, h1, h2⟩
  | err n => rw [hb] at h; simp at h
  | panic => rw [hb] at h; simp at h

example : arbitraryText ucd15 (encode ['a', '\x00', 'b']) = some (encode ['a']) ∧ arbitraryRest ucd15 (encode ['a', 'b']) = some (encode ['a', 'b']) := by
  decide +kernel

/-! ## C79 -/

/-- What can be done to a `TextString`: `push_text`, `+`, `+=`, `extend` one by one; `read_to_text_string` from a text reader that delivers
this text; `clear` (`src/text_string.rs:284-292`, `399-402`, `539-590`, `1496-1512`). -/
inductive StringOp where
  | push (t : List Char)
  | read (t : List Char)
  | clear
  deriving DecidableEq, Repr

/-- The arguments are Basic Text: a `&TextStr` is by its type, and so is what a reader delivers (C14). -/
def StringOp.Ok : StringOp → Prop
  | .push t => isBasicText ucd15 t = true
  | .read t => isBasicText ucd15 t = true
  | .clear => True

def StringOp.apply (s : List Char) : StringOp → List Char
  | .push t => pushText s t
  | .read t => (readToTextString ucd15 s (some t) []).1
  | .clear => []

/-- Does the operation make a Hangul syllable of scalars that were apart? -/
def StringOp.Joins (s : List Char) : StringOp → Prop
  | .push t => ∃ x ∈ s.getLast?, ∃ c ∈ t.head?, HangulJoin x c
  | .read t => ∃ x ∈ s.getLast?, ∃ c ∈ t.head?, HangulJoin x c
  | .clear => False

theorem readTo_some {buf text : List Char} (h : ∀ c ∈ text.head?, isStart ucd15 c = true) :
    readToTextString ucd15 buf (some text) [] = (buf ++ text, .ok (encode text).length) := by
  simp only [readToTextString]
  cases hq : text.head? with
  | none => rfl
  | some c => simp [h c hq]

theorem append_iff {a s : List Char} (ha : isBasicText ucd15 a = true) (hs : isBasicText ucd15 s = true) :
    isBasicText ucd15 (a ++ s) = true ↔ ∀ x ∈ a.getLast?, ∀ c ∈ s.head?, ¬ HangulJoin x c := by
  obtain ⟨a1, a2, a3⟩ := text_iff.1 ha
  obtain ⟨s1, s2, s3⟩ := text_iff.1 hs
  have key := substr_append_iff textLaws15 a3 s3 s1
  constructor
  · intro ht x hx c hc hj
    exact key.1 (text_iff.1 ht).2.2 x hx c hc ((joins_iff (s1 c hc)).2 hj)
  · intro hn
    refine text_iff.2 ⟨?_, ?_, key.2 fun x hx c hc hj => hn x hx c hc ((joins_iff (s1 c hc)).1 hj)⟩
    · intro c hc
      rcases mem_head?_append hc with hc | hc
      · exact a1 c hc
      · exact s1 c hc
    · intro c hc
      rcases mem_getLast?_append hc with hc | hc
      · exact a2 c hc
      · exact s2 c hc

/-- C79, exactly: an operation on a valid `TextString` leaves it valid unless it makes a Hangul syllable of scalars that were apart. -/
theorem c79_step_iff (s : List Char) (op : StringOp) (hs : isBasicText ucd15 s = true) (ho : op.Ok) :
    isBasicText ucd15 (op.apply s) = true ↔ ¬ op.Joins s := by
  cases op with
  | push t => simp only [StringOp.apply, StringOp.Joins, c12_push_iff s t hs ho]; grind
  | read t =>
    simp only [StringOp.apply, StringOp.Joins, readTo_some (text_iff.1 ho).1, append_iff hs ho]; grind
  | clear => simp only [StringOp.apply, StringOp.Joins]; decide +kernel

/-- C79: whatever is done to a `TextString` one after the other, it stays Basic Text as long as no step makes a Hangul syllable. -/
theorem c79_history_partial (ops : List StringOp) : ∀ (s : List Char), isBasicText ucd15 s = true → (∀ op ∈ ops, op.Ok) →
    (∀ a op b, ops = a ++ op :: b → ¬ op.Joins (a.foldl StringOp.apply s)) → isBasicText ucd15 (ops.foldl StringOp.apply s) = true := by
  induction ops with
  | nil => intro s hs _ _; exact hs
  | cons op ops ih =>
    intro s hs ho hj
    have h1 := (c79_step_iff s op hs (ho op (by simp))).2 (hj [] op ops rfl)
    refine ih _ h1 (fun o h => ho o (List.mem_cons_of_mem _ h)) fun a o b h => ?_
    have := hj (op :: a) o b (by rw [h]; rfl)
    simpa using this

/-- C79: a `TextString` of lines stays Basic Text whatever lines are added: this is how texts are usually built. -/
theorem c79_lines (ops : List StringOp) : ∀ (s : List Char), isBasicText ucd15 s = true → (s = [] ∨ s.getLast? = some '\n') → (∀ op ∈ ops, op.Ok) →
    (∀ t, .push t ∈ ops ∨ .read t ∈ ops → t = [] ∨ t.getLast? = some '\n') →
    isBasicText ucd15 (ops.foldl StringOp.apply s) = true := by
  induction ops with
  | nil => intro s hs _ _ _; exact hs
  | cons op ops ih =>
    intro s hs hn ho hl
    have hnl : ∀ t, t = [] ∨ t.getLast? = some '\n' → (s ++ t = [] ∨ (s ++ t).getLast? = some '\n') := by
      rintro t (rfl | ht)
      · simpa using hn
      · right; simp [List.getLast?_append, ht]
    have hrest : ∀ t, .push t ∈ ops ∨ .read t ∈ ops → t = [] ∨ t.getLast? = some '\n' := fun t h =>
      hl t (h.imp (List.mem_cons_of_mem _) (List.mem_cons_of_mem _))
    have ho' : ∀ o ∈ ops, o.Ok := fun o h => ho o (List.mem_cons_of_mem _ h)
    have hop := ho op (by simp)
    rw [List.foldl_cons]
    cases op with
    | clear => exact ih [] (by decide +kernel) (Or.inl rfl) ho' hrest
    | push t =>
      obtain ⟨h1, h2⟩ := c12_append_newline s t hs hop hn
      simp only [StringOp.apply, h2]
      exact ih _ h1 (hnl t (hl t (Or.inl (by simp)))) ho' hrest
    | read t =>
      obtain ⟨h1, h2⟩ := c12_append_newline s t hs hop hn
      simp only [StringOp.apply, readTo_some (text_iff.1 hop).1]
      exact ih _ h1 (hnl t (hl t (Or.inr (by simp)))) ho' hrest

/-- C79: once a `TextString` is not Basic Text, adding to it does not repair it. -/
theorem c79_never_recovers (ops : List StringOp) (hc : .clear ∉ ops) (ho : ∀ op ∈ ops, op.Ok) : ∀ (s : List Char),
    isBasicTextSubstr ucd15 s = false → isBasicText ucd15 (ops.foldl StringOp.apply s) = false := by
  induction ops with
  | nil =>
    intro s hs
    cases h : isBasicText ucd15 s with
    | false => simpa using h
    | true => rw [(text_iff.1 h).2.2] at hs; simp at hs
  | cons op ops ih =>
    intro s hs
    rw [List.foldl_cons]
    refine ih (fun h => hc (List.mem_cons_of_mem _ h)) (fun o h => ho o (List.mem_cons_of_mem _ h)) _ ?_
    have grow : ∀ r, isBasicTextSubstr ucd15 (s ++ r) = false := by
      intro r
      cases h : isBasicTextSubstr ucd15 (s ++ r) with
      | false => rfl
      | true => rw [substr_prefix textLaws15 h] at hs; simp at hs
    have hop := ho op (by simp)
    cases op with
    | clear => exact absurd (List.mem_cons_self ..) hc
    | push t =>
      rcases pushText_cases s t with ⟨a', r, h1, h2, h3⟩ | ⟨-, h⟩
      · simp only [StringOp.apply, h3]
        have := grow r
        rw [h1, List.append_assoc] at this
        exact this
      · simp only [StringOp.apply, h]; exact grow t
    | read t => simp only [StringOp.apply, readTo_some (text_iff.1 hop).1]; exact grow t

/-- Three letters that stay apart, then two that do not. -/
example : (StringOp.push ['ᅡ']).Ok ∧ ¬ (StringOp.push ['ᅡ']).Joins ['각'] ∧ (StringOp.read ['ᅡ', '\n']).Joins ['ᄀ'] ∧
    [StringOp.push ['a'], .read ['b', '\n'], .push ['ᅡ'], .clear, .push ['x']].foldl StringOp.apply [] = ['x'] := by
  refine ⟨by unfold StringOp.Ok; decide +kernel, ?_, ⟨'ᄀ', rfl, 'ᅡ', rfl, ?_⟩, by decide +kernel⟩
  · rintro ⟨x, hx, c, hc, h⟩
    cases hx; cases hc
    revert h; unfold HangulJoin; decide
  · unfold HangulJoin; decide

/-- C54, exactly: `read_to_text_string` of a whole text leaves the buffer valid unless the last scalar of the buffer and the first of the
text make a Hangul syllable. -/
theorem c54_read_iff (buf text : List Char) (hb : isBasicText ucd15 buf = true) (ht : isBasicText ucd15 text = true) :
    readToTextString ucd15 buf (some text) [] = (buf ++ text, .ok (encode text).length) ∧
    (isBasicText ucd15 (buf ++ text) = true ↔ ∀ x ∈ buf.getLast?, ∀ c ∈ text.head?, ¬ HangulJoin x c) :=
  ⟨readTo_some (text_iff.1 ht).1, append_iff hb ht⟩

end Verif
