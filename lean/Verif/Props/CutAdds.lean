import Verif.CutAdds
import Verif.Props.Pieces
import Verif.Props.CutPlaces
import Verif.Props.Equivalence

/-!
# What the way a source is cut can do to the text (C110)

`Adds s t` says that `t` is `s` with some U+34F inserted. `ReadsInside` says that one of the reads, except the last, ends at a place where the text that has come so far
ends after a U+34F that an unassigned scalar follows, and not later than before the next U+34F or U+A.
-/

namespace Verif
open Ucd Spec

/-- One of the reads `chunks` ends inside: `translate` is the text of the whole content and `settled` that of what has come so far. -/
def Spec.ReadsInside (U : Ucd) (nel lsps : Bool) (chunks : List (List Char)) (last : List Char) : Prop :=
  ∃ i, i < chunks.length ∧
    EndsInside U (translate U nel lsps (dropBom (chunks.flatten ++ last))) (settled U nel lsps (dropBom (chunks.take (i + 1)).flatten))

theorem inside_iff {P : Nat → Prop} {n : Nat} : (∀ i, i < n → ¬ P i) ↔ ¬ ∃ i, i < n ∧ P i :=
  ⟨fun h ⟨i, h1, h2⟩ => h i h1 h2, fun h i h1 h2 => h ⟨i, h1, h2⟩⟩

/-- C110: what is delivered for a content that comes in several reads is what is delivered for it in one read with some U+34F inserted. -/
theorem c110_only_inserts (nel lsps : Bool) (chunks : List (List Char)) (last : List Char) (hb : BomSafe chunks last) (lens lens' : List Nat)
    (h : Completes ucd15 nel lsps (script chunks last) lens) (h' : Completes ucd15 nel lsps (script [] (chunks.flatten ++ last)) lens') :
    Adds (output ucd15 nel lsps (script [] (chunks.flatten ++ last)) lens') (output ucd15 nel lsps (script chunks last) lens) := by
  rw [output_single textLaws15 h']
  exact (reads_add textLaws15 nel lsps hb h rfl).1

/-- C110: so apart from U+34F the text does not depend on how the content is cut, whatever the content. -/
theorem c110_same_scalars (nel lsps : Bool) (chunks chunks' : List (List Char)) (last last' : List Char) (he : chunks.flatten ++ last = chunks'.flatten ++ last')
    (hb : BomSafe chunks last) (hb' : BomSafe chunks' last') (lens lens' : List Nat)
    (h : Completes ucd15 nel lsps (script chunks last) lens) (h' : Completes ucd15 nel lsps (script chunks' last') lens') :
    (output ucd15 nel lsps (script chunks last) lens).filter (· ≠ CGJ) = (output ucd15 nel lsps (script chunks' last') lens').filter (· ≠ CGJ) := by
  have h1 := (reads_add textLaws15 nel lsps hb h rfl).1.same
  have h2 := (reads_add textLaws15 nel lsps hb' h' rfl).1.same
  rw [← he] at h2
  rw [h1, h2]

/-- C110: the text is the same as for one read exactly when no read but the last ends inside. -/
theorem c110_same_iff (nel lsps : Bool) (chunks : List (List Char)) (last : List Char) (hb : BomSafe chunks last) (lens lens' : List Nat)
    (h : Completes ucd15 nel lsps (script chunks last) lens) (h' : Completes ucd15 nel lsps (script [] (chunks.flatten ++ last)) lens') :
    output ucd15 nel lsps (script chunks last) lens = output ucd15 nel lsps (script [] (chunks.flatten ++ last)) lens' ↔
    ¬ ReadsInside ucd15 nel lsps chunks last := by
  rw [output_single textLaws15 h']
  exact (reads_add textLaws15 nel lsps hb h rfl).2.1.trans inside_iff

/-- C110: otherwise it is longer. -/
theorem c110_longer (nel lsps : Bool) (chunks : List (List Char)) (last : List Char) (hb : BomSafe chunks last) (lens lens' : List Nat)
    (h : Completes ucd15 nel lsps (script chunks last) lens) (h' : Completes ucd15 nel lsps (script [] (chunks.flatten ++ last)) lens')
    (hi : ReadsInside ucd15 nel lsps chunks last) :
    (output ucd15 nel lsps (script [] (chunks.flatten ++ last)) lens').length < (output ucd15 nel lsps (script chunks last) lens).length := by
  have := (c110_same_iff nel lsps chunks last hb lens lens' h h')
  rw [output_single textLaws15 h'] at this ⊢
  exact (reads_add textLaws15 nel lsps hb h rfl).2.2 fun he => this.1 he hi

/-- The content "a U+34F U+378 b", with U+378 unassigned, cut behind the U+34F or behind the U+378, and cut elsewhere. -/
example : ReadsInside ucd15 false false [['a', CGJ]] ['͸', 'b'] ∧ ReadsInside ucd15 false false [['a', CGJ, '͸']] ['b'] ∧
    Completes ucd15 false false (script [['a', CGJ]] ['͸', 'b']) [136, 136] ∧
    Completes ucd15 false false (script [] ['a', CGJ, '͸', 'b']) [136] ∧
    output ucd15 false false (script [['a', CGJ]] ['͸', 'b']) [136, 136] = ['a', CGJ, CGJ, '͸', CGJ, 'b', '\n'] ∧
    output ucd15 false false (script [] ['a', CGJ, '͸', 'b']) [136] = ['a', CGJ, '͸', 'b', '\n'] :=
  ⟨⟨0, by decide, ['a'], [], '͸', ['b', '\n'], by decide +kernel, by decide +kernel, by decide +kernel, by simp⟩,
   ⟨0, by decide, ['a'], ['͸'], '͸', ['b', '\n'], by decide +kernel, by decide +kernel, by decide +kernel, by decide⟩,
   completes_of (by decide +kernel), completes_of (by decide +kernel), by decide +kernel, by decide +kernel⟩

/-! ## The lossy conversion -/

/-- The text that was read is the result of the lossy conversion up to U+2060 for a U+FEFF and the last U+A. -/
theorem lossy_output (chunks : List (List Char)) (last : List Char) (hb : SliceReads chunks last) (lens : Nat → Nat) (t : List Char)
    (h : Converts chunks last lens t) : ∃ l x, Completes ucd15 false false (script chunks last) l ∧ t = bomPrefix (chunks.flatten ++ last) ++ x ∧
      output ucd15 false false (script chunks last) l = x ++ (if Closed (dropBom (chunks.flatten ++ last)) then [] else ['\n']) := by
  obtain ⟨m, text, h1, h2⟩ := read_of_converts h
  obtain ⟨segs, g1, g2, g3⟩ := lossy_run textLaws15 hb h1
  obtain ⟨l, r, n, -, d1, d2, d3⟩ := readToEnd_run _ _ _ _ h1
  rw [h2] at g2
  injection g2 with g2
  exact ⟨l, _, ⟨r, n, d1, d2⟩, g2, by rw [output, d3, g3]⟩

/-- C110: however the string is handed over to the lossy conversion, the result is the same apart from U+34F. -/
theorem c110_lossy_same_scalars (chunks chunks' : List (List Char)) (last last' : List Char) (he : chunks.flatten ++ last = chunks'.flatten ++ last')
    (hb : SliceReads chunks last) (hb' : SliceReads chunks' last') (lens lens' : Nat → Nat) (t t' : List Char)
    (h : Converts chunks last lens t) (h' : Converts chunks' last' lens' t') : t.filter (· ≠ CGJ) = t'.filter (· ≠ CGJ) := by
  obtain ⟨l, x, c, rfl, e⟩ := lossy_output chunks last hb lens t h
  obtain ⟨l', x', c', rfl, e'⟩ := lossy_output chunks' last' hb' lens' t' h'
  have := c110_same_scalars false false chunks chunks' last last' he hb.bomSafe hb'.bomSafe l l' c c'
  rw [e, e', he, List.filter_append, List.filter_append] at this
  rw [he, List.filter_append, List.filter_append, List.append_cancel_right this]

/-- C110: and it is the same as for the string handed over at once exactly when no read but the last ends inside. -/
theorem c110_lossy_same_iff (chunks : List (List Char)) (last : List Char) (hb : SliceReads chunks last) (lens lens' : Nat → Nat) (t t' : List Char)
    (h : Converts chunks last lens t) (h' : Converts [] (chunks.flatten ++ last) lens' t') : t = t' ↔ ¬ ReadsInside ucd15 false false chunks last := by
  have hb' : SliceReads [] (chunks.flatten ++ last) := by
    cases chunks.flatten ++ last with
    | nil => exact Or.inr rfl
    | cons c s => exact Or.inl (by simp)
  obtain ⟨l, x, c, rfl, e⟩ := lossy_output chunks last hb lens t h
  obtain ⟨l', x', c', rfl, e'⟩ := lossy_output [] _ hb' lens' t' h'
  rw [← c110_same_iff false false chunks last hb.bomSafe l l' c c', e, e']
  simp

/-! ## Bytes -/

/-- C110 for a source of bytes, which may be cut inside scalars: apart from U+34F the text does not depend on how they are cut. -/
theorem c110_bytes_same_scalars (nel lsps : Bool) (bs bs' : List Bytes) (last last' : Bytes) (lens lens' : List Nat)
    (heq : bs.flatten ++ last = bs'.flatten ++ last')
    (hb : (∀ b ∈ (bs ++ [last]).head?, 3 ≤ b.length) ∨ (utf8Lossy (bs.flatten ++ last)).head? ≠ some BOM)
    (hb' : (∀ b ∈ (bs' ++ [last']).head?, 3 ≤ b.length) ∨ (utf8Lossy (bs.flatten ++ last)).head? ≠ some BOM)
    (h : Completes ucd15 nel lsps (byteScript bs last) lens) (h' : Completes ucd15 nel lsps (byteScript bs' last') lens') :
    (output ucd15 nel lsps (byteScript bs last) lens).filter (· ≠ CGJ) = (output ucd15 nel lsps (byteScript bs' last') lens').filter (· ≠ CGJ) := by
  have e1 : (decodeReads [] bs last).1.flatten ++ (decodeReads [] bs last).2 = utf8Lossy (bs.flatten ++ last) := c74_pieces_decode bs last
  have e2 : (decodeReads [] bs' last').1.flatten ++ (decodeReads [] bs' last').2 = utf8Lossy (bs.flatten ++ last) := by
    rw [heq]; exact c74_pieces_decode bs' last'
  exact c110_same_scalars nel lsps _ _ _ _ (by rw [e1, e2]) (first_read hb) (first_read (by rw [← heq]; exact hb')) lens lens' h h'

/-! ## Writer and reader -/

/-- C49, exactly: what a writer accepted in one `write_str` is read in several pieces as the text it has sent, with what a stream needs at its end, exactly when no read
but the last ends inside. -/
theorem c49_writer_reader_iff (k : Sink) (hd : k.dead = false) (hk : k.script = []) (nel lsps : Bool) (T : List Char) (chunks : List (List Char)) (last : List Char)
    (lens : List Nat) (hw : (step ucd15 (.new k) (.str (chunks.flatten ++ last))).2 = .ok)
    (hT : (step ucd15 (.new k) (.str (chunks.flatten ++ last))).1.sink.sent = k.sent ++ T)
    (hr : Completes ucd15 nel lsps (script chunks last) lens) :
    (output ucd15 nel lsps (script chunks last) lens = T ++ endTail T ↔ ¬ ReadsInside ucd15 nel lsps chunks last) ∧
    Adds (T ++ endTail T) (output ucd15 nel lsps (script chunks last) lens) := by
  obtain ⟨n, hc⟩ := c15_reader_reaches_end nel lsps (script [] (chunks.flatten ++ last)) (fun _ => normalizationBufferSize) (fun _ => Nat.le_refl _)
  have hbom : (chunks.flatten ++ last).head? ≠ some BOM := by
    obtain ⟨h1, -⟩ := c38_write_str_accepts (.new k) ⟨⟨_, rfl⟩, rfl, hd, hk⟩ rfl (chunks.flatten ++ last)
    intro hx
    have := okChar_check.2 ((h1.1 hw).1 _ (List.mem_of_mem_head? hx))
    exact (ok_not_special this).2.2.2.2.2.2 rfl
  rw [← c49_writer_reader k hd hk nel lsps _ T _ hw hT hc]
  exact ⟨c110_same_iff nel lsps chunks last (Or.inr hbom) lens _ hr hc, c110_only_inserts nel lsps chunks last (Or.inr hbom) lens _ hr hc⟩

/-- C68, exactly: bytes that could all be written are read back, in whatever pieces they come, as what the sink has got exactly when no read but the last ends
inside, and with U+34F inserted otherwise. -/
theorem c68_written_is_read_iff (k : Sink) (hd : k.dead = false) (hk : k.script = []) (h0 : k.sent = []) (b : Bytes) (T : List Char)
    (hw : writeClose ucd15 (.new k) b = some T) (nel lsps : Bool) (chunks : List (List Char)) (last : List Char) (hb : Delivers b chunks last)
    (lens : List Nat) (hr : Completes ucd15 nel lsps (script chunks last) lens) :
    (output ucd15 nel lsps (script chunks last) lens = T ↔ ¬ ReadsInside ucd15 nel lsps chunks last) ∧
    Adds T (output ucd15 nel lsps (script chunks last) lens) := by
  obtain ⟨n, hc⟩ := c15_reader_reaches_end nel lsps (script [] (utf8Lossy b)) (fun _ => normalizationBufferSize) (fun _ => Nat.le_refl _)
  rw [← (c68_written_is_read k hd hk h0 b T hw nel lsps _ hc).1]
  have hbom : (chunks.flatten ++ last).head? ≠ some BOM := by
    obtain ⟨s, rfl, h2, -⟩ := (writeClose_iff textLaws15 hd hk).1 hw
    unfold Delivers at hb
    rw [hb, utf8Lossy_encode]
    intro hx
    exact (ok_not_special (h2 _ (List.mem_of_mem_head? hx))).2.2.2.2.2.2 rfl
  unfold Delivers at hb
  rw [← hb] at hc ⊢
  exact ⟨c110_same_iff nel lsps chunks last (Or.inr hbom) lens _ hr hc, c110_only_inserts nel lsps chunks last (Or.inr hbom) lens _ hr hc⟩

/-! ## The conversion of the document, and text that is Basic Text already -/

/-- C17 for all sources: the text that is read is the result of the stream conversion apart from U+34F, whatever the content and however it is cut. -/
theorem c17_same_scalars (nel lsps : Bool) (chunks : List (List Char)) (last : List Char) (hb : BomSafe chunks last) (lens : List Nat)
    (h : Completes ucd15 nel lsps (script chunks last) lens) :
    (output ucd15 nel lsps (script chunks last) lens).filter (· ≠ CGJ) = (stream ucd15 nel lsps (chunks.flatten ++ last)).filter (· ≠ CGJ) := by
  rw [(reads_add textLaws15 nel lsps hb h rfl).1.same, stream, (normChain_adds textLaws15 _).same]

/-- C17: and in one read the only difference is that some U+34F of the conversion are left out. -/
theorem c17_single_leaves_out (nel lsps : Bool) (s : List Char) (lens : List Nat) (h : Completes ucd15 nel lsps (script [] s) lens) :
    Adds (output ucd15 nel lsps (script [] s) lens) (stream ucd15 nel lsps s) := by
  rw [output_single textLaws15 h]
  exact normChain_adds textLaws15 _

/-- C110: Basic Text that is read, in whatever pieces, is delivered with some U+34F inserted, and U+A at its end if it has none there. -/
theorem c110_valid_only_inserts (nel lsps : Bool) (chunks : List (List Char)) (last s : List Char) (hs : chunks.flatten ++ last = s)
    (hv : fromText (isBasicText ucd15) s = .ok s) (lens : List Nat) (h : Completes ucd15 nel lsps (script chunks last) lens) :
    Adds (if s = [] ∨ s.getLast? = some '\n' then s else s ++ ['\n']) (output ucd15 nel lsps (script chunks last) lens) := by
  have hv := (fromText_ok_iff.1 hv).1
  obtain ⟨i1, i2, i3⟩ := text_iff.1 hv
  obtain ⟨i4, i5⟩ := substr_iff.1 i3
  have hbom : (chunks.flatten ++ last).head? ≠ some BOM := by
    rw [hs]; intro hx
    exact (ok_not_special (i4 _ (List.mem_of_mem_head? hx))).2.2.2.2.2.2 rfl
  have h1 := (reads_add textLaws15 nel lsps (Or.inr hbom) h rfl).1
  rw [dropBom_of_ne hbom, hs, translate_ok hv] at h1
  refine Adds.trans (normChain_inserts textLaws15 (norm3_of_nss textLaws15 ?_)) h1
  split
  · exact i5
  · exact (nss_inert_concat textLaws15.law (inert_lf textLaws15)).2 i5

/-- C55 with unassigned scalars too: the closed stream is read back with at most some U+34F inserted, and unchanged exactly under the conditions of C107. -/
theorem c55_round_trip_iff (k : Sink) (hk : k.sent = []) (ops : List Op) (ho : ∀ op ∈ ops, op.Strict ucd15)
    (hne : ∀ op ∈ ops, op.isWrite = true → op.src ≠ [])
    (hh : ∀ op ∈ ops, ∀ c ∈ op.src.head?, isStart ucd15 c = true ∧ isJamoVT c = false)
    (hc : (step ucd15 (run ucd15 (.new k) ops) .close).2 = .ok)
    (nel lsps : Bool) (chunks : List (List Char)) (last : List Char) (lens : List Nat)
    (hsplit : chunks.flatten ++ last = (run ucd15 (.new k) (ops ++ [.close])).sink.sent)
    (h : Completes ucd15 nel lsps (script chunks last) lens) :
    Adds (run ucd15 (.new k) (ops ++ [.close])).sink.sent (output ucd15 nel lsps (script chunks last) lens) ∧
    (output ucd15 nel lsps (script chunks last) lens = (run ucd15 (.new k) (ops ++ [.close])).sink.sent ↔
      Preceded ucd15 (run ucd15 (.new k) (ops ++ [.close])).sink.sent ∧
      ∀ i, i < chunks.length → ¬ EndsInside ucd15 (run ucd15 (.new k) (ops ++ [.close])).sink.sent (chunks.take (i + 1)).flatten) := by
  obtain ⟨h1, h2⟩ := c55_closed_stream_valid k hk ops ho hne hh hc
  generalize (run ucd15 (.new k) (ops ++ [.close])).sink.sent = s at *
  have hv : fromText (isBasicText ucd15) s = .ok s := fromText_ok_iff.2 ⟨h1, rfl⟩
  have a := c110_valid_only_inserts nel lsps chunks last s hsplit hv lens h
  rw [if_pos h2] at a
  exact ⟨a, c107_unchanged_iff nel lsps chunks last s hsplit hv h2 lens h⟩

/-- C52 without the proviso: the stream written after U+FEFF is read as the one without, apart from U+34F. -/
theorem c52_same_scalars (k : Sink) (hk : k.sent = []) (w : Writer) (hw : Writer.newBom k = some w) (ops : List Op) (ho : ∀ op ∈ ops, op.Ok ucd15)
    (nel lsps : Bool) (chunks chunks' : List (List Char)) (last last' : List Char) (lens lens' : List Nat)
    (h1 : chunks.flatten ++ last = (run ucd15 w ops).sink.sent)
    (h2 : chunks'.flatten ++ last' = (run ucd15 (.new { k with script := w.sink.script }) ops).sink.sent)
    (hfirst : (chunks ++ [last]).head? ≠ some [])
    (h : Completes ucd15 nel lsps (script chunks last) lens) (h' : Completes ucd15 nel lsps (script chunks' last') lens') :
    (output ucd15 nel lsps (script chunks last) lens).filter (· ≠ CGJ) = (output ucd15 nel lsps (script chunks' last') lens').filter (· ≠ CGJ) := by
  obtain ⟨d, e1, e2, -⟩ := c52_bom_writer k w hw ops
  obtain ⟨T, hT1, hT2⟩ := c30_sink_scalars (.new { k with script := w.sink.script }) (fresh_new _) ops ho
  rw [hk] at e1
  rw [e2] at hT1
  have hT1 : d = T := List.append_cancel_left hT1
  rw [show k.sent ++ d = d by simp [hk]] at e2
  rw [hT1] at e1 e2
  rw [e2] at h2
  have hb : T.head? ≠ some BOM := by
    intro hb
    rcases hT2 BOM (List.mem_of_mem_head? hb) with h | ⟨h, -⟩ | ⟨h, -⟩
    · exact absurd h.1 (by decide)
    · exact absurd h (by simp [Writer.new])
    · exact absurd h (by simp [Writer.new])
  have g1 := (reads_add textLaws15 nel lsps (Or.inl hfirst) h rfl).1.same
  have g2 := (reads_add textLaws15 nel lsps (Or.inr (by rw [h2]; exact hb)) h' rfl).1.same
  have q1 : dropBom (chunks.flatten ++ last) = T := by rw [h1, e1]; rfl
  have q2 : dropBom (chunks'.flatten ++ last') = T := by rw [h2]; exact dropBom_of_ne hb
  rw [q1] at g1
  rw [q2] at g2
  rw [g1, g2]

/-- C55 for a writer that was told to begin with U+FEFF. -/
theorem c55_bom_inserts (k : Sink) (hk : k.sent = []) (w : Writer) (hw : Writer.newBom k = some w) (ops : List Op)
    (ho : ∀ op ∈ ops, op.Strict ucd15) (hne : ∀ op ∈ ops, op.isWrite = true → op.src ≠ [])
    (hh : ∀ op ∈ ops, ∀ c ∈ op.src.head?, isStart ucd15 c = true ∧ isJamoVT c = false)
    (hc : (step ucd15 (run ucd15 (.new { k with script := w.sink.script }) ops) .close).2 = .ok)
    (nel lsps : Bool) (chunks : List (List Char)) (last : List Char) (lens : List Nat)
    (hsplit : chunks.flatten ++ last = (run ucd15 w (ops ++ [.close])).sink.sent) (hfirst : (chunks ++ [last]).head? ≠ some [])
    (h : Completes ucd15 nel lsps (script chunks last) lens) :
    Adds (run ucd15 (.new { k with script := w.sink.script }) (ops ++ [.close])).sink.sent (output ucd15 nel lsps (script chunks last) lens) := by
  obtain ⟨d, e1, e2, -⟩ := c52_bom_writer k w hw (ops ++ [.close])
  have e2 : (run ucd15 (.new { k with script := w.sink.script }) (ops ++ [.close])).sink.sent = d := by rw [e2, hk]; rfl
  obtain ⟨v1, v2⟩ := c55_closed_stream_valid { k with script := w.sink.script } hk ops ho hne hh hc
  rw [e2] at v1 v2 ⊢
  have g := (reads_add textLaws15 nel lsps (Or.inl hfirst) h rfl).1
  have q1 : dropBom (chunks.flatten ++ last) = d := by rw [hsplit, e1, hk]; rfl
  rw [q1, translate_ok v1, if_pos v2] at g
  obtain ⟨i1, i2, i3⟩ := text_iff.1 v1
  exact (normChain_inserts textLaws15 (norm3_of_nss textLaws15 (substr_iff.1 i3).2)).trans g

/-- Calls that meet the hypotheses of C55, with an unassigned scalar in the text, cut where it matters. -/
example : let op : Op := .str ['a', CGJ, '͸', CGJ, 'b', '\n']
    (∀ c ∈ op.src.head?, isStart ucd15 c = true ∧ isJamoVT c = false) ∧ (step ucd15 (run ucd15 (.new goodSink) [op]) .close).2 = .ok ∧
    (run ucd15 (.new goodSink) [op, .close]).sink.sent = ['a', CGJ, '͸', CGJ, 'b', '\n'] ∧
    Completes ucd15 false false (script [['a', CGJ]] ['͸', CGJ, 'b', '\n']) [136, 136] ∧
    output ucd15 false false (script [['a', CGJ]] ['͸', CGJ, 'b', '\n']) [136, 136] = ['a', CGJ, CGJ, '͸', CGJ, 'b', '\n'] :=
  ⟨by decide +kernel, by decide +kernel, by decide +kernel, completes_of (by decide +kernel), by decide +kernel⟩

/-! ## Without the condition on U+FEFF -/

theorem segments_empty_bom (U : Ucd) (nel lsps : Bool) (es : List Event) :
    segments U nel lsps (.data [] .active :: es) = segments U nel lsps (.data [BOM] .active :: es) := rfl

/-- A first read that brings nothing is like one that brings U+FEFF alone, so a U+FEFF behind it stays in the content. -/
theorem reads_empty_first (nel lsps : Bool) (cs : List (List Char)) (last : List Char) {lens : List Nat}
    (hc : Completes ucd15 nel lsps (script ([] :: cs) last) lens) :
    ∃ lens', Completes ucd15 nel lsps (script ([BOM] :: cs) last) lens' ∧
      output ucd15 nel lsps (script ([] :: cs) last) lens = output ucd15 nel lsps (script ([BOM] :: cs) last) lens' := by
  obtain ⟨n, hc'⟩ := c15_reader_reaches_end nel lsps (script ([BOM] :: cs) last) (fun _ => normalizationBufferSize) (fun _ => Nat.le_refl _)
  refine ⟨_, hc', ?_⟩
  obtain ⟨r, m, h1, h2⟩ := hc
  obtain ⟨r', m', h1', h2'⟩ := hc'
  rw [output, output, (run_exact textLaws15 (ending_script _ last) h1 h2).1, (run_exact textLaws15 (ending_script _ last) h1' h2').1]
  exact congrArg (List.flatMap _) (segments_empty_bom ucd15 nel lsps (script cs last))

theorem keeps_scalars (nel lsps : Bool) (chunks : List (List Char)) (last : List Char) {lens : List Nat}
    (hc : Completes ucd15 nel lsps (script chunks last) lens) :
    (output ucd15 nel lsps (script chunks last) lens).filter (· ≠ CGJ) =
      (normChain ucd15 (translate ucd15 nel lsps (if (chunks ++ [last]).head? = some [] then chunks.flatten ++ last else dropBom (chunks.flatten ++ last)))).filter
        (· ≠ CGJ) := by
  split
  case isFalse h => exact (reads_add textLaws15 nel lsps (Or.inl h) hc rfl).1.same
  case isTrue h =>
    cases chunks with
    | nil =>
      have : last = [] := by simpa using h
      subst this
      exact (reads_add textLaws15 nel lsps (Or.inr (by simp)) hc rfl).1.same
    | cons c cs =>
      have : c = [] := by simpa using h
      subst this
      obtain ⟨l, h1, h2⟩ := reads_empty_first nel lsps cs last hc
      rw [h2, (reads_add textLaws15 nel lsps (Or.inl (by simp)) h1 rfl).1.same]
      rfl

theorem count_bom (nel lsps : Bool) (v : List Char) : (normChain ucd15 (translate ucd15 nel lsps (BOM :: v))).count WJ =
    (normChain ucd15 (translate ucd15 nel lsps v)).count WJ + 1 := by
  have hw : isAssigned ucd15 WJ = true := by decide +kernel
  have hc : ∀ x, (normChain ucd15 x).count WJ = x.count WJ := fun x => count_normChain textLaws15 textLaws15.wj_inert hw (by decide) _ x (Nat.le_refl _)
  rw [hc, hc, count_translate (by decide) (by decide), count_translate (by decide) (by decide),
    tokens_one (by decide) (by decide) (by decide) (by decide), List.flatMap_cons, List.count_append]
  have hone : (single nel lsps BOM).out.count WJ = 1 := by
    cases nel <;> cases lsps <;> decide +kernel
  omega

/-- C16, exactly, apart from U+34F: two ways of cutting a content give the same text apart from U+34F exactly if it does not begin with U+FEFF or
the first read brings something in both or in neither. -/
theorem c16_same_scalars_iff (nel lsps : Bool) (chunks chunks' : List (List Char)) (last last' : List Char) (he : chunks.flatten ++ last = chunks'.flatten ++ last')
    (lens lens' : List Nat) (h : Completes ucd15 nel lsps (script chunks last) lens) (h' : Completes ucd15 nel lsps (script chunks' last') lens') :
    (output ucd15 nel lsps (script chunks last) lens).filter (· ≠ CGJ) = (output ucd15 nel lsps (script chunks' last') lens').filter (· ≠ CGJ) ↔
    ((chunks.flatten ++ last).head? = some BOM → ((chunks ++ [last]).head? = some [] ↔ (chunks' ++ [last']).head? = some [])) := by
  rw [keeps_scalars nel lsps chunks last h, keeps_scalars nel lsps chunks' last' h', ← he]
  generalize chunks.flatten ++ last = s
  by_cases hs : s.head? = some BOM
  · cases s with
    | nil => simp at hs
    | cons c v =>
      have : c = BOM := by simpa using hs
      subst this
      have hd : dropBom (BOM :: v) = v := rfl
      have hne : (normChain ucd15 (translate ucd15 nel lsps (BOM :: v))).filter (· ≠ CGJ) ≠ (normChain ucd15 (translate ucd15 nel lsps v)).filter (· ≠ CGJ) := by
        intro e
        have e := congrArg (List.count WJ) e
        rw [List.count_filter (by decide), List.count_filter (by decide), count_bom] at e
        omega
      rw [hd]
      by_cases h1 : (chunks ++ [last]).head? = some [] <;> by_cases h2 : (chunks' ++ [last']).head? = some []
      · rw [if_pos h1, if_pos h2]; exact iff_of_true rfl fun _ => iff_of_true h1 h2
      · rw [if_pos h1, if_neg h2]; exact iff_of_false hne fun g => h2 ((g rfl).1 h1)
      · rw [if_neg h1, if_pos h2]; exact iff_of_false (fun e => hne e.symm) fun g => h1 ((g rfl).2 h2)
      · rw [if_neg h1, if_neg h2]; exact iff_of_true rfl fun _ => iff_of_false h1 h2
  · rw [dropBom_of_ne hs]; simp [hs]

/-- C16, exactly: the text is that of one read exactly if the first read brings something or there is no U+FEFF to be dropped, and no read but the last ends
inside. -/
theorem c16_same_as_whole_iff (nel lsps : Bool) (chunks : List (List Char)) (last : List Char) (lens lens' : List Nat)
    (h : Completes ucd15 nel lsps (script chunks last) lens) (h' : Completes ucd15 nel lsps (script [] (chunks.flatten ++ last)) lens') :
    output ucd15 nel lsps (script chunks last) lens = output ucd15 nel lsps (script [] (chunks.flatten ++ last)) lens' ↔
    ((chunks ++ [last]).head? ≠ some [] ∨ (chunks.flatten ++ last).head? ≠ some BOM) ∧ ¬ ReadsInside ucd15 nel lsps chunks last := by
  constructor
  · intro e
    have hb : (chunks ++ [last]).head? ≠ some [] ∨ (chunks.flatten ++ last).head? ≠ some BOM := by
      by_cases hs : (chunks.flatten ++ last).head? = some BOM
      · left
        have := (c16_same_scalars_iff nel lsps chunks [] last (chunks.flatten ++ last) (by simp) lens lens' h h').1 (by rw [e]) hs
        rw [ne_eq, this]
        intro h0
        have h0 : chunks.flatten ++ last = [] := by simpa using h0
        rw [h0] at hs; simp at hs
      · exact Or.inr hs
    exact ⟨hb, (c110_same_iff nel lsps chunks last hb lens lens' h h').1 e⟩
  · rintro ⟨hb, hi⟩
    exact (c110_same_iff nel lsps chunks last hb lens lens' h h').2 hi

/-- C17, exactly, apart from U+34F: the text is the stream conversion's exactly if the first read brings something or there is no U+FEFF to be dropped. -/
theorem c17_same_scalars_iff (nel lsps : Bool) (chunks : List (List Char)) (last : List Char) (lens : List Nat)
    (h : Completes ucd15 nel lsps (script chunks last) lens) :
    (output ucd15 nel lsps (script chunks last) lens).filter (· ≠ CGJ) = (stream ucd15 nel lsps (chunks.flatten ++ last)).filter (· ≠ CGJ) ↔
    (chunks ++ [last]).head? ≠ some [] ∨ (chunks.flatten ++ last).head? ≠ some BOM := by
  obtain ⟨n, hc⟩ := c15_reader_reaches_end nel lsps (script [] (chunks.flatten ++ last)) (fun _ => normalizationBufferSize) (fun _ => Nat.le_refl _)
  have e := (c17_single_leaves_out nel lsps _ _ hc).same
  rw [e, c16_same_scalars_iff nel lsps chunks [] last (chunks.flatten ++ last) (by simp) lens _ h hc]
  by_cases hs : (chunks.flatten ++ last).head? = some BOM
  · have : ¬ (([] ++ [chunks.flatten ++ last] : List (List Char)).head? = some []) := by
      intro h0
      have h0 : chunks.flatten ++ last = [] := by simpa using h0
      rw [h0] at hs; simp at hs
    exact ⟨fun g => Or.inl fun h1 => this ((g hs).1 h1), fun g _ => iff_of_false (g.resolve_right (fun g' => g' hs)) this⟩
  · exact iff_of_true (fun g => absurd g hs) (Or.inr hs)

theorem bom_shows (nel lsps : Bool) (v : List Char) :
    (normChain ucd15 (translate ucd15 nel lsps (BOM :: v))).filter (· ≠ CGJ) ≠ (normChain ucd15 (translate ucd15 nel lsps v)).filter (· ≠ CGJ) := by
  intro e
  have e := congrArg (List.count WJ) e
  rw [List.count_filter (by decide), List.count_filter (by decide), count_bom] at e
  omega

/-- C24, exactly: a U+FEFF at the beginning makes no difference, apart from U+34F, exactly if the first read brings something. -/
theorem c24_dropped_iff (nel lsps : Bool) (s : List Char) (chunks chunks' : List (List Char)) (last last' : List Char)
    (lens lens' : List Nat) (h1 : chunks.flatten ++ last = BOM :: s) (h2 : chunks'.flatten ++ last' = s) (hs : s.head? ≠ some BOM)
    (h : Completes ucd15 nel lsps (script chunks last) lens) (h' : Completes ucd15 nel lsps (script chunks' last') lens') :
    (output ucd15 nel lsps (script chunks last) lens).filter (· ≠ CGJ) = (output ucd15 nel lsps (script chunks' last') lens').filter (· ≠ CGJ) ↔
    (chunks ++ [last]).head? ≠ some [] := by
  rw [keeps_scalars nel lsps chunks last h, keeps_scalars nel lsps chunks' last' h', h1, h2, dropBom_of_ne hs, ite_self,
    show dropBom (BOM :: s) = s from rfl]
  by_cases he : (chunks ++ [last]).head? = some []
  · rw [if_pos he]; exact iff_of_false (bom_shows nel lsps s) (fun g => g he)
  · rw [if_neg he]; exact iff_of_true rfl he

/-- An empty first read before U+FEFF and a. -/
example : (([[]] : List (List Char)).flatten ++ [BOM, 'a']) = BOM :: ['a'] ∧ Completes ucd15 false false (script [[]] [BOM, 'a']) [136, 136] ∧
    Completes ucd15 false false (script [] ['a']) [136] ∧ ¬ ReadsInside ucd15 false false [[]] [BOM, 'a'] :=
  ⟨rfl, completes_of (by decide +kernel), completes_of (by decide +kernel), by
    rintro ⟨i, hi, a, w, u, r, e1, e2, -⟩
    have : CGJ ∈ translate ucd15 false false (dropBom (([[]] : List (List Char)).flatten ++ [BOM, 'a'])) := by rw [e2]; simp
    revert this; decide +kernel⟩

/-! ## Canonically equivalent sources -/

/-- C106 with U+34F before unassigned scalars too: equivalent contents are read as the same text apart from U+34F. -/
theorem c106_same_scalars (nel lsps : Bool) (chunks chunks' : List (List Char)) (last last' : List Char) (lens lens' : List Nat)
    (heq : CanonicallyEquivalent ucd15 (chunks.flatten ++ last) (chunks'.flatten ++ last'))
    (ho : ∀ c ∈ chunks.flatten ++ last, Faithful c) (ho' : ∀ c ∈ chunks'.flatten ++ last', Faithful c)
    (hs : StreamSafe (form ucd15 nel lsps (chunks.flatten ++ last))) (hb : BomSafe chunks last) (hb' : BomSafe chunks' last')
    (hc : Completes ucd15 nel lsps (script chunks last) lens) (hc' : Completes ucd15 nel lsps (script chunks' last') lens') :
    (output ucd15 nel lsps (script chunks last) lens).filter (· ≠ CGJ) = (output ucd15 nel lsps (script chunks' last') lens').filter (· ≠ CGJ) := by
  have := form_equiv (canonicallyEquivalent_iff.1 heq) ho ho' (streamSafe_iff.1 hs)
  unfold form at this
  rw [(reads_add textLaws15 nel lsps hb hc rfl).1.same, (reads_add textLaws15 nel lsps hb' hc' rfl).1.same, this]

/-- C106: and as exactly the same text if no read but the last ends inside, in particular in one read each. -/
theorem c106_same_cuts (nel lsps : Bool) (chunks chunks' : List (List Char)) (last last' : List Char) (lens lens' : List Nat)
    (heq : CanonicallyEquivalent ucd15 (chunks.flatten ++ last) (chunks'.flatten ++ last'))
    (ho : ∀ c ∈ chunks.flatten ++ last, Faithful c) (ho' : ∀ c ∈ chunks'.flatten ++ last', Faithful c)
    (hs : StreamSafe (form ucd15 nel lsps (chunks.flatten ++ last))) (hb : BomSafe chunks last) (hb' : BomSafe chunks' last')
    (hi : ¬ ReadsInside ucd15 nel lsps chunks last) (hi' : ¬ ReadsInside ucd15 nel lsps chunks' last')
    (hc : Completes ucd15 nel lsps (script chunks last) lens) (hc' : Completes ucd15 nel lsps (script chunks' last') lens') :
    output ucd15 nel lsps (script chunks last) lens = output ucd15 nel lsps (script chunks' last') lens' := by
  have := form_equiv (canonicallyEquivalent_iff.1 heq) ho ho' (streamSafe_iff.1 hs)
  unfold form at this
  rw [(reads_add textLaws15 nel lsps hb hc rfl).2.1.2 (inside_iff.2 hi), (reads_add textLaws15 nel lsps hb' hc' rfl).2.1.2 (inside_iff.2 hi'), this]

/-! ## The lossy conversion, compared with the specification -/

theorem Spec.Adds.cancel {a b c : List Char} (h : Adds (a ++ c) (b ++ c)) : Adds a b :=
  ⟨(List.append_sublist_append_right c).1 h.sub, by
    have := h.same
    rw [List.filter_append, List.filter_append] at this
    exact List.append_cancel_right this⟩

theorem lossy_adds (chunks : List (List Char)) (last : List Char) (hb : SliceReads chunks last) (lens : Nat → Nat) (t : List Char)
    (h : Converts chunks last lens t) :
    Adds (bomPrefix (chunks.flatten ++ last) ++ normChain ucd15 (lossyText ucd15 (dropBom (chunks.flatten ++ last)))) t := by
  obtain ⟨l, x, c, rfl, e⟩ := lossy_output chunks last hb lens t h
  have := (reads_add textLaws15 false false hb.bomSafe c rfl).1
  rw [e, normChain_lossyText textLaws15] at this
  exact (Adds.refl _).append this.cancel

/-- C04 with U+34F before unassigned scalars too: however the string is handed over, the result is that of the specification apart from U+34F. -/
theorem c04_same_scalars (v : List Char) (he : ESC ∉ v ∨ (v.getLast? ≠ some '\n' ∧ v.getLast? ≠ some '\r')) (chunks : List (List Char)) (last : List Char)
    (hv : chunks.flatten ++ last = v) (hb : SliceReads chunks last) (lens : Nat → Nat) (t : List Char) (h : Converts chunks last lens t) :
    t.filter (· ≠ CGJ) = (Spec.string ucd15 v).filter (· ≠ CGJ) := by
  have hd : ESC ∉ dropBom v ∨ ((dropBom v).getLast? ≠ some '\n' ∧ (dropBom v).getLast? ≠ some '\r') := by
    refine he.imp (fun g g' => g (mem_dropOne g')) fun g => ?_
    cases v with
    | nil => exact g
    | cons c v =>
      by_cases hc : c = BOM
      · subst hc
        rw [show dropBom (BOM :: v) = v from rfl]
        cases v with
        | nil => simp
        | cons d v => simpa using g
      · rw [dropBom_of_ne (by simpa using hc)]; exact g
  rw [(lossy_adds chunks last hb lens t h).same, hv, string_eq, lossyText_body hd, List.filter_append, List.filter_append, (normChain_adds textLaws15 _).same]

/-- C02 for every split and all valid text: at most U+34F are inserted. -/
theorem c02_only_inserts (s : List Char) (hs : fromText (isBasicText ucd15) s = .ok s) (chunks : List (List Char)) (last : List Char)
    (hv : chunks.flatten ++ last = s) (hb : SliceReads chunks last) (lens : Nat → Nat) (t : List Char) (h : Converts chunks last lens t) : Adds s t := by
  have hs := (fromText_ok_iff.1 hs).1
  obtain ⟨e1, e2, e3⟩ := lossyText_valid hs
  have := lossy_adds chunks last hb lens t h
  rw [hv, e1, e2, e3, List.nil_append] at this
  obtain ⟨i1, i2, i3⟩ := text_iff.1 hs
  exact (normChain_inserts textLaws15 (norm3_of_nss textLaws15 (substr_iff.1 i3).2)).trans this

/-- C03 for every pair of splits: converting again inserts at most U+34F. -/
theorem c03_only_inserts (chunks chunks' : List (List Char)) (last last' : List Char) (hb : SliceReads chunks last) (hb' : SliceReads chunks' last')
    (lens lens' : Nat → Nat) (t t' : List Char) (h : Converts chunks last lens t) (ht : chunks'.flatten ++ last' = t) (h' : Converts chunks' last' lens' t') :
    Adds t t' := by
  obtain ⟨m, text, h1, h2⟩ := read_of_converts h
  obtain ⟨t1, g1, g2⟩ := lossy_valid textLaws15 wj_start hb h1
  rw [h2] at g1
  injection g1 with g1
  subst g1
  exact c02_only_inserts t (fromText_ok g2) chunks' last' ht hb' lens' t' h'

/-- C106 for the lossy conversion, with U+34F before unassigned scalars too. -/
theorem c106_lossy_same_scalars (chunks chunks' : List (List Char)) (last last' : List Char) (lens lens' : Nat → Nat)
    (heq : CanonicallyEquivalent ucd15 (chunks.flatten ++ last) (chunks'.flatten ++ last'))
    (ho : ∀ c ∈ chunks.flatten ++ last, Faithful c) (ho' : ∀ c ∈ chunks'.flatten ++ last', Faithful c)
    (hs : StreamSafe (form ucd15 false false (chunks.flatten ++ last))) (hb : SliceReads chunks last) (hb' : SliceReads chunks' last')
    (t t' : List Char) (h : Converts chunks last lens t) (h' : Converts chunks' last' lens' t') : t.filter (· ≠ CGJ) = t'.filter (· ≠ CGJ) := by
  have hn := canonicallyEquivalent_iff.1 heq
  rw [c04_same_scalars _ (Or.inl fun g => (ho _ g).1 rfl) chunks last rfl hb lens t h,
    c04_same_scalars _ (Or.inl fun g => (ho' _ g).1 rfl) chunks' last' rfl hb' lens' t' h', string_eq, string_eq, bomPrefix_equiv hn ho ho',
    List.filter_append, List.filter_append, (normChain_adds textLaws15 _).same, (normChain_adds textLaws15 _).same]
  obtain ⟨r, hr⟩ := form_body (chunks.flatten ++ last)
  have hs' := streamSafe_iff.1 hs
  rw [hr] at hs'
  rw [body_equiv hn ho ho' (chk_prefix hs')]

end Verif
