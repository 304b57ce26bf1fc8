import Verif.Damage
import Verif.Props.CutShort
import Verif.Props.LineCut
import Verif.Props.Lossless
import Verif.Props.Escaped
import Verif.Props.Exact
import Verif.Props.Interrupted

/-!
# Damage to a file (C145)
-/

namespace Verif
open Ucd Spec

/-- A source without ESC before a newline, read up to the newline and from it on (C73 for reads without pushes). -/
theorem read_at {nel lsps : Bool} {a b last : List Char} {chunks : List (List Char)} (hc : chunks.flatten ++ last = a ++ '\n' :: b) (he : ESC ∉ a)
    {lens : List Nat} (h : Completes ucd15 nel lsps (script chunks last) lens) :
    ∃ cs1 l1 lens1 cs2 l2 lens2 Y, cs1.flatten ++ l1 = a ++ ['\n'] ∧ cs2.flatten ++ l2 = '\n' :: b ∧
      Completes ucd15 nel lsps (script cs1 l1) lens1 ∧ Completes ucd15 nel lsps (script cs2 l2) lens2 ∧
      output ucd15 nel lsps (script chunks last) lens = output ucd15 nel lsps (script cs1 l1) lens1 ++ Y ∧
      output ucd15 nel lsps (script cs2 l2) lens2 = '\n' :: Y := by
  obtain ⟨cs, x, y, st, more, cs2, l2, h1, h2, h3, h4⟩ := script_at hc
  obtain ⟨lens1, k1⟩ := completes nel lsps cs (x ++ ['\n'])
  obtain ⟨lens2, k2⟩ := completes nel lsps cs2 l2
  have hcont : contents (cs.map (Event.data · .active)) = cs.flatten := by
    clear h1 h2 k1
    induction cs with
    | nil => rfl
    | cons c cs ih => simp only [List.map_cons, contents, List.flatten_cons, ih]
  rw [h1] at h
  have k2' := k2
  rw [h3] at k2'
  have hend : Ending (.data (x ++ '\n' :: y) st :: more) := by
    obtain ⟨evs, l, e1, e2⟩ := ending_script cs2 l2
    rw [h3] at e1
    cases evs with
    | nil => simp only [List.nil_append, List.cons.injEq, Event.data.injEq] at e1; obtain ⟨⟨-, rfl⟩, rfl⟩ := e1; exact ⟨[], _, rfl, by simp⟩
    | cons ev evs =>
      simp only [List.cons_append, List.cons.injEq] at e1
      obtain ⟨rfl, rfl⟩ := e1
      refine ⟨.data (x ++ '\n' :: y) st :: evs, l, rfl, ?_⟩
      intro e he
      rcases List.mem_cons.1 he with rfl | he
      · obtain ⟨s, st', q1, q2⟩ := e2 _ (List.mem_cons_self ..)
        injection q1 with _ q1
        exact ⟨_, _, rfl, q1 ▸ q2⟩
      · exact e2 e (by simp [he])
  obtain ⟨Y, y1, y2⟩ := c73_lines_cut nel lsps (cs.map (Event.data · .active)) x y st more
    (by intro e he; obtain ⟨s, -, rfl⟩ := List.mem_map.1 he; exact ⟨s, _, rfl, by decide⟩) hend
    (by rw [hcont]; intro hm; exact he (by rw [h2]; simp [hm])) (by intro hm; exact he (by rw [h2]; simp [hm])) lens lens1 lens2 h k1 k2'
  exact ⟨cs, x ++ ['\n'], lens1, cs2, l2, lens2, Y, by rw [h2]; simp, h4, k1, k2, by rw [h1, y1]; rfl, by rw [h3, y2]⟩

/-- What a reader delivers of valid text of assigned scalars that begins as text may, in any reads. -/
theorem read_beginning {nel lsps : Bool} {u last : List Char} {chunks : List (List Char)} (hc : chunks.flatten ++ last = u)
    (h1 : ∀ c ∈ u.head?, isStart ucd15 c = true) (h2 : isBasicTextSubstr ucd15 u = true) (ha : ∀ c ∈ u, isAssigned ucd15 c = true)
    {lens : List Nat} (h : Completes ucd15 nel lsps (script chunks last) lens) : output ucd15 nel lsps (script chunks last) lens = u ++ closing u := by
  have hb : (chunks.flatten ++ last).head? ≠ some BOM := by
    rw [hc]
    intro hm
    exact (ok_not_special ((substr_iff.1 h2).1 BOM (List.mem_of_mem_head? hm))).2.2.2.2.2.2 rfl
  rw [output_stream textLaws15 (Or.inr hb) (clear_of textLaws15 (Or.inl (by rw [hc]; exact ha))) h, hc, stream_beginning h1 h2 ha]

theorem encode_boundary (c : Char) (w : List Char) : ∀ b ∈ (encode (c :: w)).head?, isBoundaryByte b = true := by
  intro b hb
  obtain ⟨a, r, q1, q2, -⟩ := encodeChar_head c
  rw [encode_cons, q1] at hb
  simp at hb
  exact hb ▸ q2

theorem lossy_encode (s : List Char) : utf8Lossy (encode s) = s := by
  have := utf8Lossy_append s []
  simpa [utf8Lossy, lossyGo] using this

/-- C145: in a Basic Text file of assigned scalars, other bytes have come into the place of some lines (`m`; or of a part of them) up to
but without a newline.  If there is no ESC byte among them, the lines before and behind are delivered as they are, whatever the bytes
and however they come; and what is delivered between them is what a reader delivers for those bytes alone, behind an empty line. -/
theorem c145_confined (nel lsps : Bool) (v m w : List Char) (hT : isBasicText ucd15 (v ++ ['\n'] ++ m ++ '\n' :: w) = true)
    (ha : ∀ c ∈ v ++ '\n' :: w, isAssigned ucd15 c = true) (x : Bytes) (hx : 0x1b ∉ x) (bs : List Bytes) (last : Bytes)
    (hb : bs.flatten ++ last = encode (v ++ ['\n']) ++ x ++ encode ('\n' :: w)) (lens : List Nat)
    (h : Completes ucd15 nel lsps (byteScript bs last) lens) :
    ∃ r cs l lens', cs.flatten ++ l = '\n' :: utf8Lossy x ++ ['\n'] ∧ Completes ucd15 nel lsps (script cs l) lens' ∧
      output ucd15 nel lsps (script cs l) lens' = '\n' :: r ∧
      output ucd15 nel lsps (byteScript bs last) lens = v ++ ['\n'] ++ r ++ w ++ closing ('\n' :: w) := by
  have hnl : isStart ucd15 '\n' = true := by decide +kernel
  have hesc : ESC ∉ utf8Lossy x := fun hm => hx (ascii_lossy (by decide) x hm)
  have hsub := (text_iff.1 hT).2.2
  have hw2 : isBasicTextSubstr ucd15 ('\n' :: w) = true := substr_suffix textLaws15 hsub
  have hbeg : (∀ c ∈ (v ++ ['\n']).head?, isStart ucd15 c = true) ∧ isBasicTextSubstr ucd15 (v ++ ['\n']) = true := by
    rw [List.append_assoc] at hT
    exact beginning_text hT
  have hvesc : ESC ∉ v := by
    intro hm
    exact (ok_not_special ((substr_iff.1 hbeg.2).1 ESC (by simp [hm]))).2.2.1 rfl
  have e1 : (decodeReads [] bs last).1.flatten ++ (decodeReads [] bs last).2 = (v ++ ['\n'] ++ utf8Lossy x) ++ '\n' :: w := by
    have := c74_pieces_decode bs last
    unfold Delivers at this
    rw [this, hb, List.append_assoc, utf8Lossy_append, lossy_parts x (encode_boundary '\n' w), lossy_encode]
    simp
  obtain ⟨cs1, l1, lens1, cs2, l2, lens2, Y, a1, a2, a3, a4, a5, a6⟩ := read_at e1 (by simp [hvesc, hesc]; decide) h
  rw [read_beginning a2 (by simpa using hnl) hw2 (fun c hc => ha c (by simp only [List.mem_append]; exact .inr hc)) a4] at a6
  simp only [List.cons_append, List.cons.injEq, true_and] at a6
  obtain ⟨cs3, l3, lens3, cs4, l4, lens4, Y', b1, b2, b3, b4, b5, b6⟩ := read_at (a := v) (b := utf8Lossy x ++ ['\n']) (by rw [a1]; simp) hvesc a3
  rw [read_beginning b1 hbeg.1 hbeg.2 (fun c hc => ha c (by simp at hc ⊢; rcases hc with hc | hc <;> simp [hc])) b3] at b5
  refine ⟨Y', cs4, l4, lens4, by rw [b2]; rfl, b4, b6, ?_⟩
  have : closing (v ++ ['\n']) = [] := by simp [closing]
  show output ucd15 nel lsps (script _ _) lens = _
  rw [a5, b5, ← a6, this]
  simp

/-- C145: if there is no newline (of the mode) among the bytes, the damage is to one line: what is delivered are the lines before, one
line, and the lines behind. -/
theorem c145_one_line (nel lsps : Bool) (v m w : List Char) (hT : isBasicText ucd15 (v ++ ['\n'] ++ m ++ '\n' :: w) = true)
    (ha : ∀ c ∈ v ++ '\n' :: w, isAssigned ucd15 c = true) (x : Bytes) (hx : 0x1b ∉ x) (hn : ∀ c ∈ utf8Lossy x, isNl nel lsps c = false)
    (bs : List Bytes) (last : Bytes) (hb : bs.flatten ++ last = encode (v ++ ['\n']) ++ x ++ encode ('\n' :: w)) (lens : List Nat)
    (h : Completes ucd15 nel lsps (byteScript bs last) lens) :
    ∃ l, '\n' ∉ l ∧ output ucd15 nel lsps (byteScript bs last) lens = v ++ ['\n'] ++ l ++ '\n' :: w ++ closing ('\n' :: w) := by
  obtain ⟨r, cs, l, lens', h1, h2, h3, h4⟩ := c145_confined nel lsps v m w hT ha x hx bs last hb lens h
  have hesc : ESC ∉ utf8Lossy x := fun hm => hx (ascii_lossy (by decide) x hm)
  have hbom : (cs.flatten ++ l).head? ≠ some BOM := by rw [h1]; simp; decide
  have hcount := c72_newlines nel lsps cs l lens' (.inr hbom) (by rw [h1]; simp [hesc]; decide) h2
  have hd : dropBom (cs.flatten ++ l) = '\n' :: utf8Lossy x ++ ['\n'] := by rw [dropBom_of_ne hbom, h1]
  rw [hd, h3] at hcount
  have htl : ∀ s : List Char, (∀ c ∈ s, isNl nel lsps c = false) → newlines nel lsps ('\n' :: s ++ ['\n']) = 2 := by
    intro s hs
    have hlf : ∀ s : List Char, (∀ c ∈ s, c ≠ '\r') → toLF s = s := by
      intro s
      induction s with
      | nil => intro _; rfl
      | cons c s ih => intro hs; rw [toLF_cons (hs c (by simp)), ih fun d hd => hs d (by simp [hd])]
    unfold newlines
    rw [hlf]
    · rw [List.cons_append, List.countP_cons, List.countP_append, List.countP_eq_zero.2]
      · simp
      · intro c hc
        have := hs c hc
        simp only [isNl, decide_eq_false_iff_not] at this
        grind
    · intro c hc
      simp only [List.cons_append, List.mem_cons, List.mem_append, List.not_mem_nil, or_false] at hc
      rcases hc with rfl | hc | rfl
      · decide
      · have := hs c hc
        simp only [isNl, decide_eq_false_iff_not] at this
        grind
      · decide
  rw [htl _ hn] at hcount
  have hlast : ((('\n' :: utf8Lossy x ++ ['\n'] : List Char) = []) ∨ ∃ c ∈ ('\n' :: utf8Lossy x ++ ['\n']).getLast?, isNl nel lsps c = true) :=
    .inr ⟨'\n', by rw [List.getLast?_append]; simp, by simp [isNl]⟩
  rw [if_pos hlast] at hcount
  simp at hcount
  have hend : output ucd15 nel lsps (script cs l) lens' = [] ∨ (output ucd15 nel lsps (script cs l) lens').getLast? = some '\n' := by
    obtain ⟨q, n, hr, hok⟩ := h2
    refine c15_delivered_ends_newline nel lsps _ ?_ lens' q n hr hok
    intro e he
    obtain ⟨evs, l', q1, q2⟩ := ending_script cs l
    rw [q1] at he
    rcases List.mem_append.1 he with he | he
    · obtain ⟨s, st, q3, -⟩ := q2 e he
      rw [q3]; simp
    · rw [List.mem_singleton.1 he]; simp
  rw [h3] at hend
  have hrl : r.getLast? = some '\n' := by
    rcases hend with hend | hend
    · simp at hend
    · cases r with
      | nil => simp at hcount
      | cons a r => rwa [List.getLast?_cons_cons] at hend
  obtain ⟨q, rfl⟩ : ∃ q, r = q ++ ['\n'] := by
    rcases List.eq_nil_or_concat r with rfl | ⟨q, c, rfl⟩
    · simp at hrl
    · rw [List.concat_eq_append] at hrl ⊢
      simp at hrl; exact ⟨q, by rw [hrl]⟩
  refine ⟨q, ?_, by rw [h4]; simp⟩
  simp at hcount
  exact List.count_eq_zero.1 hcount

/-- C145 for damage at the beginning of the file: the lines behind are delivered as they are. -/
theorem c145_beginning (nel lsps : Bool) (m w : List Char) (hT : isBasicText ucd15 (m ++ '\n' :: w) = true)
    (ha : ∀ c ∈ '\n' :: w, isAssigned ucd15 c = true) (x : Bytes) (hx : 0x1b ∉ x) (bs : List Bytes) (last : Bytes)
    (hb : bs.flatten ++ last = x ++ encode ('\n' :: w)) (lens : List Nat) (h : Completes ucd15 nel lsps (byteScript bs last) lens) :
    ∃ cs l lens', cs.flatten ++ l = utf8Lossy x ++ ['\n'] ∧ Completes ucd15 nel lsps (script cs l) lens' ∧
      output ucd15 nel lsps (byteScript bs last) lens = output ucd15 nel lsps (script cs l) lens' ++ w ++ closing ('\n' :: w) := by
  have hnl : isStart ucd15 '\n' = true := by decide +kernel
  have hesc : ESC ∉ utf8Lossy x := fun hm => hx (ascii_lossy (by decide) x hm)
  have hw2 : isBasicTextSubstr ucd15 ('\n' :: w) = true := substr_suffix textLaws15 (text_iff.1 hT).2.2
  have e1 : (decodeReads [] bs last).1.flatten ++ (decodeReads [] bs last).2 = utf8Lossy x ++ '\n' :: w := by
    have := c74_pieces_decode bs last
    unfold Delivers at this
    rw [this, hb, lossy_parts x (encode_boundary '\n' w), lossy_encode]
  obtain ⟨cs1, l1, lens1, cs2, l2, lens2, Y, a1, a2, a3, a4, a5, a6⟩ := read_at e1 hesc h
  rw [read_beginning a2 (by simpa using hnl) hw2 ha a4] at a6
  simp only [List.cons_append, List.cons.injEq, true_and] at a6
  refine ⟨cs1, l1, lens1, a1, a3, ?_⟩
  show output ucd15 nel lsps (script _ _) lens = _
  rw [a5, ← a6]
  simp

/-- Bytes with which a block of a disk was overwritten, in the second of three lines; and the same with ESC in the last place. -/
example : isBasicText ucd15 (['a'] ++ ['\n'] ++ ['b', '[', 'c', ']'] ++ '\n' :: ['d', '\n']) = true ∧
    (∀ c ∈ utf8Lossy [0x62, 0xff, 0x00, 0xe2, 0x80], isNl false false c = false) ∧
    Completes ucd15 false false (byteScript [[0x61, 0x0a, 0x62, 0xff], [0x00, 0xe2]] [0x80, 0x0a, 0x64, 0x0a]) [136, 136, 136] ∧
    output ucd15 false false (byteScript [[0x61, 0x0a, 0x62, 0xff], [0x00, 0xe2]] [0x80, 0x0a, 0x64, 0x0a]) [136, 136, 136] =
      ['a', '\n', 'b', '�', '�', '�', '\n', 'd', '\n'] ∧
    isBasicText ucd15 (['a', '\n', 'b', '['] ++ 'c' :: ']' :: ['\n', 'd', '\n']) = true ∧
    Completes ucd15 false false (byteScript [] [0x61, 0x0a, 0x62, 0x5b, 0x1b, 0x5d, 0x0a, 0x64, 0x0a]) [136] ∧
    output ucd15 false false (byteScript [] [0x61, 0x0a, 0x62, 0x5b, 0x1b, 0x5d, 0x0a, 0x64, 0x0a]) [136] = ['a', '\n', 'b', '[', '\n'] :=
  ⟨by decide +kernel, by decide +kernel, completes_of (by decide +kernel), by decide +kernel, by decide +kernel, completes_of (by decide +kernel),
    by decide +kernel⟩

/-- C145: an ESC byte is not confined: one put in the place of the scalar before a `]` takes away all of the rest of the file. -/
theorem c145_refuted_escape (nel lsps : Bool) (v w : List Char) (c : Char) (hT : isBasicText ucd15 (v ++ c :: ']' :: w) = true)
    (ha : ∀ c ∈ v ++ w, isAssigned ucd15 c = true) (bs : List Bytes) (last : Bytes)
    (hb : bs.flatten ++ last = encode v ++ 0x1b :: encode (']' :: w)) (lens : List Nat)
    (h : Completes ucd15 nel lsps (byteScript bs last) lens) :
    output ucd15 nel lsps (byteScript bs last) lens = v ++ (if ∀ d ∈ v.getLast?, isEnd d = true then [] else [CGJ]) ++ ['\n'] := by
  have hv : (∀ c ∈ v.head?, isStart ucd15 c = true) ∧ isBasicTextSubstr ucd15 v = true := beginning_text hT
  have hok : ∀ d ∈ v ++ c :: ']' :: w, okChar d = true := (substr_iff.1 (text_iff.1 hT).2.2).1
  have hva : ∀ d ∈ v, isAssigned ucd15 d = true := fun d hd => ha d (by simp [hd])
  have hplain : Plain v := by
    refine ⟨fun hm => (ok_not_special (hok ESC (by simp [hm]))).2.2.1 rfl, ?_, ?_⟩
    · intro hm; exact (ok_not_special (hok _ (by simp [List.mem_of_getLast? hm]))).1 rfl
    · intro hm; exact (ok_not_special (hok _ (by simp [List.mem_of_getLast? hm]))).2.1 rfl
  have e1 : (decodeReads [] bs last).1.flatten ++ (decodeReads [] bs last).2 = v ++ ESC :: ']' :: w := by
    have := c74_pieces_decode bs last
    unfold Delivers at this
    rw [this, hb, show (0x1b : UInt8) :: encode (']' :: w) = encode (ESC :: ']' :: w) by rw [encode_cons ESC]; rfl, utf8Lossy_append]
    have := utf8Lossy_append (ESC :: ']' :: w) []
    rw [List.append_nil] at this
    rw [this]; simp [utf8Lossy, lossyGo]
  have hbom : (v ++ ESC :: ']' :: w).head? ≠ some BOM := by
    cases v with
    | nil => simp; decide
    | cons a v => simp; rintro rfl; exact (ok_not_special (hok BOM (by simp))).2.2.2.2.2.2 rfl
  have hbel : ∀ d ∈ w, d ≠ BEL ∧ d ≠ CAN ∧ d ≠ ESC := by
    intro d hd
    have := hok d (by simp [hd])
    refine ⟨?_, ?_, (ok_not_special this).2.2.1⟩ <;> rintro rfl <;> revert this <;> decide
  have hnl : ∀ d ∈ ['\n'], isAssigned ucd15 d = true := by decide +kernel
  generalize hu : v ++ (if ∀ d ∈ v.getLast?, isEnd d = true then [] else [CGJ]) = u
  have hut : isBasicTextSubstr ucd15 (u ++ ['\n']) = true ∧ (∀ d ∈ (u ++ ['\n']).head?, isStart ucd15 d = true) ∧
      ∀ d ∈ u ++ ['\n'], isAssigned ucd15 d = true := by
    have h1 : isBasicTextSubstr ucd15 u = true ∧ ∀ d ∈ u, isAssigned ucd15 d = true := by
      rw [← hu]
      split
      · rw [List.append_nil]; exact ⟨hv.2, hva⟩
      · refine ⟨substr_append textLaws15 hv.2 (by decide +kernel) (by decide +kernel), fun d hd => ?_⟩
        rcases List.mem_append.1 hd with hd | hd
        · exact hva d hd
        · rw [List.mem_singleton.1 hd]; decide +kernel
    refine ⟨substr_append textLaws15 h1.1 (by decide +kernel) (by decide +kernel), ?_, ?_⟩
    · rw [← hu]
      cases v with
      | nil => decide +kernel
      | cons a v => exact fun d hd => hv.1 d (by simpa using hd)
    · intro d hd
      rcases List.mem_append.1 hd with hd | hd
      · exact h1.2 d hd
      · exact hnl d hd
  have htr : translate ucd15 nel lsps (v ++ ESC :: ']' :: w) = translate ucd15 nel lsps (u ++ ['\n']) := by
    have hg : guardEnd (guardStart ucd15 v) = u := by
      have : guardStart ucd15 v = v := by
        cases v with
        | nil => rfl
        | cons a v => simp [guardStart, hv.1 a (by simp)]
      rw [this, ← hu]
      unfold guardEnd
      cases hl : v.getLast? with
      | none => simp
      | some d => by_cases hd : isEnd d = true <;> simp [hd]
    have hout : (tokens finCan (single nel lsps) v).flatMap Tok.out = v := by
      rw [tokens_ok fun d hd => hok d (by simp [hd])]
      clear hu hva hplain e1 hbom hut hg hv ha hok hb hT
      induction v with
      | nil => rfl
      | cons a v ih =>
        rw [List.map_cons, List.flatMap_cons, ih]
        split
        · rename_i hc; rw [hc]; rfl
        · rfl
    rw [translate_clean hut.2.1 (substr_iff.1 hut.1).1]
    unfold translate
    rw [tokens_append _ v _ (Nat.le_refl _) hplain, tokens_osc hbel]
    simp only [List.flatMap_append, hout]
    simp [Tok.out, hg]
  have hs : output ucd15 nel lsps (byteScript bs last) lens = stream ucd15 nel lsps (v ++ ESC :: ']' :: w) := by
    have := output_stream textLaws15 (Or.inr (by rw [e1]; exact hbom)) (clear_of textLaws15 (Or.inl (by
      rw [e1]
      intro d hd
      simp only [List.mem_append, List.mem_cons] at hd
      rcases hd with hd | rfl | rfl | hd
      · exact hva d hd
      · decide +kernel
      · decide +kernel
      · exact ha d (by simp [hd])))) h
    rw [e1] at this; exact this
  have hb2 : dropBom (u ++ ['\n']) = u ++ ['\n'] := ok_dropBom (substr_iff.1 hut.1).1
  have : stream ucd15 nel lsps (v ++ ESC :: ']' :: w) = stream ucd15 nel lsps (u ++ ['\n']) := by
    unfold stream
    rw [dropBom_of_ne hbom, hb2, htr]
  rw [hs, this, stream_beginning hut.2.1 hut.1 hut.2.2]
  simp [closing]

end Verif
