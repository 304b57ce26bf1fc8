import Verif.CutShort
import Verif.Props.Reader
import Verif.Props.Bytes

/-!
# C138: a Basic Text file cut short
-/

namespace Verif
open Ucd Spec

theorem beginning_text {u t : List Char} (hv : isBasicText ucd15 (u ++ t) = true) :
    (∀ c ∈ u.head?, isStart ucd15 c = true) ∧ isBasicTextSubstr ucd15 u = true := by
  obtain ⟨h1, -, h3⟩ := text_iff.1 hv
  refine ⟨fun c hc => h1 c ?_, substr_prefix textLaws15 h3⟩
  cases u with
  | nil => simp at hc
  | cons a u => exact hc

/-- C138: of the bytes of a Basic Text stream of assigned scalars only a beginning is left, cut after any byte, and it comes in any reads.  The
scalars of which all bytes are left are delivered as they are.  Behind them there is, if the cut is inside a scalar, one replacement character, and
a newline; else what text needs at its end. -/
theorem c138_exact (nel lsps : Bool) (T : List Char) (hv : isBasicText ucd15 T = true) (ha : ∀ c ∈ T, isAssigned ucd15 c = true)
    (bs : List Bytes) (last x : Bytes) (hT : encode T = (bs.flatten ++ last) ++ x) (lens : List Nat)
    (h : Completes ucd15 nel lsps (byteScript bs last) lens) :
    ∃ u t κ, T = u ++ t ∧ bs.flatten ++ last = encode u ++ κ ∧ Begins κ t ∧ κ.length ≤ 3 ∧ 10 ∉ κ ∧
      output ucd15 nel lsps (byteScript bs last) lens = u ++ if κ = [] then closing u else ['�', '\n'] := by
  obtain ⟨u, t, κ, rfl, h2, hk, h3, h4, h5⟩ := cut_bytes hT
  refine ⟨u, t, κ, rfl, h2, hk, h3, h4, ?_⟩
  obtain ⟨b1, b2⟩ := beginning_text hv
  have e1 : (decodeReads [] bs last).1.flatten ++ (decodeReads [] bs last).2 = utf8Lossy (bs.flatten ++ last) := c74_pieces_decode bs last
  have hr : isBasicTextSubstr ucd15 ['�'] = true := by decide +kernel
  have hw : (∀ c ∈ (u ++ if κ = [] then [] else ['�']).head?, isStart ucd15 c = true) ∧
      isBasicTextSubstr ucd15 (u ++ if κ = [] then [] else ['�']) = true ∧
      ∀ c ∈ u ++ (if κ = [] then [] else ['�']), isAssigned ucd15 c = true := by
    split
    · rw [List.append_nil]; exact ⟨b1, b2, fun c hc => ha c (by simp [hc])⟩
    · refine ⟨?_, substr_append textLaws15 b2 hr (by decide +kernel), ?_⟩
      · cases u with
        | nil => decide +kernel
        | cons a u => exact b1
      · intro c hc
        rcases List.mem_append.1 hc with hc | hc
        · exact ha c (by simp [hc])
        · rw [List.mem_singleton.1 hc]; decide +kernel
  obtain ⟨w1, w2, w3⟩ := hw
  have hb : ((decodeReads [] bs last).1.flatten ++ (decodeReads [] bs last).2).head? ≠ some BOM := by
    rw [e1, h5]
    intro hc
    have := (substr_iff.1 w2).1 BOM (List.mem_of_mem_head? hc)
    exact (ok_not_special this).2.2.2.2.2.2 rfl
  have ho := output_stream textLaws15 (Or.inr hb) (clear_of textLaws15 (Or.inl (by rw [e1, h5]; exact w3))) h
  rw [e1, h5, stream_beginning w1 w2 w3] at ho
  refine ho.trans ?_
  split
  · simp
  · have : closing (u ++ ['�']) = ['\n'] := by
      unfold closing
      rw [List.getLast?_concat]
      decide +kernel
    rw [this]; simp

/-- C138 by lines: the lines of which all bytes are left are delivered as they are, and what is behind them makes one further line at most. -/
theorem c138_lines (nel lsps : Bool) (T : List Char) (hv : isBasicText ucd15 T = true) (ha : ∀ c ∈ T, isAssigned ucd15 c = true)
    (bs : List Bytes) (last x : Bytes) (hT : encode T = (bs.flatten ++ last) ++ x) (lens : List Nat)
    (h : Completes ucd15 nel lsps (byteScript bs last) lens) :
    ∃ v rest r, v <+: T ∧ (v = [] ∨ v.getLast? = some '\n') ∧ bs.flatten ++ last = encode v ++ rest ∧ 10 ∉ rest ∧
      output ucd15 nel lsps (byteScript bs last) lens = v ++ r ∧ '\n' ∉ r.dropLast ∧ (r = [] ↔ rest = []) := by
  obtain ⟨u, t, κ, rfl, h2, -, -, h4, h5⟩ := c138_exact nel lsps T hv ha bs last x hT lens h
  obtain ⟨v, w, rfl, hvl, hw⟩ : ∃ v w, u = v ++ w ∧ (v = [] ∨ v.getLast? = some '\n') ∧ '\n' ∉ w := by
    rcases last_line u with hu | ⟨a, y, rfl, hy⟩
    · exact ⟨[], u, rfl, .inl rfl, hu⟩
    · exact ⟨a ++ ['\n'], y, by simp, .inr (by simp), hy⟩
  have hcl : w = [] → closing (v ++ w) = [] := by
    rintro rfl
    rw [List.append_nil, closing]
    rcases hvl with rfl | hvl
    · rfl
    · rw [hvl]; rfl
  have hcw : '\n' ∉ (w ++ closing (v ++ w)).dropLast ∧ (w ++ closing (v ++ w) = [] ↔ w = []) := by
    rcases List.eq_nil_or_concat w with rfl | ⟨y, c, rfl⟩
    · rw [hcl rfl]; simp
    · rw [List.concat_eq_append] at *
      refine ⟨?_, by simp⟩
      have hc : c ≠ '\n' := by rintro rfl; simp at hw
      unfold closing
      rw [← List.append_assoc, List.getLast?_concat]
      simp only [if_neg hc]
      split
      · rw [List.dropLast_concat]; exact hw
      · rw [show y ++ [c] ++ [CGJ, '\n'] = (y ++ [c] ++ [CGJ]) ++ ['\n'] by simp, List.dropLast_concat]
        simp only [List.mem_append, List.mem_singleton, not_or] at hw ⊢
        exact ⟨hw, by decide⟩
  refine ⟨v, encode w ++ κ, w ++ if κ = [] then closing (v ++ w) else ['�', '\n'], ⟨w ++ t, by simp⟩, hvl, ?_, ?_, by rw [h5, List.append_assoc], ?_⟩
  · rw [h2]; simp [encode]
  · simp only [List.mem_append, not_or]
    exact ⟨fun hm => hw (nl_of_encode w hm), h4⟩
  · split
    · rename_i hk
      subst hk
      refine ⟨hcw.1, hcw.2.trans ⟨?_, ?_⟩⟩
      · rintro rfl; rfl
      · intro he
        cases w with
        | nil => rfl
        | cons c w =>
          have : encodeChar c ≠ [] := by
            intro h0
            have := encodeChar_length c
            rw [h0] at this
            simp only [List.length_nil, utf8Len] at this
            split at this <;> (try split at this) <;> (try split at this) <;> omega
          simp [encode, this] at he
    · rename_i hk
      refine ⟨?_, by simp [hk]⟩
      rw [show w ++ ['�', '\n'] = (w ++ ['�']) ++ ['\n'] by simp, List.dropLast_concat]
      simp only [List.mem_append, List.mem_singleton, not_or]
      exact ⟨hw, by decide⟩

/-- A text of whole lines at the beginning of an isolated text is isolated. -/
theorem isolated_lines {v t : List Char} (hi : Isolated ucd15 (v ++ t)) (hv : v = [] ∨ v.getLast? = some '\n') : Isolated ucd15 v := by
  intro a c b hs hc
  obtain ⟨h1, h2⟩ := hi a c (b ++ t) (by simp [hs]) hc
  refine ⟨h1, ?_⟩
  cases b with
  | cons d b => exact h2
  | nil =>
    subst hs
    simp only [List.append_eq_nil_iff, List.cons_ne_nil, and_false, List.getLast?_concat, Option.some.injEq, false_or] at hv
    subst hv
    exact absurd hc (by decide +kernel)

/-- C138: with unassigned scalars too, if these are isolated as Basic Text producers do it, and the cut file comes in one read. -/
theorem c138_one_read (nel lsps : Bool) (T : List Char) (hv : isBasicText ucd15 T = true) (hi : Isolated ucd15 T)
    (b x : Bytes) (hT : encode T = b ++ x) (lens : List Nat) (h : Completes ucd15 nel lsps (byteScript [] b) lens) :
    ∃ v rest r, v <+: T ∧ (v = [] ∨ v.getLast? = some '\n') ∧ b = encode v ++ rest ∧ 10 ∉ rest ∧
      output ucd15 nel lsps (byteScript [] b) lens = v ++ r ∧ '\n' ∉ r.dropLast ∧ (rest = [] → r = []) := by
  obtain ⟨u, t, κ, rfl, h2, -, -, h4, h5⟩ := cut_bytes hT
  obtain ⟨v, w, rfl, hvl, hw⟩ : ∃ v w, u = v ++ w ∧ (v = [] ∨ v.getLast? = some '\n') ∧ '\n' ∉ w := by
    rcases last_line u with hu | ⟨a, y, rfl, hy⟩
    · exact ⟨[], u, rfl, .inl rfl, hu⟩
    · exact ⟨a ++ ['\n'], y, by simp, .inr (by simp), hy⟩
  obtain ⟨b1, b2⟩ := beginning_text hv
  obtain ⟨-, v2⟩ := beginning_text (u := v) (t := w ++ t) (by rw [← List.append_assoc]; exact hv)
  have vi : Isolated ucd15 v := isolated_lines (t := w ++ t) (by rw [← List.append_assoc]; exact hi) hvl
  have vn := normChain_isolated textLaws15 (substr_iff.1 v2).2 vi
  generalize hm : (if κ = [] then [] else ['�'] : List Char) = m at h5
  have hmn : '\n' ∉ m := by subst hm; split <;> decide
  have hr : isBasicTextSubstr ucd15 ['�'] = true := by decide +kernel
  have hwhole : (∀ c ∈ ((v ++ w) ++ m).head?, isStart ucd15 c = true) ∧ isBasicTextSubstr ucd15 ((v ++ w) ++ m) = true := by
    subst hm
    split
    · rw [List.append_nil]; exact ⟨b1, b2⟩
    · refine ⟨?_, substr_append textLaws15 b2 hr (by decide +kernel)⟩
      generalize v ++ w = u at *
      cases u with
      | nil => decide +kernel
      | cons a u => exact b1
  obtain ⟨w1, w2⟩ := hwhole
  have ho : output ucd15 nel lsps (byteScript [] b) lens = _ :=
    output_single textLaws15 (s := utf8Lossy b) (by simpa [byteScript, decodeReads] using h)
  rw [h5, ok_dropBom (substr_iff.1 w2).1, translate_clean w1 (substr_iff.1 w2).1] at ho
  -- what is normalized: whole lines, and one line behind them
  obtain ⟨z, hz, hzn, hze⟩ : ∃ z, (if (v ++ w) ++ m = [] ∨ ((v ++ w) ++ m).getLast? = some '\n' then (v ++ w) ++ m else guardEnd ((v ++ w) ++ m) ++ ['\n']) = v ++ z ∧
      '\n' ∉ z.dropLast ∧ (w ++ m = [] → z = []) := by
    have hwm : '\n' ∉ w ++ m := by simp [hw, hmn]
    rw [List.append_assoc]
    rcases List.eq_nil_or_concat (w ++ m) with e | ⟨y, c, e⟩
    · rw [e, List.append_nil, if_pos hvl]
      exact ⟨[], by simp, by simp, fun _ => rfl⟩
    · rw [List.concat_eq_append] at e
      rw [e] at hwm ⊢
      have hc : c ≠ '\n' := by rintro rfl; simp at hwm
      rw [← List.append_assoc, if_neg (by simp [hc]), guardEnd, List.getLast?_concat]
      simp only
      split
      · refine ⟨(y ++ [c]) ++ ['\n'], by simp, ?_, by simp⟩
        rw [List.dropLast_concat]; exact hwm
      · refine ⟨(y ++ [c] ++ [CGJ]) ++ ['\n'], by simp, ?_, by simp⟩
        rw [List.dropLast_concat]
        simp only [List.mem_append, List.mem_singleton, not_or] at hwm ⊢
        exact ⟨hwm, by decide⟩
  rw [hz] at ho
  have hsplit : normChain ucd15 (v ++ z) = v ++ normChain ucd15 z := by
    rcases hvl with rfl | hvl
    · rfl
    · obtain ⟨a, rfl⟩ : ∃ a, v = a ++ ['\n'] := by
        rcases List.eq_nil_or_concat v with rfl | ⟨a, c, rfl⟩
        · simp at hvl
        · rw [List.concat_eq_append] at *
          rw [List.getLast?_concat] at hvl
          exact ⟨a, by rw [Option.some.inj hvl]⟩
      rw [normChain_append_seg textLaws15 (by decide) (by intro h; exact absurd h (by decide)), vn]
  refine ⟨v, encode w ++ κ, normChain ucd15 z, ⟨w ++ t, by simp⟩, hvl, ?_, ?_, ho.trans hsplit, newline_last textLaws15 hzn, ?_⟩
  · rw [h2]; simp [encode]
  · simp only [List.mem_append, not_or]
    exact ⟨fun hm => hw (nl_of_encode w hm), h4⟩
  · intro he
    obtain ⟨he1, he2⟩ := List.append_eq_nil_iff.1 he
    have hw0 : w = [] := by
      cases w with
      | nil => rfl
      | cons c w => simp [encode, encodeChar_ne_nil] at he1
    rw [hze (by subst hm; simp [hw0, he2]), normChain_nil]

/-- C138 end to end: what a writer has sent in all, of which a medium has kept only a beginning. -/
theorem c138_written (k : Sink) (hd : k.dead = false) (hk : k.script = []) (h0 : k.sent = []) (b : Bytes) (T : List Char)
    (hw : writeClose ucd15 (.new k) b = some T) (ha : ∀ c ∈ T, isAssigned ucd15 c = true) (nel lsps : Bool)
    (bs : List Bytes) (last x : Bytes) (hT : encode T = (bs.flatten ++ last) ++ x) (lens : List Nat)
    (h : Completes ucd15 nel lsps (byteScript bs last) lens) :
    ∃ v rest r, v <+: T ∧ (v = [] ∨ v.getLast? = some '\n') ∧ bs.flatten ++ last = encode v ++ rest ∧ 10 ∉ rest ∧
      output ucd15 nel lsps (byteScript bs last) lens = v ++ r ∧ '\n' ∉ r.dropLast ∧ (r = [] ↔ rest = []) := by
  refine c138_lines nel lsps T ?_ ha bs last x hT lens h
  obtain ⟨n, hc⟩ := c15_reader_reaches_end nel lsps (script [] (utf8Lossy b)) (fun _ => normalizationBufferSize) (fun _ => Nat.le_refl _)
  have := (c68_written_is_read k hd hk h0 b T hw nel lsps _ hc).2
  unfold fromText at this
  split at this
  · assumption
  · split at this <;> simp at this

/-- `aé⏎b` and ZWJ and a letter, cut inside `é`, behind the newline, behind `b`, and behind ZWJ, which may not end text. -/
example : isBasicText ucd15 ['a', 'é', '\n', 'b', '\u200d', 'c', '\n'] = true ∧ (∀ c ∈ ['a', 'é', '\n', 'b', '\u200d', 'c', '\n'], isAssigned ucd15 c = true) ∧
    encode ['a', 'é', '\n', 'b', '\u200d', 'c', '\n'] = [0x61, 0xc3, 0xa9, 10, 0x62, 0xe2, 0x80, 0x8d, 0x63, 10] ∧
    output ucd15 false false (byteScript [[0x61]] [0xc3]) [136, 136] = ['a', '�', '\n'] ∧
    output ucd15 false false (byteScript [[0x61, 0xc3]] [0xa9, 10]) [136, 136] = ['a', 'é', '\n'] ∧
    output ucd15 false false (byteScript [] [0x61, 0xc3, 0xa9, 10, 0x62]) [136, 136] = ['a', 'é', '\n', 'b', '\n'] ∧
    output ucd15 false false (byteScript [] [0x61, 0xc3, 0xa9, 10, 0x62, 0xe2, 0x80, 0x8d]) [136, 136] = ['a', 'é', '\n', 'b', '\u200d', CGJ, '\n'] ∧
    Completes ucd15 false false (byteScript [[0x61]] [0xc3]) [136, 136] :=
  ⟨by decide +kernel, by decide +kernel, by decide +kernel, by decide +kernel, by decide +kernel, by decide +kernel, by decide +kernel,
    completes_of (by decide +kernel)⟩

/-- An isolated unassigned scalar, cut directly behind it. -/
example : isBasicText ucd15 ['a', '\n', CGJ, '\u0378', CGJ, '\n'] = true ∧
    output ucd15 false false (byteScript [] [0x61, 10, 0xcd, 0x8f, 0xcd, 0xb8]) [136] = ['a', '\n', CGJ, '\u0378', '\n'] ∧
    Completes ucd15 false false (byteScript [] [0x61, 10, 0xcd, 0x8f, 0xcd, 0xb8]) [136] :=
  ⟨by decide +kernel, by decide +kernel, completes_of (by decide +kernel)⟩

example : writeClose ucd15 (.new { script := [], sent := [], dead := false }) [0x61, 0xc3, 0xa9, 10] = some ['a', 'é', '\n'] := by decide +kernel

end Verif
