import Verif.Window
import Verif.Props.Reader
import Verif.Props.CutShort

/-!
# C139: any part of a Basic Text file
-/

namespace Verif
open Ucd Spec

theorem substr_marks {w : List Char} (k : Nat) (h : isBasicTextSubstr ucd15 w = true) (ha : ∀ c ∈ w, isAssigned ucd15 c = true) :
    isBasicTextSubstr ucd15 (List.replicate k '�' ++ w) = true ∧ ∀ c ∈ List.replicate k '�' ++ w, isAssigned ucd15 c = true := by
  induction k with
  | zero => exact ⟨h, ha⟩
  | succ k ih =>
    rw [List.replicate_succ, List.cons_append]
    generalize List.replicate k '�' ++ w = v at ih
    obtain ⟨h4, h5⟩ := substr_iff.1 ih.1
    have hj := normChain_split textLaws15 (b := '�') (inert_of_plain (by decide +kernel)) (by decide +kernel) (by decide) [] v
    rw [normChain_of_assigned textLaws15 h5 ih.2, normChain_nil, List.nil_append] at hj
    refine ⟨substr_iff.2 ⟨?_, ((normChain_eq_iff textLaws15).1 hj).1⟩, ?_⟩
    · intro d hd
      rcases List.mem_cons.1 hd with rfl | hd
      · decide
      · exact h4 d hd
    · intro d hd
      rcases List.mem_cons.1 hd with rfl | hd
      · decide +kernel
      · exact ih.2 d hd

/-- C139: a reader gets the bytes of a Basic Text stream of assigned scalars from any byte on to any byte, in any reads.  The scalars of which it
gets all bytes are delivered as they are.  Before them there is a replacement character for each byte of a scalar that begins before the part, or
U+34F if the first scalar may not begin text; behind them a replacement character for a scalar that ends behind the part, and what text needs at
its end. -/
theorem c139_window (nel lsps : Bool) (T : List Char) (hv : isBasicText ucd15 T = true) (ha : ∀ c ∈ T, isAssigned ucd15 c = true)
    (bs : List Bytes) (last x y : Bytes) (hT : encode T = x ++ (bs.flatten ++ last) ++ y) (lens : List Nat)
    (h : Completes ucd15 nel lsps (byteScript bs last) lens) :
    ∃ p u t d κ, T = p ++ u ++ t ∧ bs.flatten ++ last = d ++ encode u ++ κ ∧ (∃ w, Ends d p w ∧ (w ≠ [] → u = [] ∧ κ = [])) ∧ Begins κ t ∧
      d.length ≤ 3 ∧ κ.length ≤ 3 ∧ 10 ∉ d ∧ 10 ∉ κ ∧
      output ucd15 nel lsps (byteScript bs last) lens = (if d = [] then lead u else List.replicate d.length '�') ++ u ++
        if κ = [] then closing (List.replicate d.length '�' ++ u) else ['�', '\n'] := by
  obtain ⟨p, u, t, d, κ, rfl, h2, hk, hk', h3, h4, h5, h6, h7⟩ := window_bytes hT
  refine ⟨p, u, t, d, κ, rfl, h2, hk, hk', h3, h4, h5, h6, ?_⟩
  have hu : isBasicTextSubstr ucd15 u = true := substr_suffix textLaws15 (substr_prefix textLaws15 (text_iff.1 hv).2.2)
  have hua : ∀ c ∈ u, isAssigned ucd15 c = true := fun c hc => ha c (by simp [hc])
  have e1 : (decodeReads [] bs last).1.flatten ++ (decodeReads [] bs last).2 = utf8Lossy (bs.flatten ++ last) := c74_pieces_decode bs last
  have hm : isBasicTextSubstr ucd15 (u ++ if κ = [] then [] else ['�']) = true ∧ ∀ c ∈ u ++ (if κ = [] then [] else ['�']), isAssigned ucd15 c = true := by
    split
    · rw [List.append_nil]; exact ⟨hu, hua⟩
    · refine ⟨substr_append textLaws15 hu (by decide +kernel) (by decide +kernel), ?_⟩
      intro c hc
      rcases List.mem_append.1 hc with hc | hc
      · exact hua c hc
      · rw [List.mem_singleton.1 hc]; decide +kernel
  obtain ⟨w2, w3⟩ := substr_marks d.length hm.1 hm.2
  have hb : ((decodeReads [] bs last).1.flatten ++ (decodeReads [] bs last).2).head? ≠ some BOM := by
    rw [e1, h7]
    intro hc
    have := (substr_iff.1 w2).1 BOM (List.mem_of_mem_head? hc)
    exact (ok_not_special this).2.2.2.2.2.2 rfl
  have ho := output_stream textLaws15 (Or.inr hb) (clear_of textLaws15 (Or.inl (by rw [e1, h7]; exact w3))) h
  rw [e1, h7, stream_part w2 w3] at ho
  refine ho.trans ?_
  have hop : lead (List.replicate d.length '�' ++ (u ++ if κ = [] then [] else ['�'])) ++ List.replicate d.length '�' =
      if d = [] then lead u else List.replicate d.length '�' := by
    cases d with
    | cons a d =>
      rw [if_neg (List.cons_ne_nil a d), List.length_cons, List.replicate_succ]
      have : isStart ucd15 '�' = true := by decide +kernel
      show lead ('�' :: _) ++ _ = _
      simp [lead, this]
    | nil =>
      rw [if_pos rfl]
      simp only [List.length_nil, List.replicate_zero, List.nil_append, List.append_nil]
      cases u with
      | cons c u => rfl
      | nil => split <;> decide +kernel
  rw [← List.append_assoc (lead _), hop, List.append_assoc, List.append_assoc, List.append_assoc]
  congr 2
  split
  · simp
  · have : closing (List.replicate d.length '�' ++ (u ++ ['�'])) = ['\n'] := by
      unfold closing
      rw [← List.append_assoc, List.getLast?_concat]
      decide +kernel
    rw [this]; rfl

/-- C139: from a line of a Basic Text stream on.  What is delivered is what comes from there on, behind U+34F if it begins with a scalar that may
not begin text. -/
theorem c139_from_line (nel lsps : Bool) (v w : List Char) (hv : isBasicText ucd15 (v ++ w) = true) (ha : ∀ c ∈ w, isAssigned ucd15 c = true)
    (hnl : w = [] ∨ w.getLast? = some '\n') (bs : List Bytes) (last : Bytes) (hb : bs.flatten ++ last = encode w) (lens : List Nat)
    (h : Completes ucd15 nel lsps (byteScript bs last) lens) :
    output ucd15 nel lsps (byteScript bs last) lens = lead w ++ w ∧
      (output ucd15 nel lsps (byteScript bs last) lens = w ↔ ∀ c ∈ w.head?, isStart ucd15 c = true) := by
  have hw : isBasicTextSubstr ucd15 w = true := substr_suffix textLaws15 (text_iff.1 hv).2.2
  have e1 : (decodeReads [] bs last).1.flatten ++ (decodeReads [] bs last).2 = utf8Lossy (bs.flatten ++ last) := c74_pieces_decode bs last
  rw [hb, utf8Lossy_encode] at e1
  have hb : ((decodeReads [] bs last).1.flatten ++ (decodeReads [] bs last).2).head? ≠ some BOM := by
    rw [e1]
    intro hc
    have := (substr_iff.1 hw).1 BOM (List.mem_of_mem_head? hc)
    exact (ok_not_special this).2.2.2.2.2.2 rfl
  have ho := output_stream textLaws15 (Or.inr hb) (clear_of textLaws15 (Or.inl (by rw [e1]; exact ha))) h
  have hc : closing w = [] := by
    unfold closing
    rcases hnl with rfl | hnl
    · rfl
    · rw [hnl]; rfl
  rw [e1, stream_part hw ha, hc, List.append_nil] at ho
  refine ⟨ho, ?_⟩
  have ho' : output ucd15 nel lsps (byteScript bs last) lens = lead w ++ w := ho
  rw [ho', show lead w ++ w = w ↔ lead w = [] from ⟨fun e => List.append_cancel_right (e.trans (List.nil_append w).symm), fun e => by rw [e]; rfl⟩]
  unfold lead
  cases w.head? with
  | none => simp
  | some c => simp

/-- C139: and U+34F does occur: a line may begin with a mark, and reading from it on does not deliver just what is there. -/
theorem c139_not_unchanged : ∃ v w lens, isBasicText ucd15 (v ++ w) = true ∧ (∀ c ∈ v ++ w, isAssigned ucd15 c = true) ∧ v.getLast? = some '\n' ∧
    w.getLast? = some '\n' ∧ Completes ucd15 false false (byteScript [] (encode w)) lens ∧
    output ucd15 false false (byteScript [] (encode w)) lens ≠ w :=
  ⟨['a', '\n'], ['́', '\n'], [136], by decide +kernel, by decide +kernel, by decide, by decide, completes_of (by decide +kernel), by decide +kernel⟩

/-- A part that begins inside `é` and ends inside ZWJ, in two reads, and one inside a single scalar. -/
example : isBasicText ucd15 ['a', 'é', '\n', 'b', '‍', 'c', '\n'] = true ∧ (∀ c ∈ ['a', 'é', '\n', 'b', '‍', 'c', '\n'], isAssigned ucd15 c = true) ∧
    encode ['a', 'é', '\n', 'b', '‍', 'c', '\n'] = [0x61, 0xc3] ++ ([[0xa9, 10, 0x62]].flatten ++ [0xe2, 0x80]) ++ [0x8d, 0x63, 10] ∧
    output ucd15 false false (byteScript [[0xa9, 10, 0x62]] [0xe2, 0x80]) [136, 136] = ['�', '\n', 'b', '�', '\n'] ∧
    output ucd15 false false (byteScript [] [0x80]) [136] = ['�', '\n'] ∧
    Completes ucd15 false false (byteScript [[0xa9, 10, 0x62]] [0xe2, 0x80]) [136, 136] :=
  ⟨by decide +kernel, by decide +kernel, by decide +kernel, by decide +kernel, by decide +kernel, completes_of (by decide +kernel)⟩

/-- A line that begins with a mark. -/
example : isBasicText ucd15 (['a', '\n'] ++ ['́', 'b', '\n']) = true ∧
    output ucd15 false false (byteScript [[0xcc]] [0x81, 0x62, 10]) [136, 136] = [CGJ, '́', 'b', '\n'] ∧
    Completes ucd15 false false (byteScript [[0xcc]] [0x81, 0x62, 10]) [136, 136] :=
  ⟨by decide +kernel, by decide +kernel, completes_of (by decide +kernel)⟩

end Verif
