import Verif.Fuzz
import Verif.Props.Pieces
import Verif.Props.Exact

/-!
# The fuzz target (C98)
-/

namespace Verif
open Ucd Spec

theorem fuzzConcat_pass {s : List Char} (h : fromText (isBasicText ucd15) (s ++ s) = .ok (s ++ s)) : fuzzConcat ucd15 s = .pass := by
  simp [fuzzConcat, h]

theorem fromText_of_not_ok {v : List Char → Bool} {s : List Char} (h0 : v [] = true) (h : ∀ t, fromText v s ≠ .ok t) : ∃ n, fromText v s = .err n := by
  cases hv : v s with
  | true => exact absurd (by simp [fromText, hv]) (h s)
  | false => obtain ⟨n, h1, -⟩ := fromText_err h0 hv; exact ⟨n, h1⟩

theorem fromTextBytes_of_not_ok {v : List Char → Bool} {b : Bytes} (h0 : v [] = true) (h : ∀ t, fromTextBytes v b ≠ .ok t) :
    ∃ n, fromTextBytes v b = .err n := by
  unfold fromTextBytes at h ⊢
  cases hb : fromUtf8 b with
  | none => exact ⟨_, rfl⟩
  | some s => rw [hb] at h; exact fromText_of_not_ok h0 h

theorem feedBytes_whole (s : List Char) : feedBytes (encode s) = (s, []) := by
  have key : ∀ (s : List Char) (n : Nat), (encode s).length ≤ n → feedBytesGo n (encode s) = (s, []) := by
    intro s
    induction s with
    | nil =>
      intro n _
      cases n with
      | zero => rfl
      | succ n => rfl
    | cons c s ih =>
      intro n hn
      have hp := List.length_pos_iff.2 (encodeChar_ne_nil c)
      rw [encode_cons, List.length_append] at hn
      cases n with
      | zero => omega
      | succ n => rw [encode_cons, feedBytesGo, decode1_encode]; simp only; rw [ih n (by omega)]
  exact key s _ (Nat.le_refl _)

/-- What the target makes of the text read, once it is read. -/
theorem fuzz_after (bs : List Bytes) (last : Bytes) (lens : List Nat) (s : List Char)
    (h : readToEnd ucd15 lens (.new false false) (byteScript bs last) = some s) :
    fuzzTarget ucd15 bs last lens =
      match writeClose ucd15 (.new ⟨[], false, []⟩) (bs.flatten ++ last) with
      | some T => if s = T then .pass else .panic 48
      | none => .pass := by
  obtain ⟨lens', r, n, -, h1, h2, h3⟩ := readToEnd_run _ _ _ _ h
  have hc : Completes ucd15 false false (byteScript bs last) lens' := ⟨r, n, h1, h2⟩
  have ho : output ucd15 false false (byteScript bs last) lens' = s := h3
  obtain ⟨h4, h5⟩ := c67_bytes_read (bs.flatten ++ last) false false _ _ (c74_pieces_decode bs last) _ hc
  have hcat := (c69_concatenation false false false false _ _ (no_err_in_script _ _) (no_err_in_script _ _) _ _ hc hc).1
  change Sane (output ucd15 false false (byteScript bs last) lens') at h4
  change fromText _ (output ucd15 false false (byteScript bs last) lens') = .ok (output ucd15 false false (byteScript bs last) lens') at h5
  change fromText _ (output ucd15 false false (byteScript bs last) lens' ++ output ucd15 false false (byteScript bs last) lens') = _ at hcat
  rw [show script (decodeReads [] bs last).1 (decodeReads [] bs last).2 = byteScript bs last from rfl] at hcat
  rw [ho] at h4 h5 hcat
  have hconc := fuzzConcat_pass hcat
  have hv := (fromText_ok_iff.1 h5).1
  have a1 : s.any (· == '﻿') = false := by
    rw [List.any_eq_false]; intro c hc hx; exact h4.noBom (by rwa [eq_of_beq hx] at hc)
  have a2 : s.any (· == '￼') = false := by
    rw [List.any_eq_false]; intro c hc hx; exact h4.noOrc (by rwa [eq_of_beq hx] at hc)
  have a3 : (s.isEmpty || s.getLast? == some '\n') = true := by
    rcases h4.newline with h | h
    · simp [h]
    · simp [h]
  have a4 : s.any (fun c => isCtl c && c != '\n' && c != '\t') = false := by
    rw [List.any_eq_false]
    intro c hcm hx
    simp only [Bool.and_eq_true, bne_iff_ne, ne_eq, isCtl, Bool.or_eq_true, decide_eq_true_eq] at hx
    have := h4.controls c hcm (by unfold IsControl; omega)
    rcases this with h | h
    · exact hx.1.2 h
    · exact hx.2 h
  have a5 : ucd15.isNfcStreamSafe s = true := (substr_iff.1 (text_iff.1 hv).2.2).2
  have a6 : s.head?.any (fun c => ucd15.ccc c != 0) = false := by
    cases hh : s.head? with
    | none => rfl
    | some c => simp [h4.starter c (by rw [hh]; rfl)]
  simp only [fuzzTarget]
  have hread : readToEnd ucd15 lens (.new false false)
      ((decodeReads [] bs last).1.map (fun c => Event.data c .active) ++ [.data (decodeReads [] bs last).2 .end_]) = some s := h
  simp only [hread, a1, a2, a3, a4, a5, a6, Bool.false_eq_true, if_false, Bool.not_true]
  unfold fuzzWriter
  cases hw : writeClose ucd15 (.new ⟨[], false, []⟩) (bs.flatten ++ last) with
  | some T =>
    simp only [fromUtf8_encode]
    split
    · rename_i e
      subst e
      rw [h5]
      exact hconc
    · rfl
  | none =>
    obtain ⟨h6, h7⟩ := c68_rejected_is_changed ⟨[], false, []⟩ rfl rfl _ hw
    have hne : encode s ≠ bs.flatten ++ last := by
      rw [← ho]; exact h6 _ _ _ _ _ (c74_pieces_decode bs last) hc
    simp only
    cases hu : fromUtf8 (bs.flatten ++ last) with
    | some u =>
      have e := fromUtf8_some hu
      simp only
      rw [if_neg (fun hx => hne (by rw [e, hx]))]
      split
      · rename_i hl
        have h10 : (bs.flatten ++ last).getLast? = some 0xa := by
          obtain ⟨x, hx⟩ := List.getLast?_eq_some_iff.1 hl
          rw [e, hx, encode_append, show encode ['\n'] = [0xa] by decide]; simp
        obtain ⟨n, hn⟩ := fromText_of_not_ok (v := isBasicText ucd15) (s := u) (by decide +kernel) (fun t ht =>
          (h7 h10).1 t ((c51_bytes_borrowed _ _ _).2 ⟨u, e, ht⟩))
        rw [hn]; exact hconc
      · exact hconc
    | none =>
      simp only
      rw [if_neg hne]
      split
      · rename_i h10
        obtain ⟨n, hn⟩ := fromTextBytes_of_not_ok (v := isBasicText ucd15) (by decide +kernel) (h7 h10).1
        rw [hn]; exact hconc
      · exact hconc

/-- C98: run on bytes that the reader gets in one piece, the fuzz target passes: none of its assertions can fail, whatever the bytes and the
buffers (of at least 136 bytes) with which the text is read. -/
theorem c98_passes (b : Bytes) (lens : Nat → Nat) (hl : ∀ i, 136 ≤ lens i) :
    ∃ n, ∀ m, n ≤ m → fuzzTarget ucd15 [] b ((List.range m).map lens) = .pass := by
  obtain ⟨n, s, h⟩ := readToEnd_total textLaws15 false false (no_err_in_script (decodeReads [] [] b).1 (decodeReads [] [] b).2) lens hl
  refine ⟨n, fun m hm => ?_⟩
  have h := readToEnd_ge hm h
  rw [fuzz_after [] b _ s h]
  cases hw : writeClose ucd15 (.new ⟨[], false, []⟩) ([].flatten ++ b) with
  | none => rfl
  | some T =>
    obtain ⟨lens', r, k, -, h1, h2, h3⟩ := readToEnd_run _ _ _ _ h
    have := (c68_written_is_read ⟨[], false, []⟩ rfl rfl rfl _ T hw false false lens' ⟨r, k, h1, h2⟩).1
    simp only
    rw [if_pos]
    rw [← this]; exact h3.symm

/-- C98: in whatever pieces the bytes come, only one assertion can fail: the one that the writer wrote what the reader read. -/
theorem c98_other_assertions (bs : List Bytes) (last : Bytes) (lens : Nat → Nat) (hl : ∀ i, 136 ≤ lens i) :
    ∃ n, ∀ m, n ≤ m → fuzzTarget ucd15 bs last ((List.range m).map lens) = .pass ∨ fuzzTarget ucd15 bs last ((List.range m).map lens) = .panic 48 := by
  obtain ⟨n, s, h⟩ := readToEnd_total textLaws15 false false (no_err_in_script (decodeReads [] bs last).1 (decodeReads [] bs last).2) lens hl
  refine ⟨n, fun m hm => ?_⟩
  rw [fuzz_after bs last _ s (readToEnd_ge hm h)]
  split
  · split
    · exact Or.inl rfl
    · exact Or.inr rfl
  · exact Or.inl rfl

theorem form_writable (s : List Char) (h1 : ∀ c ∈ s, checkChar c = none ∧ c ≠ ESC) (h2 : ∀ c ∈ s.head?, isStart ucd15 c = true)
    (h3 : s = [] ∨ s.getLast? = some '\n') : form ucd15 false false s = s := by
  have h1 : ∀ c ∈ s, okChar c = true := fun c hc => okChar_check.2 (h1 c hc)
  unfold form
  rw [ok_dropBom h1, translate_clean h2 h1, if_pos h3]

/-- C98 fails for bytes that a writer accepts, with a U+34F directly before an unassigned scalar, if the source delivers them in two reads
and the first ends with the U+34F: the writer does not isolate the scalar again, the reader does. -/
theorem c98_refuted_cut (x y : List Char) (u : Char) (h1 : ∀ c ∈ x ++ CGJ :: u :: y, checkChar c = none ∧ c ≠ ESC)
    (h2 : ∀ c ∈ x.head?, isStart ucd15 c = true) (h3 : (u :: y).getLast? = some '\n') (hu : isAssigned ucd15 u = false)
    (lens : Nat → Nat) (hl : ∀ i, 136 ≤ lens i) :
    ∃ n, ∀ m, n ≤ m → fuzzTarget ucd15 [encode (x ++ [CGJ])] (encode (u :: y)) ((List.range m).map lens) = .panic 48 := by
  generalize hs1 : x ++ [CGJ] = s1
  generalize hs2 : u :: y = s2
  have hs : x ++ CGJ :: u :: y = s1 ++ s2 := by rw [← hs1, ← hs2]; simp
  rw [hs] at h1
  have h2 : ∀ c ∈ (s1 ++ s2).head?, isStart ucd15 c = true := by
    rw [← hs]
    cases x with
    | nil => simpa using (by decide +kernel : isStart ucd15 CGJ = true)
    | cons c x => simpa using h2
  have h3 : (s1 ++ s2).getLast? = some '\n' := by rw [List.getLast?_append, ← hs2, h3]; rfl
  have hd : decodeReads [] [encode s1] (encode s2) = ([s1], s2) := by
    simp [decodeReads, feedBytes_whole, utf8Lossy_encode]
  obtain ⟨T, hT⟩ := (c68_write_close_iff ⟨[], false, []⟩ rfl rfl (encode (s1 ++ s2))).2 ⟨_, rfl, h1, h2, Or.inr h3⟩
  have hbb : [encode s1].flatten ++ encode s2 = encode (s1 ++ s2) := by rw [encode_append]; simp
  obtain ⟨k, t, ht⟩ := readToEnd_total textLaws15 false false (no_err_in_script (decodeReads [] [encode s1] (encode s2)).1 (decodeReads [] [encode s1] (encode s2)).2)
    lens hl
  refine ⟨k, fun m hm => ?_⟩
  have ht := readToEnd_ge hm ht
  rw [fuzz_after _ _ _ t ht, hbb, hT]
  simp only
  obtain ⟨lens', r, j, -, g1, g2, g3⟩ := readToEnd_run _ _ _ _ ht
  obtain ⟨l1, c1⟩ := completes false false [] (s1 ++ s2)
  rw [hd] at g1 g3
  rw [if_neg]
  rintro rfl
  have hok : ∀ c ∈ s1, okChar c = true := fun c hc => okChar_check.2 (h1 c (by simp [hc]))
  refine cut_matters_at textLaws15 (by rw [form_writable _ h1 h2 (Or.inr h3), ← hs]) hu rfl (by rw [← hs1]; simp) ?_ l1 lens' c1 ⟨r, j, g1, g2⟩ ?_
  · rw [ok_dropBom hok, feed_valid _ _ rfl rfl rfl hok, hs1]
    intro _ c hc
    exact h2 c (by rw [← hs1] at hc ⊢; cases x <;> simpa using hc)
  · have h4 := (c68_written_is_read ⟨[], false, []⟩ rfl rfl rfl _ t hT false false l1 (by rw [utf8Lossy_encode]; exact c1)).1
    rw [utf8Lossy_encode] at h4
    rw [h4]
    exact g3.symm

/-- C98, exactly: the fuzz target passes however the bytes are split, if and only if they are not such as a writer accepts, or have no
U+34F directly before an unassigned scalar. -/
theorem c98_passes_iff (b : Bytes) :
    (∀ bs last, bs.flatten ++ last = b → ∀ lens : Nat → Nat, (∀ i, 136 ≤ lens i) →
      ∃ n, ∀ m, n ≤ m → fuzzTarget ucd15 bs last ((List.range m).map lens) = .pass) ↔
    (∀ s, b = encode s → (∀ c ∈ s, checkChar c = none ∧ c ≠ ESC) → (∀ c ∈ s.head?, isStart ucd15 c = true) →
      (s = [] ∨ s.getLast? = some '\n') → ∀ x u y, s = x ++ CGJ :: u :: y → isAssigned ucd15 u = true) := by
  constructor
  · intro h s hb h1 h2 h3 x u y hs
    refine Classical.byContradiction fun hu => ?_
    subst hs
    have hnl : (u :: y).getLast? = some '\n' := by
      rcases h3 with h3 | h3
      · simp at h3
      · rw [List.getLast?_append] at h3
        simpa using h3
    have h2 : ∀ c ∈ x.head?, isStart ucd15 c = true := by
      intro c hc
      exact h2 c (by cases x with | nil => simp at hc | cons d x => simpa using hc)
    obtain ⟨n, hn⟩ := c98_refuted_cut x y u h1 h2 hnl (by simpa using hu) (fun _ => 136) (fun _ => Nat.le_refl _)
    obtain ⟨k, hk⟩ := h [encode (x ++ [CGJ])] (encode (u :: y)) (by
      rw [hb, List.flatten_singleton, ← encode_append]; simp) (fun _ => 136) (fun _ => Nat.le_refl _)
    have h4 := hn _ (Nat.le_max_left n k)
    rw [hk _ (Nat.le_max_right n k)] at h4
    simp at h4
  · intro h bs last hb lens hl
    obtain ⟨n, s, h0⟩ := readToEnd_total textLaws15 false false (no_err_in_script (decodeReads [] bs last).1 (decodeReads [] bs last).2) lens hl
    refine ⟨n, fun m hm => ?_⟩
    have h0 := readToEnd_ge hm h0
    rw [fuzz_after bs last _ s h0, hb]
    cases hw : writeClose ucd15 (.new ⟨[], false, []⟩) b with
    | none => rfl
    | some T =>
      obtain ⟨lens', r, k, -, g1, g2, g3⟩ := readToEnd_run _ _ _ _ h0
      obtain ⟨t, e1, e2, e3, e4⟩ := (c68_write_close_iff ⟨[], false, []⟩ rfl rfl b).1 ⟨T, hw⟩
      have hc : Clear ucd15 false false (utf8Lossy b) := by
        rw [e1, utf8Lossy_encode]
        intro x u y hx
        rw [form_writable t e2 e3 e4] at hx
        exact h t e1 e2 e3 e4 x u y hx
      have := c68_written_is_read_split_partial ⟨[], false, []⟩ rfl rfl rfl b T hw false false _ _ (by rw [← hb]; exact c74_pieces_decode bs last) hc lens' ⟨r, k, g1, g2⟩
      simp only
      rw [if_pos]
      rw [← this]; exact g3.symm

/-- C98 fails for U+34F before an unassigned scalar that the source delivers in two reads. -/
theorem c98_refuted : fuzzTarget ucd15 [encode [CGJ]] (encode ['͸', '\n']) [136, 136, 136] = .panic 48 ∧
    fuzzTarget ucd15 [] (encode [CGJ, '͸', '\n']) [136, 136, 136] = .pass := by decide +kernel

/-- A slice of more than 4096 bytes is read like this: the reader's reads are of 4096 bytes (`src/text_input.rs:413-415`). -/
example (lens : Nat → Nat) (hl : ∀ i, 136 ≤ lens i) : (encode (List.replicate 4094 'a' ++ [CGJ])).length = 4096 ∧
    ∃ n, ∀ m, n ≤ m → fuzzTarget ucd15 [encode (List.replicate 4094 'a' ++ [CGJ])] (encode ['͸', '\n']) ((List.range m).map lens) = .panic 48 := by
  constructor
  · set_option maxRecDepth 1000000 in decide +kernel
  · refine c98_refuted_cut _ _ _ ?_ ?_ rfl (by decide +kernel) lens hl
    · intro c hc
      simp only [List.mem_append, List.mem_replicate, List.mem_cons, List.not_mem_nil, or_false] at hc
      rcases hc with ⟨-, rfl⟩ | rfl | rfl | rfl <;> decide +kernel
    · intro c hc
      simp at hc
      subst hc; decide +kernel

example : fuzzTarget ucd15 [[0xc3]] [0xa9, 0xff, 0x1b, 0x5b, 0x41] [136, 136] = .pass := by decide +kernel

end Verif
