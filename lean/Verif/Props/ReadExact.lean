import Verif.Props.Copy
import Verif.Props.Sharp

/-!
# When `read_exact_str` succeeds (C29)

What it returns for every content and buffer length, for a source that delivers its content in one read
(`src/text_input.rs:385-488`, and the loop of the standard library in `Verif.ReadStd`).
-/

namespace Verif
open Ucd Spec

theorem drain_full_room {U : Ucd} : ∀ (fuel room : Nat) (t : TextInput), (drain U fuel room t).1 = .full →
    room < (encode (drain U fuel room t).2.1).length + 4 := by
  intro fuel
  induction fuel with
  | zero => intro room t h; simp [drain] at h
  | succ fuel ih =>
    intro room t h
    unfold drain at h ⊢
    split at h
    · simp at h
    · rename_i x c t' hx
      by_cases hp : room < utf8Len c
      · rw [if_pos hp] at h; simp at h
      · rw [if_neg hp] at h ⊢
        by_cases hf : room - utf8Len c < maxUtf8Size
        · rw [if_pos hf]
          unfold maxUtf8Size at hf
          simp only [encode_cons, encode_nil, List.append_nil, encodeChar_length]
          omega
        · rw [if_neg hf] at h ⊢
          have := ih (room - utf8Len c) t' h
          generalize drain U fuel (room - utf8Len c) t' = d at *
          obtain ⟨stop, out, t''⟩ := d
          simp only at this
          simp only [encode_cons, List.length_append, encodeChar_length]
          omega

theorem exact_first (nel lsps : Bool) (s : List Char) {len : Nat} (hl : normalizationBufferSize ≤ len) :
    ((readWithStatus ucd15 len (.new nel lsps) [.data s .end_]).ret =
        .ok (encode (readWithStatus ucd15 len (.new nel lsps) [.data s .end_]).out).length .end_ ∧
      (encode (readWithStatus ucd15 len (.new nel lsps) [.data s .end_]).out).length + 4 ≤ len) ∨
    ((readWithStatus ucd15 len (.new nel lsps) [.data s .end_]).ret =
        .ok (encode (readWithStatus ucd15 len (.new nel lsps) [.data s .end_]).out).length .active ∧
      len < (encode (readWithStatus ucd15 len (.new nel lsps) [.data s .end_]).out).length + 4 ∧
      (encode (readWithStatus ucd15 len (.new nel lsps) [.data s .end_]).out).length ≤ len) := by
  have hN : normalizationBufferSize = 136 := rfl
  have hd : drain ucd15 (len + 1) len (.new nel lsps) = (.empty, [], .new nel lsps) := by
    rw [drain]; rfl
  have hnp := (c19_read_total nel lsps [.data s .end_] [] (.new nel lsps) [.data s .end_] rfl len).1
  revert hnp
  rw [readWithStatus, if_neg (by omega), hd]
  have hp : (TextInput.new nel lsps).pending = .active := rfl
  simp only [hp, ne_eq, not_true_eq_false, if_false, nextEvent, encode_nil, List.length_nil, Nat.sub_zero, List.nil_append]
  generalize (if ¬ (Status.end_ = Status.active) then _ else _ : TextInput) = t
  obtain ⟨i0, i1, -⟩ := drain_room (U := ucd15) (len + 1) len t (by omega)
  have i2 := drain_full_room (U := ucd15) (len + 1) len t
  generalize drain ucd15 (len + 1) len t = d at *
  obtain ⟨stop, out, t'⟩ := d
  intro hnp
  cases stop with
  | panic => simp at hnp
  | empty => left; simp at i1 i0 ⊢; omega
  | full => right; simp at i2 i0 ⊢; omega

theorem prefix_cut : ∀ {p out q q' : List Char}, p ++ q = out ++ q' → (encode p).length ≤ (encode out).length → ∃ m, out = p ++ m := by
  intro p
  induction p with
  | nil => intro out q q' _ _; exact ⟨out, rfl⟩
  | cons c p ih =>
    intro out q q' h hle
    cases out with
    | nil =>
      have := utf8Len_pos c
      simp only [encode_cons, encode_nil, List.length_append, encodeChar_length, List.length_nil] at hle
      omega
    | cons d out =>
      simp only [List.cons_append, List.cons.injEq] at h
      obtain ⟨rfl, h⟩ := h
      simp only [encode_cons, List.length_append] at hle
      obtain ⟨m, hm⟩ := ih h (by omega)
      exact ⟨m, by rw [hm]; rfl⟩

/-- The text of a source is what the first read of it delivers and what follows. -/
theorem first_prefix (nel lsps : Bool) (s : List Char) (lens : List Nat) (h : Completes ucd15 nel lsps (script [] s) lens) {len : Nat} (hl : normalizationBufferSize ≤ len) :
    ∃ q, output ucd15 nel lsps (script [] s) lens = (readWithStatus ucd15 len (.new nel lsps) [.data s .end_]).out ++ q ∧
      ((readWithStatus ucd15 len (.new nel lsps) [.data s .end_]).ret = .ok (encode (readWithStatus ucd15 len (.new nel lsps) [.data s .end_]).out).length .end_ → q = []) := by
  have hs : script [] s = [.data s .end_] := rfl
  obtain ⟨r0, n0, hr0, hn0⟩ := h
  have h0 := (run_exact textLaws15 (ending_script [] s) hr0 hn0).1
  have hone : readMany ucd15 [len] (.new nel lsps) (script [] s) = [readWithStatus ucd15 len (.new nel lsps) [.data s .end_]] := rfl
  have hok : (readWithStatus ucd15 len (.new nel lsps) [.data s .end_]).ret.isOk = true := by
    rcases exact_first nel lsps s hl with h | h <;> rw [h.1] <;> rfl
  by_cases he : (readWithStatus ucd15 len (.new nel lsps) [.data s .end_]).ret = .ok (encode (readWithStatus ucd15 len (.new nel lsps) [.data s .end_]).out).length .end_
  · have h1 := (run_exact textLaws15 (ending_script [] s) (lens := [len]) (by rw [hone]; rfl) he).1
    refine ⟨[], ?_, fun _ => rfl⟩
    rw [output, h0, ← h1, hone, delivered]
    simp [hok]
  · obtain ⟨k, r, hr, n, hn⟩ := constant_reach nel lsps (script [] s) len hl
    have h1 := (run_exact textLaws15 (ending_script [] s) hr hn).1
    cases k with
    | zero => simp [readMany] at hr
    | succ k =>
      refine ⟨delivered (readMany ucd15 (List.replicate k len) (readWithStatus ucd15 len (.new nel lsps) [.data s .end_]).input
        (readWithStatus ucd15 len (.new nel lsps) [.data s .end_]).src), ?_, fun h => absurd h he⟩
      rw [output, h0, ← h1, List.replicate_succ, readMany, delivered, delivered, List.flatMap_cons]
      simp only [hs]
      rw [if_pos hok]

/-- C29, exactly, for a fresh reader on a source that delivers its content in one read: with a buffer of at least 136 bytes
`read_exact_str` returns.  It succeeds iff the text starts with a part that takes exactly the buffer and whose last
scalar takes four bytes.  It reports `UnexpectedEof` iff the buffer has at least 136 bytes more than the text, and
`InvalidInput` otherwise. -/
theorem c29_exact (nel lsps : Bool) (s : List Char) (lens : List Nat) (h : Completes ucd15 nel lsps (script [] s) lens) (len : Nat)
    (hl : normalizationBufferSize ≤ len) (fuel : Nat) :
    ∃ x, readExact ucd15 (fuel + 2) len (.new nel lsps) (script [] s) = some x ∧
      (x.ret = .ok ↔ ∃ p c q, output ucd15 nel lsps (script [] s) lens = p ++ [c] ++ q ∧ (encode (p ++ [c])).length = len ∧ utf8Len c = 4) ∧
      (x.ret = .unexpectedEof ↔ (encode (output ucd15 nel lsps (script [] s) lens)).length + normalizationBufferSize ≤ len) ∧
      (x.ret = .ok ∨ x.ret = .unexpectedEof ∨ x.ret = .invalidInput) := by
  have hN : normalizationBufferSize = 136 := rfl
  obtain ⟨q0, hq0, hq1⟩ := first_prefix nel lsps s lens h hl
  have hfr := exact_first nel lsps s hl
  have hfill := fun n st => @read_fills ucd15 len (.new nel lsps) [.data s .end_] n st
  have hafter : ∀ n, (readWithStatus ucd15 len (.new nel lsps) [.data s .end_]).ret = .ok n .end_ → ∀ len', normalizationBufferSize ≤ len' →
      (readWithStatus ucd15 len' (readWithStatus ucd15 len (.new nel lsps) [.data s .end_]).input
        (readWithStatus ucd15 len (.new nel lsps) [.data s .end_]).src).ret = .ok 0 .end_ := by
    intro n hn len' hl'
    exact read_after_end textLaws15 (ending_script [] s) (nel := nel) (lsps := lsps) (lens := [len]) (r := readWithStatus ucd15 len (.new nel lsps) [.data s .end_]) rfl hn hl'
  have hshort : ∀ fuel len' t src, len' ≠ 0 → len' < normalizationBufferSize →
      readExact ucd15 (fuel + 1) len' t src = some { ret := .invalidInput, out := [], input := t, src := src } := by
    intro fuel len' t src h0 h1
    rw [readExact, if_neg h0]
    simp only [readWithStatus, if_pos h1, stdRet]
  generalize hO : output ucd15 nel lsps (script [] s) lens = O at *
  clear hO h
  rw [show script [] s = [.data s .end_] from rfl, readExact, if_neg (by omega)]
  simp only []
  generalize readWithStatus ucd15 len (.new nel lsps) [.data s .end_] = r at *
  have hwit : ∀ p c q, O = p ++ [c] ++ q → (encode (p ++ [c])).length = len → utf8Len c = 4 → (encode r.out).length ≤ len →
      len < (encode r.out).length + 4 → (encode r.out).length = len := by
    intro p c q h1 h2 h3 h4 h5
    rw [encode_append, List.length_append] at h2
    simp only [encode_cons, encode_nil, List.append_nil, encodeChar_length] at h2
    obtain ⟨m, hm⟩ := prefix_cut (p := p) (out := r.out) (q := [c] ++ q) (q' := q0) (by rw [← hq0, h1, List.append_assoc]) (by omega)
    cases m with
    | nil => simp at hm; rw [hm] at h5; omega
    | cons d m =>
      rw [hm, h1] at hq0
      simp at hq0
      rw [hm, hq0.1.symm, encode_append, List.length_append, encode_cons, List.length_append, encodeChar_length] at h4 ⊢
      omega
  rcases hfr with ⟨hr, hle⟩ | ⟨hr, hlt, hle⟩
  · have hq := hq1 hr
    subst hq
    rw [List.append_nil] at hq0
    subst hq0
    have hno : ¬ ∃ p c q, r.out = p ++ [c] ++ q ∧ (encode (p ++ [c])).length = len ∧ utf8Len c = 4 := by
      rintro ⟨p, c, q, h1, h2, -⟩
      rw [h1, encode_append, List.length_append] at hle
      omega
    rw [hr]
    simp only [stdRet, ne_eq, not_true_eq_false, and_false, if_false]
    cases hn : (encode r.out).length with
    | zero => exact ⟨_, rfl, iff_of_false (by simp) hno, by simp; omega, by simp⟩
    | succ m =>
      simp only []
      by_cases hlen : len - (m + 1) < normalizationBufferSize
      · rw [hshort fuel _ _ _ (by omega) hlen]
        exact ⟨_, rfl, iff_of_false (by simp) hno, by simp; omega, by simp⟩
      · have hz := hafter _ hr (len - (m + 1)) (by omega)
        rw [readExact, if_neg (by omega)]
        simp only [hz, stdRet, ne_eq, not_true_eq_false, and_false, if_false]
        exact ⟨_, rfl, iff_of_false (by simp) hno, by simp; omega, by simp⟩
  · have hOl : (encode r.out).length ≤ (encode O).length := by rw [hq0, encode_append, List.length_append]; omega
    rw [hr]
    simp only [stdRet]
    rw [if_neg (by omega)]
    cases hn : (encode r.out).length with
    | zero => omega
    | succ m =>
      simp only []
      by_cases hlen : len - (m + 1) = 0
      · rw [hlen, readExact, if_pos rfl]
        obtain ⟨-, -, hf⟩ := hfill _ _ hr
        obtain ⟨c, hc, h4⟩ := hf (by omega)
        obtain ⟨p, hp⟩ := List.getLast?_eq_some_iff.1 hc
        refine ⟨_, rfl, ?_, by simp; omega, by simp⟩
        simp only [true_iff]
        exact ⟨p, c, q0, by rw [hq0, hp], by rw [← hp]; omega, h4⟩
      · rw [hshort fuel _ _ _ hlen (by omega)]
        refine ⟨_, rfl, ?_, by simp; omega, by simp⟩
        simp only [reduceCtorEq, false_iff]
        rintro ⟨p, c, q, h1, h2, h3⟩
        have := hwit p c q h1 h2 h3 hle hlt
        omega

example : Completes ucd15 false false (script [] (List.replicate 34 '𐀀' ++ ['\n'])) [200] ∧
    ((readExact ucd15 2 136 (.new false false) (script [] (List.replicate 34 '𐀀' ++ ['\n']))).map (·.ret)) = some .ok ∧
    ((readExact ucd15 2 273 (.new false false) (script [] (List.replicate 34 '𐀀' ++ ['\n']))).map (·.ret)) = some .unexpectedEof ∧
    ((readExact ucd15 2 137 (.new false false) (script [] (List.replicate 34 '𐀀' ++ ['\n']))).map (·.ret)) = some .invalidInput :=
  ⟨completes_of (by decide +kernel), by decide +kernel, by decide +kernel, by decide +kernel⟩

end Verif
