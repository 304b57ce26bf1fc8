import Verif.ReaderFacts

/-!
# `read`, `read_exact`

`TextInput::read` (`src/text_input.rs:520-526`) is `layered_io::default_read`; `read_exact_str`,
`read_exact_text_substr` (`src/text_input.rs:162-168`, `203-210`) forward to `Read::read_exact`, which neither
`TextReader` nor `TextDuplexer` overrides (`src/text_reader.rs:182-197`, `src/text_duplexer.rs:332-347`), so it
is the loop of the standard library.
-/

namespace Verif
open Ucd Spec
variable {U : Ucd}

/-- The result of `io::Read::read`. -/
inductive StdRet where
  | ok (n : Nat)
  | interrupted
  | invalidInput
  | sourceError
  | panic
  deriving DecidableEq, Repr

/-- `layered_io::default_read` (dependency): a read of no bytes before the end is reported as
`ErrorKind::Interrupted`. -/
def stdRet : Ret → StdRet
  | .ok n st => if n = 0 ∧ st ≠ .end_ then .interrupted else .ok n
  | .invalidInput => .invalidInput
  | .sourceError => .sourceError
  | .panic => .panic

/-- The result of `io::Read::read_exact`. -/
inductive ExactRet where
  | ok
  | unexpectedEof
  | invalidInput
  | sourceError
  | panic
  deriving DecidableEq, Repr

structure ExactResult where
  ret : ExactRet
  out : List Char
  input : TextInput
  src : List Event
  deriving DecidableEq, Repr

/-- `io::default_read_exact` (standard library): read into what is left of the buffer until it is full, retrying
on `Interrupted`.  `none` when the loop has not ended after `fuel` iterations. -/
def readExact (U : Ucd) : Nat → Nat → TextInput → List Event → Option ExactResult
  | 0, _, _, _ => none
  | fuel + 1, len, t, src =>
    if len = 0 then some { ret := .ok, out := [], input := t, src }
    else
      let r := readWithStatus U len t src
      match stdRet r.ret with
      | .ok 0 => some { ret := .unexpectedEof, out := r.out, input := r.input, src := r.src }
      | .ok (n + 1) =>
        (readExact U fuel (len - (n + 1)) r.input r.src).map fun x => { x with out := r.out ++ x.out }
      | .interrupted => (readExact U fuel len r.input r.src).map fun x => { x with out := r.out ++ x.out }
      | .invalidInput => some { ret := .invalidInput, out := r.out, input := r.input, src := r.src }
      | .sourceError => some { ret := .sourceError, out := r.out, input := r.input, src := r.src }
      | .panic => some { ret := .panic, out := r.out, input := r.input, src := r.src }

theorem drain_room : ∀ (fuel room : Nat) (t : TextInput), 4 ≤ room →
    (encode (drain U fuel room t).2.1).length ≤ room ∧
    ((drain U fuel room t).1 = .empty → 4 ≤ room - (encode (drain U fuel room t).2.1).length) ∧
    ((encode (drain U fuel room t).2.1).length = room → ∃ c ∈ (drain U fuel room t).2.1.getLast?, utf8Len c = 4) := by
  intro fuel
  induction fuel with
  | zero => intro room t h; simp [drain, encode]; omega
  | succ fuel ih =>
    intro room t h
    unfold drain
    split
    · simp [encode]; omega
    · rename_i x c t' hx
      have hc := utf8Len_le c
      have h1 := utf8Len_pos c
      by_cases hp : room < utf8Len c
      · rw [if_pos hp]; simp [encode]; omega
      · rw [if_neg hp]
        by_cases hf : room - utf8Len c < maxUtf8Size
        · rw [if_pos hf]
          simp only [encode_cons, encode_nil, List.append_nil, encodeChar_length]
          refine ⟨by omega, by simp, ?_⟩
          intro he
          exact ⟨c, by simp, by omega⟩
        · rw [if_neg hf]
          unfold maxUtf8Size at hf
          obtain ⟨i0, i1, i2⟩ := ih (room - utf8Len c) t' (by omega)
          generalize drain U fuel (room - utf8Len c) t' = d at *
          obtain ⟨stop, out, t''⟩ := d
          simp only at i0 i1 i2
          simp only [encode_cons, List.length_append, encodeChar_length]
          refine ⟨by omega, ?_, ?_⟩
          · intro he; have := i1 he; omega
          · intro he
            obtain ⟨d, hd, hd4⟩ := i2 (by omega)
            exact ⟨d, by simp at hd; simp [List.getLast?_cons, hd], hd4⟩

/-- A read that fills its buffer completely ends with a four-byte scalar. -/
theorem read_fills {len : Nat} {t : TextInput} {src : List Event} {n : Nat} {st : Status}
    (h : (readWithStatus U len t src).ret = .ok n st) : n = (encode (readWithStatus U len t src).out).length ∧
      n ≤ len ∧ (n = len → ∃ c ∈ (readWithStatus U len t src).out.getLast?, utf8Len c = 4) := by
  unfold readWithStatus at h ⊢
  by_cases hl : len < normalizationBufferSize
  · rw [if_pos hl] at h; simp at h
  · rw [if_neg hl] at h ⊢
    have hl4 : 4 ≤ len := by
      have : normalizationBufferSize = 136 := rfl
      omega
    obtain ⟨i0, i1, i2⟩ := drain_room (U := U) (len + 1) len t hl4
    generalize drain U (len + 1) len t = d at *
    obtain ⟨stop, out, t'⟩ := d
    cases stop with
    | panic => simp at h
    | full => simp at h i0 i2 ⊢; exact ⟨h.1.symm, by omega, fun hn => i2 (by omega)⟩
    | empty =>
      simp only at i0 i1 i2 h ⊢
      split at h
      · rename_i hp
        rw [if_pos hp]
        simp at h ⊢
        exact ⟨h.1.symm, by omega, fun hn => by have := i1 trivial; omega⟩
      · rename_i hp
        rw [if_neg hp]
        split at h
        · simp at h
        · rename_i s status src' hev
          have j := drain_room (U := U) (len + 1) (len - (encode out).length) (if status ≠ .active then
            { t' with ctl := (finish (processRaw U t'.ctl s).1 (t'.queue ++ (processRaw U t'.ctl s).2).getLast? status).1
                      queue := t'.queue ++ (processRaw U t'.ctl s).2 ++ (finish (processRaw U t'.ctl s).1 (t'.queue ++ (processRaw U t'.ctl s).2).getLast? status).2 }
            else { t' with ctl := (processRaw U t'.ctl s).1, queue := t'.queue ++ (processRaw U t'.ctl s).2 }) (i1 trivial)
          generalize drain U (len + 1) (len - (encode out).length) _ = d at *
          obtain ⟨stop, out', t''⟩ := d
          have fin : n = (encode (out ++ out')).length → n = (encode (out ++ out')).length ∧
              n ≤ len ∧ (n = len → ∃ c ∈ (out ++ out').getLast?, utf8Len c = 4) := by
            intro hn
            refine ⟨hn, ?_, fun he => ?_⟩ <;> rw [encode_append, List.length_append] at hn
            · have := j.1
              simp only at this
              omega
            obtain ⟨d, hd, hd4⟩ := j.2.2 (by simp only; omega)
            exact ⟨d, by simp only at hd; simp at hd; simp [List.getLast?_append, hd], hd4⟩
          cases stop with
          | panic => simp at h
          | empty => simp only [Ret.ok.injEq] at h ⊢; exact fin h.1.symm
          | full => simp only [Ret.ok.injEq] at h ⊢; exact fin h.1.symm

theorem stdRet_ok {r : Ret} {n : Nat} (h : stdRet r = .ok n) : ∃ st, r = .ok n st := by
  cases r with
  | ok m st =>
    simp only [stdRet] at h
    split at h
    · simp at h
    · simp at h; exact ⟨st, by rw [h]⟩
  | _ => simp [stdRet] at h

theorem stdRet_interrupted {r : Ret} (h : stdRet r = .interrupted) : ∃ st, r = .ok 0 st := by
  cases r with
  | ok m st =>
    simp only [stdRet] at h
    split at h
    · rename_i hm; exact ⟨st, by rw [hm.1]⟩
    · simp at h
  | _ => simp [stdRet] at h

theorem readExact_ok : ∀ (fuel len : Nat) (t : TextInput) (src : List Event) (x : ExactResult),
    readExact U fuel len t src = some x → x.ret = .ok →
    (encode x.out).length = len ∧ (len ≠ 0 → ∃ c ∈ x.out.getLast?, utf8Len c = 4) := by
  intro fuel
  induction fuel with
  | zero => intro len t src x h; simp [readExact] at h
  | succ fuel ih =>
    intro len t src x h hok
    unfold readExact at h
    by_cases hl : len = 0
    · rw [if_pos hl] at h
      simp at h
      subst h
      exact ⟨by simp [encode, hl], fun hc => absurd hl hc⟩
    · rw [if_neg hl] at h
      simp only at h
      split at h
      · simp at h; subst h; simp at hok
      · rename_i n hn
        obtain ⟨st, hst⟩ := stdRet_ok hn
        obtain ⟨f1, f0, f2⟩ := read_fills hst
        obtain ⟨y, hy, rfl⟩ := Option.map_eq_some_iff.1 h
        obtain ⟨i1, i2⟩ := ih _ _ _ y hy hok
        simp only [encode_append, List.length_append]
        refine ⟨by clear f2 i2; omega, fun _ => ?_⟩
        by_cases hz : len - (n + 1) = 0
        · have : y.out = [] := by
            have := length_le_encode y.out
            exact List.length_eq_zero_iff.1 (by omega)
          rw [this, List.append_nil]
          exact f2 (by omega)
        · obtain ⟨d, hd, hd4⟩ := i2 hz
          exact ⟨d, by simp at hd; simp [List.getLast?_append, hd], hd4⟩
      · rename_i hn
        obtain ⟨st, hst⟩ := stdRet_interrupted hn
        obtain ⟨f1, f0, f2⟩ := read_fills hst
        obtain ⟨y, hy, rfl⟩ := Option.map_eq_some_iff.1 h
        obtain ⟨i1, i2⟩ := ih _ _ _ y hy hok
        have : (readWithStatus U len t src).out = [] := by
          have := length_le_encode (readWithStatus U len t src).out
          exact List.length_eq_zero_iff.1 (by omega)
        simp only [this, List.nil_append]
        exact ⟨i1, i2⟩
      all_goals (simp at h; subst h; simp at hok)

end Verif
