import Verif.Copy
import Verif.Utf8Stream

/-!
# `std::io::copy` from a `TextReader`

The pipeline of `examples/text-cat.rs`: bytes are read through a `TextReader` and written as bytes.  `io::copy` is the
standard library's generic loop, with a buffer of `len` bytes: read, retry on `Interrupted`, stop at a read of no bytes,
`write_all` what has been read.
-/

namespace Verif
open Ucd
variable {U : Ucd}

/-- A byte sink for `write_all`: each coming call succeeds, or fails after some of its bytes have gone out (`some n`); an
exhausted script means success. -/
structure ByteSink where
  sent : Bytes
  script : List (Option Nat)
  deriving DecidableEq, Repr

def ByteSink.writeAll (k : ByteSink) (b : Bytes) : ByteSink × Bool :=
  match k.script with
  | [] => ({ k with sent := k.sent ++ b }, true)
  | none :: r => ({ sent := k.sent ++ b, script := r }, true)
  | some n :: r => ({ sent := k.sent ++ b.take n, script := r }, false)

structure IoCopyResult where
  ret : CopyRet
  input : TextInput
  src : List Event
  sink : ByteSink
  deriving DecidableEq, Repr

/-- `io::copy` (standard library) as used in `examples/text-cat.rs:7`; `n` is the number of bytes so far, `none` means that the loop
has not ended after `fuel` iterations. -/
def ioCopy (U : Ucd) (len : Nat) : Nat → TextInput → List Event → ByteSink → Nat → Option IoCopyResult
  | 0, _, _, _, _ => none
  | fuel + 1, t, src, k, n =>
    let r := readWithStatus U len t src
    match stdRet r.ret with
    | .ok 0 => some { ret := .ok n, input := r.input, src := r.src, sink := k }
    | .ok (m + 1) =>
      match k.writeAll (encode r.out) with
      | (k, true) => ioCopy U len fuel r.input r.src k (n + (m + 1))
      | (k, false) => some { ret := .writeError, input := r.input, src := r.src, sink := k }
    | .interrupted => ioCopy U len fuel r.input r.src k n
    | .panic => some { ret := .panic, input := r.input, src := r.src, sink := k }
    | e => some { ret := .readError e, input := r.input, src := r.src, sink := k }

theorem ioCopy_mono {len : Nat} : ∀ {k : Nat} {t : TextInput} {src : List Event} {w : ByteSink} {n : Nat} {res : IoCopyResult},
    ioCopy U len k t src w n = some res → ∀ k', k ≤ k' → ioCopy U len k' t src w n = some res := by
  intro k
  induction k with
  | zero => intro t src w n res h; simp [ioCopy] at h
  | succ k ih =>
    intro t src w n res h k' hk
    obtain ⟨k', rfl⟩ : ∃ j, k' = j + 1 := ⟨k' - 1, by omega⟩
    rw [ioCopy] at h ⊢
    cases hs : stdRet (readWithStatus U len t src).ret with
    | ok m =>
      rw [hs] at h
      cases m with
      | zero => exact h
      | succ m =>
        simp only at h ⊢
        cases hw : w.writeAll (encode (readWithStatus U len t src).out) with
        | mk w' b =>
          rw [hw] at h
          cases b
          · exact h
          · exact ih h k' (by omega)
    | interrupted => rw [hs] at h; exact ih h k' (by omega)
    | invalidInput => rw [hs] at h; exact h
    | sourceError => rw [hs] at h; exact h
    | panic => rw [hs] at h; exact h

theorem writeAll_spec (k : ByteSink) (b : Bytes) : ∃ p, (k.writeAll b).1.sent = k.sent ++ p ∧ p <+: b ∧ ((k.writeAll b).2 = true → p = b) := by
  unfold ByteSink.writeAll
  split
  · exact ⟨b, rfl, List.prefix_refl b, fun _ => rfl⟩
  · exact ⟨b, rfl, List.prefix_refl b, fun _ => rfl⟩
  · exact ⟨b.take _, rfl, List.take_prefix _ b, by simp⟩

/-- Whatever the source and the sink do. -/
theorem ioCopy_any (len : Nat) : ∀ (k : Nat) (t : TextInput) (src : List Event) (w : ByteSink) (n : Nat) (res : IoCopyResult),
    ioCopy U len k t src w n = some res →
    ∃ j, (∃ p, res.sink.sent = w.sent ++ p ∧ p <+: encode (delivered (readMany U (List.replicate j len) t src)) ∧
      ∀ m, res.ret = .ok m → p = encode (delivered (readMany U (List.replicate j len) t src)) ∧ m = n + p.length ∧
        ∃ r, (readMany U (List.replicate j len) t src).getLast? = some r ∧ r.ret = .ok 0 .end_) := by
  intro k
  induction k with
  | zero => intro t src w n res h; simp [ioCopy] at h
  | succ k ih =>
    intro t src w n res h
    rw [ioCopy] at h
    generalize hr : readWithStatus U len t src = r at h
    have hgo : ∀ j, readMany U (List.replicate (j + 1) len) t src = r :: readMany U (List.replicate j len) r.input r.src := by
      intro j; rw [List.replicate_succ, readMany]; simp only [hr]
    have hlen : ∀ m st, r.ret = .ok m st → m = (encode r.out).length := by
      intro m st he
      have := ok_length (U := U) (len := len) (t := t) (src := src) (m := m) (st := st) (by rw [hr]; exact he)
      rw [hr] at this; exact this
    have hstop : ∀ ret, (∀ m, ret ≠ .ok m) → res = { ret := ret, input := r.input, src := r.src, sink := w } →
        ∃ j, (∃ p, res.sink.sent = w.sent ++ p ∧ p <+: encode (delivered (readMany U (List.replicate j len) t src)) ∧
          ∀ m, res.ret = .ok m → p = encode (delivered (readMany U (List.replicate j len) t src)) ∧ m = n + p.length ∧
            ∃ r, (readMany U (List.replicate j len) t src).getLast? = some r ∧ r.ret = .ok 0 .end_) := by
      rintro ret hn rfl
      exact ⟨0, [], by simp, by simp [readMany], fun m hm => absurd hm (hn m)⟩
    cases hret : r.ret with
    | panic => simp [hret, stdRet] at h; exact hstop .panic (by simp) h.symm
    | invalidInput => simp [hret, stdRet] at h; exact hstop (.readError .invalidInput) (by simp) h.symm
    | sourceError => simp [hret, stdRet] at h; exact hstop (.readError .sourceError) (by simp) h.symm
    | ok m st =>
      have hm := hlen m st hret
      have hok : r.ret.isOk = true := by rw [hret]; rfl
      have hdel : ∀ j, delivered (readMany U (List.replicate (j + 1) len) t src) = r.out ++ delivered (readMany U (List.replicate j len) r.input r.src) := by
        intro j; rw [hgo, delivered_cons, hok, if_pos rfl]
      have hlast : ∀ {j : Nat} {q : ReadResult}, (readMany U (List.replicate j len) r.input r.src).getLast? = some q →
          (readMany U (List.replicate (j + 1) len) t src).getLast? = some q := by
        intro j q hq
        rw [hgo, List.getLast?_cons, hq]; rfl
      cases m with
      | zero =>
        have hz : r.out = [] := by
          have := length_le_encode r.out
          exact List.length_eq_zero_iff.1 (by omega)
        by_cases hst : st = .end_
        · simp [hret, stdRet, hst] at h
          refine ⟨1, [], by simp [← h], by simp, fun m hm => ⟨?_, ?_, r, ?_, by rw [hret, hst]⟩⟩
          · rw [hdel, hz]; simp [readMany, delivered, encode]
          · rw [← h] at hm; simpa using hm.symm
          · rw [hgo]; simp [readMany]
        · simp [hret, stdRet, hst] at h
          obtain ⟨j, p, h1, h2, h3⟩ := ih _ _ _ _ _ h
          refine ⟨j + 1, p, h1, by rw [hdel, hz]; exact h2, fun m hm => ?_⟩
          obtain ⟨a1, a2, q, a3, a4⟩ := h3 m hm
          exact ⟨by rw [hdel, hz]; exact a1, a2, q, hlast a3, a4⟩
      | succ m =>
        have hs : stdRet r.ret = .ok (m + 1) := by rw [hret]; simp [stdRet]
        rw [hs] at h
        simp only at h
        obtain ⟨p0, s1, s2, s3⟩ := writeAll_spec w (encode r.out)
        rcases hw : w.writeAll (encode r.out) with ⟨w', o⟩
        rw [hw] at h s1 s3
        cases o with
        | true =>
          simp only at h s1 s3
          obtain ⟨j, p, h1, h2, h3⟩ := ih _ _ _ _ _ h
          have hp := s3 trivial
          refine ⟨j + 1, p0 ++ p, by rw [h1, s1, List.append_assoc], ?_, fun m' hm' => ?_⟩
          · rw [hdel, encode_append, hp]
            exact (List.prefix_append_right_inj _).2 h2
          · obtain ⟨a1, a2, q, a3, a4⟩ := h3 m' hm'
            refine ⟨by rw [hdel, encode_append, hp, ← a1], ?_, q, hlast a3, a4⟩
            rw [a2, List.length_append, hp, hm]; omega
        | false =>
          simp only [Option.some.injEq] at h
          refine ⟨1, p0, by rw [← h]; exact s1, ?_, by rw [← h]; simp⟩
          rw [hdel]
          simpa [readMany, delivered] using s2

/-- While the reads succeed and up to the one that reports the end with no text, with a sink that works. -/
theorem ioCopy_ends (len : Nat) : ∀ (k : Nat) (t : TextInput) (src : List Event) (w : ByteSink) (n : Nat), w.script = [] →
    (∀ r ∈ readMany U (List.replicate k len) t src, ∃ st, r.ret = .ok (encode r.out).length st) →
    (∃ r ∈ readMany U (List.replicate k len) t src, r.ret = .ok 0 .end_) →
    ∃ res m, ioCopy U len k t src w n = some res ∧ res.ret = .ok m := by
  intro k
  induction k with
  | zero => intro t src w n _ _ ⟨r, hr, _⟩; simp [readMany] at hr
  | succ k ih =>
    intro t src w n hw hok hend
    rw [List.replicate_succ, readMany] at hok hend
    generalize hr : readWithStatus U len t src = r at hok hend
    obtain ⟨st, hret⟩ := hok r (by simp)
    have hok' : ∀ r' ∈ readMany U (List.replicate k len) r.input r.src, ∃ st, r'.ret = .ok (encode r'.out).length st :=
      fun r' hr' => hok r' (by simp [hr'])
    rw [ioCopy]
    simp only [hr]
    by_cases h0 : r.ret = .ok 0 .end_
    · exact ⟨_, n, by rw [h0]; rfl, rfl⟩
    · have hend' : ∃ r' ∈ readMany U (List.replicate k len) r.input r.src, r'.ret = .ok 0 .end_ := by
        obtain ⟨r', h1, h2⟩ := hend
        simp only [List.mem_cons] at h1
        rcases h1 with rfl | h1
        · exact absurd h2 h0
        · exact ⟨r', h1, h2⟩
      rw [hret]
      by_cases hz : (encode r.out).length = 0
      · have hs : st ≠ .end_ := by rintro rfl; exact h0 (by rw [hret, hz])
        rw [hz]
        simp only [stdRet, hs, ne_eq, not_false_eq_true, and_self, if_true]
        exact ih r.input r.src w n hw hok' hend'
      · obtain ⟨m, hm⟩ : ∃ m, (encode r.out).length = m + 1 := ⟨(encode r.out).length - 1, by omega⟩
        rw [hm]
        simp only [stdRet, Nat.succ_ne_zero, false_and, if_false]
        have hwa : w.writeAll (encode r.out) = ({ w with sent := w.sent ++ encode r.out }, true) := by
          unfold ByteSink.writeAll; rw [hw]
        rw [hwa]
        exact ih r.input r.src _ _ hw hok' hend'

end Verif
