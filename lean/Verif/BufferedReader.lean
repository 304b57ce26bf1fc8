import Verif.ReadStd
import Verif.ReaderRuns

/-!
# A reader behind the standard library's `BufReader`
-/

namespace Verif
open Ucd

variable {U : Ucd}

/-- `std::io::BufReader<TextReader<_>>`: its capacity, the bytes in its buffer that have not been read yet, and the reader with the rest of the
script of its source. -/
structure BufR where
  cap : Nat
  buf : Bytes
  input : TextInput
  src : List Event
  deriving DecidableEq, Repr

/-- `BufReader::read` (standard library) with a buffer of `n` bytes: if its own buffer is empty and the caller's is not smaller, the inner
reader reads into the caller's; otherwise an empty buffer is filled by one read (`src/text_input.rs:385-488`, by `layered_io::default_read`),
and the caller gets what fits. -/
def BufR.read (U : Ucd) (x : BufR) (n : Nat) : BufR × StdRet × Bytes :=
  if x.buf ≠ [] then ({ x with buf := x.buf.drop n }, .ok (min n x.buf.length), x.buf.take n)
  else if x.cap ≤ n then
    let r := readWithStatus U n x.input x.src
    ({ x with input := r.input, src := r.src }, stdRet r.ret, if r.ret.isOk then encode r.out else [])
  else
    let r := readWithStatus U x.cap x.input x.src
    match stdRet r.ret with
    | .ok _ => ({ x with input := r.input, src := r.src, buf := (encode r.out).drop n }, .ok (min n (encode r.out).length), (encode r.out).take n)
    | e => ({ x with input := r.input, src := r.src }, e, [])

/-- Calls one after the other. -/
def BufR.run (U : Ucd) (x : BufR) : List Nat → BufR
  | [] => x
  | n :: ns => BufR.run U (x.read U n).1 ns

/-- Their results. -/
def BufR.results (U : Ucd) (x : BufR) : List Nat → List StdRet
  | [] => []
  | n :: ns => (x.read U n).2.1 :: BufR.results U (x.read U n).1 ns

/-- The bytes that they deliver. -/
def BufR.bytes (U : Ucd) (x : BufR) : List Nat → Bytes
  | [] => []
  | n :: ns => (x.read U n).2.2 ++ BufR.bytes U (x.read U n).1 ns

theorem ret_count {len : Nat} {t : TextInput} {src : List Event} {k : Nat} {st : Status} (h : (readWithStatus U len t src).ret = .ok k st) :
    k = (encode (readWithStatus U len t src).out).length := by
  unfold readWithStatus at h ⊢
  grind

/-- A call makes at most one read of the reader, and what comes of it is delivered or in the buffer. -/
theorem bufr_step (x : BufR) (n : Nat) :
    (x.buf ≠ [] ∧ (x.read U n).1 = { x with buf := x.buf.drop n } ∧ (x.read U n).2.2 = x.buf.take n ∧
      (x.read U n).2.1 = .ok (min n x.buf.length)) ∨
    (x.buf = [] ∧ ∃ len, (len = if x.cap ≤ n then n else x.cap) ∧
      (x.read U n).1.cap = x.cap ∧ (x.read U n).1.input = (readWithStatus U len x.input x.src).input ∧
      (x.read U n).1.src = (readWithStatus U len x.input x.src).src ∧
      (x.read U n).2.2 ++ (x.read U n).1.buf =
        (if (readWithStatus U len x.input x.src).ret.isOk then encode (readWithStatus U len x.input x.src).out else []) ∧
      (0 < n → (x.read U n).2.1 = .ok 0 → (readWithStatus U len x.input x.src).ret = .ok 0 .end_ ∧ (x.read U n).1.buf = []) ∧
      ((x.read U n).2.1 = .invalidInput → (readWithStatus U len x.input x.src).ret = .invalidInput) ∧
      ((readWithStatus U len x.input x.src).ret = .ok 0 .end_ → (x.read U n).2.1 = .ok 0)) := by
  by_cases hb : x.buf = []
  · refine Or.inr ⟨hb, ?_⟩
    by_cases hn : x.cap ≤ n
    · refine ⟨n, (if_pos hn).symm, ?_⟩
      have e : x.read U n = ({ x with input := (readWithStatus U n x.input x.src).input, src := (readWithStatus U n x.input x.src).src },
          stdRet (readWithStatus U n x.input x.src).ret,
          if (readWithStatus U n x.input x.src).ret.isOk then encode (readWithStatus U n x.input x.src).out else []) := by
        unfold BufR.read; rw [if_neg (by simp [hb]), if_pos hn]
      rw [e]
      refine ⟨rfl, rfl, rfl, by simp [hb], fun _ h => ?_, fun h => ?_, fun h => by simp [h, stdRet]⟩
      · cases hr : (readWithStatus U n x.input x.src).ret with
        | ok k st => simp only [hr, stdRet] at h; split at h <;> simp_all
        | _ => simp [hr, stdRet] at h
      · cases hr : (readWithStatus U n x.input x.src).ret with
        | ok k st => simp only [hr, stdRet] at h; split at h <;> simp at h
        | _ => simp_all [stdRet]
    · refine ⟨x.cap, (if_neg hn).symm, ?_⟩
      unfold BufR.read
      rw [if_neg (by simp [hb]), if_neg hn]
      simp only
      cases hr : (readWithStatus U x.cap x.input x.src).ret with
      | ok k st =>
        have hk := ret_count hr
        by_cases hz : k = 0 ∧ st ≠ .end_
        · have he : encode (readWithStatus U x.cap x.input x.src).out = [] := List.length_eq_zero_iff.1 (by omega)
          simp only [stdRet, if_pos hz, Ret.isOk, he, hb]
          refine ⟨trivial, trivial, trivial, by simp, by simp, by simp, fun h => absurd (Ret.ok.inj h).2 hz.2⟩
        · simp only [stdRet, if_neg hz, Ret.isOk, if_true, List.take_append_drop]
          refine ⟨trivial, trivial, trivial, trivial, fun h0 h => ?_, fun h => by simp at h, fun h => ?_⟩
          rotate_left
          · have : (encode (readWithStatus U x.cap x.input x.src).out).length = 0 := by
              have := (Ret.ok.inj h).1
              omega
            rw [this]; simp
          have hl : (encode (readWithStatus U x.cap x.input x.src).out).length = 0 := by
            have := StdRet.ok.inj h
            omega
          have hk0 : k = 0 := by omega
          have hst : st = .end_ := Classical.byContradiction fun h' => hz ⟨hk0, h'⟩
          rw [hk0, hst, List.length_eq_zero_iff.1 hl]
          simp
      | _ => simp [stdRet, Ret.isOk, hb]
  · exact Or.inl ⟨hb, by simp [BufR.read, hb], by simp [BufR.read, hb], by simp [BufR.read, hb]⟩

theorem bufr_cap (x : BufR) (n : Nat) : (x.read U n).1.cap = x.cap := by
  rcases bufr_step (U := U) x n with ⟨-, h, -⟩ | ⟨-, len, -, h, -⟩
  · rw [h]
  · exact h

/-- Calls on the buffer are reads of the reader, with buffers of the capacity or of the caller. -/
theorem bufr_run (ns : List Nat) : ∀ x : BufR, ∃ lens : List Nat, (∀ l ∈ lens, l = x.cap ∨ (x.cap ≤ l ∧ l ∈ ns)) ∧ (ns = [] → lens = []) ∧
    x.bytes U ns ++ (x.run U ns).buf = x.buf ++ encode (delivered (readMany U lens x.input x.src)) ∧
    (∀ n ∈ ns.getLast?, 0 < n → (x.results U ns).getLast? = some (.ok 0) →
      (x.run U ns).buf = [] ∧ ∃ r, (readMany U lens x.input x.src).getLast? = some r ∧ r.ret = .ok 0 .end_) := by
  induction ns with
  | nil => intro x; exact ⟨[], by simp, fun _ => rfl, by simp [BufR.bytes, BufR.run, readMany, delivered, encode], by simp⟩
  | cons n ns ih =>
    intro x
    obtain ⟨lens, h1, h4, h2, h3⟩ := ih (x.read U n).1
    rw [bufr_cap] at h1
    rcases bufr_step (U := U) x n with ⟨hb, e1, e2, e3⟩ | ⟨hb, len, hl', -, e1, e2, e3, e4, -⟩
    · refine ⟨lens, fun l hm => (h1 l hm).imp id fun h => ⟨h.1, by simp [h.2]⟩, by simp, ?_, ?_⟩
      · rw [e1] at h2
        simp only at h2
        rw [BufR.bytes, BufR.run, List.append_assoc, e1, h2, e2, ← List.append_assoc, List.take_append_drop]
      · intro m hm h0 hr
        cases ns with
        | nil =>
          simp at hm; subst hm
          have hpos := List.length_pos_iff.2 hb
          simp only [BufR.results, e3, List.getLast?_singleton, Option.some.injEq, StdRet.ok.injEq] at hr
          omega
        | cons n' ns =>
          have := h3 m (by simpa using hm) h0 (by simpa [BufR.results] using hr)
          rw [e1] at this
          rw [BufR.run, e1]
          exact this
    · have hl : len = x.cap ∨ (x.cap ≤ len ∧ len = n) := by
        split at hl'
        · rename_i h; exact Or.inr ⟨by omega, hl'⟩
        · exact Or.inl hl'
      refine ⟨len :: lens, ?_, by simp, ?_, ?_⟩
      · intro l hm
        rcases List.mem_cons.1 hm with rfl | hm
        · exact hl.imp id fun h => ⟨h.1, by simp [h.2]⟩
        · exact (h1 l hm).imp id fun h => ⟨h.1, by simp [h.2]⟩
      · rw [BufR.bytes, BufR.run, List.append_assoc, h2, ← List.append_assoc, e3, hb, e1, e2]
        simp only [readMany, delivered, List.flatMap_cons, encode_append, List.nil_append]
        split <;> simp [encode]
      · intro m hm h0 hr
        rw [readMany]
        cases ns with
        | nil =>
          simp at hm; subst hm
          obtain ⟨f1, f2⟩ := e4 h0 (by simpa [BufR.results] using hr)
          rw [h4 rfl]
          exact ⟨f2, _, rfl, f1⟩
        | cons n' ns =>
          obtain ⟨g1, r, g2, g3⟩ := h3 m (by simpa using hm) h0 (by simpa [BufR.results] using hr)
          refine ⟨g1, r, ?_, g3⟩
          rw [← e1, ← e2, List.getLast?_cons, g2]; rfl

theorem bufr_append (a b : List Nat) : ∀ x : BufR, x.results U (a ++ b) = x.results U a ++ (x.run U a).results U b := by
  induction a with
  | nil => intro x; rfl
  | cons n a ih => intro x; simp [BufR.results, BufR.run, ih]

/-- What is in the buffer is read in the end. -/
theorem bufr_drain {n : Nat} (hn : 0 < n) : ∀ (k : Nat) (x : BufR), x.buf.length ≤ k → ∃ j, x.run U (List.replicate j n) = { x with buf := [] } := by
  intro k
  induction k with
  | zero =>
    intro x h
    have : x.buf = [] := List.length_eq_zero_iff.1 (by omega)
    obtain ⟨c, b, i, s⟩ := x
    simp only at this
    subst this
    exact ⟨0, rfl⟩
  | succ k ih =>
    intro x h
    rcases bufr_step (U := U) x n with ⟨hb, e, -⟩ | ⟨hb, -⟩
    · have hpos := List.length_pos_iff.2 hb
      obtain ⟨j, hj⟩ := ih (x.read U n).1 (by rw [e]; simp only [List.length_drop]; omega)
      refine ⟨j + 1, ?_⟩
      rw [List.replicate_succ, BufR.run, hj, e]
    · obtain ⟨c, b, i, s⟩ := x
      simp only at hb
      subst hb
      exact ⟨0, rfl⟩

/-- If the reader comes to the end, so do the calls. -/
theorem bufr_reach {n : Nat} (hn : 0 < n) : ∀ (k : Nat) (x : BufR) (r : ReadResult),
    (readMany U (List.replicate (k + 1) (if x.cap ≤ n then n else x.cap)) x.input x.src).getLast? = some r → r.ret = .ok 0 .end_ →
    ∃ m, (x.results U (List.replicate (m + 1) n)).getLast? = some (.ok 0) := by
  intro k
  induction k with
  | zero =>
    intro x r hr he
    obtain ⟨j, hj⟩ := bufr_drain (U := U) hn _ x (Nat.le_refl _)
    refine ⟨j, ?_⟩
    rw [List.replicate_succ', bufr_append, hj, BufR.results, BufR.results]
    rcases bufr_step (U := U) { x with buf := [] } n with ⟨hb, -⟩ | ⟨-, len, hl, -, -, -, -, -, -, e⟩
    · exact absurd rfl hb
    · subst hl
      simp only [List.replicate, readMany, List.getLast?_singleton, Option.some.injEq] at hr
      rw [e (by rw [← he, ← hr]), List.getLast?_append]; rfl
  | succ k ih =>
    intro x r hr he
    obtain ⟨j, hj⟩ := bufr_drain (U := U) hn _ x (Nat.le_refl _)
    rcases bufr_step (U := U) { x with buf := [] } n with ⟨hb, -⟩ | ⟨-, len, hl, e0, e1, e2, -, -, -, -⟩
    · exact absurd rfl hb
    · simp only at hl e0 e1 e2
      subst hl
      rw [List.replicate_succ, readMany] at hr
      rw [List.getLast?_cons] at hr
      have hr' : (readMany U (List.replicate (k + 1) (if x.cap ≤ n then n else x.cap)) (readWithStatus U (if x.cap ≤ n then n else x.cap) x.input x.src).input
          (readWithStatus U (if x.cap ≤ n then n else x.cap) x.input x.src).src).getLast? = some r := by
        cases hq : (readMany U (List.replicate (k + 1) (if x.cap ≤ n then n else x.cap)) (readWithStatus U (if x.cap ≤ n then n else x.cap) x.input x.src).input
          (readWithStatus U (if x.cap ≤ n then n else x.cap) x.input x.src).src).getLast? with
        | none => rw [List.getLast?_eq_none_iff] at hq; simp [List.replicate_succ, readMany] at hq
        | some q => rw [hq] at hr; simpa using hr
      obtain ⟨m, hm⟩ := ih (BufR.read U { x with buf := [] } n).1 r (by rw [e0, e1, e2]; exact hr') he
      refine ⟨j + 1 + m, ?_⟩
      rw [show j + 1 + m + 1 = j + (1 + (m + 1)) by omega, ← List.replicate_append_replicate, bufr_append, hj, List.getLast?_append,
        show 1 + (m + 1) = (m + 1) + 1 by omega, List.replicate_succ, BufR.results, List.getLast?_cons, hm]
      rfl

/-- The reader is in a state it can be in, and the buffer is not fuller than it can be. -/
def BufR.Sound (U : Ucd) (x : BufR) : Prop := (∃ k emitted es, Rel U k x.input emitted es) ∧ x.buf.length ≤ x.cap

theorem read_sound (hU : TextLaws U) {k : Ctl} {t : TextInput} {emitted : List Char} {es src : List Event} (h : Rel U k t emitted es) (len : Nat) :
    (∃ emitted es, Rel U k (readWithStatus U len t src).input emitted es) ∧ (encode (readWithStatus U len t src).out).length ≤ len ∧
      (readWithStatus U len t src).ret ≠ .panic := by
  obtain ⟨k1, k2⟩ := read_rel hU h (len := len) (src := src) rfl
  by_cases hl : len < normalizationBufferSize
  · rw [k1 hl]; exact ⟨⟨_, _, h⟩, by simp [encode], by simp⟩
  · obtain ⟨e, c1, c2, c3, c4, c5, -, -⟩ := k2 (by omega)
    refine ⟨⟨_, _, c2⟩, c3, ?_⟩
    by_cases he : e = [.err]
    · rw [c4 he]; simp
    · obtain ⟨st, h, -⟩ := c5 he
      rw [h]; simp

theorem bufr_sound (hU : TextLaws U) (x : BufR) (n : Nat) (h : x.Sound U) :
    (x.read U n).1.Sound U ∧ (∀ k, (x.read U n).2.1 = .ok k → (x.read U n).2.2.length = k ∧ k ≤ n) ∧
      ((∀ k, (x.read U n).2.1 ≠ .ok k) → (x.read U n).2.2 = []) ∧ (x.read U n).2.1 ≠ .panic := by
  obtain ⟨⟨k0, emitted, es, hR⟩, hb⟩ := h
  unfold BufR.read
  split
  · refine ⟨⟨⟨_, _, _, hR⟩, by simp only [List.length_drop]; omega⟩, fun k hk => ?_, fun hk => absurd rfl (hk _), by simp⟩
    have := StdRet.ok.inj hk
    simp only [List.length_take]; omega
  · rename_i hne
    have hnil : x.buf = [] := by simpa using hne
    split
    · obtain ⟨⟨em, es', h1⟩, h2, h3⟩ := read_sound hU hR (src := x.src) n
      refine ⟨⟨⟨_, _, _, h1⟩, hb⟩, ?_⟩
      simp only
      cases hr : (readWithStatus U n x.input x.src).ret with
      | ok j st =>
        have hj := ret_count hr
        by_cases hz : j = 0 ∧ st ≠ .end_
        · have he : encode (readWithStatus U n x.input x.src).out = [] := List.length_eq_zero_iff.1 (by omega)
          simp [stdRet, hz, Ret.isOk, he]
        · simp only [stdRet, if_neg hz, Ret.isOk, if_true, StdRet.ok.injEq]
          exact ⟨fun k hk => by omega, fun hk => absurd rfl (hk j), by simp⟩
      | panic => exact absurd hr h3
      | _ => simp [stdRet, Ret.isOk]
    · obtain ⟨⟨em, es', h1⟩, h2, h3⟩ := read_sound hU hR (src := x.src) x.cap
      simp only
      split
      · refine ⟨⟨⟨_, _, _, h1⟩, by simp only [List.length_drop]; omega⟩, fun k hk => ?_, fun hk => absurd rfl (hk _), by simp⟩
        have := StdRet.ok.inj hk
        simp only [List.length_take]; omega
      · rename_i hno
        refine ⟨⟨⟨_, _, _, h1⟩, hb⟩, fun k hk => absurd hk (hno _), fun _ => rfl, ?_⟩
        cases hr : (readWithStatus U x.cap x.input x.src).ret with
        | ok j st => simp only [stdRet]; split <;> simp
        | panic => exact absurd hr h3
        | _ => simp [stdRet]

theorem bufr_run_sound (hU : TextLaws U) (ns : List Nat) : ∀ x : BufR, x.Sound U → (x.run U ns).Sound U := by
  induction ns with
  | nil => intro x h; exact h
  | cons n ns ih => intro x h; exact ih _ (bufr_sound hU x n h).1

end Verif
