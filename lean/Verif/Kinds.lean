import Verif.Interrupted

/-!
# Copying from a source whose errors are of different kinds

`kinds` says of the errors of the source, in their order, which of them are of the kind `Interrupted`; those after the end of the list are
not.  With all of them `copyKinds` is `copyRetry`, with none it is `copyText`.
-/

namespace Verif
open Ucd
variable {U : Ucd}

/-- `copy_text` (`src/copy.rs:8-30`): line 23 goes on after an error of the kind `Interrupted`, line 24 returns any other. -/
def copyKinds (U : Ucd) (len : Nat) : Nat → List Bool → TextInput → List Event → Writer → Nat → Option CopyResult
  | 0, _, _, _, _, _ => none
  | fuel + 1, kinds, t, src, w, n =>
    let r := readWithStatus U len t src
    match stdRet r.ret with
    | .ok 0 => some { ret := .ok n, input := r.input, src := r.src, writer := w }
    | .ok (m + 1) =>
      match writeText U w r.out with
      | (w, .ok) => copyKinds U len fuel kinds r.input r.src w (n + (m + 1))
      | (w, .err) => some { ret := .writeError, input := r.input, src := r.src, writer := w }
      | (w, .panic) => some { ret := .panic, input := r.input, src := r.src, writer := w }
    | .interrupted => copyKinds U len fuel kinds r.input r.src w n
    | .sourceError =>
      if kinds.headD false then copyKinds U len fuel kinds.tail r.input r.src w n
      else some { ret := .readError .sourceError, input := r.input, src := r.src, writer := w }
    | .panic => some { ret := .panic, input := r.input, src := r.src, writer := w }
    | e => some { ret := .readError e, input := r.input, src := r.src, writer := w }

/-- How many reads have failed. -/
def failures (rs : List ReadResult) : Nat := rs.countP (fun r => r.ret == .sourceError)

/-- How many errors come before one that is not an interruption. -/
def patience (kinds : List Bool) : Nat := (kinds.takeWhile id).length

theorem kinds_none (len : Nat) {kinds : List Bool} (hk : kinds.headD false = false) : ∀ (k : Nat) (t : TextInput) (src : List Event) (w : Writer) (n : Nat),
    copyKinds U len k kinds t src w n = copyText U len k t src w n := by
  intro k
  induction k with
  | zero => intros; rfl
  | succ k ih =>
    intro t src w n
    rw [copyKinds, copyText]
    generalize readWithStatus U len t src = r
    cases stdRet r.ret with
    | ok m => cases m with
      | zero => rfl
      | succ m =>
        simp only
        rcases writeText U w r.out with ⟨w', o⟩
        cases o <;> simp [ih]
    | interrupted => exact ih _ _ _ _
    | sourceError => simp only; rw [if_neg (by rw [hk]; simp)]
    | panic => rfl
    | invalidInput => rfl

/-- The copy that meets an error of another kind. -/
structure Halted (U : Ucd) (len j : Nat) (t : TextInput) (src : List Event) (w : Writer) (kinds : List Bool) (res : CopyResult) : Prop where
  last : ∃ r ∈ (readMany U (List.replicate j len) t src).getLast?, r.ret = .sourceError
  count : failures (readMany U (List.replicate j len) t src) = patience kinds + 1
  sent : res.writer.sink.sent = w.sink.sent ++ enc w.crlf (delivered (readMany U (List.replicate j len) t src))

/-- A copy either ends as if all errors were interruptions, having met no more of them than it tolerates, or with the error that it does not
tolerate. -/
theorem kinds_any (len : Nat) : ∀ (k : Nat) (kinds : List Bool) (t : TextInput) (src : List Event) (w : Writer) (n : Nat) (res : CopyResult),
    w.buffer = [] → copyKinds U len k kinds t src w n = some res →
    (copyRetry U len k t src w n = some res ∧ res.ret ≠ .readError .sourceError) ∨
    (res.ret = .readError .sourceError ∧ ∃ j, Halted U len j t src w kinds res) := by
  intro k
  induction k with
  | zero => intro _ t src w n res _ h; simp [copyKinds] at h
  | succ k ih =>
    intro kinds t src w n res hb h
    rw [copyKinds] at h
    rw [copyRetry]
    generalize hr : readWithStatus U len t src = r at h
    have hgo : ∀ j, readMany U (List.replicate (j + 1) len) t src = r :: readMany U (List.replicate j len) r.input r.src := by
      intro j; rw [List.replicate_succ, readMany]; simp only [hr]
    have hnext : ∀ {j w' kinds' s}, Halted U len j r.input r.src w' kinds' res → patience kinds = patience kinds' + (if r.ret == .sourceError then 1 else 0) →
        w'.crlf = w.crlf → w'.sink.sent = w.sink.sent ++ enc w.crlf s → (if r.ret.isOk then r.out else []) = s → Halted U len (j + 1) t src w kinds res := by
      rintro j w' kinds' s ⟨⟨x, hx, hx'⟩, hc, hs⟩ hp hcr hse rfl
      refine ⟨⟨x, ?_, hx'⟩, ?_, ?_⟩
      · rw [hgo, List.getLast?_cons, Option.mem_def.1 hx]; rfl
      · rw [hgo, failures, List.countP_cons]
        unfold failures at hc
        rw [hc, hp]; omega
      · rw [hs, hgo, delivered_cons, hcr, hse, enc_append]; simp
    obtain ⟨p, s1, s2, s3, s4⟩ := writeText_sent (U := U) w hb r.out
    cases hret : r.ret with
    | panic =>
      simp only [hret, stdRet, Option.some.injEq] at h ⊢
      exact .inl ⟨h, by rw [← h]; simp⟩
    | invalidInput =>
      simp only [hret, stdRet, Option.some.injEq] at h ⊢
      exact .inl ⟨h, by rw [← h]; simp⟩
    | sourceError =>
      simp only [hret, stdRet] at h ⊢
      have hhalt : patience kinds = 0 → res = { ret := .readError .sourceError, input := r.input, src := r.src, writer := w } →
          (copyRetry U len k r.input r.src w n = some res ∧ res.ret ≠ .readError .sourceError) ∨
          (res.ret = .readError .sourceError ∧ ∃ j, Halted U len j t src w kinds res) := by
        rintro hp rfl
        refine .inr ⟨rfl, 1, ⟨r, ?_, hret⟩, ?_, ?_⟩
        · rw [hgo]; simp [readMany]
        · rw [hgo, hp]; simp [readMany, failures, hret]
        · rw [hgo, delivered_cons, hret]; simp [readMany, delivered, Ret.isOk, enc_nil]
      cases kinds with
      | nil => exact hhalt rfl (by simpa using h.symm)
      | cons b kinds =>
        cases b with
        | false => exact hhalt rfl (by simpa using h.symm)
        | true =>
          rcases ih kinds _ _ _ _ _ hb h with h1 | ⟨h1, j, h2⟩
          · exact .inl h1
          · exact .inr ⟨h1, j + 1, hnext h2 (by simp [hret, patience]) rfl (s := []) (by simp [enc_nil]) (by rw [hret]; rfl)⟩
    | ok m st =>
      have hm : m = (encode r.out).length := by
        have := ok_length (U := U) (len := len) (t := t) (src := src) (m := m) (st := st) (by rw [hr]; exact hret)
        rw [hr] at this; exact this
      have hok : r.ret.isOk = true := by rw [hret]; rfl
      have hns : (r.ret == .sourceError) = false := by rw [hret]; rfl
      cases m with
      | zero =>
        have hz : r.out = [] := by
          have := length_le_encode r.out
          exact List.length_eq_zero_iff.1 (by omega)
        by_cases hst : st = .end_
        · simp only [hret, stdRet, hst] at h ⊢
          exact .inl ⟨by simpa using h, by simp at h; rw [← h]; simp⟩
        · have e : stdRet r.ret = .interrupted := by rw [hret]; simp [stdRet, hst]
          rw [hret] at e
          simp only [hret, e] at h ⊢
          rcases ih kinds _ _ _ _ _ hb h with h1 | ⟨h1, j, h2⟩
          · exact .inl h1
          · exact .inr ⟨h1, j + 1, hnext h2 (by rw [hns]; simp) rfl (s := []) (by simp [enc_nil]) (by rw [hok, hz]; rfl)⟩
      | succ m =>
        have hs : stdRet r.ret = .ok (m + 1) := by rw [hret]; simp [stdRet]
        rw [hs] at h
        rw [← hret, hs]
        simp only at h ⊢
        rcases hw : writeText U w r.out with ⟨w', o⟩
        rw [hw] at h s1 s3 s4
        cases o with
        | ok =>
          simp only at h s1 s3 s4 ⊢
          obtain ⟨q1, q2⟩ := s4 trivial
          rcases ih kinds _ _ _ _ _ q2 h with h1 | ⟨h1, j, h2⟩
          · exact .inl h1
          · exact .inr ⟨h1, j + 1, hnext h2 (by rw [hns]; simp) s3 (by rw [s1, q1]) (by rw [hok]; rfl)⟩
        | err =>
          simp only [Option.some.injEq] at h ⊢
          exact .inl ⟨h, by rw [← h]; simp⟩
        | panic =>
          simp only [Option.some.injEq] at h ⊢
          exact .inl ⟨h, by rw [← h]; simp⟩

/-- It comes to an end when the other does. -/
theorem kinds_stops (len : Nat) : ∀ (k : Nat) (kinds : List Bool) (t : TextInput) (src : List Event) (w : Writer) (n : Nat) (res : CopyResult),
    copyRetry U len k t src w n = some res → ∃ res', copyKinds U len k kinds t src w n = some res' := by
  intro k
  induction k with
  | zero => intro _ t src w n res h; simp [copyRetry] at h
  | succ k ih =>
    intro kinds t src w n res h
    rw [copyRetry] at h
    rw [copyKinds]
    generalize readWithStatus U len t src = r at h
    cases hs : stdRet r.ret with
    | ok m =>
      rw [hs] at h
      cases m with
      | zero => exact ⟨_, rfl⟩
      | succ m =>
        simp only at h ⊢
        rcases hw : writeText U w r.out with ⟨w', o⟩
        rw [hw] at h
        cases o with
        | ok => exact ih _ _ _ _ _ _ h
        | err => exact ⟨_, rfl⟩
        | panic => exact ⟨_, rfl⟩
    | interrupted => rw [hs] at h; exact ih _ _ _ _ _ _ h
    | sourceError =>
      rw [hs] at h
      simp only at h ⊢
      split
      · exact ih _ _ _ _ _ _ h
      · exact ⟨_, rfl⟩
    | panic => exact ⟨_, rfl⟩
    | invalidInput => exact ⟨_, rfl⟩

theorem kinds_mono {len : Nat} : ∀ {k : Nat} {kinds : List Bool} {t : TextInput} {src : List Event} {w : Writer} {n : Nat} {res : CopyResult},
    copyKinds U len k kinds t src w n = some res → ∀ k', k ≤ k' → copyKinds U len k' kinds t src w n = some res := by
  intro k
  induction k with
  | zero => intro kinds t src w n res h; simp [copyKinds] at h
  | succ k ih =>
    intro kinds t src w n res h k' hk
    obtain ⟨k'', rfl⟩ : ∃ k'', k' = k'' + 1 := ⟨k' - 1, by omega⟩
    rw [copyKinds] at h ⊢
    generalize readWithStatus U len t src = r at h ⊢
    cases hs : stdRet r.ret with
    | ok m =>
      rw [hs] at h
      cases m with
      | zero => exact h
      | succ m =>
        simp only at h ⊢
        rcases hw : writeText U w r.out with ⟨w', o⟩
        rw [hw] at h
        cases o with
        | ok => exact ih h k'' (by omega)
        | err => exact h
        | panic => exact h
    | interrupted => rw [hs] at h; exact ih h k'' (by omega)
    | sourceError =>
      rw [hs] at h
      simp only at h ⊢
      split at h
      · rename_i hc; rw [if_pos hc]; exact ih h k'' (by omega)
      · rename_i hc; rw [if_neg hc]; exact h
    | panic => rw [hs] at h; exact h
    | invalidInput => rw [hs] at h; exact h

/-- Each failure of a read is an error of the source. -/
theorem read_count (len : Nat) (t : TextInput) (src : List Event) :
    (readWithStatus U len t src).src.count .err + (if (readWithStatus U len t src).ret == .sourceError then 1 else 0) ≤ src.count .err := by
  unfold readWithStatus
  split
  · simp
  · split
    · simp
    · simp
    · split
      · simp
      · cases src with
        | nil =>
          simp only [nextEvent]
          split <;> simp
        | cons e es =>
          cases e with
          | err => simp [nextEvent]
          | data s st =>
            simp only [nextEvent]
            split <;> simp

theorem failures_le (lens : List Nat) : ∀ (t : TextInput) (src : List Event), failures (readMany U lens t src) ≤ src.count .err := by
  induction lens with
  | nil => intro t src; simp [readMany, failures]
  | cons len lens ih =>
    intro t src
    have h1 := read_count (U := U) len t src
    have h2 := ih (readWithStatus U len t src).input (readWithStatus U len t src).src
    unfold failures at h2 ⊢
    rw [readMany, List.countP_cons]
    omega

end Verif
