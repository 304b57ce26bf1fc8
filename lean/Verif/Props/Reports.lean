import Verif.Props.Errors

/-!
# What the results of reads say (C146)
-/

namespace Verif
open Ucd

/-- What there is to report: a failure of the source, a push, the end. -/
inductive Report where
  | failure | push | end_
  deriving DecidableEq

/-- What a status tells. -/
def Status.report : Status → Option Report
  | .active => none
  | .push => some .push
  | .end_ => some .end_

/-- What the source reports in a read. -/
def Event.report : Event → Option Report
  | .err => some .failure
  | .data _ st => st.report

/-- What the reader reports in a read. -/
def Ret.report : Ret → Option Report
  | .sourceError => some .failure
  | .ok _ st => st.report
  | _ => none

/-- C146, one call in any state: what it reports is what the source has reported in this call; only if it fills its buffer up to at most
three bytes, a push or the end may not be reported.  (For calls that panic, of which there are none, see C19.) -/
theorem c146_call (len : Nat) (t : TextInput) (src : List Event) :
    (∃ e, (e, (readWithStatus ucd15 len t src).src) = nextEvent src ∧
      ((readWithStatus ucd15 len t src).ret.report = e.report ∨ e ≠ .err ∧ ((readWithStatus ucd15 len t src).ret = .panic ∨
        ∃ n, (readWithStatus ucd15 len t src).ret = .ok n .active ∧ len < n + 4))) ∨
    ((readWithStatus ucd15 len t src).src = src ∧ (readWithStatus ucd15 len t src).ret.report = none) := by
  unfold readWithStatus
  split
  · exact .inr ⟨rfl, rfl⟩
  · split
    · exact .inr ⟨rfl, rfl⟩
    · exact .inr ⟨rfl, rfl⟩
    · split
      · exact .inr ⟨rfl, rfl⟩
      · split
        · rename_i src' h; exact .inl ⟨.err, h.symm, .inl rfl⟩
        · rename_i s st src' h
          left
          refine ⟨.data s st, ?_⟩
          dsimp only
          rename_i out1 _ _ _
          split
          · exact ⟨h.symm, .inr ⟨by simp, .inl rfl⟩⟩
          · exact ⟨h.symm, .inl rfl⟩
          · rename_i hd
            refine ⟨h.symm, .inr ⟨by simp, .inr ⟨_, rfl, ?_⟩⟩⟩
            have := drain_stop_full _ _ _ _ _ hd
            rw [encode_append, List.length_append]
            omega

/-- The reads of the source: those of its script, and then reads that report the end again. -/
def Consults (src asked rest : List Event) : Prop := ∃ n, src ++ List.replicate n (.data [] .end_) = asked ++ rest ∧ (n = 0 ∨ rest = [])

/-- C146, a session: what the calls report is, in order, what the source reported in the reads of it that they made, but for pushes and ends
that are not passed on; every failure is reported exactly once, and nothing is reported that the source did not. -/
theorem c146_session (nel lsps : Bool) (src : List Event) (lens : List Nat) :
    ∃ asked, Consults src asked (finalState (.new nel lsps) src (readMany ucd15 lens (.new nel lsps) src)).2 ∧ asked.length ≤ lens.length ∧
      List.Sublist ((readMany ucd15 lens (.new nel lsps) src).filterMap fun r => r.ret.report) (asked.filterMap Event.report) ∧
      ((readMany ucd15 lens (.new nel lsps) src).filterMap fun r => r.ret.report).filter (· = .failure) =
        (asked.filterMap Event.report).filter (· = .failure) := by
  generalize TextInput.new nel lsps = t
  induction lens generalizing t src with
  | nil => exact ⟨[], ⟨0, by simp [readMany, finalState], .inl rfl⟩, by simp, by simp [readMany], by simp [readMany]⟩
  | cons len lens ih =>
    rw [readMany, finalState_cons]
    obtain ⟨asked, ⟨n, h1, h2⟩, h3, h4, h5⟩ := ih (readWithStatus ucd15 len t src).src (readWithStatus ucd15 len t src).input
    generalize (finalState (readWithStatus ucd15 len t src).input (readWithStatus ucd15 len t src).src
      (readMany ucd15 lens (readWithStatus ucd15 len t src).input (readWithStatus ucd15 len t src).src)).2 = rest at h1 h2
    rw [List.filterMap_cons]
    generalize ((readMany ucd15 lens (readWithStatus ucd15 len t src).input (readWithStatus ucd15 len t src).src).filterMap
      fun r => r.ret.report) = R at h4 h5
    rcases c146_call len t src with ⟨e, he, hr⟩ | ⟨he, hr⟩
    · refine ⟨e :: asked, ?_, by simp; omega, ?_, ?_⟩
      · cases src with
        | nil =>
          simp only [nextEvent, Prod.mk.injEq] at he
          rw [he.2] at h1
          refine ⟨n + 1, by rw [List.replicate_succ, List.nil_append, he.1]; simp at h1; simp [h1], ?_⟩
          right
          simp at h1
          rcases h2 with rfl | h2
          · simp at h1; exact h1.2
          · exact h2
        | cons e' src =>
          simp only [nextEvent, Prod.mk.injEq] at he
          rw [he.2] at h1
          exact ⟨n, by simp [he.1, h1], h2⟩
      · rw [List.filterMap_cons]
        rcases hr with hr | ⟨-, hr⟩
        · rw [hr]; cases e.report <;> simp [h4]
        · have hr : (readWithStatus ucd15 len t src).ret.report = none := by rcases hr with hr | ⟨n, hr, -⟩ <;> rw [hr] <;> rfl
          rw [hr]; cases e.report <;> simp [h4]
      · rw [List.filterMap_cons]
        rcases hr with hr | ⟨hn, hr⟩
        · rw [hr]; cases e.report <;> simp [h5, List.filter_cons]
        · have hr : (readWithStatus ucd15 len t src).ret.report = none := by rcases hr with hr | ⟨n, hr, -⟩ <;> rw [hr] <;> rfl
          rw [hr]
          have : e.report ≠ some .failure := by
            cases e with
            | err => exact absurd rfl hn
            | data s st => cases st <;> simp [Event.report, Status.report]
          cases hx : e.report with
          | none => simp [h5]
          | some x =>
            rw [hx] at this
            simp at this
            simp [h5, this]
    · rw [hr]
      exact ⟨asked, ⟨n, by rw [← h1, he], h2⟩, by simp; omega, by simpa using h4, by simpa using h5⟩

/-- C146: if no call fills its buffer up to at most three bytes, everything that the source reports is reported, in order. -/
theorem c146_all (nel lsps : Bool) (src : List Event) (lens : List Nat)
    (hl : ∀ p ∈ lens.zip (readMany ucd15 lens (.new nel lsps) src), ∀ n st, p.2.ret = .ok n st → n + 4 ≤ p.1) :
    ∃ asked, Consults src asked (finalState (.new nel lsps) src (readMany ucd15 lens (.new nel lsps) src)).2 ∧ asked.length ≤ lens.length ∧
      ((readMany ucd15 lens (.new nel lsps) src).filterMap fun r => r.ret.report) = asked.filterMap Event.report := by
  have hp : ∀ r ∈ readMany ucd15 lens (.new nel lsps) src, r.ret ≠ .panic := by
    obtain ⟨es', -, -, -, h⟩ := run_rel textLaws15 lens (.new nel lsps) src [] [] (Rel.init nel lsps)
    exact h
  revert hl hp
  generalize TextInput.new nel lsps = t
  intro hl hp
  induction lens generalizing t src with
  | nil => exact ⟨[], ⟨0, by simp [readMany, finalState], .inl rfl⟩, by simp, by simp [readMany]⟩
  | cons len lens ih =>
    have hl0 : ∀ n st, (readWithStatus ucd15 len t src).ret = .ok n st → n + 4 ≤ len := hl (len, readWithStatus ucd15 len t src) (by simp [readMany])
    have hp0 : (readWithStatus ucd15 len t src).ret ≠ .panic := hp _ (by simp [readMany])
    obtain ⟨asked, ⟨n, h1, h2⟩, h3, h4⟩ := ih (readWithStatus ucd15 len t src).src (readWithStatus ucd15 len t src).input
      (fun p h => hl p (by simp [readMany, h])) (fun r h => hp r (by simp [readMany, h]))
    rw [readMany, finalState_cons]
    generalize (finalState (readWithStatus ucd15 len t src).input (readWithStatus ucd15 len t src).src
      (readMany ucd15 lens (readWithStatus ucd15 len t src).input (readWithStatus ucd15 len t src).src)).2 = rest at h1 h2
    rw [List.filterMap_cons, h4]
    rcases c146_call len t src with ⟨e, he, hr⟩ | ⟨he, hr⟩
    · refine ⟨e :: asked, ?_, by simp; omega, ?_⟩
      · cases src with
        | nil =>
          simp only [nextEvent, Prod.mk.injEq] at he
          rw [he.2] at h1
          refine ⟨n + 1, by rw [List.replicate_succ, List.nil_append, he.1]; simp at h1; simp [h1], ?_⟩
          right
          simp at h1
          rcases h2 with rfl | h2
          · simp at h1; exact h1.2
          · exact h2
        | cons e' src =>
          simp only [nextEvent, Prod.mk.injEq] at he
          rw [he.2] at h1
          exact ⟨n, by simp [he.1, h1], h2⟩
      · rw [List.filterMap_cons]
        rcases hr with hr | ⟨-, hr | ⟨n, hr, hn⟩⟩
        · rw [hr]
        · exact absurd hr hp0
        · have := hl0 _ _ hr; omega
    · rw [hr]
      exact ⟨asked, ⟨n, by rw [← h1, he], h2⟩, by simp; omega, rfl⟩

/-- C146: a call is refused exactly if its buffer is shorter than 136 bytes; then it changes nothing. -/
theorem c146_refused (nel lsps : Bool) (src : List Event) (lens : List Nat) (t : TextInput) (rest : List Event)
    (ht : (t, rest) = finalState (.new nel lsps) src (readMany ucd15 lens (.new nel lsps) src)) (len : Nat) :
    ((readWithStatus ucd15 len t rest).ret = .invalidInput ↔ len < 136) ∧
    (len < 136 → (readWithStatus ucd15 len t rest).input = t ∧ (readWithStatus ucd15 len t rest).src = rest) := by
  obtain ⟨-, h2, -, h4⟩ := c19_read_total nel lsps src lens t rest ht len
  refine ⟨⟨fun h => ?_, fun h => by rw [h2 h]⟩, fun h => by rw [h2 h]; exact ⟨rfl, rfl⟩⟩
  apply Classical.byContradiction
  intro hl
  rcases h4 (Nat.le_of_not_lt hl) with h' | ⟨st, h'⟩ <;> rw [h] at h' <;> simp at h'

/-- Pushes and ends that are not passed on do occur: the push of a read whose text does not fit the buffer is not reported by any call. -/
theorem c146_not_all : ((readMany ucd15 [136, 136, 136] (.new false false) [.data (List.replicate 137 'a' ++ ['\n']) .push, .err]).map (·.ret)) =
    [.ok 133 .active, .ok 5 .active, .sourceError] := by decide +kernel

/-- A source that fails twice, pushes and ends. -/
example : ((readMany ucd15 [136, 10, 136, 136, 136, 136] (.new false false) [.err, .data ['a', '\n'] .push, .err, .data ['b'] .end_]).map (·.ret)) =
    [.sourceError, .invalidInput, .ok 2 .push, .sourceError, .ok 2 .end_, .ok 0 .end_] ∧
  Consults [.err, .data ['a', '\n'] .push, .err, .data ['b'] .end_]
    [.err, .data ['a', '\n'] .push, .err, .data ['b'] .end_, .data [] .end_] [] :=
  ⟨by decide +kernel, 1, rfl, .inr rfl⟩

end Verif
