import Verif.Props.Writer

/-!
# What a writer asks of its sink in one call (C127)
-/

namespace Verif
open Ucd Spec

theorem writeBuffer_once {U : Ucd} (w : Writer) :
    (∃ k, w.sink.writeStr w.buffer = (k, true) ∧ (writeBuffer U w).2 = .ok ∧ (writeBuffer U w).1.sink = k ∧ (writeBuffer U w).1.buffer = []) ∨
    ((writeBuffer U w).2 = .err ∧ ((writeBuffer U w).1.sink = w.sink.abandon ∨
      ∃ k, w.sink.writeStr w.buffer = (k, false) ∧ (writeBuffer U w).1.sink = k.abandon)) := by
  unfold writeBuffer
  simp only
  split
  · exact Or.inr ⟨rfl, Or.inl rfl⟩
  · cases hw : w.sink.writeStr w.buffer with
    | mk k o =>
      cases o with
      | true => exact Or.inl ⟨k, rfl, rfl, rfl, rfl⟩
      | false => exact Or.inr ⟨rfl, Or.inr ⟨k, rfl, rfl⟩⟩

/-- C127: a write that succeeds has made one write of the sink, which took all it was given, and has kept nothing in its buffer; this in
whatever state and mode the writer is. -/
theorem c127_write (w : Writer) (op : Op) (hw : op.isWrite = true) (ho : op.Ok ucd15) (h : (step ucd15 w op).2 = .ok) :
    ∃ b, w.sink.writeStr b = ((step ucd15 w op).1.sink, true) ∧ (step ucd15 w op).1.buffer = [] := by
  rw [step_write hw] at h ⊢
  cases hl : load ucd15 w op with
  | mk p o =>
    rw [hl] at h
    cases o with
    | ok =>
      have hs := (load_ok textLaws15 ho hl).1.sink
      simp only at h ⊢
      rcases writeBuffer_once (U := ucd15) p with ⟨k, h1, h2, h3, h4⟩ | ⟨h2, -⟩
      · exact ⟨p.buffer, by rw [← hs, h1, h3], h4⟩
      · rw [h2] at h; simp at h
    | err => simp at h
    | panic => simp at h

/-- C127: a write that fails has made no write of the sink, or one that failed; the sink is abandoned in both cases. -/
theorem c127_write_failed (w : Writer) (op : Op) (hw : op.isWrite = true) (ho : op.Ok ucd15) (h : (step ucd15 w op).2 ≠ .ok) :
    (step ucd15 w op).1.sink = w.sink.abandon ∨ ∃ b k, w.sink.writeStr b = (k, false) ∧ (step ucd15 w op).1.sink = k.abandon := by
  rw [step_write hw] at h ⊢
  cases hl : load ucd15 w op with
  | mk p o =>
    rw [hl] at h
    cases o with
    | ok =>
      have hs := (load_ok textLaws15 ho hl).1.sink
      simp only at h ⊢
      rcases writeBuffer_once (U := ucd15) p with ⟨k, -, h2, -⟩ | ⟨-, h3⟩
      · exact absurd h2 h
      · rw [hs] at h3
        rcases h3 with h3 | ⟨k, h3, h4⟩
        · exact Or.inl h3
        · exact Or.inr ⟨_, k, h3, h4⟩
    | err => exact Or.inl (load_not_ok textLaws15 hl (by simp)).2.sink
    | panic => exact absurd (load_not_ok textLaws15 hl (by simp)).1 (by simp)

/-- C127: the other calls write nothing; a flush or close that succeeds has made one flush or close of the sink. -/
theorem c127_others (w : Writer) :
    ((flush w).2 = .ok → w.sink.flush = ((flush w).1.sink, true)) ∧ ((close w).2 = .ok → w.sink.close = ((close w).1.sink, true)) ∧
    (abandon w).sink = w.sink.abandon ∧
    ∀ op : Op, op.isWrite = false → (step ucd15 w op).1.sink.sent = w.sink.sent := by
  refine ⟨?_, ?_, rfl, ?_⟩
  · intro h
    rcases flush_cases w with ⟨h1, -⟩ | ⟨h1, -⟩ | ⟨-, h1⟩
    · rw [h1] at h; simp at h
    · rw [h1] at h; simp at h
    · rw [h1] at h ⊢
      cases hf : w.sink.flush with
      | mk k o => cases o <;> simp [hf] at h ⊢
  · intro h
    by_cases hn : w.state = .ground .newline
    · revert h
      simp only [close, checkNl, hn, if_true]
      cases hf : w.sink.close with
      | mk k o => cases o <;> simp
    · simp [close, checkNl, hn] at h
  · intro op hop
    cases op with
    | flush =>
      rcases flush_cases w with ⟨h1, -⟩ | ⟨h1, -⟩ | ⟨-, h1⟩
      · simp only [step, h1]; rfl
      · simp only [step, h1]
      · simp only [step, h1]; exact (sink_flush_sent _).1
    | close =>
      simp only [step, close, checkNl]
      by_cases hn : w.state = .ground .newline
      · simp only [hn, if_true]; exact (sink_flush_sent _).1
      · simp only [hn, if_false]; rfl
    | abandon => rfl
    | _ => simp [Op.isWrite] at hop

theorem write_script (k : Sink) (b : List Char) : (k.writeStr b).1.script = k.script ∨ (k.writeStr b).1.script = k.script.drop 1 := by
  unfold Sink.writeStr
  split
  · exact Or.inl rfl
  · split <;> rename_i h <;> simp [h]

theorem flush_script (k : Sink) : k.flush.1.script = k.script ∨ k.flush.1.script = k.script.drop 1 := by
  unfold Sink.flush
  split
  · exact Or.inl rfl
  · split <;> rename_i h <;> simp [h]

/-- C127: so no call makes more than one operation of the sink (besides abandoning it). -/
theorem c127_at_most_one (w : Writer) (op : Op) (ho : op.Ok ucd15) :
    (step ucd15 w op).1.sink.script = w.sink.script ∨ (step ucd15 w op).1.sink.script = w.sink.script.drop 1 := by
  by_cases hw : op.isWrite = true
  · by_cases hk : (step ucd15 w op).2 = .ok
    · obtain ⟨b, h, -⟩ := c127_write w op hw ho hk
      have := write_script w.sink b
      rw [h] at this
      exact this
    · rcases c127_write_failed w op hw ho hk with h | ⟨b, k, h1, h2⟩
      · rw [h]; exact Or.inl rfl
      · have := write_script w.sink b
        rw [h1] at this
        rw [h2]; exact this
  · cases op with
    | flush =>
      rcases flush_cases w with ⟨h1, -⟩ | ⟨h1, -⟩ | ⟨-, h1⟩
      · exact Or.inl (by simp only [step, h1]; rfl)
      · exact Or.inl (by simp only [step, h1])
      · simp only [step, h1]; exact flush_script _
    | close =>
      simp only [step, close, checkNl]
      by_cases hn : w.state = .ground .newline
      · simp only [hn, if_true]; exact flush_script _
      · simp only [hn, if_false]; exact Or.inl rfl
    | abandon => exact Or.inl rfl
    | _ => simp [Op.isWrite] at hw

/-- C127: over a session, at most one operation of the sink for each call. -/
theorem c127_session (w : Writer) (ops : List Op) (ho : ∀ op ∈ ops, op.Ok ucd15) :
    ∃ k, k ≤ ops.length ∧ (run ucd15 w ops).sink.script = w.sink.script.drop k := by
  induction ops generalizing w with
  | nil => exact ⟨0, by simp, rfl⟩
  | cons op ops ih =>
    obtain ⟨k, h1, h2⟩ := ih (step ucd15 w op).1 (fun o m => ho o (by simp [m]))
    rw [run, h2]
    rcases c127_at_most_one w op (ho op (by simp)) with h | h
    · exact ⟨k, by simp; omega, by rw [h]⟩
    · exact ⟨k + 1, by simpa using h1, by rw [h, List.drop_drop, Nat.add_comm]⟩

/-- C127: as long as the sink has not been given up nothing is held back in the writer, but for an escape sequence that is not complete. -/
theorem c127_nothing_held (w : Writer) (hw : w.buffer = []) (ops : List Op) (ho : ∀ op ∈ ops, op.Ok ucd15)
    (hd : (run ucd15 w ops).sink.dead = false) : (run ucd15 w ops).buffer = [] := by
  induction ops generalizing w with
  | nil => exact hw
  | cons op ops ih =>
    rw [run] at hd ⊢
    refine ih _ ?_ (fun o m => ho o (by simp [m])) hd
    have hd' : (step ucd15 w op).1.sink.dead = false := by
      cases hx : (step ucd15 w op).1.sink.dead with
      | false => rfl
      | true => rw [(dead_run textLaws15 hx).2] at hd; simp at hd
    by_cases hwr : op.isWrite = true
    · by_cases hk : (step ucd15 w op).2 = .ok
      · exact (c127_write w op hwr (ho op (by simp)) hk).choose_spec.2
      · rcases c127_write_failed w op hwr (ho op (by simp)) hk with h | ⟨b, k, h1, h2⟩
        · rw [h] at hd'; simp [Sink.abandon] at hd'
        · rw [h2] at hd'; simp [Sink.abandon] at hd'
    · cases op with
      | flush =>
        rcases flush_cases w with ⟨h1, -⟩ | ⟨h1, -⟩ | ⟨-, h1⟩ <;> (simp only [step, h1]; exact hw)
      | close =>
        simp only [step, close, checkNl]
        by_cases hn : w.state = .ground .newline
        · simp only [hn, if_true]; exact hw
        · simp only [hn, if_false]; exact hw
      | abandon => exact hw
      | _ => simp [Op.isWrite] at hwr

/-- Two writes and a flush over a sink whose third operation fails. -/
example : ((run ucd15 (.new ⟨[], false, [.ok, .ok, .fail 0, .ok]⟩) [.str ['a', 'e', '́'], .bytes [10], .flush]).sink =
    ⟨['a', 'é', '\n'], false, [.ok]⟩) := by decide +kernel

end Verif
