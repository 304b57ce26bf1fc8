import Verif.PullWriter
import Verif.WriterFacts
import Verif.Utf8Stream

/-!
# The errors of all calls on a writer

`Verif/PullWriter.lean` has the errors of `write_str`; here are those of the other calls.
-/

namespace Verif
open Ucd
variable {U : Ucd}

/-- The error of a failing call on a writer; the messages are those in `src/text_output.rs`, without the word "strict text stream". -/
inductive Fault where
  /-- a `BasicTextError` about the text (`src/text_output.rs:187-188`, `205-206`) -/
  | text (e : BasicTextError)
  /-- "write data must begin with a Unicode Normalization Form starter" (`src/text_output.rs:270-273`) -/
  | start
  /-- a `Utf8Error`, and whether its `error_len` is `None` (`src/text_output.rs:484-487`) -/
  | utf8 (unfinished : Bool)
  /-- "flushed after a ZWJ or Prepend" (`src/text_output.rs:496-502`) -/
  | flushJoiner
  /-- "flushed while an escape sequence was in progress" (`src/text_output.rs:504-509`) -/
  | flushEscape
  /-- "ended after a ZWJ or Prepend" (`src/text_output.rs:404-410`) -/
  | endJoiner
  /-- "must end with newline" (`src/text_output.rs:411-417`) -/
  | endLine
  /-- "incomplete escape sequence at end" (`src/text_output.rs:418-424`) -/
  | endEscape
  /-- the error of the inner stream -/
  | inner
  deriving DecidableEq, Repr

/-- The result of a call. -/
inductive OutF where
  | ok | fault (e : Fault) | panic
  deriving DecidableEq, Repr

/-- Forget which error it is. -/
def OutF.out : OutF → Out
  | .ok => .ok
  | .fault _ => .err
  | .panic => .panic

/-- The result of a write as that of a call. -/
def OutE.call : OutE → OutF
  | .ok => .ok
  | .text e => .fault (.text e)
  | .start => .fault .start
  | .sink => .fault .inner
  | .panic => .panic

/-- `write_text_substr` (`src/text_output.rs:450-459`, `213-260`). -/
def writeTextF (U : Ucd) (w : Writer) (s : List Char) : Writer × OutF :=
  let r := writeBufferE U (if w.crlf then crlfTextLoop w (splitNl s)
    else { w with buffer := w.buffer ++ s, state := .ground (groundAfter s) })
  (r.1, r.2.call)

/-- `write` (`src/text_output.rs:472-489`), without the count; `none` if the fuel runs out. -/
def writeBytesF (U : Ucd) (f : Nat) (w : Writer) (b : Bytes) : Option (Writer × OutF) :=
  let p := decodePrefix b
  if p.2 = [] ∨ (encode p.1).length ≠ 0 then (writeStrE U f w p.1).map fun r => (r.1, r.2.call)
  else some (w.fail, .fault (.utf8 (incomplete b)))

/-- `flush` (`src/text_output.rs:492-513`). -/
def flushF (w : Writer) : Writer × OutF :=
  match w.state with
  | .ground .zwjOrPrepend => (w.fail, .fault .flushJoiner)
  | .ground _ =>
    let (sink, ok) := w.sink.flush
    ({ w with expectStarter := true, sink }, if ok then .ok else .fault .inner)
  | .esc | .csi => (w, .fault .flushEscape)

/-- `check_nl` (`src/text_output.rs:399-426`). -/
def checkNlF (w : Writer) : Writer × OutF :=
  match w.state with
  | .ground .newline => (w, .ok)
  | .ground .zwjOrPrepend => (w.fail, .fault .endJoiner)
  | .ground .other => (w.fail, .fault .endLine)
  | .esc | .csi => (w.fail, .fault .endEscape)

/-- `close` (`src/text_output.rs:428-434`). -/
def closeF (w : Writer) : Writer × OutF :=
  match checkNlF { w with expectStarter := true } with
  | (w, .ok) =>
    let (sink, ok) := w.sink.close
    ({ w with sink }, if ok then .ok else .fault .inner)
  | r => r

/-- `close_into_inner` (`src/text_output.rs:160-167`). -/
def closeIntoInnerF (w : Writer) : Sum Sink OutF :=
  match checkNlF w with
  | (w, .ok) => .inl w.sink
  | (_, r) => .inr r

/-- One call and its result; `none` if the fuel runs out. -/
def stepF (U : Ucd) (f : Nat) (w : Writer) : Op → Option (Writer × OutF)
  | .str s => (writeStrE U f w s).map fun r => (r.1, r.2.call)
  | .text s => some (writeTextF U w s)
  | .bytes b => writeBytesF U f w b
  | .flush => some (flushF w)
  | .close => some (closeF w)
  | .abandon => some (abandon w, .ok)

/-! ## Agreement with the model without errors -/

theorem call_out (o : OutE) : o.call.out = o.out := by cases o <;> rfl

theorem flushF_out (w : Writer) : ((flushF w).1, (flushF w).2.out) = flush w := by
  unfold flushF flush
  rcases w with ⟨b, c, e, a, s, q, k⟩
  cases s with
  | ground g => cases g <;> simp only <;> first | rfl | (cases k.flush.2 <;> rfl)
  | esc => rfl
  | csi => rfl

theorem checkNlF_out (w : Writer) : ((checkNlF w).1, (checkNlF w).2.out) = checkNl w := by
  unfold checkNlF checkNl
  rcases w with ⟨b, c, e, a, s, q, k⟩
  cases s with
  | ground g => cases g <;> rfl
  | esc => rfl
  | csi => rfl

theorem closeF_out (w : Writer) : ((closeF w).1, (closeF w).2.out) = close w := by
  unfold closeF close
  rw [← checkNlF_out]
  rcases h : checkNlF { w with expectStarter := true } with ⟨w', o⟩
  cases o with
  | ok => simp only [OutF.out]; cases w'.sink.close.2 <;> rfl
  | fault e => rfl
  | panic => rfl

theorem closeIntoInnerF_out (w : Writer) : (match closeIntoInnerF w with | .inl k => some k | .inr _ => none) = closeIntoInner w := by
  unfold closeIntoInnerF closeIntoInner
  rw [← checkNlF_out]
  rcases h : checkNlF w with ⟨w', o⟩
  cases o <;> rfl

/-- Every call returns, and does what the model without errors says. -/
theorem stepF_spec (hU : TextLaws U) (w : Writer) (op : Op) : ∃ n, ∃ r : Writer × OutF,
    (∀ f ≥ n, stepF U f w op = some r) ∧ (r.1, r.2.out) = step U w op := by
  cases op with
  | str s =>
    obtain ⟨n, r, h1, h2, -⟩ := writeStrE_spec hU w s
    exact ⟨n, (r.1, r.2.call), fun f hf => by simp only [stepF, h1 f hf, Option.map_some], by rw [call_out]; exact h2⟩
  | text s =>
    refine ⟨0, _, fun f _ => rfl, ?_⟩
    unfold writeTextF
    simp only [call_out]
    exact writeBufferE_out U _
  | bytes b =>
    by_cases hp : (decodePrefix b).2 = [] ∨ (encode (decodePrefix b).1).length ≠ 0
    · obtain ⟨n, r, h1, h2, -⟩ := writeStrE_spec hU w (decodePrefix b).1
      refine ⟨n, (r.1, r.2.call), fun f hf => ?_, ?_⟩
      · simp only [stepF, writeBytesF]
        rw [if_pos hp, h1 f hf]; rfl
      · simp only [step, writeBytes, call_out]
        by_cases h0 : (decodePrefix b).2 = []
        · simp only [h0, if_true]; exact h2
        · simp only [h0, if_false]
          rw [if_pos (by simpa [h0] using hp)]; exact h2
    · refine ⟨0, _, fun f _ => by simp only [stepF, writeBytesF]; rw [if_neg hp], ?_⟩
      simp only [not_or, ne_eq, Decidable.not_not] at hp
      simp [step, writeBytes, hp, OutF.out]
  | flush => exact ⟨0, _, fun f _ => rfl, flushF_out w⟩
  | close => exact ⟨0, _, fun f _ => rfl, closeF_out w⟩
  | abandon => exact ⟨0, _, fun f _ => rfl, rfl⟩

/-! ## A stream that is over -/

/-- A writer whose inner stream is closed or abandoned holds nothing back. -/
def Over (w : Writer) : Prop := w.sink.dead = true → w.state = .ground .newline

theorem over_step (hU : TextLaws U) {w : Writer} (op : Op) (h : Over w) : Over (step U w op).1 := by
  intro hd
  cases hr : (step U w op).2 with
  | panic => exact absurd hr (step_no_panic hU w op)
  | err =>
    by_cases hf : op = .flush
    · subst hf
      simp only [step] at hd hr ⊢
      rcases flush_cases w with ⟨e, -⟩ | ⟨e, -⟩ | ⟨-, e⟩ <;> rw [e] at hd ⊢
      · rfl
      · exact h hd
      · simp only at hd ⊢
        refine h ?_
        unfold Sink.flush at hd
        split at hd
        · assumption
        · split at hd <;> simpa using hd
    · exact (failed_dead hU hr hf).2
  | ok =>
    cases hw : op.isWrite with
    | true =>
      rcases write_cases hU hw w with ⟨p, w', hl, hs, hS⟩ | ⟨p, w', hl, hs, hB⟩ | ⟨w', hl, hs, hF⟩ <;> rw [hs] at hr hd
      · rw [hS.alive'] at hd; simp at hd
      · simp at hr
      · simp at hr
    | false =>
      cases op with
      | flush =>
        simp only [step] at hd hr ⊢
        rcases flush_cases w with ⟨e, -⟩ | ⟨e, -⟩ | ⟨-, e⟩ <;> rw [e] at hd hr ⊢
        · simp at hr
        · simp at hr
        · simp only at hd ⊢
          refine h ?_
          unfold Sink.flush at hd
          split at hd
          · assumption
          · split at hd <;> simpa using hd
      | close =>
        simp only [step] at hd hr ⊢
        rcases close_cases w with ⟨e, -⟩ | ⟨hst, e⟩ <;> rw [e] at hr ⊢
        · simp at hr
        · exact hst
      | abandon => rfl
      | _ => simp [Op.isWrite] at hw

theorem over_run (hU : TextLaws U) {ops : List Op} : ∀ {w : Writer}, Over w → Over (run U w ops) := by
  induction ops with
  | nil => intro w h; exact h
  | cons op ops ih => intro w h; exact ih (over_step hU op h)

/-- What `incomplete` accepts can be completed. -/
theorem incomplete_more {b : Bytes} (h : incomplete b = true) : ∃ q c, b ++ q = encodeChar c := by
  have done : ∀ {b : Bytes}, (∃ q c, decode1 (b ++ q) = some (c, [])) → ∃ q c, b ++ q = encodeChar c := by
    rintro b ⟨q, c, hd⟩
    exact ⟨q, c, by simpa using decode1_some hd⟩
  have h3 : ∀ a b c : UInt8, incomplete [a, b, c] = true → ∃ q x, decode1 ([a, b, c] ++ q) = some (x, []) := by
    intro a b c h
    refine ⟨[0x80], ?_⟩
    simp only [incomplete, secondOk, cont, Bool.and_eq_true, decide_eq_true_eq] at h
    have hc : 0x80 ≤ c.toNat ∧ c.toNat < 0xc0 := by
      have := h.2.2
      split at this <;> simp_all
    have ha := h.2.1
    have hb : 0x80 ≤ b.toNat ∧ b.toNat < 0xc0 ∧ a.toNat ≤ 0xf4 ∧ (a.toNat = 0xf0 → 0x90 ≤ b.toNat) ∧ (a.toNat = 0xf4 → b.toNat ≤ 0x8f) := by
      have := h.1
      repeat' split at this
      all_goals (simp only [Bool.and_eq_true, decide_eq_true_eq] at this; omega)
    simp only [decode1, List.cons_append, List.nil_append, cont]
    rw [if_neg (by omega), if_neg (by omega), if_neg (by omega), if_neg (by omega), if_pos (by omega)]
    rw [if_pos (by omega), if_pos (by omega), if_pos (by decide)]
    simp only
    rw [if_pos]
    · exact ⟨_, rfl⟩
    · have : (128 : UInt8).toNat = 128 := rfl
      omega
  have h2 : ∀ a b : UInt8, secondOk a b = true → ∃ q x, decode1 ([a, b] ++ q) = some (x, []) := by
    intro a b h
    by_cases hf : 0xf0 ≤ a.toNat
    · obtain ⟨q, x, hq⟩ := h3 a b 0x80 (by simp only [incomplete, h, Bool.true_and, Bool.and_eq_true, decide_eq_true_eq]; exact ⟨hf, by decide⟩)
      exact ⟨0x80 :: q, x, hq⟩
    · refine ⟨[0x80], ?_⟩
      simp only [secondOk] at h
      have hb : 0x80 ≤ b.toNat ∧ b.toNat < 0xc0 ∧ 0xe0 ≤ a.toNat ∧ (a.toNat = 0xe0 → 0xa0 ≤ b.toNat) ∧ (a.toNat = 0xed → b.toNat ≤ 0x9f) := by
        repeat' split at h
        all_goals (simp only [Bool.and_eq_true, decide_eq_true_eq] at h; omega)
      simp only [decode1, List.cons_append, List.nil_append, cont]
      rw [if_neg (by omega), if_neg (by omega), if_neg (by omega), if_pos (by omega)]
      rw [if_pos (by omega), if_pos (by decide)]
      simp only
      rw [if_pos]
      · exact ⟨_, rfl⟩
      · have : (128 : UInt8).toNat = 128 := rfl
        omega
  apply done
  match b, h with
  | [a], h =>
    have hd : ∀ a : UInt8, incomplete [a] = true → (∃ q x, decode1 ([a] ++ q) = some (x, [])) ∨ ∃ b, secondOk a b = true := by
      intro a h
      simp only [incomplete, Bool.and_eq_true, decide_eq_true_eq] at h
      by_cases h1 : a.toNat < 0xe0
      · left
        refine ⟨[0x80], ?_⟩
        simp only [decode1, List.cons_append, List.nil_append, cont]
        rw [if_neg (by omega), if_neg (by omega), if_pos (by omega), if_pos (by decide)]
        simp only
        rw [if_pos]
        · exact ⟨_, rfl⟩
        · have : (128 : UInt8).toNat = 128 := rfl
          omega
      · right
        by_cases h2 : a.toNat = 0xe0
        · exact ⟨0xa0, by simp [secondOk, h2]⟩
        · by_cases h3 : a.toNat = 0xf0
          · exact ⟨0x90, by simp [secondOk, h3]⟩
          · refine ⟨0x80, ?_⟩
            have : (128 : UInt8).toNat = 128 := rfl
            simp only [secondOk, this, h2, h3, if_false]
            split
            · decide
            · split
              · decide
              · simp; omega
    rcases hd a h with h | ⟨b, hb⟩
    · exact h
    · obtain ⟨q, x, hq⟩ := h2 a b hb
      exact ⟨b :: q, x, hq⟩
  | [a, b], h => exact h2 a b h
  | [a, b, c], h => exact h3 a b c h

end Verif
