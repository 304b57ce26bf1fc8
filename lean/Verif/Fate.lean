import Verif.Props.Duplexer

/-!
# Panics while streams are alive

A panic unwinds the stack and drops the streams of the calls that are given up.  A drop which panics then is a second panic
during the unwinding, upon which Rust aborts the process: no handler is run, and nothing can catch it.
-/

namespace Verif
open Ucd
variable {U : Ucd}

/-- What becomes of a thread: it goes on, it unwinds (which a caller may catch), or the process is aborted. -/
inductive Fate where
  | fine | unwinds | aborts
  deriving DecidableEq, Repr

/-- A panic, from wherever, while the writers `ws` are alive in the calls given up: each is dropped
(`Drop`, `src/text_output.rs:565-573`), and a drop that panics aborts.  The rule is that of the language; what the inner streams
do when they are dropped is not modelled. -/
def unwind (ws : List Writer) : Fate := if ws.any dropPanics then .aborts else .unwinds

/-- The end of the life of the writer of a call that returns: its drop may panic, and that is then the first panic. -/
def retire (w : Writer) : Fate := if dropPanics w then .unwinds else .fine

/-- `abandon` on the duplexer (`src/text_duplexer.rs:257-260`) and the end of its life: when the assertion in
`TextInput::abandon` (`src/text_input.rs:505`) panics, the output half has not been abandoned yet and is dropped as it is. -/
def Duplexer.abandonFate (d : Duplexer) : Fate :=
  match d.abandon with
  | some d' => retire d'.output
  | none => unwind [d.output]

/-- Not in the code: the same with the two lines of `abandon` exchanged, the output half first. -/
def Duplexer.abandonOutputFirst (d : Duplexer) : Fate :=
  match d.input.abandon with
  | some _ => retire (Verif.abandon d.output)
  | none => unwind [Verif.abandon d.output]

/-- Reads that deliver no newline leave the output half alone. -/
theorem output_run (ops : List DOp) : ∀ d : Duplexer, (∀ o ∈ writes ops, o ≠ .abandon) →
    (∀ r ∈ readOuts (dresults U d ops), r.1.isOk = true → r.2.getLast? ≠ some '\n') →
    (drun U d ops).output = run U d.output (writes ops) := by
  induction ops with
  | nil => intro d _ _; rfl
  | cons o ops ih =>
    intro d ha hr
    cases o with
    | read n =>
      have h1 : (d.read U n).1.output = d.output := by
        rw [dread_output, if_neg]
        rintro ⟨h1, h2⟩
        exact hr ((d.read U n).2.1, (d.read U n).2.2) (by simp [dresults, dstep, readOuts]) h1 h2
      have := ih (d.read U n).1 ha (fun r h => hr r (by simp only [dresults, dstep, readOuts]; exact List.mem_cons_of_mem _ h))
      rw [h1] at this
      exact this
    | op o =>
      have hna : o ≠ .abandon := ha o (by simp [writes])
      show (drun U (dstep U d (.op o)).1 ops).output = _
      rw [dstep_op hna]
      refine ih _ (fun x h => ha x (by simp [writes, h])) (fun r h => hr r ?_)
      simp only [dresults, dstep_op hna, readOuts]
      exact h

end Verif
