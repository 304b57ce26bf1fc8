import Verif.Copy

/-!
# A reader on a reader

`TextReader<Inner>` is itself `ReadStrLayered` (`/repo/src/text_reader.rs:107-153`), so it can be the source of another one
(`/repo/src/text_reader.rs:63-90`).
-/

namespace Verif
open Ucd

variable {U : Ucd}

/-- What the outer reader gets from a call on the inner one. -/
def ReadResult.event (r : ReadResult) : Event :=
  match r.ret with
  | .ok _ st => .data r.out st
  | _ => .err

/-- The first `n` results a reader gives to a reader on it, which always passes a buffer of 4096 bytes (`src/text_input.rs:417`). -/
def innerReads (U : Ucd) (nel lsps : Bool) (src : List Event) (n : Nat) : List Event :=
  (readMany U (List.replicate n 4096) (.new nel lsps) src).map ReadResult.event

theorem readMany_length : ∀ (lens : List Nat) (t : TextInput) (src : List Event), (readMany U lens t src).length = lens.length
  | [], _, _ => rfl
  | _ :: lens, _, _ => congrArg (· + 1) (readMany_length lens _ _)

theorem exists_least {p : Nat → Prop} : ∀ n, p n → ∃ m, p m ∧ ∀ k, k < m → ¬ p k := by
  intro n
  induction n using Nat.strongRecOn with
  | ind n ih =>
    intro h
    by_cases hk : ∃ k, k < n ∧ p k
    · obtain ⟨k, h1, h2⟩ := hk
      exact ih k h1 h2
    · exact ⟨n, h, fun k h1 h2 => hk ⟨k, h1, h2⟩⟩

end Verif
