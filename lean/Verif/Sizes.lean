import Verif.Copy

/-!
# The sizes of buffers

What streams say about the buffers they need, and what is done with it.
-/

namespace Verif
open Ucd
variable {U : Ucd}

/-- What a stream answers to `minimum_buffer_size` and `suggested_buffer_size`. -/
structure Sizes where
  min : Nat
  suggested : Nat
  deriving DecidableEq, Repr

/-- `minimum_buffer_size` and `suggested_buffer_size` of a `TextReader` (`src/text_input.rs:491-498, 511-518`, `src/text_reader.rs:113-129`) from
those of its inner stream. -/
def Sizes.reader (s : Sizes) : Sizes :=
  { min := max normalizationBufferSize s.min, suggested := max (max normalizationBufferSize s.min) s.suggested }

/-- Those of a `TextDuplexer` (`src/text_duplexer.rs:241-256`). -/
def Sizes.duplexer (s : Sizes) : Sizes :=
  { min := max normalizationBufferSize s.min, suggested := max (max (max normalizationBufferSize s.min) s.suggested) s.suggested }

/-- `suggested_buffer_size` of a `TextWriter` (`src/text_output.rs:444-448`, `src/text_writer.rs:195-198`). -/
def Sizes.writer (s : Sizes) : Nat := s.suggested

/-- The size of the buffer in `copy_text` and `copy_text_using_status` (`src/copy.rs:12-16, 41-45`). -/
def copySize (reader : Sizes) (writer : Nat) : Nat := max reader.suggested writer

/-- Streams on streams. -/
inductive Stack where
  | base (s : Sizes)
  | reader (inner : Stack)
  | duplexer (inner : Stack)
  deriving Repr

/-- The sizes of the outermost stream. -/
def Stack.sizes : Stack → Sizes
  | .base s => s
  | .reader i => i.sizes.reader
  | .duplexer i => i.sizes.duplexer

/-- The stream at the bottom. -/
def Stack.bottom : Stack → Sizes
  | .base s => s
  | .reader i => i.bottom
  | .duplexer i => i.bottom

/-- Is the outermost stream one of this crate? -/
def Stack.isText : Stack → Bool
  | .base _ => false
  | _ => true

/-- What an inner stream that needs `m` bytes answers to the reads of a `TextReader`, which always passes 4096 bytes
(`src/text_input.rs:415-417`), whatever it would have to answer. -/
def ask (m : Nat) (e : Event) : Event := if 4096 < m then .err else e

theorem Stack.sizes_eq : ∀ k : Stack, k.isText = true →
    k.sizes = { min := max normalizationBufferSize k.bottom.min, suggested := max (max normalizationBufferSize k.bottom.min) k.bottom.suggested } := by
  intro k
  induction k with
  | base s => intro h; simp [isText] at h
  | reader i ih =>
    intro _
    cases i with
    | base s => rfl
    | _ =>
      have := ih rfl
      simp only [sizes, bottom] at this ⊢
      rw [this]
      simp only [Sizes.reader, Sizes.mk.injEq]
      omega
  | duplexer i ih =>
    intro _
    cases i with
    | base s =>
      have : max (max (max normalizationBufferSize s.min) s.suggested) s.suggested = max (max normalizationBufferSize s.min) s.suggested := by omega
      simp only [sizes, bottom, Sizes.duplexer, this]
    | _ =>
      have := ih rfl
      simp only [sizes, bottom] at this ⊢
      rw [this]
      simp only [Sizes.duplexer, Sizes.mk.injEq]
      omega

theorem read_invalid {len : Nat} {t : TextInput} {src : List Event} :
    (readWithStatus U len t src).ret = .invalidInput ↔ len < normalizationBufferSize := by
  constructor
  · intro h
    unfold readWithStatus at h
    split at h
    · assumption
    · exfalso
      revert h
      split
      · simp
      · simp
      · split
        · simp
        · split
          · simp
          · simp only
            split <;> simp
  · intro h
    simp [readWithStatus, h]

theorem std_invalid {len : Nat} {t : TextInput} {src : List Event} (h : normalizationBufferSize ≤ len) :
    stdRet (readWithStatus U len t src).ret ≠ .invalidInput := by
  intro hs
  have : (readWithStatus U len t src).ret = .invalidInput := by
    cases hr : (readWithStatus U len t src).ret with
    | ok n st => rw [hr] at hs; simp only [stdRet] at hs; split at hs <;> simp at hs
    | invalidInput => rfl
    | sourceError => rw [hr] at hs; simp [stdRet] at hs
    | panic => rw [hr] at hs; simp [stdRet] at hs
  have := read_invalid.1 this
  omega

theorem copy_not_invalid {len : Nat} (h : normalizationBufferSize ≤ len) : ∀ (fuel : Nat) (t : TextInput) (src : List Event) (w : Writer) (n : Nat)
    (res : CopyResult), copyText U len fuel t src w n = some res → res.ret ≠ .readError .invalidInput := by
  intro fuel
  induction fuel with
  | zero => intro t src w n res hr; simp [copyText] at hr
  | succ fuel ih =>
    intro t src w n res hr
    have hs := std_invalid (U := U) (t := t) (src := src) h
    unfold copyText at hr
    simp only at hr
    generalize readWithStatus U len t src = r at *
    split at hr
    · rw [← Option.some.inj hr]; simp
    · split at hr
      · exact ih _ _ _ _ _ hr
      · rw [← Option.some.inj hr]; simp
      · rw [← Option.some.inj hr]; simp
    · exact ih _ _ _ _ _ hr
    · rw [← Option.some.inj hr]; simp
    · rw [← Option.some.inj hr]
      simpa using hs

theorem copyStatus_not_invalid {len : Nat} (h : normalizationBufferSize ≤ len) : ∀ (fuel : Nat) (t : TextInput) (src : List Event) (w : Writer) (n : Nat)
    (res : CopyResult), copyTextUsingStatus U len fuel t src w n = some res → res.ret ≠ .readError .invalidInput := by
  intro fuel
  induction fuel with
  | zero => intro t src w n res hr; simp [copyTextUsingStatus] at hr
  | succ fuel ih =>
    intro t src w n res hr
    have hs : (readWithStatus U len t src).ret ≠ .invalidInput := fun hs => by
      have := read_invalid.1 hs
      omega
    unfold copyTextUsingStatus at hr
    simp only at hr
    generalize readWithStatus U len t src = r at *
    split at hr
    · split at hr
      · split at hr
        · rw [← Option.some.inj hr]; simp
        · split at hr
          · exact ih _ _ _ _ _ hr
          · rw [← Option.some.inj hr]; simp
        · exact ih _ _ _ _ _ hr
      · rw [← Option.some.inj hr]; simp
      · rw [← Option.some.inj hr]; simp
    · rw [← Option.some.inj hr]; simp
    · rename_i hi; exact absurd hi hs
    · rw [← Option.some.inj hr]; simp

/-- Reads from a stream that only fails. -/
theorem reads_of_errors {t : TextInput} (hq : ∀ len, normalizationBufferSize ≤ len → drain U (len + 1) len t = (.empty, [], t)) (hp : t.pending = .active) :
    ∀ (lens : List Nat), (∀ l ∈ lens, normalizationBufferSize ≤ l) →
    ∀ r ∈ readMany U lens t (List.replicate lens.length .err), r.ret = .sourceError ∧ r.out = [] := by
  intro lens
  induction lens with
  | nil => intro _ r hr; simp [readMany] at hr
  | cons l lens ih =>
    intro hl r hr
    have h1 : readWithStatus U l t (List.replicate (l :: lens).length .err) =
        { ret := .sourceError, out := [], input := t, src := List.replicate lens.length .err } := by
      have := hl l (by simp)
      rw [readWithStatus, if_neg (by omega), hq l this]
      simp [hp, List.replicate_succ, nextEvent]
    rw [readMany, h1, List.mem_cons] at hr
    rcases hr with rfl | hr
    · exact ⟨rfl, rfl⟩
    · exact ih (fun l h => hl l (by simp [h])) r hr

end Verif
