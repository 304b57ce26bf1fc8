import Verif.WriteMany

/-!
# A writer behind the standard library's `BufWriter`
-/

namespace Verif
open Ucd

variable {U : Ucd}

/-- `std::io::BufWriter<TextWriter<_>>`: its capacity, the bytes in its buffer, and the writer. -/
structure BufW where
  cap : Nat
  buf : Bytes
  w : Writer
  deriving DecidableEq, Repr

/-- `BufWriter::flush_buf` (standard library): writes the buffer to the inner writer (`src/text_output.rs:472-489`) until all is written, or a
write fails or takes nothing, like `write_all`.  Simplified: what is in the buffer after a failure is not modelled, as nothing below goes on
after one.  `none` would be a loop without end. -/
def BufW.flushBuf (U : Ucd) (x : BufW) : Option (BufW × Out) :=
  (writeAll U x.w x.buf).map fun r => ({ x with buf := [], w := r.1 }, r.2)

/-- `BufWriter::write_all` (standard library): bytes that fit are put into the buffer; otherwise the buffer is written first, and bytes that do
not fit into an empty buffer are written directly. -/
def BufW.writeAll (U : Ucd) (x : BufW) (b : Bytes) : Option (BufW × Out) :=
  if b.length < x.cap - x.buf.length then some ({ x with buf := x.buf ++ b }, .ok)
  else
    match if x.cap - x.buf.length < b.length then x.flushBuf U else some (x, .ok) with
    | some (x, .ok) =>
      if x.cap ≤ b.length then (Verif.writeAll U x.w b).map fun r => ({ x with w := r.1 }, r.2)
      else some ({ x with buf := x.buf ++ b }, .ok)
    | r => r

/-- `BufWriter::flush` (standard library; `src/text_output.rs:492-513`). -/
def BufW.flush (U : Ucd) (x : BufW) : Option (BufW × Out) :=
  match x.flushBuf U with
  | some (x, .ok) => let r := Verif.flush x.w; some ({ x with w := r.1 }, r.2)
  | r => r

/-- Writes one after the other, and a flush at the end, up to the first failure; the inner writer and the result. -/
def BufW.session (U : Ucd) (x : BufW) : List Bytes → Option (Writer × Out)
  | [] => (x.flush U).map fun r => (r.1.w, r.2)
  | b :: bs =>
    match x.writeAll U b with
    | some (x, .ok) => BufW.session U x bs
    | r => r.map fun r => (r.1.w, r.2)

/-- The same without the buffer. -/
def direct (U : Ucd) (w : Writer) (bs : List Bytes) : Option (Writer × Out) :=
  match writeChunks U w bs with
  | some (w, .ok) => some (Verif.flush w)
  | r => r

theorem direct_cons (w : Writer) (b : Bytes) (bs : List Bytes) : direct U w (b :: bs) =
    match writeAll U w b with
    | some (w, .ok) => direct U w bs
    | r => r := by
  unfold direct
  rw [writeChunks]
  cases h : writeAll U w b with
  | none => rfl
  | some r => obtain ⟨w', o⟩ := r; cases o <;> rfl

theorem flush_eq (x : BufW) : (x.flush U).map (fun r => (r.1.w, r.2)) = direct U x.w [x.buf] := by
  rw [direct_cons]
  unfold BufW.flush BufW.flushBuf
  cases h : writeAll U x.w x.buf with
  | none => rfl
  | some r => obtain ⟨w', o⟩ := r; cases o <;> rfl

theorem singles (bs : List Bytes) : (bs.map fun y => [y]).flatten = bs := by
  induction bs with
  | nil => rfl
  | cons b bs ih => simp [ih]

/-- A session is writing to the writer directly, in pieces each of which is writes that follow each other (the first has what was in the buffer
in front). -/
theorem session_groups (bs : List Bytes) : ∀ x : BufW, ∃ (a : List Bytes) (gs : List (List Bytes)), a ++ gs.flatten = bs ∧
    x.session U bs = direct U x.w ((x.buf ++ a.flatten) :: gs.map List.flatten) := by
  induction bs with
  | nil => intro x; exact ⟨[], [], rfl, by simp [BufW.session, flush_eq]⟩
  | cons b bs ih =>
    intro x
    rw [BufW.session]
    unfold BufW.writeAll
    by_cases h1 : b.length < x.cap - x.buf.length
    · rw [if_pos h1]
      obtain ⟨a, gs, e1, e2⟩ := ih { x with buf := x.buf ++ b }
      exact ⟨b :: a, gs, by simp [e1], by simpa using e2⟩
    · rw [if_neg h1]
      by_cases h2 : x.cap - x.buf.length < b.length
      · rw [if_pos h2]
        unfold BufW.flushBuf
        cases h : writeAll U x.w x.buf with
        | none => exact ⟨[], (b :: bs).map fun y => [y], by rw [singles]; rfl, by simp [direct_cons, h]⟩
        | some r =>
          obtain ⟨w', o⟩ := r
          cases o with
          | ok =>
            simp only [Option.map_some]
            by_cases h3 : x.cap ≤ b.length
            · rw [if_pos h3]
              cases h' : writeAll U w' b with
              | none => exact ⟨[], (b :: bs).map fun y => [y], by rw [singles]; rfl, by simp [direct_cons, h, h']⟩
              | some r =>
                obtain ⟨w2, o⟩ := r
                cases o with
                | ok =>
                  obtain ⟨a, gs, e1, e2⟩ := ih { x with buf := [], w := w2 }
                  refine ⟨[], [b] :: a :: gs, by simp [e1], ?_⟩
                  simp only [List.map_cons, List.append_nil, List.flatten_nil, direct_cons, h, h', Option.map_some, e2, List.flatten_cons, List.nil_append]
                | err => exact ⟨[], (b :: bs).map fun y => [y], by rw [singles]; rfl, by simp [direct_cons, h, h']⟩
                | panic => exact ⟨[], (b :: bs).map fun y => [y], by rw [singles]; rfl, by simp [direct_cons, h, h']⟩
            · rw [if_neg h3]
              obtain ⟨a, gs, e1, e2⟩ := ih { x with buf := [] ++ b, w := w' }
              refine ⟨[], (b :: a) :: gs, by simp [e1], ?_⟩
              simp only at e2 ⊢
              rw [e2, direct_cons]
              simp [direct_cons, h]
          | err => exact ⟨[], (b :: bs).map fun y => [y], by rw [singles]; rfl, by simp [direct_cons, h]⟩
          | panic => exact ⟨[], (b :: bs).map fun y => [y], by rw [singles]; rfl, by simp [direct_cons, h]⟩
      · rw [if_neg h2]
        simp only
        by_cases h3 : x.cap ≤ b.length
        · rw [if_pos h3]
          by_cases hb : b = []
          · subst hb
            obtain ⟨a, gs, e1, e2⟩ := ih x
            exact ⟨[] :: a, gs, by simp [e1], by simpa [writeAll_nil] using e2⟩
          · have hpos := List.length_pos_iff.2 hb
            have hz : x.buf = [] := List.length_eq_zero_iff.1 (by omega)
            cases h' : writeAll U x.w b with
            | none => exact ⟨[], (b :: bs).map fun y => [y], by rw [singles]; rfl, by simp [direct_cons, hz, writeAll_nil, h']⟩
            | some r =>
              obtain ⟨w2, o⟩ := r
              cases o with
              | ok =>
                obtain ⟨a, gs, e1, e2⟩ := ih { x with w := w2 }
                refine ⟨[], [b] :: a :: gs, by simp [e1], ?_⟩
                rw [hz] at e2
                simp only [List.map_cons, List.append_nil, List.flatten_nil, direct_cons, hz, writeAll_nil, h', Option.map_some, List.flatten_cons]
                rw [e2]
                simp [direct_cons]
              | err => exact ⟨[], (b :: bs).map fun y => [y], by rw [singles]; rfl, by simp [direct_cons, hz, writeAll_nil, h']⟩
              | panic => exact ⟨[], (b :: bs).map fun y => [y], by rw [singles]; rfl, by simp [direct_cons, hz, writeAll_nil, h']⟩
        · rw [if_neg h3]
          obtain ⟨a, gs, e1, e2⟩ := ih { x with buf := x.buf ++ b }
          exact ⟨b :: a, gs, by simp [e1], by simpa using e2⟩

end Verif
