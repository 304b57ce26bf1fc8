import Verif.WriterModes

/-!
# Taking the inner stream back
-/

namespace Verif
open Ucd
variable {U : Ucd}

/-- What becomes of the inner stream and of the writer. -/
structure Taken where
  /-- the stream that is returned -/
  back : Option Sink
  /-- the stream that is dropped with the writer -/
  lost : Option Sink
  /-- dropping the writer panics -/
  panics : Bool
  deriving DecidableEq, Repr

/-- `close_into_inner` (`src/text_output.rs:160-167`, `src/text_writer.rs:121-123`) with the drop of what is left of the writer
(`565-573`): on success the `TextOutput` without the inner stream, on failure all of it. -/
def takeClosed (w : Writer) : Taken :=
  match checkNl w with
  | (w, .ok) => { back := some w.sink, lost := none, panics := dropPanics w }
  | (w, _) => { back := none, lost := some w.sink, panics := dropPanics w }

/-- `abandon_into_inner` (`src/text_output.rs:169-177`, `src/text_writer.rs:127-129`) with the drop of the rest. -/
def takeAbandoned (w : Writer) : Taken := { back := some w.reset.sink, lost := none, panics := dropPanics w.reset }

theorem takeClosed_back (w : Writer) : (takeClosed w).back = closeIntoInner w := by
  unfold takeClosed closeIntoInner
  split <;> simp_all

theorem takeAbandoned_back (w : Writer) : (takeAbandoned w).back = some (abandonIntoInner w) := rfl

/-! ## Writers that differ in the last escape sequence only -/

/-- The writers differ at most in a color sequence that is already finished. -/
def Alike (w w' : Writer) : Prop := ∃ q, w' = { w with seq := q } ∧ (w.seq = q ∨ ∃ g, w.state = .ground g)

theorem Alike.refl (w : Writer) : Alike w w := ⟨w.seq, rfl, Or.inl rfl⟩

/-- Both outcomes are the same. -/
def AlikeOut (a b : Writer × Out) : Prop := Alike a.1 b.1 ∧ a.2 = b.2

theorem alike_putChar {b : Bool} {w w' : Writer} (h : Alike w w') (c : Char) : AlikeOut (putChar b w c) (putChar b w' c) := by
  obtain ⟨q, rfl, hq⟩ := h
  rcases hq with rfl | ⟨g, hg⟩
  · exact ⟨.refl _, rfl⟩
  · unfold putChar AlikeOut
    simp only [hg]
    split
    · split
      · exact ⟨⟨_, rfl, Or.inl rfl⟩, rfl⟩
      · exact ⟨⟨_, rfl, Or.inr ⟨_, rfl⟩⟩, rfl⟩
    · split
      · exact ⟨⟨_, rfl, Or.inr ⟨_, rfl⟩⟩, rfl⟩
      · split
        · exact ⟨⟨_, rfl, Or.inr ⟨_, rfl⟩⟩, rfl⟩
        · exact ⟨⟨_, rfl, Or.inr ⟨_, rfl⟩⟩, rfl⟩

/-- Continue after success. -/
def thenOk (a : Writer × Out) (f : Writer → Writer × Out) : Writer × Out := if a.2 = .ok then f a.1 else a

theorem AlikeOut.bind {a b : Writer × Out} (h : AlikeOut a b) {f : Writer → Writer × Out} (hf : ∀ w w', Alike w w' → AlikeOut (f w) (f w')) :
    AlikeOut (thenOk a f) (thenOk b f) := by
  unfold thenOk
  rw [← h.2]
  split
  · exact hf _ _ h.1
  · exact h

theorem putAll_cons (b : Bool) (w : Writer) (c : Char) (s : List Char) : putAll b w (c :: s) = thenOk (putChar b w c) (putAll b · s) := by
  rw [putAll]
  rcases putChar b w c with ⟨v, o⟩
  cases o <;> rfl

theorem crlfRest_then (w : Writer) (x : List Char) (l : List (List Char)) : crlfRest U w (x :: l) =
    thenOk (stateMachine U { w with state := .ground .newline, buffer := w.buffer ++ ['\r', '\n'] } x) (crlfRest U · l) := by
  rw [crlfRest]
  rcases stateMachine U { w with state := .ground .newline, buffer := w.buffer ++ ['\r', '\n'] } x with ⟨v, o⟩
  cases o <;> rfl

theorem crlfLoop_then (w : Writer) (x : List Char) (l : List (List Char)) : crlfLoop U w (x :: l) = thenOk (stateMachine U w x) (crlfRest U · l) := by
  rw [crlfLoop]
  rcases stateMachine U w x with ⟨v, o⟩
  cases o <;> rfl

theorem writeStr_then (w : Writer) (s : List Char) :
    writeStr U w s = thenOk (if w.crlf then crlfLoop U w (splitNl s) else stateMachine U w s) (writeBuffer U) := by
  rw [writeStr]
  rcases (if w.crlf then crlfLoop U w (splitNl s) else stateMachine U w s) with ⟨v, o⟩
  cases o <;> rfl

theorem alike_putAll {b : Bool} (s : List Char) : ∀ {w w' : Writer}, Alike w w' → AlikeOut (putAll b w s) (putAll b w' s) := by
  induction s with
  | nil => intro w w' h; exact ⟨h, rfl⟩
  | cons c s ih => intro w w' h; rw [putAll_cons, putAll_cons]; exact (alike_putChar h c).bind fun _ _ h => ih h

theorem alike_machine (s : List Char) {w w' : Writer} (h : Alike w w') : AlikeOut (stateMachine U w s) (stateMachine U w' s) := by
  unfold stateMachine
  simp only
  split <;> exact alike_putAll _ h

theorem Alike.upd {w w' : Writer} (h : Alike w w') (f : Writer → Writer) (hf : ∀ v q, f { v with seq := q } = { f v with seq := q })
    (hs : ∀ v, (f v).seq = v.seq) (hg : ∀ v g, v.state = .ground g → ∃ g', (f v).state = .ground g') : Alike (f w) (f w') := by
  obtain ⟨q, rfl, hq⟩ := h
  refine ⟨q, hf _ _, ?_⟩
  rcases hq with hq | ⟨g, hq⟩
  · exact Or.inl (by rw [hs, hq])
  · exact Or.inr (hg _ _ hq)

theorem alike_buffer {w w' : Writer} (h : Alike w w') : AlikeOut (writeBuffer U w) (writeBuffer U w') := by
  obtain ⟨q, rfl, hq⟩ := h
  unfold writeBuffer AlikeOut
  simp only
  split
  · exact ⟨⟨q, rfl, Or.inr ⟨_, rfl⟩⟩, rfl⟩
  · split
    · exact ⟨⟨q, rfl, hq⟩, rfl⟩
    · exact ⟨⟨q, rfl, Or.inr ⟨_, rfl⟩⟩, rfl⟩

theorem alike_crlfRest (l : List (List Char)) : ∀ {w w' : Writer}, Alike w w' → AlikeOut (crlfRest U w l) (crlfRest U w' l) := by
  induction l with
  | nil => intro w w' h; exact ⟨h, rfl⟩
  | cons x l ih =>
    intro w w' h
    rw [crlfRest_then, crlfRest_then]
    exact (alike_machine x (h.upd (fun v => { v with state := .ground .newline, buffer := v.buffer ++ ['\r', '\n'] }) (fun _ _ => rfl) (fun _ => rfl)
      fun _ _ _ => ⟨_, rfl⟩)).bind fun _ _ h => ih h

theorem alike_str (s : List Char) {w w' : Writer} (h : Alike w w') : AlikeOut (writeStr U w s) (writeStr U w' s) := by
  have hc : w'.crlf = w.crlf := by obtain ⟨q, rfl, -⟩ := h; rfl
  rw [writeStr_then, writeStr_then, hc]
  refine AlikeOut.bind ?_ fun _ _ h => alike_buffer h
  split
  · cases splitNl s with
    | nil => exact ⟨h, rfl⟩
    | cons x l => rw [crlfLoop_then, crlfLoop_then]; exact (alike_machine x h).bind fun _ _ h => alike_crlfRest l h
  · exact alike_machine s h

theorem alike_textRest (l : List (List Char)) : ∀ {w w' : Writer}, Alike w w' → Alike (crlfTextRest w l) (crlfTextRest w' l) := by
  induction l with
  | nil => intro w w' h; exact h
  | cons x l ih =>
    intro w w' h
    exact ih (h.upd (fun v => { v with buffer := v.buffer ++ ['\r', '\n'] ++ x, state := .ground (groundAfter x) }) (fun _ _ => rfl) (fun _ => rfl)
      fun _ _ _ => ⟨_, rfl⟩)

theorem alike_text (s : List Char) {w w' : Writer} (h : Alike w w') : AlikeOut (writeText U w s) (writeText U w' s) := by
  have hc : w'.crlf = w.crlf := by obtain ⟨q, rfl, -⟩ := h; rfl
  unfold writeText
  refine alike_buffer ?_
  by_cases hx : w.crlf = true
  · rw [if_pos hx, if_pos (hc.trans hx)]
    unfold crlfTextLoop
    cases splitNl s with
    | nil => exact h
    | cons x l =>
      exact alike_textRest l (h.upd (fun v => { v with buffer := v.buffer ++ x, state := .ground (groundAfter x) }) (fun _ _ => rfl) (fun _ => rfl)
        fun _ _ _ => ⟨_, rfl⟩)
  · rw [if_neg hx, if_neg (by rw [hc]; exact hx)]
    exact h.upd (fun v => { v with buffer := v.buffer ++ s, state := .ground (groundAfter s) }) (fun _ _ => rfl) (fun _ => rfl) fun _ _ _ => ⟨_, rfl⟩

theorem alike_step (op : Op) {w w' : Writer} (h : Alike w w') : AlikeOut (step U w op) (step U w' op) := by
  cases op with
  | str s => exact alike_str s h
  | text s => exact alike_text s h
  | bytes b =>
    have := fun s => alike_str (U := U) s h
    have hf : AlikeOut (w.fail, .err) (w'.fail, .err) := by
      obtain ⟨q, rfl, -⟩ := h
      exact ⟨⟨q, rfl, Or.inr ⟨_, rfl⟩⟩, rfl⟩
    simp only [step, writeBytes]
    split
    · exact this _
    · split
      · exact this _
      · exact hf
  | flush =>
    obtain ⟨q, rfl, hq⟩ := h
    simp only [step, flush]
    split
    · exact ⟨⟨q, rfl, Or.inr ⟨_, rfl⟩⟩, rfl⟩
    · exact ⟨⟨q, rfl, hq⟩, rfl⟩
    · exact ⟨⟨q, rfl, hq⟩, rfl⟩
  | close =>
    obtain ⟨q, rfl, hq⟩ := h
    simp only [step, close, checkNl]
    by_cases hs : w.state = .ground .newline
    · simp only [hs, if_true]; exact ⟨⟨q, rfl, Or.inr ⟨_, rfl⟩⟩, rfl⟩
    · simp only [hs, if_false]; exact ⟨⟨q, rfl, Or.inr ⟨_, rfl⟩⟩, rfl⟩
  | abandon =>
    obtain ⟨q, rfl, hq⟩ := h
    exact ⟨⟨q, rfl, Or.inr ⟨_, rfl⟩⟩, rfl⟩

theorem alike_run (ops : List Op) : ∀ {w w' : Writer}, Alike w w' → Alike (run U w ops) (run U w' ops) ∧ results U w ops = results U w' ops := by
  induction ops with
  | nil => intro w w' h; exact ⟨h, rfl⟩
  | cons op ops ih =>
    intro w w' h
    obtain ⟨h1, h2⟩ := alike_step (U := U) op h
    obtain ⟨i1, i2⟩ := ih h1
    exact ⟨i1, by simp only [results, h2, i2]⟩

end Verif
