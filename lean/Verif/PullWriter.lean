import Verif.PullTheory
import Verif.WriterTheory

/-!
# The writer over the iterator chain, with the error it reports

`Verif/Writer.lean` runs the writer's state machine over the list that the chain yields and only records that a
call failed.  Here the loop pulls the scalars one at a time, the error cell is the one inside the chain, and a
failing call carries its error.
-/

namespace Verif
open Ucd
variable {U : Ucd} {σ : Type}

/-- The result of a write with the error: `text` is a `BasicTextError`, `start` the complaint of `write_buffer`
about the first scalar, `sink` an error of the inner stream. -/
inductive OutE where
  | ok | text (e : BasicTextError) | start | sink | panic
  deriving DecidableEq, Repr

/-- Forget which error it is. -/
def OutE.out : OutE → Out
  | .ok => .ok
  | .panic => .panic
  | _ => .err

/-- `state_machine_char` (`src/text_output.rs:337-397`); `error` is the error cell. -/
def putCharE (error : Option BasicTextError) (w : Writer) (c : Char) : Writer × OutE :=
  match w.state with
  | .ground _ =>
    if c = ESC ∧ w.ansi = true then ({ w with state := .esc, seq := [ESC] }, .ok)
    else if c = '\n' then ({ w with state := .ground .newline, buffer := w.buffer ++ [c] }, .ok)
    else if c = SUB then
      match error with
      | some e => (w.fail, .text e)
      | none => (w.fail, .panic)
    else if c = ESC then (w.fail, .text .escape)
    else ({ w with state := .ground (groundOf c), buffer := w.buffer ++ [c] }, .ok)
  | .esc =>
    if c = '[' then ({ w with state := .csi, seq := w.seq ++ [c] }, .ok) else (w.fail, .text .unrecognizedEscape)
  | .csi =>
    if between 0x20 0x3f c then ({ w with seq := w.seq ++ [c] }, .ok)
    else if c = 'm' then
      ({ w with seq := w.seq ++ [c], buffer := w.buffer ++ w.seq ++ [c], state := .ground .other }, .ok)
    else (w.fail, .text .unrecognizedEscape)

/-- `for c in .. { Self::state_machine_char(internals, c, error)?; }`; `none` if the fuel runs out. -/
def putPull (next : Iter σ) (error : σ → Option BasicTextError) : Nat → Writer → σ → Option (Writer × OutE)
  | 0, _, _ => none
  | f + 1, w, s =>
    match next f s with
    | none => none
    | some (none, _) => some (w, .ok)
    | some (some c, s) =>
      match putCharE (error s) w c with
      | (w, .ok) => putPull next error f w s
      | r => some r

/-- `state_machine` (`src/text_output.rs:294-335`). -/
def stateMachineE (U : Ucd) (f : Nat) (w : Writer) (s : List Char) : Option (Writer × OutE) :=
  if U.quick s = .yes ∧ s.all U.assigned = true then putPull catNext CatSt.error f w ⟨s, none⟩
  else putPull (chainNext U catNext) (fun t => t.base.error) f w (ChainSt.new ⟨s, none⟩)

/-- `write_buffer` (`src/text_output.rs:262-292`). -/
def writeBufferE (U : Ucd) (w : Writer) : Writer × OutE :=
  let bad := w.expectStarter && !(w.buffer.head?.map (isStart U)).getD true
  let w := { w with expectStarter := false }
  if bad then (w.fail, .start)
  else
    match w.sink.writeStr w.buffer with
    | (sink, true) => ({ w with sink, buffer := [] }, .ok)
    | (sink, false) => ({ w with sink, buffer := [] }.fail, .sink)

/-- The loop of `crlf_write_str` (`src/text_output.rs:195-207`) after the first slice. -/
def crlfRestE (U : Ucd) (f : Nat) : Writer → List (List Char) → Option (Writer × OutE)
  | w, [] => some (w, .ok)
  | w, x :: xs =>
    match stateMachineE U f { w with state := .ground .newline, buffer := w.buffer ++ ['\r', '\n'] } x with
    | none => none
    | some (w, .ok) => crlfRestE U f w xs
    | some r => some r

/-- The loop of `crlf_write_str`. -/
def crlfLoopE (U : Ucd) (f : Nat) (w : Writer) : List (List Char) → Option (Writer × OutE)
  | [] => some (w, .ok)
  | x :: xs =>
    match stateMachineE U f w x with
    | none => none
    | some (w, .ok) => crlfRestE U f w xs
    | some r => some r

/-- `write_str` (`src/text_output.rs:461-470`, `179-211`); `none` if the fuel runs out. -/
def writeStrE (U : Ucd) (f : Nat) (w : Writer) (s : List Char) : Option (Writer × OutE) :=
  match if w.crlf then crlfLoopE U f w (splitNl s) else stateMachineE U f w s with
  | none => none
  | some (w, .ok) => some (writeBufferE U w)
  | some r => some r

/-! ## The error cell -/

/-- `I` is kept by `next`, `F` is kept, and U+1A comes out only when `F` holds afterwards. -/
structure CellLaw (next : Iter σ) (I F : σ → Prop) : Prop where
  keep : ∀ {f s r s'}, I s → next f s = some (r, s') → I s'
  mono : ∀ {f s r s'}, F s → next f s = some (r, s') → F s'
  sub : ∀ {f s s'}, I s → next f s = some (some SUB, s') → F s'

/-- `Categorize` has consumed a prefix of `s0`, and the cell holds the error of the last rejected scalar in it. -/
def CatInv (s0 : List Char) (s : CatSt) : Prop :=
  ∃ seen, s0 = seen ++ s.iter ∧ s.error = categorizeError seen

theorem cell_cat (s0 : List Char) : CellLaw catNext (CatInv s0) (fun s => s.error.isSome = true) := by
  refine ⟨?_, ?_, ?_⟩
  · intro f s r s' ⟨seen, h1, h2⟩ h
    obtain ⟨l, e⟩ := s
    cases l with
    | nil => simp [catNext] at h; rw [← h.2]; exact ⟨seen, h1, h2⟩
    | cons c l =>
      simp only [catNext] at h
      split at h
      · rename_i hc
        simp at h; rw [← h.2]
        refine ⟨seen ++ [c], by simp [h1], ?_⟩
        simp at h2
        simp [categorizeError, List.filterMap_append, hc, h2]
      · rename_i e' hc
        simp at h; rw [← h.2]
        refine ⟨seen ++ [c], by simp [h1], ?_⟩
        simp [categorizeError, List.filterMap_append, hc]
  · intro f s r s' hF h
    obtain ⟨l, e⟩ := s
    cases l with
    | nil => simp [catNext] at h; rw [← h.2]; exact hF
    | cons c l =>
      simp only [catNext] at h
      split at h <;> (simp at h; rw [← h.2]; first | exact hF | rfl)
  · intro f s s' _ h
    obtain ⟨l, e⟩ := s
    cases l with
    | nil => simp [catNext] at h
    | cons c l =>
      simp only [catNext] at h
      split at h
      · rename_i hc
        simp at h
        have := check_sub
        rw [← h.1, hc] at this
        simp at this
      · simp at h; rw [← h]; rfl

section
variable {next : Iter σ} {I F : σ → Prop}

theorem cell_fuse (h : CellLaw next I F) : CellLaw (fuseNext next) (fun s => I s.iter) (fun s => F s.iter) := by
  have key : ∀ {f : Nat} {s : Fuse σ} {r s'}, fuseNext next f s = some (r, s') →
      (r = none ∧ s'.iter = s.iter) ∨ ∃ i, next f s.iter = some (r, i) ∧ s'.iter = i := by
    intro f s r s' hs
    obtain ⟨i, d⟩ := s
    simp only [fuseNext] at hs
    split at hs
    · simp at hs; left; rw [← hs.1, ← hs.2]; simp
    · split at hs <;> simp at hs <;> (right; rename_i hn; rw [← hs.1, ← hs.2]; exact ⟨_, hn, rfl⟩)
  refine ⟨?_, ?_, ?_⟩
  · intro f s r s' hI hs
    rcases key hs with ⟨_, h2⟩ | ⟨i, h1, h2⟩
    · rw [h2]; exact hI
    · rw [h2]; exact h.keep hI h1
  · intro f s r s' hI hs
    rcases key hs with ⟨_, h2⟩ | ⟨i, h1, h2⟩
    · rw [h2]; exact hI
    · rw [h2]; exact h.mono hI h1
  · intro f s s' hI hs
    rcases key hs with ⟨h1, _⟩ | ⟨i, h1, h2⟩
    · simp at h1
    · rw [h2]; exact h.sub hI h1

theorem sub_ne_cgj : SUB ≠ CGJ := by decide

theorem cell_iso (h : CellLaw next I F) : CellLaw (isoNext U next)
    (fun s => I s.iter.iter ∧ (s.deferred = some SUB → F s.iter.iter)) (fun s => F s.iter.iter) := by
  have hf := cell_fuse h
  refine ⟨?_, ?_, ?_⟩
  · intro f s r s' ⟨h1, h2⟩ hs
    simp only [isoNext] at hs
    split at hs
    · simp at hs; rw [← hs.2]; exact ⟨h1, by simp⟩
    · split at hs
      · simp at hs
      · rename_i c i hn
        have hk := hf.keep h1 hn
        split at hs
        · simp at hs; rw [← hs.2]
          refine ⟨hk, fun hd => ?_⟩
          simp at hd; subst hd
          exact hf.sub h1 hn
        · simp at hs; rw [← hs.2]; exact ⟨hk, by simp⟩
      · rename_i i hn
        have hk := hf.keep h1 hn
        split at hs <;> (simp at hs; rw [← hs.2]; exact ⟨hk, by simp⟩)
  · intro f s r s' hF hs
    simp only [isoNext] at hs
    split at hs
    · simp at hs; rw [← hs.2]; exact hF
    · split at hs
      · simp at hs
      · rename_i c i hn
        have hk := hf.mono hF hn
        split at hs <;> (simp at hs; rw [← hs.2]; exact hk)
      · rename_i i hn
        have hk := hf.mono hF hn
        split at hs <;> (simp at hs; rw [← hs.2]; exact hk)
  · intro f s s' ⟨h1, h2⟩ hs
    simp only [isoNext] at hs
    split at hs
    · rename_i d hd
      simp at hs
      rw [← hs.2]
      exact h2 (by rw [hd, hs.1])
    · split at hs
      · simp at hs
      · rename_i c i hn
        split at hs
        · simp only [Option.some.injEq, Prod.mk.injEq] at hs; exact absurd hs.1.symm sub_ne_cgj
        · simp only [Option.some.injEq, Prod.mk.injEq] at hs
          rw [← hs.2]
          obtain ⟨rfl, -⟩ := hs
          exact hf.sub h1 hn
      · split at hs
        · simp only [Option.some.injEq, Prod.mk.injEq] at hs; exact absurd hs.1.symm sub_ne_cgj
        · simp at hs

theorem cell_cjk (hc : ∀ x, SUB ∈ U.cjk x → x = SUB) (h : CellLaw next I F) : CellLaw (cjkNext U next)
    (fun s => I s.iter ∧ (SUB ∈ s.buffer → F s.iter)) (fun s => F s.iter) := by
  refine ⟨?_, ?_, ?_⟩
  · intro f s r s' ⟨h1, h2⟩ hs
    obtain ⟨i, b⟩ := s
    cases b with
    | cons c b => simp [cjkNext] at hs; rw [← hs.2]; exact ⟨h1, fun hm => h2 (by simp_all)⟩
    | nil =>
      simp only [cjkNext] at hs
      split at hs
      · simp at hs
      · rename_i hn; simp at hs; rw [← hs.2]; exact ⟨h.keep h1 hn, by simp⟩
      · rename_i c i' hn
        split at hs
        · simp at hs
        · rename_i d r' hd
          simp at hs; rw [← hs.2]
          refine ⟨h.keep h1 hn, fun hm => ?_⟩
          have := hc c (by rw [hd]; exact List.mem_cons_of_mem _ hm)
          subst this
          exact h.sub h1 hn
  · intro f s r s' hF hs
    obtain ⟨i, b⟩ := s
    cases b with
    | cons c b => simp [cjkNext] at hs; rw [← hs.2]; exact hF
    | nil =>
      simp only [cjkNext] at hs
      split at hs
      · simp at hs
      · rename_i hn; simp at hs; rw [← hs.2]; exact h.mono hF hn
      · rename_i c i' hn
        split at hs
        · simp at hs
        · simp at hs; rw [← hs.2]; exact h.mono hF hn
  · intro f s s' ⟨h1, h2⟩ hs
    obtain ⟨i, b⟩ := s
    cases b with
    | cons c b => simp [cjkNext] at hs; rw [← hs.2]; exact h2 (by simp [hs.1])
    | nil =>
      simp only [cjkNext] at hs
      split at hs
      · simp at hs
      · simp at hs
      · rename_i c i' hn
        split at hs
        · simp at hs
        · rename_i d r' hd
          simp only [Option.some.injEq, Prod.mk.injEq] at hs
          rw [← hs.2]
          have := hc c (by rw [hd, hs.1]; simp)
          subst this
          exact h.sub h1 hn

theorem cell_safe (h : CellLaw next I F) : CellLaw (safeNext U next)
    (fun s => I s.iter ∧ (s.buffer = some SUB → F s.iter)) (fun s => F s.iter) := by
  have key : ∀ {f : Nat} {s : SafeSt σ} {r s'}, safeNext U next f s = some (r, s') → ∃ t : SafeSt σ,
      (t.buffer = none ∧ (∃ c, s.buffer = some c ∧ t.iter = s.iter ∧
        ((r = some CGJ ∧ s' = { t with count := 0, buffer := some c }) ∨ (r = some c ∧ s'.iter = t.iter ∧ s'.buffer = none)))) ∨
      (t.buffer = none ∧ next f s.iter = some (none, t.iter) ∧ r = none ∧ s'.iter = t.iter ∧ s'.buffer = none) ∨
      (t.buffer = none ∧ ∃ c, next f s.iter = some (some c, t.iter) ∧
        ((r = some CGJ ∧ s' = { t with count := 0, buffer := some c }) ∨ (r = some c ∧ s'.iter = t.iter ∧ s'.buffer = none))) := by
    intro f s r s' hs
    obtain ⟨i, n, b⟩ := s
    cases b with
    | some c =>
      simp only [safeNext] at hs
      refine ⟨⟨i, n, none⟩, Or.inl ⟨rfl, c, rfl, rfl, ?_⟩⟩
      split at hs
      · simp only [Option.some.injEq, Prod.mk.injEq] at hs
        exact Or.inl ⟨hs.1.symm, hs.2.symm⟩
      · split at hs <;>
        · simp only [Option.some.injEq, Prod.mk.injEq] at hs
          rw [← hs.2]; exact Or.inr ⟨hs.1.symm, rfl, rfl⟩
    | none =>
      cases hn : next f i with
      | none => simp [safeNext, hn] at hs
      | some p =>
        obtain ⟨r', i'⟩ := p
        cases r' with
        | none =>
          simp only [safeNext, hn, Option.some.injEq, Prod.mk.injEq] at hs
          refine ⟨⟨i', n, none⟩, Or.inr (Or.inl ⟨rfl, rfl, hs.1.symm, ?_, ?_⟩)⟩ <;> rw [← hs.2]
        | some c =>
          simp only [safeNext, hn] at hs
          refine ⟨⟨i', n, none⟩, Or.inr (Or.inr ⟨rfl, c, rfl, ?_⟩)⟩
          split at hs
          · simp only [Option.some.injEq, Prod.mk.injEq] at hs
            exact Or.inl ⟨hs.1.symm, hs.2.symm⟩
          · split at hs <;>
            · simp only [Option.some.injEq, Prod.mk.injEq] at hs
              rw [← hs.2]; exact Or.inr ⟨hs.1.symm, rfl, rfl⟩
  refine ⟨?_, ?_, ?_⟩
  · intro f s r s' ⟨h1, h2⟩ hs
    obtain ⟨t, ⟨_, c, e1, e2, e3⟩ | ⟨_, e1, _, e2, e3⟩ | ⟨_, c, e1, e3⟩⟩ := key hs
    · rcases e3 with ⟨_, rfl⟩ | ⟨_, e4, e5⟩
      · refine ⟨by simpa [e2] using h1, fun hb => ?_⟩
        simp only [e2]; exact h2 (by rw [e1]; exact hb)
      · exact ⟨by rw [e4, e2]; exact h1, by simp [e5]⟩
    · exact ⟨by rw [e2]; exact h.keep h1 e1, by simp [e3]⟩
    · have hk := h.keep h1 e1
      rcases e3 with ⟨_, rfl⟩ | ⟨_, e4, e5⟩
      · refine ⟨hk, fun hb => ?_⟩
        simp at hb; subst hb
        exact h.sub h1 e1
      · exact ⟨by rw [e4]; exact hk, by simp [e5]⟩
  · intro f s r s' hF hs
    obtain ⟨t, ⟨_, c, e1, e2, e3⟩ | ⟨_, e1, _, e2, e3⟩ | ⟨_, c, e1, e3⟩⟩ := key hs
    · rcases e3 with ⟨_, rfl⟩ | ⟨_, e4, e5⟩
      · simpa [e2] using hF
      · simpa [e4, e2] using hF
    · rw [e2]; exact h.mono hF e1
    · have hk := h.mono hF e1
      rcases e3 with ⟨_, rfl⟩ | ⟨_, e4, e5⟩
      · exact hk
      · simpa [e4] using hk
  · intro f s s' ⟨h1, h2⟩ hs
    obtain ⟨t, ⟨_, c, e1, e2, e3⟩ | ⟨_, e1, e0, e2, e3⟩ | ⟨_, c, e1, e3⟩⟩ := key hs
    · rcases e3 with ⟨e4, _⟩ | ⟨e4, e5, _⟩
      · exact absurd (Option.some.inj e4) sub_ne_cgj
      · rw [e5, e2]; exact h2 (by rw [e1, e4])
    · simp at e0
    · rcases e3 with ⟨e4, _⟩ | ⟨e4, e5, _⟩
      · exact absurd (Option.some.inj e4) sub_ne_cgj
      · rw [← e4] at e1
        rw [e5]; exact h.sub h1 e1

theorem mem_sortPending {b : List (Nat × Char)} {n : Nat} {p : Nat × Char} : p ∈ sortPending b n ↔ p ∈ b := by
  unfold sortPending
  rw [List.mem_append, List.mem_mergeSort, ← List.mem_append, List.take_append_drop]

theorem mem_push {s : DecSt σ} {c : Char} {p : Nat × Char} (h : p ∈ (s.push U c).buffer) : p ∈ s.buffer ∨ p.2 = c := by
  unfold DecSt.push at h
  split at h
  · simp only [List.mem_append, mem_sortPending, List.mem_singleton] at h
    rcases h with h | h
    · exact Or.inl h
    · exact Or.inr (by rw [h])
  · simp only [List.mem_append, List.mem_singleton] at h
    rcases h with h | h
    · exact Or.inl h
    · exact Or.inr (by rw [h])

theorem push_iter (s : DecSt σ) (c : Char) : (s.push U c).iter = s.iter := by
  unfold DecSt.push; split <;> rfl

theorem mem_pushAll : ∀ (l : List Char) {s : DecSt σ} {p : Nat × Char}, p ∈ (l.foldl (DecSt.push U) s).buffer →
    p ∈ s.buffer ∨ p.2 ∈ l
  | [], _, _, h => Or.inl h
  | c :: l, s, p, h => by
    rcases mem_pushAll l h with h | h
    · rcases mem_push h with h | h
      · exact Or.inl h
      · exact Or.inr (by simp [h])
    · exact Or.inr (by simp [h])

theorem pushAll_iter : ∀ (l : List Char) (s : DecSt σ), (l.foldl (DecSt.push U) s).iter = s.iter
  | [], _ => rfl
  | c :: l, s => by rw [List.foldl_cons, pushAll_iter l, push_iter]

theorem emit_mem {s : DecSt σ} {r s'} (h : s.emit = some (r, s')) : s'.iter = s.iter ∧ (∀ p ∈ s'.buffer, p ∈ s.buffer) ∧
    ∀ c, r = some c → ∃ k, (k, c) ∈ s.buffer := by
  unfold DecSt.emit at h
  split at h
  · simp at h
  · rename_i k c hg
    have hm := List.mem_of_getElem? hg
    split at h
    · simp only [Option.some.injEq, Prod.mk.injEq] at h
      rw [← h.2, ← h.1]
      exact ⟨rfl, fun p hp => List.mem_of_mem_drop hp, fun d hd => ⟨k, by rw [← Option.some.inj hd]; exact hm⟩⟩
    · simp only [Option.some.injEq, Prod.mk.injEq] at h
      rw [← h.2, ← h.1]
      exact ⟨rfl, fun p hp => hp, fun d hd => ⟨k, by rw [← Option.some.inj hd]; exact hm⟩⟩

/-- The invariant of `Decompositions`. -/
def DecInv (I F : σ → Prop) (s : DecSt σ) : Prop := I s.iter.iter ∧ ((∃ k, (k, SUB) ∈ s.buffer) → F s.iter.iter)

theorem cell_dec (hd : ∀ x, SUB ∈ U.decomp x → x = SUB) (h : CellLaw next I F) :
    CellLaw (decNext U next) (DecInv I F) (fun s => F s.iter.iter) := by
  have hf := cell_fuse h
  have key : ∀ {f : Nat} {s : DecSt σ} {r s'}, decNext U next f s = some (r, s') →
      (F s.iter.iter → F s'.iter.iter) ∧ (DecInv I F s → DecInv I F s' ∧ (r = some SUB → F s'.iter.iter)) := by
    intro f
    induction f with
    | zero => intro s r s' hs; simp [decNext] at hs
    | succ f ih =>
      intro s r s' hs
      rw [decNext.eq_2] at hs
      split at hs
      · split at hs
        · simp at hs
        · rename_i c i hn
          obtain ⟨a1, a2⟩ := ih hs
          rw [pushAll_iter] at a1
          refine ⟨fun hF => a1 (hf.mono hF hn), fun ⟨h1, h2⟩ => a2 ⟨by rw [pushAll_iter]; exact hf.keep h1 hn, ?_⟩⟩
          rintro ⟨k, hk⟩
          rw [pushAll_iter]
          rcases mem_pushAll _ hk with hk | hk
          · exact hf.mono (h2 ⟨k, hk⟩) hn
          · have := hd c hk
            subst this
            exact hf.sub h1 hn
        · rename_i i hn
          split at hs
          · simp only [Option.some.injEq, Prod.mk.injEq] at hs
            rw [← hs.2, ← hs.1]
            rename_i hb
            exact ⟨fun hF => hf.mono hF hn, fun ⟨h1, h2⟩ => ⟨⟨hf.keep h1 hn, by simp [hb]⟩, by simp⟩⟩
          · obtain ⟨b1, b2, b3⟩ := emit_mem hs
            simp only at b1 b2 b3
            refine ⟨fun hF => by rw [b1]; exact hf.mono hF hn, fun ⟨h1, h2⟩ => ⟨⟨by rw [b1]; exact hf.keep h1 hn, ?_⟩, ?_⟩⟩
            · rintro ⟨k, hk⟩
              rw [b1]
              exact hf.mono (h2 ⟨k, mem_sortPending.1 (b2 _ hk)⟩) hn
            · intro hr
              obtain ⟨k, hk⟩ := b3 _ hr
              rw [b1]
              exact hf.mono (h2 ⟨k, mem_sortPending.1 hk⟩) hn
      · obtain ⟨b1, b2, b3⟩ := emit_mem hs
        refine ⟨fun hF => by rw [b1]; exact hF, fun ⟨h1, h2⟩ => ⟨⟨by rw [b1]; exact h1, ?_⟩, ?_⟩⟩
        · rintro ⟨k, hk⟩
          rw [b1]; exact h2 ⟨k, b2 _ hk⟩
        · intro hr
          obtain ⟨k, hk⟩ := b3 _ hr
          rw [b1]; exact h2 ⟨k, hk⟩
  exact ⟨fun hI hs => ((key hs).2 hI).1, fun hF hs => (key hs).1 hF, fun hI hs => ((key hs).2 hI).2 rfl⟩

/-- The invariant of `Recompositions`. -/
def RecInv (I F : σ → Prop) (s : RecSt σ) : Prop :=
  DecInv I F s.iter ∧ (SUB ∈ s.buffer → F s.iter.iter.iter) ∧ (s.composee = some SUB → F s.iter.iter.iter)

theorem cell_rec (hd : ∀ x, SUB ∈ U.decomp x → x = SUB) (hc : ∀ k b, U.compose k b ≠ some SUB) (h : CellLaw next I F) :
    CellLaw (recNext U next) (RecInv I F) (fun s => F s.iter.iter.iter) := by
  have hf := cell_dec hd h
  have key : ∀ {f : Nat} {s : RecSt σ} {r s'}, recNext U next f s = some (r, s') →
      (F s.iter.iter.iter → F s'.iter.iter.iter) ∧
      (RecInv I F s → RecInv I F s' ∧ (r = some SUB → F s'.iter.iter.iter)) := by
    intro f
    induction f with
    | zero => intro s r s' hs; simp [recNext] at hs
    | succ f ih =>
      intro s r s' hs
      obtain ⟨it, st, buf, comp, last⟩ := s
      rw [recNext.eq_2] at hs
      cases st with
      | composing =>
        simp only at hs
        cases hn : decNext U next f it with
        | none => simp [hn] at hs
        | some p =>
          obtain ⟨r1, i⟩ := p
          have k0 : F it.iter.iter → F i.iter.iter := fun hF => hf.mono hF hn
          have k1 : DecInv I F it → DecInv I F i := fun hI => hf.keep hI hn
          have k2 : DecInv I F it → r1 = some SUB → F i.iter.iter := fun hI hr => by subst hr; exact hf.sub hI hn
          -- going round the loop
          have again : ∀ {st' buf' comp' last'}, recNext U next f ⟨i, st', buf', comp', last'⟩ = some (r, s') →
              (SUB ∈ buf' → SUB ∈ buf ∨ r1 = some SUB) → (comp' = some SUB → comp = some SUB ∨ r1 = some SUB) →
              (F it.iter.iter → F s'.iter.iter.iter) ∧
              (RecInv I F ⟨it, .composing, buf, comp, last⟩ → RecInv I F s' ∧ (r = some SUB → F s'.iter.iter.iter)) := by
            intro st' buf' comp' last' hr q1 q2
            obtain ⟨a1, a2⟩ := ih hr
            refine ⟨fun hF => a1 (k0 hF), fun ⟨h1, h2, h3⟩ => a2 ⟨k1 h1, fun hm => ?_, fun hm => ?_⟩⟩
            · rcases q1 hm with q | q
              · exact k0 (h2 q)
              · exact k2 h1 q
            · rcases q2 hm with q | q
              · exact k0 (h3 q)
              · exact k2 h1 q
          -- returning
          have ret : ∀ {x st' buf' comp' last'}, some (x, (⟨i, st', buf', comp', last'⟩ : RecSt σ)) = some (r, s') →
              (SUB ∈ buf' → SUB ∈ buf ∨ r1 = some SUB) → (comp' = some SUB → comp = some SUB ∨ r1 = some SUB) →
              (x = some SUB → comp = some SUB ∨ r1 = some SUB) →
              (F it.iter.iter → F s'.iter.iter.iter) ∧
              (RecInv I F ⟨it, .composing, buf, comp, last⟩ → RecInv I F s' ∧ (r = some SUB → F s'.iter.iter.iter)) := by
            intro x st' buf' comp' last' hr q1 q2 q3
            simp only [Option.some.injEq, Prod.mk.injEq] at hr
            rw [← hr.2, ← hr.1]
            refine ⟨k0, fun ⟨h1, h2, h3⟩ => ⟨⟨k1 h1, fun hm => ?_, fun hm => ?_⟩, fun hm => ?_⟩⟩
            · rcases q1 hm with q | q
              · exact k0 (h2 q)
              · exact k2 h1 q
            · rcases q2 hm with q | q
              · exact k0 (h3 q)
              · exact k2 h1 q
            · rcases q3 hm with q | q
              · exact k0 (h3 q)
              · exact k2 h1 q
          cases r1 with
          | none =>
            simp only [hn] at hs
            cases comp with
            | some k => exact ret hs Or.inl (by simp) Or.inl
            | none => exact again hs Or.inl Or.inl
          | some ch =>
            simp only [hn] at hs
            have hpush : SUB ∈ buf ++ [ch] → SUB ∈ buf ∨ some ch = some SUB := by
              intro hm
              rcases List.mem_append.1 hm with hm | hm
              · exact Or.inl hm
              · exact Or.inr (by rw [List.mem_singleton.1 hm])
            have hcomp : ∀ {k k'}, U.compose k ch = some k' → some k' = some SUB → comp = some SUB ∨ some ch = some SUB := by
              intro k k' hq he
              rw [he] at hq
              exact absurd hq (hc k ch)
            cases comp with
            | none =>
              simp only at hs
              split at hs
              · exact ret hs Or.inl Or.inl Or.inr
              · exact again hs Or.inl Or.inr
            | some k =>
              cases last with
              | none =>
                simp only at hs
                split at hs
                · rename_i hq; exact again hs Or.inl (hcomp hq)
                · split at hs
                  · exact ret hs Or.inl Or.inr Or.inl
                  · exact again hs hpush Or.inl
              | some l =>
                simp only at hs
                split at hs
                · split at hs
                  · exact ret hs Or.inl Or.inr Or.inl
                  · exact again hs hpush Or.inl
                · split at hs
                  · rename_i hq; exact again hs Or.inl (hcomp hq)
                  · exact again hs hpush Or.inl
      | purging n =>
        simp only at hs
        split at hs
        · obtain ⟨a1, a2⟩ := ih hs
          exact ⟨a1, fun ⟨h1, h2, h3⟩ => a2 ⟨h1, by simp, h3⟩⟩
        · rename_i c hg
          simp only [Option.some.injEq, Prod.mk.injEq] at hs
          rw [← hs.2, ← hs.1]
          refine ⟨id, fun ⟨h1, h2, h3⟩ => ⟨⟨h1, h2, h3⟩, fun he => h2 ?_⟩⟩
          rw [← Option.some.inj he]; exact List.mem_of_getElem? hg
      | finished n =>
        simp only at hs
        split at hs
        · simp only [Option.some.injEq, Prod.mk.injEq] at hs
          rw [← hs.2, ← hs.1]
          exact ⟨id, fun ⟨h1, h2, h3⟩ => ⟨⟨h1, by simp, by simp⟩, h3⟩⟩
        · rename_i c hg
          simp only [Option.some.injEq, Prod.mk.injEq] at hs
          rw [← hs.2, ← hs.1]
          refine ⟨id, fun ⟨h1, h2, h3⟩ => ⟨⟨h1, h2, h3⟩, fun he => h2 ?_⟩⟩
          rw [← Option.some.inj he]; exact List.mem_of_getElem? hg
  exact ⟨fun hI hs => ((key hs).2 hI).1, fun hF hs => (key hs).1 hF, fun hI hs => ((key hs).2 hI).2 rfl⟩

/-- The invariant of the chain. -/
def ChainInv (I F : σ → Prop) (s : ChainSt σ) : Prop :=
  RecInv (fun s : SafeSt (CjkSt (IsoSt σ)) =>
    (fun s : CjkSt (IsoSt σ) =>
      (fun s : IsoSt σ => I s.iter.iter ∧ (s.deferred = some SUB → F s.iter.iter)) s.iter ∧
        (SUB ∈ s.buffer → F s.iter.iter.iter)) s.iter ∧
      (s.buffer = some SUB → F s.iter.iter.iter.iter)) (fun s => F s.iter.iter.iter.iter) s

theorem cell_chain (hU : TextLaws U) (h : CellLaw next I F) :
    CellLaw (chainNext U next) (ChainInv I F) (fun s => F s.base) := by
  have hs := hU.ctl_inert SUB (by decide)
  have hc : ∀ k b, U.compose k b ≠ some SUB := by
    intro k b hk
    have := (okChar_check.1 (hU.ok_compose _ _ _ hk)).1
    have h2 := check_sub
    rw [this] at h2; simp at h2
  exact cell_rec hs.only hc (cell_safe (cell_cjk hs.cjk_only (cell_iso h)))

theorem ChainInv.base {s : ChainSt σ} (h : ChainInv I F s) : I s.base := h.1.1.1.1.1

theorem chainInv_new {i : σ} (h : I i) : ChainInv I F (ChainSt.new i) := by
  refine ⟨⟨⟨⟨⟨h, ?_⟩, ?_⟩, ?_⟩, ?_⟩, ?_, ?_⟩ <;> simp [ChainSt.new, IsoSt.new]

end

/-! ## The state machine -/

/-- What a text error says: it is the complaint about some scalar of `s`, or about an escape. -/
def Blames (w : Writer) (s : List Char) (e : BasicTextError) : Prop :=
  (∃ c ∈ s, checkChar c = some e) ∨ (e = .escape ∧ ESC ∈ s ∧ w.ansi = false) ∨
    (e = .unrecognizedEscape ∧ (w.ansi = true ∨ ∀ g, w.state ≠ .ground g))

theorem putCharE_out (error : Option BasicTextError) (w : Writer) (c : Char) :
    (putCharE error w c).1 = (putChar error.isSome w c).1 ∧ (putCharE error w c).2.out = (putChar error.isSome w c).2 := by
  have h1 : ESC ≠ '\n' := by decide
  have h2 : ESC ≠ SUB := by decide
  unfold putCharE putChar
  cases w.state with
  | ground g =>
    by_cases hE : c = ESC
    · subst hE
      cases w.ansi <;> simp [h1, h2, OutE.out]
    · by_cases hn : c = '\n'
      · simp [hn, OutE.out, h1.symm]
      · by_cases hS : c = SUB
        · subst hS
          cases error <;> simp [hE, hn, OutE.out]
        · simp [hE, hn, hS, OutE.out]
  | esc => simp only; split <;> simp [OutE.out]
  | csi => simp only; split; simp [OutE.out]; split <;> simp [OutE.out]

theorem putCharE_cases (error : Option BasicTextError) (w : Writer) (c : Char) {w' : Writer} {o : OutE}
    (h : putCharE error w c = (w', o)) :
    (o = .ok ∧ w'.ansi = w.ansi ∧ (w.ansi = false → (∃ g, w.state = .ground g) → ∃ g, w'.state = .ground g)) ∨
    (o = .panic ∧ c = SUB ∧ error = none) ∨
    (∃ e, o = .text e ∧ (c = SUB ∧ error = some e ∨ e = .escape ∧ c = ESC ∧ w.ansi = false ∨
      e = .unrecognizedEscape ∧ ∀ g, w.state ≠ .ground g)) := by
  unfold putCharE at h
  cases hs : w.state with
  | ground g =>
    simp only [hs] at h
    split at h
    · rename_i hc
      simp only [Prod.mk.injEq] at h
      left; rw [← h.1, ← h.2]
      exact ⟨rfl, rfl, fun h0 => absurd hc.2 (by simp [h0])⟩
    · rename_i hc
      split at h
      · simp only [Prod.mk.injEq] at h
        left; rw [← h.1, ← h.2]
        exact ⟨rfl, rfl, fun _ _ => ⟨_, rfl⟩⟩
      · split at h
        · rename_i hS
          split at h
          · simp only [Prod.mk.injEq] at h
            rename_i e
            right; right; exact ⟨e, h.2.symm, Or.inl ⟨hS, rfl⟩⟩
          · simp only [Prod.mk.injEq] at h
            right; left; exact ⟨h.2.symm, hS, rfl⟩
        · split at h
          · rename_i hE
            simp only [Prod.mk.injEq] at h
            right; right
            refine ⟨_, h.2.symm, Or.inr (Or.inl ⟨rfl, hE, ?_⟩)⟩
            cases ha : w.ansi with
            | false => rfl
            | true => exact absurd ⟨hE, ha⟩ hc
          · simp only [Prod.mk.injEq] at h
            left; rw [← h.1, ← h.2]
            exact ⟨rfl, rfl, fun _ _ => ⟨_, rfl⟩⟩
  | esc =>
    simp only [hs] at h
    split at h <;> simp only [Prod.mk.injEq] at h
    · left; rw [← h.1, ← h.2]; exact ⟨rfl, rfl, by simp⟩
    · right; right; exact ⟨_, h.2.symm, Or.inr (Or.inr ⟨rfl, by simp⟩)⟩
  | csi =>
    simp only [hs] at h
    split at h
    · simp only [Prod.mk.injEq] at h
      left; rw [← h.1, ← h.2]; exact ⟨rfl, rfl, by simp⟩
    · split at h <;> simp only [Prod.mk.injEq] at h
      · left; rw [← h.1, ← h.2]; exact ⟨rfl, rfl, by simp⟩
      · right; right; exact ⟨_, h.2.symm, Or.inr (Or.inr ⟨rfl, by simp⟩)⟩

theorem putChar_rej {w : Writer} {c : Char} (h : c ≠ SUB) (r r' : Bool) : putChar r w c = putChar r' w c := by
  unfold putChar
  simp [h]

theorem putAll_rej : ∀ (l : List Char) (w : Writer), SUB ∉ l → ∀ r r' : Bool, putAll r w l = putAll r' w l
  | [], _, _, _, _ => rfl
  | c :: l, w, h, r, r' => by
    simp only [List.mem_cons, not_or] at h
    unfold putAll
    rw [putChar_rej (Ne.symm h.1) r r']
    cases putChar r' w c with
    | mk w' o => cases o <;> simp [putAll_rej l w' h.2 r r']

/-- The loop over an iterator does what the loop over the list of its items does, and its error is to blame on
something that was pulled. -/
theorem putPull_spec {next : Iter σ} {I : σ → Prop} {error : σ → Option BasicTextError}
    (hL : CellLaw next I (fun s => (error s).isSome = true)) {B : BasicTextError → Prop}
    (hB : ∀ s e, I s → error s = some e → B e) {s : σ} {l : List Char} (hy : Yields next s l) :
    ∀ w : Writer, I s → ∃ n, ∃ r : Writer × OutE, (∀ f ≥ n, putPull next error f w s = some r) ∧
      (r.1, r.2.out) = putAll true w l ∧ (r.2 = .ok ∨ ∃ e, r.2 = .text e) ∧
      ∀ e, r.2 = .text e → B e ∨ (e = .escape ∧ ESC ∈ l ∧ w.ansi = false) ∨
        (e = .unrecognizedEscape ∧ (w.ansi = true ∨ ∀ g, w.state ≠ .ground g)) := by
  induction hy with
  | @nil s s' h =>
    intro w hI
    obtain ⟨n, hn⟩ := h
    refine ⟨n + 1, (w, .ok), fun f hf => ?_, rfl, Or.inl rfl, by simp⟩
    obtain ⟨f, rfl⟩ : ∃ g, f = g + 1 := ⟨f - 1, by omega⟩
    simp [putPull, hn f (by omega)]
  | @cons s s' c l h _ ih =>
    intro w hI
    obtain ⟨n, hn⟩ := h
    have hI' : I s' := hL.keep hI (hn n (Nat.le_refl _))
    have hF : c = SUB → (error s').isSome = true := fun hc => by subst hc; exact hL.sub hI (hn n (Nat.le_refl _))
    have e1 := putCharE_out (error s') w c
    have e2 : putChar (error s').isSome w c = putChar true w c := by
      by_cases hc : c = SUB
      · rw [hF hc]
      · exact putChar_rej hc _ _
    cases hp : putCharE (error s') w c with
    | mk w' o =>
      have e3 : putChar true w c = (w', o.out) := by rw [← e2, Prod.ext_iff]; rw [hp] at e1; exact ⟨e1.1.symm, e1.2.symm⟩
      rcases putCharE_cases _ _ _ hp with ⟨rfl, ha, hg⟩ | ⟨rfl, hc, he⟩ | ⟨e, rfl, hc⟩
      · obtain ⟨m, r, i1, i2, i4, i3⟩ := ih w' hI'
        refine ⟨max n m + 1, r, fun f hf => ?_, ?_, i4, fun e he => ?_⟩
        · obtain ⟨f, rfl⟩ : ∃ g, f = g + 1 := ⟨f - 1, by omega⟩
          simp [putPull, hn f (by omega), hp, i1 f (by omega)]
        · simp only [putAll, e3, OutE.out]; exact i2
        · rcases i3 e he with h | ⟨h1, h2, h3⟩ | ⟨h1, h2⟩
          · exact Or.inl h
          · exact Or.inr (Or.inl ⟨h1, by simp [h2], by rw [← ha]; exact h3⟩)
          · refine Or.inr (Or.inr ⟨h1, ?_⟩)
            rw [← ha]
            rcases h2 with h2 | h2
            · exact Or.inl h2
            · by_cases hx : w'.ansi = true
              · exact Or.inl hx
              · right
                intro g hgr
                obtain ⟨g', hg'⟩ := hg (by rw [← ha]; simpa using hx) ⟨g, hgr⟩
                exact h2 g' hg'
      · have := hF hc
        rw [he] at this; simp at this
      · refine ⟨n + 1, (w', .text e), fun f hf => ?_, ?_, Or.inr ⟨e, rfl⟩, fun e' he => ?_⟩
        · obtain ⟨f, rfl⟩ : ∃ g, f = g + 1 := ⟨f - 1, by omega⟩
          simp [putPull, hn f (by omega), hp]
        · simp only [putAll, e3, OutE.out]
        · simp only [OutE.text.injEq] at he
          subst he
          rcases hc with ⟨_, h2⟩ | ⟨h1, h2, h3⟩ | ⟨h1, h2⟩
          · exact Or.inl (hB s' e hI' h2)
          · exact Or.inr (Or.inl ⟨h1, by simp [h2], h3⟩)
          · exact Or.inr (Or.inr ⟨h1, Or.inr h2⟩)

theorem catInv_blames {s0 : List Char} {s : CatSt} {e : BasicTextError} (h : CatInv s0 s) (he : s.error = some e) :
    ∃ c ∈ s0, checkChar c = some e := by
  obtain ⟨seen, h1, h2⟩ := h
  rw [he] at h2
  have hm := List.mem_of_getLast? h2.symm
  obtain ⟨c, hc, hx⟩ := List.mem_filterMap.1 hm
  exact ⟨c, by rw [h1]; simp [hc], hx⟩

theorem esc_categorize {s : List Char} (h : ESC ∈ categorize s) : ESC ∈ s := by
  simp only [categorize, List.mem_map] at h
  obtain ⟨c, hc, he⟩ := h
  split at he
  · exact absurd he (by decide)
  · rw [← he]; exact hc

theorem stateMachine_true (hU : TextLaws U) (w : Writer) (s : List Char) :
    stateMachine U w s = putAll true w (if U.quick s = .yes ∧ s.all U.assigned = true then categorize s
      else normChain U (categorize s)) := by
  unfold stateMachine
  by_cases hr : (s.any fun c => (checkChar c).isSome) = true
  · simp only [hr]; split <;> rfl
  · have hr' : (s.any fun c => (checkChar c).isSome) = false := by simpa using hr
    have hns : SUB ∉ categorize s := by
      intro hm
      simp only [categorize, List.mem_map] at hm
      obtain ⟨c, hc, he⟩ := hm
      have hcn : (checkChar c).isSome = false := by
        have := List.any_eq_false.1 hr' c hc
        simpa using this
      rw [hcn] at he
      simp at he
      subst he
      have := check_sub
      rw [hcn] at this; simp at this
    simp only [hr']
    split
    · exact putAll_rej _ _ hns _ _
    · exact putAll_rej _ _ (fun hm => hns (mem_normChain_inert hU (hU.ctl_inert SUB (by decide)) (by decide) hm)) _ _

theorem stateMachineE_spec (hU : TextLaws U) (w : Writer) (s : List Char) :
    ∃ n, ∃ r : Writer × OutE, (∀ f ≥ n, stateMachineE U f w s = some r) ∧ (r.1, r.2.out) = stateMachine U w s ∧
      (r.2 = .ok ∨ ∃ e, r.2 = .text e) ∧ ∀ e, r.2 = .text e → Blames w s e := by
  rw [stateMachine_true hU]
  by_cases hq : U.quick s = .yes ∧ s.all U.assigned = true
  · obtain ⟨n, r, h1, h2, h4, h3⟩ := putPull_spec (cell_cat s) (B := fun e => ∃ c ∈ s, checkChar c = some e)
      (fun t e hI he => catInv_blames hI he) (yields_cat s none) w ⟨[], rfl, rfl⟩
    refine ⟨n, r, fun f hf => by rw [stateMachineE, if_pos hq]; exact h1 f hf, by rw [if_pos hq]; exact h2, h4, fun e he => ?_⟩
    rcases h3 e he with h | ⟨a, b, c⟩ | h
    · exact Or.inl h
    · exact Or.inr (Or.inl ⟨a, esc_categorize b, c⟩)
    · exact Or.inr (Or.inr h)
  · obtain ⟨n, r, h1, h2, h4, h3⟩ := putPull_spec (error := fun t : ChainSt CatSt => t.base.error) (cell_chain hU (cell_cat s))
      (B := fun e => ∃ c ∈ s, checkChar c = some e)
      (fun t e hI he => catInv_blames hI.base he) (yields_chain hU (yields_cat s none)) w (chainInv_new ⟨[], rfl, rfl⟩)
    refine ⟨n, r, fun f hf => by rw [stateMachineE, if_neg hq]; exact h1 f hf, by rw [if_neg hq]; exact h2, h4, fun e he => ?_⟩
    rcases h3 e he with h | ⟨a, b, c⟩ | h
    · exact Or.inl h
    · exact Or.inr (Or.inl ⟨a, esc_categorize (mem_normChain_inert hU (hU.ctl_inert ESC (by decide)) (by decide) b), c⟩)
    · exact Or.inr (Or.inr h)

/-! ## A write -/

theorem writeBufferE_out (U : Ucd) (w : Writer) : ((writeBufferE U w).1, (writeBufferE U w).2.out) = writeBuffer U w := by
  unfold writeBufferE writeBuffer
  simp only
  split
  · rfl
  · split <;> (rename_i h; simp [h, OutE.out])

theorem out_ok {o : OutE} (h : o.out = .ok) : o = .ok := by cases o <;> simp_all [OutE.out]

theorem crlf_fail {w1 : Writer} {o : OutE} {l : List (List Char)} (ho : o ≠ .ok) :
    (w1, o.out) = match (w1, o.out) with
      | (w, .ok) => crlfRest U w l
      | r => r := by
  cases o <;> simp_all [OutE.out]

/-- A later slice of a write in CRLF mode. -/
theorem crlfRestE_spec (hU : TextLaws U) : ∀ (l : List (List Char)) (w : Writer),
    ∃ n, ∃ r : Writer × OutE, (∀ f ≥ n, crlfRestE U f w l = some r) ∧ (r.1, r.2.out) = crlfRest U w l ∧
      (r.2 = .ok ∨ ∃ e, r.2 = .text e) ∧
      ∀ e, r.2 = .text e → ∃ x ∈ l, Blames { w with state := .ground .newline } x e
  | [], w => ⟨0, (w, .ok), fun _ _ => rfl, rfl, Or.inl rfl, by simp⟩
  | x :: l, w => by
    obtain ⟨n, ⟨w1, o⟩, h1, h2, h4, h3⟩ := stateMachineE_spec hU w.crlfNl x
    rw [crlfRest_cons, ← h2]
    by_cases ho : o = .ok
    · subst ho
      obtain ⟨m, r, i1, i2, i4, i3⟩ := crlfRestE_spec hU l w1
      have hs := (putAll_ok (stateMachine_ok hU h2.symm).2).1
      have ha : w1.ansi = w.ansi := hs.ansi
      refine ⟨max n m, r, fun f hf => ?_, ?_, i4, fun e he => ?_⟩
      · have q := h1 f (by omega)
        simp only [Writer.crlfNl] at q
        simp [crlfRestE, q, i1 f (by omega)]
      · simp only [OutE.out]; exact i2
      · obtain ⟨y, hy, hb⟩ := i3 e he
        refine ⟨y, by simp [hy], ?_⟩
        simp only [Blames, ha] at hb ⊢
        exact hb
    · refine ⟨n, (w1, o), fun f hf => ?_, crlf_fail ho, h4, fun e he => ⟨x, by simp, ?_⟩⟩
      · have q := h1 f (by omega)
        simp only [Writer.crlfNl] at q
        cases o <;> simp_all [crlfRestE]
      · have := h3 e he
        simp only [Blames, Writer.crlfNl] at this ⊢
        exact this

theorem mem_splitNl {s x : List Char} {c : Char} (hx : x ∈ splitNl s) (hc : c ∈ x) : c ∈ s := by
  induction s generalizing x with
  | nil => simp [splitNl] at hx; subst hx; simp at hc
  | cons d s ih =>
    unfold splitNl at hx
    split at hx
    · rcases List.mem_cons.1 hx with rfl | hx
      · simp at hc
      · exact List.mem_cons_of_mem _ (ih hx hc)
    · split at hx
      · rename_i y ys hy
        rcases List.mem_cons.1 hx with rfl | hx
        · rcases List.mem_cons.1 hc with rfl | hc
          · simp
          · exact List.mem_cons_of_mem _ (ih (by rw [hy]; simp) hc)
        · exact List.mem_cons_of_mem _ (ih (by rw [hy]; simp [hx]) hc)
      · rename_i hy
        exact absurd hy (splitNl_ne s)

theorem Blames.split {w : Writer} {s x : List Char} {e : BasicTextError} (hx : x ∈ splitNl s) (h : Blames w x e) : Blames w s e := by
  rcases h with ⟨c, hc, h⟩ | ⟨h1, h2, h3⟩ | h
  · exact Or.inl ⟨c, mem_splitNl hx hc, h⟩
  · exact Or.inr (Or.inl ⟨h1, mem_splitNl hx h2, h3⟩)
  · exact Or.inr (Or.inr h)

/-- Filling the buffer. -/
theorem prepE_spec (hU : TextLaws U) (w : Writer) (s : List Char) :
    ∃ n, ∃ r : Writer × OutE, (∀ f ≥ n, (if w.crlf then crlfLoopE U f w (splitNl s) else stateMachineE U f w s) = some r) ∧
      (r.1, r.2.out) = prepStr U w s ∧ (r.2 = .ok ∨ ∃ e, r.2 = .text e) ∧ ∀ e, r.2 = .text e → Blames w s e := by
  unfold prepStr
  by_cases hc : w.crlf = true
  · simp only [hc, if_true]
    cases hs : splitNl s with
    | nil => exact absurd hs (splitNl_ne s)
    | cons x xs =>
      have hx : x ∈ splitNl s := by rw [hs]; simp
      obtain ⟨n, ⟨w1, o⟩, h1, h2, h4, h3⟩ := stateMachineE_spec hU w x
      rw [crlfLoop_cons, ← h2]
      by_cases ho : o = .ok
      · subst ho
        obtain ⟨m, r, i1, i2, i4, i3⟩ := crlfRestE_spec hU xs w1
        have ha : w1.ansi = w.ansi := (putAll_ok (stateMachine_ok hU h2.symm).2).1.ansi
        refine ⟨max n m, r, fun f hf => ?_, ?_, i4, fun e he => ?_⟩
        · simp [crlfLoopE, h1 f (by omega), i1 f (by omega)]
        · simp only [OutE.out]; exact i2
        · obtain ⟨y, hy, hb⟩ := i3 e he
          have hy' : y ∈ splitNl s := by rw [hs]; simp [hy]
          have := hb.split hy'
          rcases this with h | ⟨q1, q2, q3⟩ | ⟨q1, q2⟩
          · exact Or.inl h
          · exact Or.inr (Or.inl ⟨q1, q2, by rw [← ha]; exact q3⟩)
          · refine Or.inr (Or.inr ⟨q1, Or.inl ?_⟩)
            rcases q2 with q2 | q2
            · rw [← ha]; exact q2
            · exact absurd rfl (q2 .newline)
      · refine ⟨n, (w1, o), fun f hf => ?_, crlf_fail ho, h4, fun e he => (h3 e he).split hx⟩
        have q := h1 f (by omega)
        cases o <;> simp_all [crlfLoopE]
  · simp only [hc]
    exact stateMachineE_spec hU w s

/-- A write over the iterator chain does what the model over lists says, and the error it reports is accounted for. -/
theorem writeStrE_spec (hU : TextLaws U) (w : Writer) (s : List Char) :
    ∃ n, ∃ r : Writer × OutE, (∀ f ≥ n, writeStrE U f w s = some r) ∧ (r.1, r.2.out) = writeStr U w s ∧
      ((∃ e, r.2 = .text e) ↔ (prepStr U w s).2 ≠ .ok) ∧ r.2 ≠ .panic ∧
      (∀ e, r.2 = .text e → Blames w s e) ∧ (r.2 = .start → w.expectStarter = true) ∧
      (r.2 = .sink → (w.sink.writeStr (prepStr U w s).1.buffer).2 = false) := by
  obtain ⟨n, ⟨w1, o⟩, h1, h2, h4, h3⟩ := prepE_spec hU w s
  have hw : writeStr U w s = match prepStr U w s with
      | (w, .ok) => writeBuffer U w
      | r => r := rfl
  rw [hw, ← h2]
  rcases h4 with ho | ⟨e, ho⟩ <;> simp only at ho <;> subst ho
  · have hs := (prepStr_ok hU h2.symm).1
    refine ⟨n, writeBufferE U w1, fun f hf => ?_, ?_, ?_, ?_, ?_, ?_, ?_⟩
    · simp [writeStrE, h1 f hf]
    · simp only [OutE.out]; exact writeBufferE_out U w1
    · simp only [OutE.out, ne_eq, not_true_eq_false, iff_false]
      rintro ⟨e, he⟩
      unfold writeBufferE at he
      simp only at he
      split at he
      · simp at he
      · split at he <;> simp at he
    · unfold writeBufferE
      simp only
      split
      · simp
      · split <;> simp
    · intro e he
      unfold writeBufferE at he
      simp only at he
      split at he
      · simp at he
      · split at he <;> simp at he
    · intro he
      unfold writeBufferE at he
      simp only at he
      split at he
      · rename_i hb
        rw [← hs.expect]
        simp at hb
        exact hb.1
      · split at he <;> simp at he
    · intro he
      unfold writeBufferE at he
      simp only at he
      split at he
      · simp at he
      · split at he
        · simp at he
        · rename_i hx
          simp only
          rw [hs.sink] at hx
          rw [hx]
  · refine ⟨n, (w1, .text e), fun f hf => ?_, ?_, ?_, by simp, h3, by simp, by simp⟩
    · simp [writeStrE, h1 f hf]
    · simp [OutE.out]
    · simp [OutE.out]

end Verif
