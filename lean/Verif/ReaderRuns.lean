import Verif.CtlTheory

/-!
# Sequences of reads
-/

namespace Verif
open Ucd
variable {U : Ucd}

/-- A client calling `read_with_status` with buffers of the given lengths, one after the other. -/
def readMany (U : Ucd) : List Nat → TextInput → List Event → List ReadResult
  | [], _, _ => []
  | len :: lens, t, src =>
    let r := readWithStatus U len t src
    r :: readMany U lens r.input r.src

/-- A call that returned `Ok`. -/
def Ret.isOk : Ret → Bool
  | .ok _ _ => true
  | _ => false

/-- The text the calls have delivered: what successful calls wrote to their buffers. -/
def delivered (rs : List ReadResult) : List Char := rs.flatMap fun r => if r.ret.isOk then r.out else []

/-- The same including the buffers of calls that returned an error. -/
def written (rs : List ReadResult) : List Char := rs.flatMap (·.out)

/-- The reader and source after the calls. -/
def finalState (t : TextInput) (src : List Event) (rs : List ReadResult) : TextInput × List Event :=
  match rs.getLast? with
  | some r => (r.input, r.src)
  | none => (t, src)

theorem finalState_cons {t : TextInput} {src : List Event} {r : ReadResult} {rs : List ReadResult} :
    finalState t src (r :: rs) = finalState r.input r.src rs := by
  unfold finalState
  rw [List.getLast?_cons]
  cases rs.getLast? <;> simp

def eof : Event := .data [] .end_

/-- `es` are the results of the inner reads made so far. -/
def Hist (src es src' : List Event) : Prop := ∃ m, es ++ src' = src ++ List.replicate m eof ∧ (m ≠ 0 → src' = [])

theorem Hist.refl (src : List Event) : Hist src [] src := ⟨0, by simp, by simp⟩

theorem Consumed.hist {a e b : List Event} (h : Consumed a e b) : Hist a e b := by
  cases h with
  | none => exact .refl _
  | one e src => exact ⟨0, by simp, by simp⟩
  | eof => exact ⟨1, by simp [Verif.eof], by simp⟩

theorem Hist.trans {a b c e f : List Event} (h1 : Hist a e b) (h2 : Hist b f c) : Hist a (e ++ f) c := by
  obtain ⟨m, h1, h1'⟩ := h1
  obtain ⟨n, h2, h2'⟩ := h2
  refine ⟨m + n, ?_, ?_⟩
  · rw [List.append_assoc, h2, ← List.append_assoc, h1, List.append_assoc]
    congr 1
    rw [List.replicate_append_replicate]
  · intro h
    by_cases hn : n = 0
    · have := h1' (by omega)
      subst hn
      simp only [List.replicate_zero, List.append_nil] at h2
      rw [this] at h2
      exact (List.append_eq_nil_iff.1 h2).2
    · exact h2' hn

theorem Consumed.cases {a e b : List Event} (h : Consumed a e b) : e = [] ∨ ∃ x, e = [x] := by
  cases h
  · exact Or.inl rfl
  · exact Or.inr ⟨_, rfl⟩
  · exact Or.inr ⟨_, rfl⟩

theorem finalState_append {t : TextInput} {src : List Event} {a b : List ReadResult} :
    finalState t src (a ++ b) = finalState (finalState t src a).1 (finalState t src a).2 b := by
  induction a generalizing t src with
  | nil => rfl
  | cons r a ih => rw [List.cons_append, finalState_cons, finalState_cons, ih]

theorem readMany_append (a b : List Nat) (t : TextInput) (src : List Event) :
    readMany U (a ++ b) t src = readMany U a t src ++
      readMany U b (finalState t src (readMany U a t src)).1 (finalState t src (readMany U a t src)).2 := by
  induction a generalizing t src with
  | nil => rfl
  | cons n a ih => simp only [List.cons_append, readMany, ih, finalState_cons]

/-- The relation is kept over any number of reads, and none of them panics. -/
theorem run_rel (hU : TextLaws U) {k0 : Ctl} : ∀ (lens : List Nat) (t : TextInput) (src : List Event) (emitted : List Char)
    (es : List Event), Rel U k0 t emitted es →
    ∃ es', Hist src es' (finalState t src (readMany U lens t src)).2 ∧
      Rel U k0 (finalState t src (readMany U lens t src)).1 (emitted ++ written (readMany U lens t src)) (es ++ es') ∧
      ((∀ e ∈ es', e ≠ .err) → delivered (readMany U lens t src) = written (readMany U lens t src)) ∧
      ∀ r ∈ readMany U lens t src, r.ret ≠ .panic := by
  intro lens
  induction lens with
  | nil =>
    intro t src emitted es h
    exact ⟨[], .refl _, by simpa [readMany, written, finalState] using h, by simp [readMany, delivered, written], by simp [readMany]⟩
  | cons len lens ih =>
    intro t src emitted es h
    rw [readMany]
    generalize hr : readWithStatus U len t src = r
    obtain ⟨h1, h2⟩ := read_rel hU h hr
    by_cases hl : len < normalizationBufferSize
    · have h1 := h1 hl
      have hi : r.input = t := by rw [h1]
      have ho : r.out = [] := by rw [h1]
      have hs : r.src = src := by rw [h1]
      have hret : r.ret = .invalidInput := by rw [h1]
      obtain ⟨es', j1, j2, j3, j4⟩ := ih t src emitted es h
      rw [finalState_cons, hi, hs]
      refine ⟨es', j1, by simpa [written, ho] using j2, ?_, ?_⟩
      · intro he
        have := j3 he
        simpa [delivered, written, ho] using this
      · intro r' hr'
        simp only [List.mem_cons] at hr'
        rcases hr' with rfl | hr'
        · rw [hret]; simp
        · exact j4 r' hr'
    · obtain ⟨e1, c1, c2, c3, c4, c5, -, -⟩ := h2 (by omega)
      obtain ⟨es', j1, j2, j3, j4⟩ := ih r.input r.src _ _ c2
      rw [finalState_cons]
      refine ⟨e1 ++ es', c1.hist.trans j1, by simpa [written, List.append_assoc] using j2, ?_, ?_⟩
      · intro he
        have h3 := j3 (fun e h => he e (by simp [h]))
        have hne : e1 ≠ [.err] := fun hc => he .err (by simp [hc]) rfl
        obtain ⟨st, hok, -⟩ := c5 hne
        have : r.ret.isOk = true := by rw [hok]; rfl
        simp only [delivered, written, List.flatMap_cons, this, if_true] at h3 ⊢
        rw [h3]
      · intro r' hr'
        simp only [List.mem_cons] at hr'
        rcases hr' with rfl | hr'
        · by_cases he : e1 = [.err]
          · rw [c4 he]; simp
          · obtain ⟨st, hok, -⟩ := c5 he
            rw [hok]; simp
        · exact j4 r' hr'

/-- When the last call reports push or end, that is the status of the last inner read, and nothing is
left to be taken from the queue. -/
theorem run_last (hU : TextLaws U) {k0 : Ctl} {lens : List Nat} {t : TextInput} {src : List Event} {emitted : List Char}
    {es : List Event} (h : Rel U k0 t emitted es) {r : ReadResult} (hr : (readMany U lens t src).getLast? = some r)
    {n : Nat} {st : Status} (hok : r.ret = .ok n st) (hst : st ≠ .active) :
    ∃ es' s, Hist src (es' ++ [.data s st]) (finalState t src (readMany U lens t src)).2 ∧
      Rel U k0 r.input (emitted ++ written (readMany U lens t src)) (es ++ (es' ++ [.data s st])) ∧ Idle r.input := by
  rcases List.eq_nil_or_concat lens with rfl | ⟨lens, len, rfl⟩
  · simp [readMany] at hr
  · rw [List.concat_eq_append] at hr ⊢
    have hs := readMany_append (U := U) lens [len] t src
    obtain ⟨es', j1, j2, -, -⟩ := run_rel hU lens t src emitted es h
    generalize finalState t src (readMany U lens t src) = f at hs j1 j2
    simp only [readMany] at hs
    rw [hs] at hr ⊢
    simp only [List.getLast?_append, List.getLast?_singleton, Option.some_or, Option.some.injEq] at hr
    obtain ⟨h1, h2⟩ := read_rel hU j2 hr
    rw [hr]
    have hnl : ¬ len < normalizationBufferSize := by
      intro hc
      rw [h1 hc] at hok
      simp at hok
    obtain ⟨e1, c1, c2, c3, c4, c5, -, -⟩ := h2 (by omega)
    have hne : e1 ≠ [.err] := by
      intro hc
      rw [c4 hc] at hok
      simp at hok
    obtain ⟨st', hok', hx⟩ := c5 hne
    rw [hok'] at hok
    injection hok with _ hst'
    subst hst'
    obtain ⟨⟨s, hs'⟩, hidle⟩ := hx hst
    subst hs'
    refine ⟨es', s, ?_, ?_, hidle⟩
    · have : finalState t src (readMany U lens t src ++ [r]) = (r.input, r.src) := by simp [finalState]
      rw [this]
      exact j1.trans c1.hist
    · simpa [written, List.append_assoc] using c2

end Verif
