import Verif.ReaderFacts

/-!
# Two readers in step

If two sources put the same scalars into the queue read by read, then every call on the two readers returns the same, whatever the
buffers: no proviso about where the reads end is needed.
-/

namespace Verif
open Ucd Spec
variable {U : Ucd}

/-- What one successful read of the source does to the control state, and the scalars it adds to a queue `q`. -/
def intake (U : Ucd) (k : Ctl) (q s : List Char) (st : Status) : Ctl × List Char :=
  let x := processRaw U k s
  if st ≠ .active then
    let y := finish x.1 (q ++ x.2).getLast? st
    (y.1, x.2 ++ y.2)
  else x

/-- Readers in step: sources and control states for which the reads of the source fare alike and queue the same scalars. -/
structure InStep (U : Ucd) (P : Ctl → List Event → Ctl → List Event → Prop) : Prop where
  expect : ∀ {k src k' src'}, P k src k' src' → P { k with expectStarter := true } src { k' with expectStarter := true } src'
  step : ∀ {k src k' src'}, P k src k' src' →
    ((nextEvent src).1 = .err ∧ (nextEvent src').1 = .err ∧ P k (nextEvent src).2 k' (nextEvent src').2) ∨
    ∃ s s' st, (nextEvent src).1 = .data s st ∧ (nextEvent src').1 = .data s' st ∧ ∀ q,
      (intake U k q s st).2 = (intake U k' q s' st).2 ∧ P (intake U k q s st).1 (nextEvent src).2 (intake U k' q s' st).1 (nextEvent src').2

theorem queueNext_with (t : TextInput) (k : Ctl) :
    queueNext U { t with ctl := k } = ((queueNext U t).1, { (queueNext U t).2 with ctl := k }) := by
  unfold queueNext
  simp only
  (repeat' split) <;> simp_all

theorem queueNext_ctl' (t : TextInput) : (queueNext U t).2.ctl = t.ctl := by
  unfold queueNext
  simp only
  (repeat' split) <;> rfl

theorem drain_with (k : Ctl) : ∀ (fuel room : Nat) (t : TextInput),
    drain U fuel room { t with ctl := k } = ((drain U fuel room t).1, (drain U fuel room t).2.1, { (drain U fuel room t).2.2 with ctl := k }) := by
  intro fuel
  induction fuel with
  | zero => intro room t; rfl
  | succ fuel ih =>
    intro room t
    rw [drain, drain, queueNext_with]
    generalize queueNext U t = x
    obtain ⟨c, t1⟩ := x
    cases c with
    | none => rfl
    | some c =>
      simp only
      split
      · rfl
      · split
        · rfl
        · rw [ih]

theorem drain_ctl' : ∀ (fuel room : Nat) (t : TextInput), (drain U fuel room t).2.2.ctl = t.ctl := by
  intro fuel
  induction fuel with
  | zero => intro room t; rfl
  | succ fuel ih =>
    intro room t
    have hq := queueNext_ctl' (U := U) t
    rw [drain]
    generalize queueNext U t = x at hq
    obtain ⟨c, t1⟩ := x
    cases c with
    | none => exact hq
    | some c =>
      simp only
      split
      · exact hq
      · split
        · exact hq
        · simp only; rw [ih]; exact hq

/-- The part of a read that comes after the inner read. -/
def afterRead (U : Ucd) (len : Nat) (out : List Char) (t : TextInput) (status : Status) (src : List Event) : ReadResult :=
  match drain U (len + 1) (len - (encode out).length) t with
  | (.panic, out', t) => { ret := .panic, out := out ++ out', input := t, src }
  | (.empty, out', t) =>
    { ret := .ok (encode (out ++ out')).length status, out := out ++ out',
      input := if status ≠ .active then { t with ctl := { t.ctl with expectStarter := true } } else t, src }
  | (.full, out', t) =>
    { ret := .ok (encode (out ++ out')).length .active, out := out ++ out', input := { t with pending := status }, src }

theorem readWithStatus_intake (len : Nat) (t : TextInput) (src : List Event) :
    readWithStatus U len t src =
      if len < normalizationBufferSize then { ret := .invalidInput, out := [], input := t, src }
      else match drain U (len + 1) len t with
        | (.panic, out, t) => { ret := .panic, out, input := t, src }
        | (.full, out, t) => { ret := .ok (encode out).length .active, out, input := t, src }
        | (.empty, out, t) =>
          if t.pending ≠ .active then
            { ret := .ok (encode out).length .active, out, input := { t with pending := .active, ctl := { t.ctl with expectStarter := true } }, src }
          else match nextEvent src with
            | (.err, src) => { ret := .sourceError, out, input := t, src }
            | (.data s status, src) =>
              afterRead U len out { t with ctl := (intake U t.ctl t.queue s status).1, queue := t.queue ++ (intake U t.ctl t.queue s status).2 } status src := by
  unfold readWithStatus
  split
  · rfl
  generalize drain U (len + 1) len t = x
  obtain ⟨st, out, t1⟩ := x
  cases st with
  | panic => rfl
  | full => rfl
  | empty =>
    simp only
    split
    · rfl
    · generalize nextEvent src = e
      obtain ⟨e, r⟩ := e
      cases e with
      | err => rfl
      | data s st =>
        simp only [afterRead, intake]
        generalize processRaw U t1.ctl s = y
        obtain ⟨k, o⟩ := y
        simp only
        by_cases hst : st ≠ .active
        · simp only [if_pos hst, List.append_assoc]
          generalize drain U (len + 1) (len - (encode out).length) _ = d
          obtain ⟨d, o', t2⟩ := d
          cases d <;> rfl
        · simp only [if_neg hst]
          generalize drain U (len + 1) (len - (encode out).length) _ = d
          obtain ⟨d, o', t2⟩ := d
          cases d <;> rfl

theorem afterRead_with (len : Nat) (out : List Char) (t : TextInput) (k : Ctl) (st : Status) (src src' : List Event) :
    (afterRead U len out { t with ctl := k } st src').ret = (afterRead U len out t st src).ret ∧
    (afterRead U len out { t with ctl := k } st src').out = (afterRead U len out t st src).out ∧
    (afterRead U len out t st src).src = src ∧
    ((afterRead U len out t st src).input.ctl = t.ctl ∧ (afterRead U len out { t with ctl := k } st src').input = { (afterRead U len out t st src).input with ctl := k } ∨
     (afterRead U len out t st src).input.ctl = { t.ctl with expectStarter := true } ∧
      (afterRead U len out { t with ctl := k } st src').input = { (afterRead U len out t st src).input with ctl := { k with expectStarter := true } }) := by
  unfold afterRead
  rw [drain_with]
  have hc := drain_ctl' (U := U) (len + 1) (len - (encode out).length) t
  generalize drain U (len + 1) (len - (encode out).length) t = x at hc
  obtain ⟨s, o, t1⟩ := x
  simp only at hc
  cases s with
  | panic => exact ⟨rfl, rfl, rfl, .inl ⟨hc, rfl⟩⟩
  | full => exact ⟨rfl, rfl, rfl, .inl ⟨hc, rfl⟩⟩
  | empty =>
    refine ⟨rfl, rfl, rfl, ?_⟩
    simp only
    split
    · exact .inr ⟨by simp [hc], rfl⟩
    · exact .inl ⟨hc, rfl⟩

/-- One call on each of the two readers. -/
theorem InStep.read {P : Ctl → List Event → Ctl → List Event → Prop} (h : InStep U P) {t : TextInput} {k' : Ctl} {src src' : List Event}
    (hp : P t.ctl src k' src') (len : Nat) :
    (readWithStatus U len { t with ctl := k' } src').ret = (readWithStatus U len t src).ret ∧
    (readWithStatus U len { t with ctl := k' } src').out = (readWithStatus U len t src).out ∧
    ∃ k2, (readWithStatus U len { t with ctl := k' } src').input = { (readWithStatus U len t src).input with ctl := k2 } ∧
      P (readWithStatus U len t src).input.ctl (readWithStatus U len t src).src k2 (readWithStatus U len { t with ctl := k' } src').src := by
  rw [readWithStatus_intake, readWithStatus_intake, drain_with]
  split
  · exact ⟨rfl, rfl, k', rfl, hp⟩
  have hc := drain_ctl' (U := U) (len + 1) len t
  generalize drain U (len + 1) len t = x at hc
  obtain ⟨st, out, t1⟩ := x
  simp only at hc
  rw [← hc] at hp
  cases st with
  | panic => exact ⟨rfl, rfl, k', rfl, hp⟩
  | full => exact ⟨rfl, rfl, k', rfl, hp⟩
  | empty =>
    simp only
    split
    · exact ⟨rfl, rfl, { k' with expectStarter := true }, rfl, h.expect hp⟩
    · rcases h.step hp with ⟨h1, h2, h3⟩ | ⟨s, s', st, h1, h2, h3⟩
      · generalize nextEvent src = e at h1 h3 ⊢
        generalize nextEvent src' = e' at h2 h3 ⊢
        obtain ⟨e, r⟩ := e
        obtain ⟨e', r'⟩ := e'
        simp only at h1 h2 h3
        subst h1 h2
        exact ⟨rfl, rfl, k', rfl, h3⟩
      · generalize nextEvent src = e at h1 h3 ⊢
        generalize nextEvent src' = e' at h2 h3 ⊢
        obtain ⟨e, r⟩ := e
        obtain ⟨e', r'⟩ := e'
        simp only at h1 h2 h3
        subst h1 h2
        simp only
        obtain ⟨g1, g2⟩ := h3 t1.queue
        rw [← g1]
        obtain ⟨a1, a2, a3, a4⟩ := afterRead_with (U := U) len out
          { t1 with ctl := (intake U t1.ctl t1.queue s st).1, queue := t1.queue ++ (intake U t1.ctl t1.queue s st).2 }
          (intake U k' t1.queue s' st).1 st r r'
        have a5 : (afterRead U len out { t1 with ctl := (intake U k' t1.queue s' st).1, queue := t1.queue ++ (intake U t1.ctl t1.queue s st).2 } st r').src = r' :=
          (afterRead_with (U := U) len out _ (intake U k' t1.queue s' st).1 st r' r').2.2.1
        refine ⟨a1, a2, ?_⟩
        rw [a3, a5]
        rcases a4 with ⟨b1, b2⟩ | ⟨b1, b2⟩
        · exact ⟨_, b2, by rw [b1]; exact g2⟩
        · exact ⟨_, b2, by rw [b1]; exact h.expect g2⟩

/-- Readers in step return the same from every call. -/
theorem InStep.readMany {P : Ctl → List Event → Ctl → List Event → Prop} (h : InStep U P) : ∀ (lens : List Nat) {t : TextInput} {k' : Ctl}
    {src src' : List Event}, P t.ctl src k' src' →
    (Verif.readMany U lens { t with ctl := k' } src').map (fun r => (r.ret, r.out)) = (Verif.readMany U lens t src).map (fun r => (r.ret, r.out)) := by
  intro lens
  induction lens with
  | nil => intros; rfl
  | cons len lens ih =>
    intro t k' src src' hp
    obtain ⟨h1, h2, k2, h3, h4⟩ := h.read hp len
    rw [Verif.readMany, Verif.readMany, List.map_cons, List.map_cons, h3, ih h4, h1, h2]

/-- What two runs with the same results have in common. -/
theorem runs_alike {rs rs' : List ReadResult} (h : rs'.map (fun r => (r.ret, r.out)) = rs.map (fun r => (r.ret, r.out))) :
    delivered rs' = delivered rs ∧ written rs' = written rs ∧
    ((∃ r n, rs'.getLast? = some r ∧ r.ret = .ok n .end_) ↔ ∃ r n, rs.getLast? = some r ∧ r.ret = .ok n .end_) := by
  have hd : ∀ rs : List ReadResult, delivered rs = (rs.map (fun r => (r.ret, r.out))).flatMap fun x => if x.1.isOk then x.2 else [] := by
    intro rs; unfold delivered; rw [List.flatMap_map]
  have hw : ∀ rs : List ReadResult, written rs = (rs.map (fun r => (r.ret, r.out))).flatMap (·.2) := by
    intro rs; unfold written; rw [List.flatMap_map]
  refine ⟨by rw [hd, hd, h], by rw [hw, hw, h], ?_⟩
  have hg := congrArg List.getLast? h
  rw [List.getLast?_map, List.getLast?_map] at hg
  cases e : rs.getLast? with
  | none => rw [e] at hg; cases e' : rs'.getLast? with
    | none => simp
    | some r' => rw [e'] at hg; simp at hg
  | some r => rw [e] at hg; cases e' : rs'.getLast? with
    | none => rw [e'] at hg; simp at hg
    | some r' =>
      rw [e'] at hg
      simp only [Option.map_some, Option.some.injEq, Prod.mk.injEq] at hg
      simp [hg.1]

end Verif
