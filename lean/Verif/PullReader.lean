import Verif.PullTheory
import Verif.Reader

/-!
# The reader over the iterator chain

`Verif/Reader.lean` keeps the scalars that `ssnfc_iter` still yields as a list.  Here the field holds the
iterator itself and `queue_next` calls its `next`; everything else is as there.  The reads of the two agree.
-/

namespace Verif
open Ucd
variable {U : Ucd}

/-- `TextInput` (`src/text_input.rs:69-106`) with the iterator. -/
structure InputP where
  ctl : Ctl
  queue : List Char
  iter : ChainSt (List Char)
  quick : Nat
  pending : Status
  deriving DecidableEq, Repr

/-- `TextInput::new` (`src/text_input.rs:111-130`): the iterator starts as a chain over an empty queue. -/
def InputP.new (nel lsps : Bool) : InputP :=
  { ctl := { state := .ground true, expectStarter := true, atStart := true, nel, lsps }
    queue := [], iter := ChainSt.new [], quick := 0, pending := .active }

/-- `queue_next` (`src/text_input.rs:238-277`); `none` if a call of `next` does not return. -/
def queueNextP (U : Ucd) (f : Nat) (t : InputP) : Option (Option Char × InputP) :=
  if t.quick ≠ 0 then
    some (t.queue.head?, { t with quick := t.quick - 1, queue := t.queue.tail })
  else
    match chainNext U listNext f t.iter with
    | none => none
    | some (some c, it) => some (some c, { t with iter := it })
    | some (none, it) =>
      match lastBoundary t.queue with
      | none => some (none, { t with iter := it })
      | some index =>
        let seg := t.queue.take index
        if U.quick seg = .yes ∧ seg.all U.assigned = true then
          some (t.queue.head?, { t with iter := it, quick := index - 1, queue := t.queue.tail })
        else
          match chainNext U listNext f (ChainSt.new seg) with
          | none => none
          | some (r, it) => some (r, { t with queue := t.queue.drop index, iter := it })

/-- The drain loops (`src/text_input.rs:396-404` and `459-471`). -/
def drainP (U : Ucd) (f : Nat) : Nat → Nat → InputP → Option (Stop × List Char × InputP)
  | 0, _, t => some (.panic, [], t)
  | fuel + 1, room, t =>
    match queueNextP U f t with
    | none => none
    | some (none, t) => some (.empty, [], t)
    | some (some c, t) =>
      if room < utf8Len c then some (.panic, [], t)
      else if room - utf8Len c < maxUtf8Size then some (.full, [c], t)
      else
        match drainP U f fuel (room - utf8Len c) t with
        | none => none
        | some (stop, out, t) => some (stop, c :: out, t)

/-- Result, scalars written to the buffer, new state, rest of the inner stream's script. -/
structure ReadResultP where
  ret : Ret
  out : List Char
  input : InputP
  src : List Event
  deriving DecidableEq, Repr

/-- `read_with_status` (`src/text_input.rs:385-488`) for a buffer of `len` bytes. -/
def readWithStatusP (U : Ucd) (f len : Nat) (t : InputP) (src : List Event) : Option ReadResultP :=
  if len < normalizationBufferSize then some { ret := .invalidInput, out := [], input := t, src }
  else
    match drainP U f (len + 1) len t with
    | none => none
    | some (.panic, out, t) => some { ret := .panic, out, input := t, src }
    | some (.full, out, t) => some { ret := .ok (encode out).length .active, out, input := t, src }
    | some (.empty, out, t) =>
      if t.pending ≠ .active then
        let t := { t with pending := .active, ctl := { t.ctl with expectStarter := true } }
        some { ret := .ok (encode out).length t.pending, out, input := t, src }
      else
        match nextEvent src with
        | (.err, src) => some { ret := .sourceError, out, input := t, src }
        | (.data s status, src) =>
          let (k, o) := processRaw U t.ctl s
          let t := { t with ctl := k, queue := t.queue ++ o }
          let t :=
            if status ≠ .active then
              let (k, o) := finish t.ctl t.queue.getLast? status
              { t with ctl := k, queue := t.queue ++ o }
            else t
          match drainP U f (len + 1) (len - (encode out).length) t with
          | none => none
          | some (.panic, out', t) => some { ret := .panic, out := out ++ out', input := t, src }
          | some (.empty, out', t) =>
            let t := if status ≠ .active then { t with ctl := { t.ctl with expectStarter := true } } else t
            some { ret := .ok (encode (out ++ out')).length status, out := out ++ out', input := t, src }
          | some (.full, out', t) =>
            some
              { ret := .ok (encode (out ++ out')).length .active, out := out ++ out',
                input := { t with pending := status }, src }

/-! ## Simulation -/

/-- The iterator still yields the scalars of the list, and everything else is equal. -/
structure Sim (U : Ucd) (p : InputP) (t : TextInput) : Prop where
  ctl : p.ctl = t.ctl
  queue : p.queue = t.queue
  quick : p.quick = t.quick
  pending : p.pending = t.pending
  iter : Yields (chainNext U listNext) p.iter t.iter

theorem sim_new (hU : TextLaws U) (nel lsps : Bool) : Sim U (.new nel lsps) (.new nel lsps) :=
  ⟨rfl, rfl, rfl, rfl, by have := yields_chain hU (yields_list []); rwa [normChain_nil] at this⟩

theorem yields_dead {i i' : ChainSt (List Char)} {f : Nat} (h : chainNext U listNext f i = some (none, i')) :
    Yields (chainNext U listNext) i' [] :=
  .nil (s' := i') ⟨1, fun g hg => by
    obtain ⟨g, rfl⟩ : ∃ k, g = k + 1 := ⟨g - 1, by omega⟩
    exact recNext_dead h g⟩

theorem queueNextP_sim (hU : TextLaws U) {p : InputP} {t : TextInput} (h : Sim U p t) :
    ∃ n p', (∀ f ≥ n, queueNextP U f p = some ((queueNext U t).1, p')) ∧ Sim U p' (queueNext U t).2 := by
  obtain ⟨k, q, it, qk, pd⟩ := p
  obtain ⟨k', q', l, qk', pd'⟩ := t
  obtain ⟨h1, h2, h3, h4, h5⟩ := h
  simp only at h1 h2 h3 h4 h5
  subst h1 h2 h3 h4
  unfold queueNextP queueNext
  by_cases hk : qk ≠ 0
  · simp only [hk, ne_eq, not_false_eq_true, if_true]
    exact ⟨0, _, fun f _ => rfl, rfl, rfl, rfl, rfl, h5⟩
  · simp only [hk, if_false]
    cases h5 with
    | @cons _ it' c l h6 h7 =>
      obtain ⟨n, hn⟩ := h6
      exact ⟨n, ⟨k, q, it', qk, pd⟩, fun f hf => by simp only [hn f hf], rfl, rfl, rfl, rfl, h7⟩
    | @nil _ it' h6 =>
      obtain ⟨n, hn⟩ := h6
      have hd := yields_dead (hn n (Nat.le_refl _))
      cases hb : lastBoundary q with
      | none => exact ⟨n, ⟨k, q, it', qk, pd⟩, fun f hf => by simp only [hn f hf], rfl, rfl, rfl, rfl, hd⟩
      | some index =>
        simp only
        split
        · exact ⟨n, ⟨k, q.tail, it', index - 1, pd⟩, fun f hf => by simp only [hn f hf], rfl, rfl, rfl, rfl, hd⟩
        · have hy := yields_chain hU (yields_list (q.take index))
          generalize normChain U (q.take index) = z at hy
          cases hy with
          | @cons _ it2 c l h6 h7 =>
            obtain ⟨m, hm⟩ := h6
            refine ⟨max n m, ⟨k, q.drop index, it2, qk, pd⟩, fun f hf => ?_, rfl, rfl, rfl, rfl, h7⟩
            simp only [hn f (by omega), hm f (by omega)]
          | @nil _ it2 h6 =>
            obtain ⟨m, hm⟩ := h6
            refine ⟨max n m, ⟨k, q.drop index, it2, qk, pd⟩, fun f hf => ?_, rfl, rfl, rfl, rfl, yields_dead (hm m (Nat.le_refl _))⟩
            simp only [hn f (by omega), hm f (by omega)]

theorem drainP_sim (hU : TextLaws U) : ∀ (fuel room : Nat) {p : InputP} {t : TextInput}, Sim U p t →
    ∃ n p', (∀ f ≥ n, drainP U f fuel room p = some ((drain U fuel room t).1, (drain U fuel room t).2.1, p')) ∧
      Sim U p' (drain U fuel room t).2.2 := by
  intro fuel
  induction fuel with
  | zero => intro room p t h; exact ⟨0, p, fun _ _ => rfl, h⟩
  | succ fuel ih =>
    intro room p t h
    obtain ⟨n, p', h1, h2⟩ := queueNextP_sim hU h
    unfold drain
    cases hq : queueNext U t with
    | mk o t' =>
      rw [hq] at h1 h2
      cases o with
      | none => exact ⟨n, p', fun f hf => by simp [drainP, h1 f hf], h2⟩
      | some c =>
        simp only at h1 h2 ⊢
        split
        · rename_i hr
          exact ⟨n, p', fun f hf => by simp [drainP, h1 f hf, hr], h2⟩
        · rename_i hr
          split
          · rename_i hr2
            exact ⟨n, p', fun f hf => by simp [drainP, h1 f hf, hr, hr2], h2⟩
          · rename_i hr2
            obtain ⟨m, p2, i1, i2⟩ := ih (room - utf8Len c) h2
            refine ⟨max n m, p2, fun f hf => ?_, i2⟩
            simp [drainP, h1 f (by omega), hr, hr2, i1 f (by omega)]

/-- One read over the iterator gives what the model over lists gives. -/
theorem readWithStatusP_sim (hU : TextLaws U) (len : Nat) {p : InputP} {t : TextInput} (h : Sim U p t) (src : List Event) :
    ∃ n p', (∀ f ≥ n, readWithStatusP U f len p src = some
        { ret := (readWithStatus U len t src).ret, out := (readWithStatus U len t src).out, input := p',
          src := (readWithStatus U len t src).src }) ∧
      Sim U p' (readWithStatus U len t src).input := by
  unfold readWithStatus readWithStatusP
  by_cases hl : len < normalizationBufferSize
  · simp only [hl, if_true]
    exact ⟨0, p, fun _ _ => rfl, h⟩
  · simp only [hl, if_false]
    obtain ⟨n, p1, a1, a2⟩ := drainP_sim hU (len + 1) len h
    cases hd : drain U (len + 1) len t with
    | mk st r =>
      obtain ⟨out, t1⟩ := r
      rw [hd] at a1 a2
      cases st with
      | panic => exact ⟨n, p1, fun f hf => by simp [a1 f hf], a2⟩
      | full => exact ⟨n, p1, fun f hf => by simp [a1 f hf], a2⟩
      | empty =>
        simp only at a1 a2 ⊢
        have hp := a2.pending
        by_cases hpd : t1.pending ≠ .active
        · simp only [hpd, ne_eq, not_false_eq_true, if_true]
          refine ⟨n, { p1 with pending := .active, ctl := { p1.ctl with expectStarter := true } }, fun f hf => ?_, ?_⟩
          · have hpd' : ¬ p1.pending = .active := by rw [hp]; exact hpd
            simp [a1 f hf, hpd']
          · exact ⟨by rw [a2.ctl], a2.queue, a2.quick, rfl, a2.iter⟩
        · simp only [hpd, if_false]
          have hpd' : p1.pending = .active := by rw [hp]; simpa using hpd
          cases he : nextEvent src with
          | mk ev src' =>
            cases ev with
            | err => exact ⟨n, p1, fun f hf => by simp [a1 f hf, hpd'], a2⟩
            | data s status =>
              simp only
              -- the two states before the second drain
              generalize ht2 : (if status ≠ .active then
                  { ctl := (finish (processRaw U t1.ctl s).1 (t1.queue ++ (processRaw U t1.ctl s).2).getLast? status).1,
                    queue := t1.queue ++ (processRaw U t1.ctl s).2 ++
                      (finish (processRaw U t1.ctl s).1 (t1.queue ++ (processRaw U t1.ctl s).2).getLast? status).2,
                    iter := t1.iter, quick := t1.quick, pending := t1.pending }
                else { ctl := (processRaw U t1.ctl s).1, queue := t1.queue ++ (processRaw U t1.ctl s).2, iter := t1.iter,
                       quick := t1.quick, pending := t1.pending } : TextInput) = t2
              generalize hp2 : (if status ≠ .active then
                  { ctl := (finish (processRaw U p1.ctl s).1 (p1.queue ++ (processRaw U p1.ctl s).2).getLast? status).1,
                    queue := p1.queue ++ (processRaw U p1.ctl s).2 ++
                      (finish (processRaw U p1.ctl s).1 (p1.queue ++ (processRaw U p1.ctl s).2).getLast? status).2,
                    iter := p1.iter, quick := p1.quick, pending := p1.pending }
                else { ctl := (processRaw U p1.ctl s).1, queue := p1.queue ++ (processRaw U p1.ctl s).2, iter := p1.iter,
                       quick := p1.quick, pending := p1.pending } : InputP) = p2
              have hs2 : Sim U p2 t2 := by
                rw [← ht2, ← hp2, a2.ctl, a2.queue]
                split
                · exact ⟨rfl, rfl, a2.quick, a2.pending, a2.iter⟩
                · exact ⟨rfl, rfl, a2.quick, a2.pending, a2.iter⟩
              obtain ⟨m, p3, b1, b2⟩ := drainP_sim hU (len + 1) (len - (encode out).length) hs2
              cases hd2 : drain U (len + 1) (len - (encode out).length) t2 with
              | mk st2 r2 =>
                obtain ⟨out2, t3⟩ := r2
                rw [hd2] at b1 b2
                cases st2 with
                | panic =>
                  refine ⟨max n m, p3, fun f hf => ?_, b2⟩
                  simp only [a1 f (by omega), hpd', ne_eq, not_true_eq_false, if_false]
                  simp only [ne_eq, hpd'] at hp2
                  simp only [hp2, b1 f (by omega)]
                | empty =>
                  refine ⟨max n m, if status ≠ .active then { p3 with ctl := { p3.ctl with expectStarter := true } } else p3,
                    fun f hf => ?_, ?_⟩
                  · simp only [a1 f (by omega), hpd', ne_eq, not_true_eq_false, if_false]
                    simp only [ne_eq, hpd'] at hp2
                    simp only [hp2, b1 f (by omega)]
                  · simp only
                    split
                    · exact ⟨by rw [b2.ctl], b2.queue, b2.quick, b2.pending, b2.iter⟩
                    · exact b2
                | full =>
                  refine ⟨max n m, { p3 with pending := status }, fun f hf => ?_, ?_⟩
                  · simp only [a1 f (by omega), hpd', ne_eq, not_true_eq_false, if_false]
                    simp only [ne_eq, hpd'] at hp2
                    simp only [hp2, b1 f (by omega)]
                  · exact ⟨b2.ctl, b2.queue, b2.quick, rfl, b2.iter⟩

end Verif
