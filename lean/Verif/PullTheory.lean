import Verif.Pull
import Verif.ChainTheory

/-!
# The iterator chain yields what the list functions say
-/

namespace Verif
open Ucd
variable {U : Ucd} {σ : Type}

/-- Called again and again, the iterator returns the scalars of the list and then `None`. -/
inductive Yields (next : Iter σ) : σ → List Char → Prop where
  | nil {s s' : σ} : (∃ n, ∀ f ≥ n, next f s = some (none, s')) → Yields next s []
  | cons {s s' : σ} {c : Char} {l : List Char} :
      (∃ n, ∀ f ≥ n, next f s = some (some c, s')) → Yields next s' l → Yields next s (c :: l)

theorem yields_list : ∀ l : List Char, Yields listNext l l
  | [] => .nil ⟨0, fun _ _ => rfl⟩
  | _ :: l => .cons ⟨0, fun _ _ => rfl⟩ (yields_list l)

theorem yields_cat : ∀ (l : List Char) (e : Option BasicTextError), Yields catNext ⟨l, e⟩ (categorize l)
  | [], _ => .nil ⟨0, fun _ _ => rfl⟩
  | c :: l, e => by
    simp only [categorize, List.map_cons]
    cases h : checkChar c with
    | none => exact .cons ⟨0, fun _ _ => by simp [catNext, h]⟩ (yields_cat l e)
    | some e' => exact .cons ⟨0, fun _ _ => by simp [catNext, h]⟩ (yields_cat l (some e'))

/-- A state from which one loop round leads to another. -/
theorem yields_step {next : Iter σ} {s s' : σ} {l : List Char} (h : ∃ n, ∀ f ≥ n, next (f + 1) s = next f s')
    (hy : Yields next s' l) : Yields next s l := by
  obtain ⟨n, hn⟩ := h
  cases hy with
  | @nil _ t h =>
    obtain ⟨m, hm⟩ := h
    refine .nil (s' := t) ⟨max n m + 1, fun f hf => ?_⟩
    obtain ⟨f, rfl⟩ : ∃ g, f = g + 1 := ⟨f - 1, by omega⟩
    rw [hn f (by omega), hm f (by omega)]
  | cons h h2 =>
    obtain ⟨m, hm⟩ := h
    refine .cons ⟨max n m + 1, fun f hf => ?_⟩ h2
    obtain ⟨f, rfl⟩ : ∃ g, f = g + 1 := ⟨f - 1, by omega⟩
    rw [hn f (by omega), hm f (by omega)]

theorem fuse_done (next : Iter σ) (f : Nat) (i : σ) : fuseNext next f ⟨i, true⟩ = some (none, ⟨i, true⟩) := by
  simp [fuseNext]

theorem fuse_none {next : Iter σ} {f : Nat} {i i' : σ} (h : next f i = some (none, i')) :
    fuseNext next f ⟨i, false⟩ = some (none, ⟨i', true⟩) := by simp [fuseNext, h]

theorem fuse_some {next : Iter σ} {f : Nat} {i i' : σ} {c : Char} (h : next f i = some (some c, i')) :
    fuseNext next f ⟨i, false⟩ = some (some c, ⟨i', false⟩) := by simp [fuseNext, h]

/-! ## `IsolateUnassigned` -/

theorem yields_iso {next : Iter σ} {i : σ} {l : List Char} (h : Yields next i l) :
    ∀ need have_ : Bool, Yields (isoNext U next) ⟨⟨i, false⟩, need, have_, none⟩ (isolateGo U need have_ l) := by
  induction h with
  | @nil s s' h =>
    intro need have_
    obtain ⟨n, hn⟩ := h
    simp only [isolateGo]
    cases need with
    | false => exact .nil (s' := ⟨⟨s', true⟩, false, have_, none⟩) ⟨n, fun f hf => by simp [isoNext, fuse_none (hn f hf)]⟩
    | true =>
      refine .cons (s' := ⟨⟨s', true⟩, false, have_, none⟩) ⟨n, fun f hf => by simp [isoNext, fuse_none (hn f hf)]⟩ ?_
      exact .nil (s' := ⟨⟨s', true⟩, false, have_, none⟩) ⟨0, fun f hf => by simp [isoNext, fuse_done]⟩
  | @cons s s' c l h _ ih =>
    intro need have_
    obtain ⟨n, hn⟩ := h
    simp only [isolateGo]
    split
    · rename_i hc
      refine .cons (s' := ⟨⟨s', false⟩, !isAssigned U c, false, some c⟩) ⟨n, fun f hf => ?_⟩
        (.cons (s' := ⟨⟨s', false⟩, !isAssigned U c, false, none⟩) ⟨0, fun f hf => ?_⟩ (ih _ _))
      · have hc' : (need && !(c == CGJ)) || (!isAssigned U c && !have_) := by simpa using hc
        simp only [isoNext, fuse_some (hn f hf), hc', if_true]
      · simp [isoNext]
    · rename_i hc
      refine .cons ⟨n, fun f hf => ?_⟩ (ih false (c == CGJ))
      have hc' : ((need && !(c == CGJ)) || (!isAssigned U c && !have_)) = false := by
        simpa using hc
      simp [isoNext, fuse_some (hn f hf), hc']

/-! ## `Replacements` and `StreamSafe` -/

theorem yields_buf {next : Iter σ} {i : σ} {l : List Char} (h : Yields (cjkNext U next) ⟨i, []⟩ l) :
    ∀ b : List Char, Yields (cjkNext U next) ⟨i, b⟩ (b ++ l)
  | [] => h
  | _ :: b => .cons ⟨0, fun _ _ => rfl⟩ (yields_buf h b)

theorem yields_cjk (hc : ∀ c, U.cjk c ≠ []) {next : Iter σ} {i : σ} {l : List Char} (h : Yields next i l) :
    Yields (cjkNext U next) ⟨i, []⟩ (U.cjkVariants l) := by
  induction h with
  | @nil s s' h =>
    obtain ⟨n, hn⟩ := h
    exact .nil (s' := ⟨s', []⟩) ⟨n, fun f hf => by simp only [cjkNext, hn f hf]⟩
  | @cons s s' c l h _ ih =>
    obtain ⟨n, hn⟩ := h
    simp only [cjkVariants, List.flatMap_cons] at ih ⊢
    cases hd : U.cjk c with
    | nil => exact absurd hd (hc c)
    | cons d r =>
      exact .cons ⟨n, fun f hf => by simp only [cjkNext, hn f hf, hd]⟩ (yields_buf ih r)

theorem yields_safe (hl : ∀ c, U.lead c ≤ maxNonstarters) {next : Iter σ} {i : σ} {l : List Char} (h : Yields next i l) :
    ∀ n, Yields (safeNext U next) ⟨i, n, none⟩ (U.streamSafe n l) := by
  induction h with
  | @nil s s' h =>
    intro n
    obtain ⟨m, hm⟩ := h
    exact .nil (s' := ⟨s', n, none⟩) ⟨m, fun f hf => by simp only [safeNext, hm f hf]⟩
  | @cons s s' c l h _ ih =>
    intro n
    obtain ⟨m, hm⟩ := h
    simp only [streamSafe]
    have e0 := hl c
    split
    · rename_i hc
      refine .cons (s' := ⟨s', 0, some c⟩) ⟨m, fun f hf => by simp [safeNext, hm f hf, hc]⟩ (.cons ⟨0, fun f hf => ?_⟩ (ih _))
      have : ¬ (0 + U.lead c > maxNonstarters) := by omega
      simp only [safeNext, this, if_false, nxt]
      split <;> simp
    · rename_i hc
      refine .cons ⟨m, fun f hf => ?_⟩ (ih _)
      simp only [safeNext, hm f hf, hc, if_false, nxt]
      split <;> simp

/-! ## `Decompositions` -/

theorem sort_keys {l : List Char} (h : ∀ c ∈ l, U.ccc c ≠ 0) :
    ((l.map fun c => (U.ccc c, c)).mergeSort (fun a b => decide (a.1 ≤ b.1))) = (U.reorder l).map fun c => (U.ccc c, c) := by
  induction l with
  | nil => simp [reorder]
  | cons x l ih =>
    have ih := ih fun c hc => h c (by simp [hc])
    obtain ⟨l1, l2, h1, h2, h3⟩ := List.mergeSort_cons (le := fun a b : Nat × Char => decide (a.1 ≤ b.1))
      (by intro a b c h1 h2; simp at *; omega) (by intro a b; simp; omega) (U.ccc x, x) (l.map fun c => (U.ccc c, c))
    have h4 : List.Pairwise (fun a b : Nat × Char => decide (a.1 ≤ b.1)) (l1 ++ (U.ccc x, x) :: l2) := by
      rw [← h1]
      exact List.pairwise_mergeSort (by intro a b c h1 h2; simp at *; omega) (by intro a b; simp; omega) _
    simp only [List.map_cons, reorder]
    rw [h1]
    rw [ih] at h2
    obtain ⟨r1, r2, h5, h6, h7⟩ := List.map_eq_append_iff.1 h2
    subst h6 h7
    have h8 : ∀ c ∈ r1, U.ccc c ≠ 0 ∧ U.ccc c < U.ccc x := by
      intro c hc
      have hm : c ∈ U.reorder l := by rw [h5]; simp [hc]
      have := h3 (U.ccc c, c) (List.mem_map.2 ⟨c, hc, rfl⟩)
      exact ⟨h c (by simp [mem_reorder.1 hm]), by simpa using this⟩
    have h9 : ∀ c ∈ r2.head?, U.ccc x ≤ U.ccc c := by
      intro c hc
      have hm : c ∈ r2 := List.mem_of_mem_head? hc
      have := (List.pairwise_cons.1 (List.pairwise_append.1 h4).2.1).1 (U.ccc c, c) (List.mem_map.2 ⟨c, hm, rfl⟩)
      simpa using this
    rw [h5]
    have key : ∀ r : List Char, (∀ c ∈ r, U.ccc c ≠ 0 ∧ U.ccc c < U.ccc x) → U.ins x (r ++ r2) = r ++ x :: r2 := by
      intro r hr
      induction r with
      | nil =>
        cases r2 with
        | nil => rfl
        | cons y r2 =>
          have := h9 y (by simp)
          simp only [List.nil_append, ins]
          rw [if_neg (by omega)]
      | cons y r ih2 =>
        simp only [List.cons_append, ins]
        rw [if_pos (hr y (by simp)), ih2 fun c hc => hr c (by simp [hc])]
    rw [key r1 h8]
    simp

theorem ins_append_starter {x st : Char} (h : U.ccc st = 0) (r : List Char) : ∀ l : List Char, U.ins x (l ++ st :: r) = U.ins x l ++ st :: r
  | [] => by simp [ins, h]
  | y :: l => by
    simp only [List.cons_append, ins]
    split
    · rw [ins_append_starter h r l]; simp
    · simp

theorem reorder_append_starter {st : Char} (h : U.ccc st = 0) (r : List Char) :
    ∀ l : List Char, U.reorder (l ++ st :: r) = U.reorder l ++ st :: U.reorder r
  | [] => by simp [reorder, ins_starter h]
  | x :: l => by
    simp only [List.cons_append, reorder]
    rw [reorder_append_starter h r l, ins_append_starter h]

/-- The state of `Decompositions` with `ready` ready and `pend` pending. -/
structure DecRel (U : Ucd) (s : DecSt σ) (ready pend : List Char) : Prop where
  pre : ∃ x, s.buffer = x ++ (ready ++ pend).map (fun c => (U.ccc c, c)) ∧ x.length = s.start
  stop : s.stop = s.start + ready.length
  zero : ready = [] → s.start = 0
  ns : ∀ c ∈ pend, U.ccc c ≠ 0

theorem DecRel.push {s : DecSt σ} {ready pend : List Char} (h : DecRel U s ready pend) (c : Char) :
    (s.push U c).iter = s.iter ∧
    ∃ ready' pend', DecRel U (s.push U c) ready' pend' ∧
      ∀ z, ready' ++ U.reorder (pend' ++ z) = ready ++ U.reorder (pend ++ c :: z) := by
  obtain ⟨x, hb, hx⟩ := h.pre
  unfold DecSt.push
  split
  · rename_i hc
    refine ⟨rfl, ready ++ U.reorder pend ++ [c], [], ⟨⟨x, ?_, hx⟩, ?_, by simp, by simp⟩, ?_⟩
    · have h1 : s.buffer.take s.stop = x ++ ready.map (fun c => (U.ccc c, c)) := by
        rw [hb, h.stop, ← hx, List.map_append, ← List.append_assoc]
        rw [List.take_append_of_le_length (by simp)]
        rw [List.take_of_length_le (by simp)]
      have h2 : s.buffer.drop s.stop = pend.map (fun c => (U.ccc c, c)) := by
        rw [hb, h.stop, ← hx, List.map_append, ← List.append_assoc]
        rw [show x.length + ready.length = (x ++ ready.map (fun c => (U.ccc c, c))).length from by simp]
        rw [List.drop_left]
      simp [sortPending, h1, h2, sort_keys h.ns, hc]
    · have hl : (U.reorder pend).length = pend.length := by
        have := congrArg List.length (sort_keys h.ns)
        simpa [List.length_mergeSort] using this.symm
      simp only [hb, List.length_append, List.length_map, List.length_cons, List.length_nil, hl]
      omega
    · intro z
      rw [reorder_append_starter hc]
      simp
  · rename_i hc
    refine ⟨rfl, ready, pend ++ [c], ⟨⟨x, by simp [hb], hx⟩, h.stop, h.zero, ?_⟩, by simp⟩
    intro d hd
    rcases List.mem_append.1 hd with hd | hd
    · exact h.ns d hd
    · rw [List.mem_singleton.1 hd]; exact hc

theorem DecRel.pushAll : ∀ (l : List Char) {s : DecSt σ} {ready pend : List Char}, DecRel U s ready pend →
    (l.foldl (DecSt.push U) s).iter = s.iter ∧
    ∃ ready' pend', DecRel U (l.foldl (DecSt.push U) s) ready' pend' ∧
      ∀ z, ready' ++ U.reorder (pend' ++ z) = ready ++ U.reorder (pend ++ (l ++ z))
  | [], _, ready, pend, h => ⟨rfl, ready, pend, h, fun z => rfl⟩
  | c :: l, s, ready, pend, h => by
    obtain ⟨i1, r1, p1, h1, e1⟩ := h.push c
    obtain ⟨i2, r2, p2, h2, e2⟩ := DecRel.pushAll l h1
    exact ⟨i2.trans i1, r2, p2, h2, fun z => by rw [e2, e1]; rfl⟩

theorem DecRel.emit {s : DecSt σ} {c : Char} {ready pend : List Char} (h : DecRel U s (c :: ready) pend) :
    ∃ s', s.emit = some (some c, s') ∧ s'.iter = s.iter ∧ DecRel U s' ready pend := by
  obtain ⟨x, hb, hx⟩ := h.pre
  have h0 := h.stop
  have hg : s.buffer[s.start]? = some (U.ccc c, c) := by
    rw [hb, ← hx, List.getElem?_append_right (Nat.le_refl _)]; simp
  simp only [List.length_cons] at h0
  unfold DecSt.emit
  simp only [hg]
  split
  · rename_i he
    have hr : ready = [] := List.length_eq_zero_iff.1 (by omega)
    subst hr
    refine ⟨_, rfl, rfl, ⟨[], ?_, rfl⟩, by simp, by simp, h.ns⟩
    simp only [hb, h0, ← hx]
    simp [List.drop_append]
  · rename_i he
    refine ⟨_, rfl, rfl, ⟨x ++ [(U.ccc c, c)], by simp [hb], by simp [hx]⟩, by simp only; omega, ?_, h.ns⟩
    intro hr
    subst hr
    simp at h0
    omega

/-- What the rest of the source makes of a state without ready scalars. -/
def DecFrom (U : Ucd) (next : Iter σ) (i : Fuse σ) (pend z : List Char) : Prop :=
  ∀ s : DecSt σ, DecRel U s [] pend → s.iter = i → Yields (decNext U next) s (U.reorder (pend ++ z))

theorem yields_ready {next : Iter σ} {i : Fuse σ} {pend z : List Char} (hz : DecFrom U next i pend z) :
    ∀ (ready : List Char) (s : DecSt σ), DecRel U s ready pend → s.iter = i →
      Yields (decNext U next) s (ready ++ U.reorder (pend ++ z))
  | [], s, h, hi => hz s h hi
  | c :: ready, s, h, hi => by
    obtain ⟨s', h1, h2, h3⟩ := h.emit
    refine .cons (s' := s') ⟨1, fun f hf => ?_⟩ (yields_ready hz ready s' h3 (h2.trans hi))
    obtain ⟨f, rfl⟩ : ∃ g, f = g + 1 := ⟨f - 1, by omega⟩
    have : s.stop ≠ 0 := by have := h.stop; simp at this; omega
    simp only [decNext, this, if_false]
    exact h1

theorem DecRel.idle {s : DecSt σ} {pend : List Char} (h : DecRel U s [] pend) :
    s.start = 0 ∧ s.stop = 0 ∧ s.buffer = pend.map fun c => (U.ccc c, c) := by
  obtain ⟨x, hb, hx⟩ := h.pre
  have hs := h.zero rfl
  have h1 := h.stop
  have : x = [] := List.length_eq_zero_iff.1 (by omega)
  subst this
  exact ⟨hs, by simp at h1; omega, by simpa using hb⟩

/-- The source is exhausted and nothing is pending. -/
theorem decFrom_nil {next : Iter σ} {i i' : Fuse σ} (hn : ∃ n, ∀ f ≥ n, fuseNext next f i = some (none, i')) :
    DecFrom U next i [] [] := by
  intro s h hi
  obtain ⟨n, hn⟩ := hn
  obtain ⟨h0, h1, h2⟩ := h.idle
  refine .nil (s' := { s with iter := i' }) ⟨n + 1, fun f hf => ?_⟩
  obtain ⟨f, rfl⟩ : ∃ g, f = g + 1 := ⟨f - 1, by omega⟩
  have h2 : s.buffer = [] := by simpa using h2
  simp [decNext, h1, hi, hn f (by omega), h2]

/-- The source is exhausted. -/
theorem decFrom_end {next : Iter σ} {i : Fuse σ} {i' : σ} (hn : ∃ n, ∀ f ≥ n, fuseNext next f i = some (none, ⟨i', true⟩))
    (pend : List Char) : DecFrom U next i pend [] := by
  cases pend with
  | nil => exact decFrom_nil hn
  | cons p pend =>
    intro s h hi
    obtain ⟨n, hn⟩ := hn
    obtain ⟨h0, h1, h2⟩ := h.idle
    have hl : (U.reorder (p :: pend)).length = (p :: pend).length := by
      have := congrArg List.length (sort_keys h.ns)
      simpa [List.length_mergeSort] using this.symm
    have hr : DecRel U { s with iter := ⟨i', true⟩, buffer := sortPending s.buffer s.stop, stop := s.buffer.length }
        (U.reorder (p :: pend)) [] := by
      refine ⟨⟨[], ?_, by simp [h0]⟩, ?_, fun _ => h0, by simp⟩
      · simp only [sortPending, h1, h2, List.take_zero, List.drop_zero, List.nil_append, List.append_nil]
        exact sort_keys h.ns
      · simp only [h0, h2, hl, List.length_map]; omega
    rw [List.append_nil]
    cases hq : U.reorder (p :: pend) with
    | nil => rw [hq] at hl; simp at hl
    | cons c rest =>
      rw [hq] at hr
      obtain ⟨s', e1, e2, e3⟩ := hr.emit
      have hy := yields_ready (decFrom_nil (U := U) (next := next) (i := ⟨i', true⟩) ⟨0, fun f _ => fuse_done next f i'⟩) rest s' e3 e2
      simp only [reorder, List.append_nil] at hy
      refine .cons (s' := s') ⟨n + 1, fun f hf => ?_⟩ hy
      obtain ⟨f, rfl⟩ : ∃ g, f = g + 1 := ⟨f - 1, by omega⟩
      have hb : s.buffer ≠ [] := by rw [h2]; simp
      simp only [decNext, h1, if_true, hi, hn f (by omega), hb, if_false]
      rw [h1] at e1
      exact e1

theorem yields_dec {next : Iter σ} {i : σ} {l : List Char} (h : Yields next i l) :
    ∀ pend : List Char, DecFrom U next ⟨i, false⟩ pend (l.flatMap U.decomp) := by
  induction h with
  | @nil s s' h =>
    obtain ⟨n, hn⟩ := h
    exact decFrom_end ⟨n, fun f hf => fuse_none (hn f hf)⟩
  | @cons i i' c l h _ ih =>
    intro pend s hs hi
    obtain ⟨n, hn⟩ := h
    obtain ⟨h0, h1, h2⟩ := hs.idle
    have hs' : DecRel U { s with iter := ⟨i', false⟩ } [] pend := ⟨hs.pre, hs.stop, hs.zero, hs.ns⟩
    obtain ⟨i1, r1, p1, hr, he⟩ := DecRel.pushAll (U.decomp c) hs'
    rw [List.flatMap_cons, ← List.nil_append (U.reorder _), ← he]
    refine yields_step ⟨n, fun f hf => ?_⟩ (yields_ready (ih p1) r1 _ hr i1)
    rw [decNext.eq_2]
    simp only [h1, if_true, hi, fuse_some (hn f hf)]

/-! ## `Recompositions` -/

theorem yields_finished {next : Iter σ} (s : RecSt σ) (n : Nat) (hs : s.state = .finished n) (hc : s.composee = none) :
    Yields (recNext U next) s (s.buffer.drop n) := by
  generalize hk : s.buffer.length - n = k
  induction k generalizing s n with
  | zero =>
    rw [List.drop_eq_nil_of_le (by omega)]
    refine .nil (s' := { s with buffer := [], composee := none }) ⟨1, fun f hf => ?_⟩
    obtain ⟨f, rfl⟩ : ∃ g, f = g + 1 := ⟨f - 1, by omega⟩
    rw [recNext.eq_2]
    simp [hs, List.getElem?_eq_none (show s.buffer.length ≤ n by omega), hc]
  | succ k ih =>
    have hlt : n < s.buffer.length := by omega
    rw [List.drop_eq_getElem_cons hlt]
    refine .cons (s' := { s with state := .finished (n + 1) }) ⟨1, fun f hf => ?_⟩
      (ih { s with state := .finished (n + 1) } (n + 1) rfl hc (by simp only; omega))
    obtain ⟨f, rfl⟩ : ∃ g, f = g + 1 := ⟨f - 1, by omega⟩
    rw [recNext.eq_2]
    simp [hs, List.getElem?_eq_getElem hlt]

/-- What the rest of the source makes of a state that is composing. -/
def RecFrom (U : Ucd) (next : Iter σ) (i : DecSt σ) (z : List Char) : Prop :=
  ∀ s : RecSt σ, s.iter = i → s.state = .composing → (s.lastCcc = none → s.buffer = []) → (s.composee = none → s.lastCcc = none) →
    Yields (recNext U next) s (U.recomp s.composee s.lastCcc s.buffer z)

theorem yields_purging {next : Iter σ} {i : DecSt σ} {z : List Char} (hz : RecFrom U next i z) (s : RecSt σ) (n : Nat)
    (hi : s.iter = i) (hs : s.state = .purging n) (hl : s.lastCcc = none) :
    Yields (recNext U next) s (s.buffer.drop n ++ U.recomp s.composee none [] z) := by
  generalize hk : s.buffer.length - n = k
  induction k generalizing s n with
  | zero =>
    rw [List.drop_eq_nil_of_le (by omega), List.nil_append]
    have := hz { s with buffer := [], state := .composing } hi rfl (fun _ => rfl) (fun _ => hl)
    simp only [hl] at this
    refine yields_step ⟨0, fun f _ => ?_⟩ this
    rw [recNext.eq_2]
    simp [hs, List.getElem?_eq_none (show s.buffer.length ≤ n by omega)]
    rw [← hl]
  | succ k ih =>
    have hlt : n < s.buffer.length := by omega
    rw [List.drop_eq_getElem_cons hlt]
    refine .cons (s' := { s with state := .purging (n + 1) }) ⟨1, fun f hf => ?_⟩
      (ih { s with state := .purging (n + 1) } (n + 1) hi rfl hl (by simp only; omega))
    obtain ⟨f, rfl⟩ : ∃ g, f = g + 1 := ⟨f - 1, by omega⟩
    rw [recNext.eq_2]
    simp [hs, List.getElem?_eq_getElem hlt]

theorem yields_rec {next : Iter σ} {i : DecSt σ} {z : List Char} (h : Yields (decNext U next) i z) : RecFrom U next i z := by
  induction h with
  | @nil i i' h =>
    intro s hi hs hb hc
    obtain ⟨n, hn⟩ := h
    subst hi
    cases hk : s.composee with
    | some k =>
      simp only [recomp]
      have := yields_finished (U := U) (next := next) { s with iter := i', state := .finished 0, composee := none } 0 rfl rfl
      refine .cons (s' := { s with iter := i', state := .finished 0, composee := none }) ⟨n + 1, fun f hf => ?_⟩ this
      obtain ⟨f, rfl⟩ : ∃ g, f = g + 1 := ⟨f - 1, by omega⟩
      rw [recNext.eq_2]
      simp [hs, hn f (by omega), hk]
    | none =>
      simp only [recomp]
      have := yields_finished (U := U) (next := next) { s with iter := i', state := .finished 0 } 0 rfl hk
      refine yields_step ⟨n, fun f hf => ?_⟩ this
      rw [recNext.eq_2]
      simp [hs, hn f (by omega), hk]
  | @cons i i' ch r h _ ih =>
    intro s hi hs hb hc
    obtain ⟨n, hn⟩ := h
    subst hi
    have step : ∀ f ≥ n, decNext U next f s.iter = some (some ch, i') := hn
    obtain ⟨it, st, buf, comp, last⟩ := s
    simp only at hs hb hc step ⊢
    subst hs
    cases comp with
    | none =>
      have hl := hc rfl
      subst hl
      have hb := hb rfl
      subst hb
      simp only [recomp]
      split
      · rename_i h0
        refine .cons (s' := ⟨i', .composing, [], none, none⟩) ⟨n + 1, fun f hf => ?_⟩ (ih _ rfl rfl (fun _ => rfl) (fun _ => rfl))
        obtain ⟨f, rfl⟩ : ∃ g, f = g + 1 := ⟨f - 1, by omega⟩
        rw [recNext.eq_2]
        simp [step f (by omega), h0]
      · rename_i h0
        refine yields_step ⟨n, fun f hf => ?_⟩ (ih ⟨i', .composing, [], some ch, none⟩ rfl rfl (fun _ => rfl) (fun _ => rfl))
        rw [recNext.eq_2]
        simp only [step f hf, h0, if_false]
    | some k =>
      cases last with
      | none =>
        have hb := hb rfl
        subst hb
        simp only [recomp]
        cases hq : U.compose k ch with
        | some k' =>
          refine yields_step ⟨n, fun f hf => ?_⟩ (ih ⟨i', .composing, [], some k', none⟩ rfl rfl (fun _ => rfl) (fun _ => rfl))
          rw [recNext.eq_2]
          simp only [step f hf, hq]
        | none =>
          simp only
          split
          · rename_i h0
            refine .cons (s' := ⟨i', .composing, [], some ch, none⟩) ⟨n + 1, fun f hf => ?_⟩ (ih _ rfl rfl (fun _ => rfl) (fun _ => rfl))
            obtain ⟨f, rfl⟩ : ∃ g, f = g + 1 := ⟨f - 1, by omega⟩
            rw [recNext.eq_2]
            simp [step f (by omega), h0, hq]
          · rename_i h0
            refine yields_step ⟨n, fun f hf => ?_⟩
              (ih ⟨i', .composing, [] ++ [ch], some k, some (U.ccc ch)⟩ rfl rfl (by simp) (by simp))
            rw [recNext.eq_2]
            simp only [step f hf, hq, h0, if_false]
      | some l =>
        simp only [recomp]
        split
        · rename_i h1
          split
          · rename_i h0
            have := yields_purging ih ⟨i', .purging 0, buf, some ch, none⟩ 0 rfl rfl rfl
            refine .cons (s' := ⟨i', .purging 0, buf, some ch, none⟩) ⟨n + 1, fun f hf => ?_⟩ this
            obtain ⟨f, rfl⟩ : ∃ g, f = g + 1 := ⟨f - 1, by omega⟩
            rw [recNext.eq_2]
            simp [step f (by omega), h0]
          · rename_i h0
            refine yields_step ⟨n, fun f hf => ?_⟩
              (ih ⟨i', .composing, buf ++ [ch], some k, some (U.ccc ch)⟩ rfl rfl (by simp) (by simp))
            rw [recNext.eq_2]
            simp only [step f hf, h0, h1, if_false, if_true]
        · rename_i h1
          cases hq : U.compose k ch with
          | some k' =>
            refine yields_step ⟨n, fun f hf => ?_⟩ (ih ⟨i', .composing, buf, some k', some l⟩ rfl rfl (by simp) (by simp))
            rw [recNext.eq_2]
            simp only [step f hf, hq, h1, if_false]
          | none =>
            refine yields_step ⟨n, fun f hf => ?_⟩
              (ih ⟨i', .composing, buf ++ [ch], some k, some (U.ccc ch)⟩ rfl rfl (by simp) (by simp))
            rw [recNext.eq_2]
            simp only [step f hf, hq, h1, if_false]

/-! ## The chain -/

theorem yields_chain (hU : TextLaws U) {next : Iter σ} {i : σ} {l : List Char} (h : Yields next i l) :
    Yields (chainNext U next) (ChainSt.new i) (normChain U l) := by
  have h1 := yields_iso (U := U) h false false
  have h2 := yields_cjk hU.cjk_ne h1
  have h3 := yields_safe hU.law.lead_le h2 0
  have h4 := yields_dec (U := U) h3 [] { iter := ⟨⟨⟨IsoSt.new i, []⟩, 0, none⟩, false⟩, buffer := [], start := 0, stop := 0 }
    ⟨⟨[], rfl, rfl⟩, rfl, fun _ => rfl, by simp⟩ rfl
  exact yields_rec h4 (ChainSt.new i) rfl rfl (fun _ => rfl) (fun _ => rfl)

/-! ## After the end -/

theorem recNext_none {next : Iter σ} : ∀ {f : Nat} {s s' : RecSt σ}, recNext U next f s = some (none, s') →
    s'.buffer = [] ∧ s'.composee = none ∧ ∃ n, s'.state = .finished n := by
  intro f
  induction f with
  | zero => intro s s' h; simp [recNext] at h
  | succ f ih =>
    intro s s' h
    rw [recNext.eq_2] at h
    cases hs : s.state with
    | composing =>
      simp only [hs] at h
      split at h
      · simp at h
      · split at h
        · simp at h
        · exact ih h
      · split at h
        · split at h
          · simp at h
          · exact ih h
        · split at h
          · split at h
            · exact ih h
            · split at h
              · simp at h
              · exact ih h
          · split at h
            · split at h
              · simp at h
              · exact ih h
            · split at h <;> exact ih h
    | purging n =>
      simp only [hs] at h
      split at h
      · exact ih h
      · simp at h
    | finished n =>
      simp only [hs] at h
      split at h
      · simp only [Option.some.injEq, Prod.mk.injEq] at h
        rw [← h.2]
        exact ⟨rfl, rfl, n, rfl⟩
      · simp at h

/-- Once the chain has returned `None` it keeps doing so. -/
theorem recNext_dead {next : Iter σ} {f : Nat} {s s' : RecSt σ} (h : recNext U next f s = some (none, s')) (g : Nat) :
    recNext U next (g + 1) s' = some (none, s') := by
  obtain ⟨h1, h2, n, h3⟩ := recNext_none h
  rw [recNext.eq_2]
  simp [h3, h1, h2]
  cases s'
  simp_all

end Verif
