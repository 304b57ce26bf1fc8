import Verif.LockstepPlaces

/-!
# Sources changed scalar by scalar

A source whose scalars are replaced, each by itself, by scalars that take the reader the same way is read in step with the source.
-/

namespace Verif
open Ucd Spec
variable {U : Ucd}

/-- The read of the source, with its scalars replaced. -/
def Event.subst (f : Char → List Char) : Event → Event
  | .data s st => .data (s.flatMap f) st
  | .err => .err

theorem nextEvent_subst (f : Char → List Char) (src : List Event) :
    (nextEvent (src.map (Event.subst f))).1 = (nextEvent src).1.subst f ∧ (nextEvent (src.map (Event.subst f))).2 = (nextEvent src).2.map (Event.subst f) := by
  cases src with
  | nil => exact ⟨rfl, rfl⟩
  | cons e r => exact ⟨rfl, rfl⟩

/-- What is needed of the replacements `f` for scalars with `A`, given that the control states have `J`. -/
structure Substitutes (U : Ucd) (f : Char → List Char) (A : Char → Prop) (J : Ctl → Prop) : Prop where
  expect : ∀ {k : Ctl} b, J k → J { k with expectStarter := b }
  started : ∀ {k : Ctl}, J k → J { k with atStart := false }
  step : ∀ {k c}, J k → A c → J (stepChar U k c).1
  finish : ∀ {k b st}, J k → J (finish k b st).1
  same : ∀ {k c}, J k → A c → feed U k (f c) = stepChar U k c
  mark : f BOM = [BOM]
  other : ∀ {c}, A c → c ≠ BOM → ∃ d r, f c = d :: r ∧ d ≠ BOM

theorem Substitutes.feed {f : Char → List Char} {A : Char → Prop} {J : Ctl → Prop} (h : Substitutes U f A J) :
    ∀ (s : List Char) {k : Ctl}, J k → (∀ c ∈ s, A c) → Verif.feed U k (s.flatMap f) = Verif.feed U k s ∧ J (Verif.feed U k s).1 := by
  intro s
  induction s with
  | nil => intro k hk _; exact ⟨rfl, hk⟩
  | cons c s ih =>
    intro k hk hs
    have hc := hs c (by simp)
    obtain ⟨h1, h2⟩ := ih (h.step hk hc) fun d hd => hs d (by simp [hd])
    rw [List.flatMap_cons, feed_append, h.same hk hc]
    exact ⟨by rw [h1]; rfl, h2⟩

theorem Substitutes.processRaw {f : Char → List Char} {A : Char → Prop} {J : Ctl → Prop} (h : Substitutes U f A J) (s : List Char) {k : Ctl}
    (hk : J k) (hs : ∀ c ∈ s, A c) : Verif.processRaw U k (s.flatMap f) = Verif.processRaw U k s ∧ J (Verif.processRaw U k s).1 := by
  have plain := h.feed s (h.started hk) hs
  unfold Verif.processRaw
  cases s with
  | nil => exact ⟨rfl, by split <;> exact h.started hk⟩
  | cons c s =>
    by_cases hc : c = BOM
    · subst hc
      have tl := h.feed s (h.started hk) fun d hd => hs d (by simp [hd])
      rw [List.flatMap_cons, h.mark] at plain ⊢
      by_cases ha : k.atStart = true
      · simp only [ha, List.singleton_append, List.head?_cons, BEq.rfl, Bool.and_self, if_true, List.tail_cons]
        exact tl
      · rw [if_neg (by simp [ha]), if_neg (by simp [ha])]
        exact plain
    · obtain ⟨d, r, e, hd⟩ := h.other (hs c (by simp)) hc
      rw [if_neg (by rw [List.flatMap_cons, e]; simp [hd]), if_neg (by simp [hc])]
      exact plain

theorem Substitutes.inStep {f : Char → List Char} {A : Char → Prop} {J : Ctl → Prop} (h : Substitutes U f A J) : InStep U fun k src k' src' =>
    k' = k ∧ J k ∧ src' = src.map (Event.subst f) ∧ ∀ s, Reads src s → ∀ c ∈ s, A c where
  expect := by
    rintro k src k' src' ⟨h1, h2, h3, h4⟩
    exact ⟨by rw [h1], h.expect _ h2, h3, h4⟩
  step := by
    rintro k src k' src' ⟨rfl, h2, rfl, h4⟩
    have h4' : ∀ s, Reads (nextEvent src).2 s → ∀ c ∈ s, A c := fun s hs => h4 s (next_reads hs)
    obtain ⟨n1, n2⟩ := nextEvent_subst f src
    rw [n1, n2]
    cases e : (nextEvent src).1 with
    | err => exact .inl ⟨rfl, rfl, rfl, h2, rfl, h4'⟩
    | data s st =>
      refine .inr ⟨s, s.flatMap f, st, rfl, rfl, fun q => ?_⟩
      have hs : ∀ c ∈ s, A c := by
        rcases next_mem e with rfl | hr
        · simp
        · exact h4 s hr
      obtain ⟨p1, p2⟩ := h.processRaw s h2 hs
      unfold intake
      rw [p1]
      refine ⟨rfl, rfl, ?_, rfl, h4'⟩
      split
      · exact h.finish p2
      · exact p2

theorem Substitutes.readMany {f : Char → List Char} {A : Char → Prop} {J : Ctl → Prop} (h : Substitutes U f A J) (nel lsps : Bool)
    (h0 : J (TextInput.new nel lsps).ctl) (src : List Event) (hs : ∀ s, Reads src s → ∀ c ∈ s, A c) (lens : List Nat) :
    (Verif.readMany U lens (.new nel lsps) (src.map (Event.subst f))).map (fun r => (r.ret, r.out)) =
    (Verif.readMany U lens (.new nel lsps) src).map (fun r => (r.ret, r.out)) :=
  h.inStep.readMany lens (t := .new nel lsps) (k' := (TextInput.new nel lsps).ctl) ⟨rfl, h0, rfl, hs⟩

end Verif
