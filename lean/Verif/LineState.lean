import Verif.LockstepForms

/-!
# Where a reader stands between lines

Whether the content that has come from a source so far ends at the end of a line, pushes and escapes included.
-/

namespace Verif
open Ucd Spec
variable {U : Ucd}

/-- The content that has come, split after every read that reported a push. -/
def Spec.parts : List Event → List (List Char)
  | [] => [[]]
  | .err :: es => Spec.parts es
  | .data s st :: es =>
    match Spec.parts es with
    | [] => [s]
    | p :: ps => if st = .push then s :: p :: ps else (s ++ p) :: ps

/-- A byte-order mark is skipped if it is the first scalar of the first read. -/
def Spec.unmarked : List Event → List Event
  | .data s st :: es => .data (dropBom s) st :: es
  | es => es

/-- What has come ends at the end of a line: its items, taken by themselves in each part, are none or end in a newline; and the last part does
not end in a carriage return, which a newline may still follow. -/
def Spec.AtLineEnd (nel lsps : Bool) (came : List Event) : Prop :=
  (((Spec.parts (Spec.unmarked came)).flatMap (tokens finCan (single nel lsps)) = [] ∨
    ((Spec.parts (Spec.unmarked came)).flatMap (tokens finCan (single nel lsps))).getLast? = some .nl)) ∧
  (Spec.parts (Spec.unmarked came)).getLast?.bind List.getLast? ≠ some '\r'

instance (nel lsps : Bool) (came : List Event) : Decidable (Spec.AtLineEnd nel lsps came) := by
  unfold Spec.AtLineEnd
  infer_instance

theorem parts_ne (es : List Event) : ∃ p ps, Spec.parts es = p :: ps := by
  induction es with
  | nil => exact ⟨_, _, rfl⟩
  | cons e es ih =>
    obtain ⟨p, ps, h⟩ := ih
    cases e with
    | err => exact ⟨p, ps, h⟩
    | data s st =>
      rw [Spec.parts, h]
      dsimp only
      split
      · exact ⟨_, _, rfl⟩
      · exact ⟨_, _, rfl⟩

/-! ## One part -/

theorem state_cr (k : Ctl) (c : Char) : ((stepChar U k c).1.state = .cr → c = '\r') ∧ (c = '\r' → (stepChar U k c).1.state ≠ .ground true) := by
  have hg : ∀ k : Ctl, (groundStep U k c).1.state = .cr → c = '\r' := by
    intro k
    unfold groundStep
    grind
  have hg' : ∀ k : Ctl, c = '\r' → (groundStep U k c).1.state = .cr := by
    rintro k rfl
    unfold groundStep
    simp
  have h1 : between 0x20 0x3f '\r' = false := by decide
  have h2 : between 0x40 0x7e '\r' = false := by decide
  constructor
  · unfold stepChar
    cases hk : k.state <;> grind
  · intro hc
    have := fun k => hg' k hc
    unfold stepChar
    cases hk : k.state <;> simp [hc] at this ⊢ <;> grind

theorem feed_cr (s : List Char) : ∀ k : Ctl, ((feed U k s).1.state = .cr → s.getLast? = some '\r' ∨ s = [] ∧ k.state = .cr) ∧
    (s.getLast? = some '\r' → (feed U k s).1.state ≠ .ground true) := by
  intro k
  rcases List.eq_nil_or_concat s with rfl | ⟨a, c, rfl⟩
  · simp [feed]
  · rw [List.concat_eq_append, feed_append]
    simp only [feed, List.getLast?_concat]
    exact ⟨fun h => .inl (by rw [(state_cr _ _).1 h]), fun h => (state_cr _ _).2 (Option.some.inj h)⟩

theorem finishState_ground (k : Ctl) : ∃ b, (finishState k).1.state = .ground b ∧ (b = true ↔ k.state = .ground true ∨ k.state = .cr) := by
  unfold finishState
  cases hk : k.state with
  | ground g => exact ⟨g, by simp [hk], by simp⟩
  | _ => simp

theorem finish_push (k : Ctl) (o : Option Char) : (finish k o .push).1.state = (finishState k).1.state := by
  simp [finish]

/-! ## All parts -/

theorem nlAfter_append (b : Bool) (a c : List Tok) : nlAfter b (a ++ c) = nlAfter (nlAfter b a) c := by
  induction a generalizing b with
  | nil => rfl
  | cons t a ih => rw [List.cons_append, nlAfter_cons, nlAfter_cons, ih]

theorem state_all (hU : TextLaws U) : ∀ (es : List Event) (k : Ctl) (T p : List Char) (ps : List (List Char)), k.atStart = false →
    (∀ e ∈ es, ∃ s st, e = .data s st ∧ st ≠ .end_) → Spec.parts es = p :: ps →
    (∃ b, (full U k p).1.state = .ground b ∧ (finishState (absorbAll U (k, T) es).1).1.state =
      .ground (nlAfter b (ps.flatMap (tokens finCan (single k.nel k.lsps))))) ∧
    ((absorbAll U (k, T) es).1.state = .cr → ((p :: ps).getLast?).bind List.getLast? = some '\r' ∨ p = [] ∧ ps = [] ∧ k.state = .cr) ∧
    (((p :: ps).getLast?).bind List.getLast? = some '\r' → (absorbAll U (k, T) es).1.state ≠ .ground true) ∧
    (p = [] → ps = [] → (absorbAll U (k, T) es).1.state = k.state) := by
  intro es
  induction es with
  | nil =>
    intro k T p ps hs _ hp
    simp only [Spec.parts, List.cons.injEq] at hp
    obtain ⟨rfl, rfl⟩ := hp
    obtain ⟨b, hb, -⟩ := finishState_ground k
    exact ⟨⟨b, by simpa [full, feed] using hb, by simpa [absorbAll, nlAfter] using hb⟩, by simp [absorbAll], by simp, by simp [absorbAll]⟩
  | cons e es ih =>
    intro k T p ps hs hd hp
    obtain ⟨s, st, rfl, hst⟩ := hd e (by simp)
    have hd' : ∀ e ∈ es, ∃ s st, e = .data s st ∧ st ≠ .end_ := fun e he => hd e (by simp [he])
    obtain ⟨p', ps', hp'⟩ := parts_ne es
    rw [Spec.parts, hp'] at hp
    have hraw : processRaw U k s = feed U k s := by
      have : { k with atStart := false } = k := by rw [← hs]
      simp [processRaw, hs, this]
    cases st with
    | end_ => exact absurd rfl hst
    | active =>
      simp only [reduceCtorEq, if_false, List.cons.injEq] at hp
      obtain ⟨rfl, rfl⟩ := hp
      have ha : absorb U (k, T) s .active = ((feed U k s).1, T ++ (feed U k s).2) := by simp [absorb, hraw]
      have hm := feed_modes (U := U) s k
      rw [absorbAll, ha]
      obtain ⟨⟨b, i1, i2⟩, i3, i4, i5⟩ := ih (feed U k s).1 (T ++ (feed U k s).2) p' ps' (by rw [feed_atStart]; exact hs) hd' hp'
      rw [hm.1, hm.2] at i2
      refine ⟨⟨b, by simpa [full, feed_append] using i1, i2⟩, ?_, ?_, ?_⟩
      · intro h
        rcases i3 h with h | ⟨rfl, rfl, h⟩
        · left
          cases ps' with
          | nil =>
            have h : p'.getLast? = some '\r' := h
            show (s ++ p').getLast? = some '\r'
            rw [List.getLast?_append, h]; rfl
          | cons q qs => simpa using h
        · rw [List.append_nil]
          rcases (feed_cr s k).1 h with h | ⟨h, h'⟩
          · exact .inl h
          · exact .inr ⟨h, rfl, h'⟩
      · intro h
        cases ps' with
        | nil =>
          have h : (s ++ p').getLast? = some '\r' := h
          rcases List.eq_nil_or_concat p' with rfl | ⟨a, c, rfl⟩
          · rw [List.append_nil] at h
            rw [i5 rfl rfl]
            exact (feed_cr s k).2 h
          · rw [List.concat_eq_append, ← List.append_assoc, List.getLast?_concat] at h
            refine i4 ?_
            rw [List.concat_eq_append]
            simpa using h
        | cons q qs => exact i4 (by simpa using h)
      · intro h h'
        obtain ⟨rfl, rfl⟩ := List.append_eq_nil_iff.1 h
        rw [i5 rfl h']; rfl
    | push =>
      simp only [if_true, List.cons.injEq] at hp
      obtain ⟨rfl, rfl⟩ := hp
      have ha : ∃ k2 T2, absorb U (k, T) s .push = (k2, T2) ∧ k2.state = (full U k s).1.state ∧ k2.nel = k.nel ∧ k2.lsps = k.lsps ∧
          k2.atStart = false := by
        have hm := feed_modes (U := U) s k
        have hf := finish_modes (feed U k s).1 (T ++ (feed U k s).2).getLast? .push
        have he : absorb U (k, T) s .push = ({ (finish (feed U k s).1 (T ++ (feed U k s).2).getLast? .push).1 with expectStarter := true },
            T ++ (feed U k s).2 ++ (finish (feed U k s).1 (T ++ (feed U k s).2).getLast? .push).2) := by
          unfold absorb
          dsimp only
          rw [hraw]
          rfl
        refine ⟨_, _, he, finish_push _ _, hf.1.trans hm.1, hf.2.trans hm.2, ?_⟩
        have : (finish (feed U k s).1 (T ++ (feed U k s).2).getLast? .push).1.atStart = (feed U k s).1.atStart := by
          simp [finish, (finishState_modes _).2.2]
        exact this.trans (by rw [feed_atStart]; exact hs)
      obtain ⟨k2, T2, ha, h1, h2, h3, h4⟩ := ha
      rw [absorbAll, ha]
      obtain ⟨⟨b, i1, i2⟩, i3, i4, i5⟩ := ih k2 T2 p' ps' h4 hd' hp'
      obtain ⟨b0, hb0, -⟩ := finishState_ground (feed U k s).1
      have hb0 : (full U k s).1.state = .ground b0 := hb0
      rw [hb0] at h1
      have hf := (full_tokens hU _ p' k2 b0 (Nat.le_refl _) h1).2
      rw [i1, h2, h3] at hf
      rw [h2, h3] at i2
      refine ⟨⟨b0, hb0, ?_⟩, ?_, ?_, by simp⟩
      · rw [i2, List.flatMap_cons, nlAfter_append]
        injection hf with hf
        rw [← hf]
      · intro h
        rcases i3 h with h | ⟨-, -, h⟩
        · left; simpa using h
        · rw [h1] at h; simp at h
      · intro h
        exact i4 (by simpa using h)

/-- After what has come from a new reader's source, the reader stands between lines exactly if what has come ends at the end of a line. -/
theorem atLineEnd_state (hU : TextLaws U) (nel lsps : Bool) (came : List Event) (hd : ∀ e ∈ came, ∃ s st, e = .data s st ∧ st ≠ .end_) :
    (absorbAll U ((TextInput.new nel lsps).ctl, []) came).1.state = .ground true ↔ Spec.AtLineEnd nel lsps came := by
  cases came with
  | nil =>
    have : tokens finCan (single nel lsps) [] = [] := by rw [tokens]
    simp [absorbAll, TextInput.new, Spec.AtLineEnd, Spec.parts, Spec.unmarked, this]
  | cons e es =>
    obtain ⟨s, st, rfl, hst⟩ := hd e (by simp)
    have hd' : ∀ e ∈ Event.data (dropBom s) st :: es, ∃ s st, e = .data s st ∧ st ≠ .end_ := by
      intro e he
      rcases List.mem_cons.1 he with rfl | he
      · exact ⟨_, _, rfl, hst⟩
      · exact hd e (by simp [he])
    have h0 : absorbAll U ((TextInput.new nel lsps).ctl, []) (.data s st :: es) =
        absorbAll U ({ (TextInput.new nel lsps).ctl with atStart := false }, []) (.data (dropBom s) st :: es) := by
      have : processRaw U (TextInput.new nel lsps).ctl s = processRaw U { (TextInput.new nel lsps).ctl with atStart := false } (dropBom s) := by
        cases s with
        | nil => rfl
        | cons c s => by_cases hc : c = BOM <;> simp [processRaw, dropBom, dropOne, hc, TextInput.new]
      simp only [absorbAll, absorb, this]
    obtain ⟨p, ps, hp⟩ := parts_ne (.data (dropBom s) st :: es)
    obtain ⟨⟨b, i1, i2⟩, i3, i4, -⟩ := state_all hU _ { (TextInput.new nel lsps).ctl with atStart := false } [] p ps rfl hd' hp
    have hf := (full_tokens hU _ p { (TextInput.new nel lsps).ctl with atStart := false } true (Nat.le_refl _) rfl).2
    rw [i1] at hf
    injection hf with hf
    rw [hf, ← nlAfter_append, ← List.flatMap_cons, ← hp] at i2
    rw [← hp] at i3 i4
    rw [h0]
    have hun : Spec.unmarked (.data s st :: es) = .data (dropBom s) st :: es := rfl
    unfold Spec.AtLineEnd
    rw [hun]
    have hm : single (({ (TextInput.new nel lsps).ctl with atStart := false } : Ctl)).nel ({ (TextInput.new nel lsps).ctl with atStart := false } : Ctl).lsps = single nel lsps := rfl
    rw [hm] at i2
    generalize Spec.parts (.data (dropBom s) st :: es) = P at *
    generalize absorbAll U ({ (TextInput.new nel lsps).ctl with atStart := false }, []) (.data (dropBom s) st :: es) = kf at *
    obtain ⟨b', j1, j2⟩ := finishState_ground kf.1
    rw [j1] at i2
    injection i2 with i2
    have hnl : ∀ ts : List Tok, nlAfter true ts = true ↔ (ts = [] ∨ ts.getLast? = some .nl) := by
      intro ts
      unfold nlAfter
      cases hl : ts.getLast? with
      | none => simp [List.getLast?_eq_none_iff.1 hl]
      | some t =>
        have : ts ≠ [] := by rintro rfl; simp at hl
        simp [this]
    rw [← hnl, ← i2, j2]
    constructor
    · intro h
      exact ⟨.inl h, fun h' => i4 h' h⟩
    · rintro ⟨h | h, h'⟩
      · exact h
      · rcases i3 h with h | ⟨-, -, h⟩
        · exact absurd h h'
        · simp [TextInput.new] at h

end Verif
