import Verif.LockstepForms

/-!
# Sources that differ in one place

The content of two sources is given as one list of items, each of which stands for some scalars of the one and some of the other.
-/

namespace Verif
open Ucd Spec
variable {U : Ucd}

/-- What is needed of a relation between the control states, given the items still to come. -/
structure ItemStep {α : Type} (U : Ucd) (f g : α → List Char) (R : Ctl → Ctl → List α → Prop) : Prop where
  step : ∀ {k k' x xs}, k.atStart = false → R k k' (x :: xs) →
    (feed U k (f x)).2 = (feed U k' (g x)).2 ∧ R (feed U k (f x)).1 (feed U k' (g x)).1 xs
  expect : ∀ {k k' xs}, R k k' xs → R { k with expectStarter := true } { k' with expectStarter := true } xs
  done : ∀ {k k'}, k.atStart = false → R k k' [] → k = k'
  alike : ∀ {k k' xs}, R k k' xs → k'.atStart = k.atStart
  started : ∀ {k k' xs}, R k k' xs → R { k with atStart := false } { k' with atStart := false } xs
  mark : ∀ {k k' x xs}, R k k' (x ++ xs) → k.atStart = true →
    ((x.flatMap f).head? ≠ some BOM ∧ (x.flatMap g).head? ≠ some BOM) ∨
    ∃ a x', x = a :: x' ∧ f a = [BOM] ∧ g a = [BOM] ∧ R { k with atStart := false } { k' with atStart := false } (x' ++ xs)

theorem ItemStep.feed {α : Type} {f g : α → List Char} {R : Ctl → Ctl → List α → Prop} (h : ItemStep U f g R) :
    ∀ (x : List α) {k k' : Ctl} {xs : List α}, k.atStart = false → R k k' (x ++ xs) →
    (Verif.feed U k (x.flatMap f)).2 = (Verif.feed U k' (x.flatMap g)).2 ∧ R (Verif.feed U k (x.flatMap f)).1 (Verif.feed U k' (x.flatMap g)).1 xs := by
  intro x
  induction x with
  | nil => intro k k' xs _ hr; exact ⟨rfl, hr⟩
  | cons a x ih =>
    intro k k' xs h0 hr
    obtain ⟨h1, h2⟩ := h.step h0 hr
    obtain ⟨i1, i2⟩ := ih (by rw [feed_atStart]; exact h0) h2
    rw [List.flatMap_cons, List.flatMap_cons, feed_append, feed_append]
    exact ⟨by simp only [h1, i1], i2⟩

theorem ItemStep.processRaw {α : Type} {f g : α → List Char} {R : Ctl → Ctl → List α → Prop} (h : ItemStep U f g R)
    (x : List α) {k k' : Ctl} {xs : List α} (hr : R k k' (x ++ xs)) :
    (Verif.processRaw U k (x.flatMap f)).2 = (Verif.processRaw U k' (x.flatMap g)).2 ∧
    R (Verif.processRaw U k (x.flatMap f)).1 (Verif.processRaw U k' (x.flatMap g)).1 xs := by
  have plain := h.feed x (k := { k with atStart := false }) (k' := { k' with atStart := false }) rfl (h.started hr)
  unfold Verif.processRaw
  rw [h.alike hr]
  by_cases ha : k.atStart = true
  · rcases h.mark hr ha with ⟨h1, h2⟩ | ⟨a, x', rfl, e1, e2, h3⟩
    · rw [if_neg (by simpa [ha] using h1), if_neg (by simpa [ha] using h2)]
      exact plain
    · rw [List.flatMap_cons, List.flatMap_cons, e1, e2]
      simp only [ha, List.singleton_append, List.head?_cons, BEq.rfl, Bool.and_self, if_true, List.tail_cons]
      exact h.feed x' rfl h3
  · rw [if_neg (by simp [ha]), if_neg (by simp [ha])]
    exact plain

theorem ItemStep.inStep {α : Type} {f g : α → List Char} {R : Ctl → Ctl → List α → Prop} (h : ItemStep U f g R) : InStep U fun k src k' src' =>
    (∃ (chunks : List (List α)) (last : List α), src = script (chunks.map (·.flatMap f)) (last.flatMap f) ∧
      src' = script (chunks.map (·.flatMap g)) (last.flatMap g) ∧ R k k' (chunks.flatten ++ last)) ∨ src = [] ∧ src' = [] ∧ k = k' where
  expect := by
    rintro k src k' src' (⟨chunks, last, h1, h2, h3⟩ | ⟨h1, h2, h3⟩)
    · exact .inl ⟨chunks, last, h1, h2, h.expect h3⟩
    · exact .inr ⟨h1, h2, by rw [h3]⟩
  step := by
    rintro k src k' src' (⟨chunks, last, rfl, rfl, h3⟩ | ⟨rfl, rfl, rfl⟩)
    · cases chunks with
      | nil =>
        refine .inr ⟨last.flatMap f, last.flatMap g, .end_, rfl, rfl, fun q => ?_⟩
        obtain ⟨p1, p2⟩ := h.processRaw last (xs := []) (by simpa using h3)
        have ha : (Verif.processRaw U k (last.flatMap f)).1.atStart = false := by
          unfold Verif.processRaw; exact feed_atStart _ _
        have e := h.done ha p2
        unfold intake
        simp only [ne_eq, reduceCtorEq, not_false_eq_true, if_true]
        rw [p1, e]
        exact ⟨rfl, .inr ⟨rfl, rfl, rfl⟩⟩
      | cons c chunks =>
        refine .inr ⟨c.flatMap f, c.flatMap g, .active, rfl, rfl, fun q => ?_⟩
        obtain ⟨p1, p2⟩ := h.processRaw c (xs := chunks.flatten ++ last) (by simpa using h3)
        unfold intake
        simp only [ne_eq, not_true_eq_false, if_false]
        exact ⟨p1, .inl ⟨chunks, last, rfl, rfl, p2⟩⟩
    · exact .inr ⟨[], [], .end_, rfl, rfl, fun q => ⟨rfl, .inr ⟨rfl, rfl, rfl⟩⟩⟩

/-- Both readers return the same from every call. -/
theorem ItemStep.readMany {α : Type} {f g : α → List Char} {R : Ctl → Ctl → List α → Prop} (h : ItemStep U f g R) (nel lsps : Bool)
    (chunks : List (List α)) (last : List α) (hr : R (TextInput.new nel lsps).ctl (TextInput.new nel lsps).ctl (chunks.flatten ++ last)) (lens : List Nat) :
    (Verif.readMany U lens (.new nel lsps) (script (chunks.map (·.flatMap g)) (last.flatMap g))).map (fun r => (r.ret, r.out)) =
    (Verif.readMany U lens (.new nel lsps) (script (chunks.map (·.flatMap f)) (last.flatMap f))).map (fun r => (r.ret, r.out)) :=
  h.inStep.readMany lens (t := .new nel lsps) (k' := (TextInput.new nel lsps).ctl) (.inl ⟨chunks, last, rfl, rfl, hr⟩)

/-! ## Plain text before the place -/

/-- The reader is not inside an escape sequence, and behind `a` it waits for nothing. -/
structure Toward (k : Ctl) (a : List Char) : Prop where
  outside : (∃ g, k.state = .ground g) ∨ k.state = .cr ∨ k.state = .ff
  plain : Plain a
  here : a = [] → ∃ g, k.state = .ground g
  start : k.atStart = true → k.state = .ground true

theorem step_outside {k : Ctl} {c : Char} (h : (∃ g, k.state = .ground g) ∨ k.state = .cr ∨ k.state = .ff) (he : c ≠ ESC) :
    ((∃ g, (stepChar U k c).1.state = .ground g) ∨ (stepChar U k c).1.state = .cr ∨ (stepChar U k c).1.state = .ff) ∧
    (c ≠ '\r' → c ≠ FF → ∃ g, (stepChar U k c).1.state = .ground g) ∧
    (c ≠ '\r' → c ≠ FF → c ≠ '\n' → single k.nel k.lsps c ≠ .nl → (stepChar U k c).1.state = .ground false) := by
  have hg : ∀ k2 : Ctl, k2.nel = k.nel → k2.lsps = k.lsps →
      ((∃ g, (groundStep U k2 c).1.state = .ground g) ∨ (groundStep U k2 c).1.state = .cr ∨ (groundStep U k2 c).1.state = .ff) ∧
      (c ≠ '\r' → c ≠ FF → ∃ g, (groundStep U k2 c).1.state = .ground g) ∧
      (c ≠ '\r' → c ≠ FF → c ≠ '\n' → single k.nel k.lsps c ≠ .nl → (groundStep U k2 c).1.state = .ground false) := by
    intro k2 e1 e2
    unfold groundStep
    rw [e1, e2]
    refine ⟨?_, fun h1 h2 => ?_, fun h1 h2 h3 h4 => ?_⟩
    · rw [if_neg he]; (repeat' split) <;> simp
    · rw [if_neg he, if_neg h1, if_neg h2]; split <;> simp
    · rw [if_neg he, if_neg h1, if_neg h2, if_neg h3]
      have : ((k.nel && c == NEL) || (k.lsps && (c == LS || c == PS))) = false := by
        cases e : ((k.nel && c == NEL) || (k.lsps && (c == LS || c == PS))) with
        | false => rfl
        | true =>
          refine absurd ?_ h4
          unfold single
          rw [if_pos]
          simpa using e
      simp [this]
  rcases h with ⟨g, h⟩ | h | h
  · rw [stepChar, h]; exact hg k rfl rfl
  · rw [stepChar, h]
    simp only
    by_cases hc : c = '\n'
    · subst hc; simp
    · rw [if_pos hc]; exact hg _ rfl rfl
  · rw [stepChar, h]
    simp only
    by_cases hc : c = FF
    · subst hc; simp [h]
    · rw [if_pos hc]; exact hg _ rfl rfl

theorem Toward.step {k : Ctl} {c : Char} {a : List Char} (h : Toward k (c :: a)) (h0 : k.atStart = false) : Toward (stepChar U k c).1 a := by
  obtain ⟨h1, h2, h3, h4⟩ := h
  have he : c ≠ ESC := fun e => h2.1 (by simp [e])
  obtain ⟨g1, g2, -⟩ := step_outside (U := U) h1 he
  refine ⟨g1, h2.tail, ?_, by rw [stepChar_atStart, h0]; simp⟩
  rintro rfl
  exact g2 (by have := h2.2.1; simpa using this) (by have := h2.2.2; simpa using this)

theorem Toward.expect {k : Ctl} {a : List Char} (h : Toward k a) : Toward { k with expectStarter := true } a := ⟨h.1, h.2, h.3, h.4⟩

theorem Toward.started {k : Ctl} {a : List Char} (h : Toward k a) : Toward { k with atStart := false } a := ⟨h.1, h.2, h.3, by simp⟩

theorem Toward.mark {k : Ctl} {c : Char} {a : List Char} (h : Toward k (c :: a)) (h0 : k.atStart = true) : Toward { k with atStart := false } a :=
  ⟨h.1, h.2.tail, fun _ => ⟨true, h.4 h0⟩, by simp⟩

theorem toward_new (nel lsps : Bool) {a : List Char} (h : Plain a) : Toward (TextInput.new nel lsps).ctl a :=
  ⟨.inl ⟨true, rfl⟩, h, fun _ => ⟨true, rfl⟩, fun _ => rfl⟩

/-! ## One scalar in place of another -/

/-- The item `none` is the place; `d` is there in the one source, `d'` in the other. -/
def fill (d : Char) (x : Option Char) : List Char := [x.getD d]

/-- Both readers are in the same state, and the place, if it is still to come, comes after plain text. -/
def Place (P : Ctl → Prop) (k k' : Ctl) (xs : List (Option Char)) : Prop :=
  k = k' ∧ P k ∧ ((∃ b : List Char, xs = b.map some ∧ (k.atStart = true → k.state = .ground true)) ∨
    ∃ a b : List Char, xs = a.map some ++ none :: b.map some ∧ Toward k a)

theorem feed_one (k : Ctl) (c : Char) : feed U k [c] = stepChar U k c := by
  simp [feed]

theorem items_place {P : Ctl → Prop} {d d' : Char} (hd : d ≠ BOM) (hd' : d' ≠ BOM) (hP : ∀ k c, P k → P (stepChar U k c).1)
    (hPe : ∀ k, P k → P { k with expectStarter := true }) (hPs : ∀ k, P k → P { k with atStart := false })
    (h : ∀ k, P k → (∃ g, k.state = .ground g) → stepChar U k d = stepChar U k d') : ItemStep U (fill d) (fill d') (Place P) where
  step := by
    rintro k k' x xs h0 ⟨rfl, hp, hr⟩
    rcases hr with ⟨b, hb, -⟩ | ⟨a, b, hb, ht⟩
    · cases b with
      | nil => simp at hb
      | cons c b =>
        simp only [List.map_cons, List.cons.injEq] at hb
        obtain ⟨rfl, rfl⟩ := hb
        simp only [fill, Option.getD_some, feed_one]
        exact ⟨trivial, rfl, hP _ _ hp, .inl ⟨b, rfl, by rw [stepChar_atStart, h0]; simp⟩⟩
    · cases a with
      | nil =>
        simp only [List.map_nil, List.nil_append, List.cons.injEq] at hb
        obtain ⟨rfl, rfl⟩ := hb
        simp only [fill, Option.getD_none, feed_one, h k hp (ht.here rfl)]
        exact ⟨trivial, rfl, hP _ _ hp, .inl ⟨b, rfl, by rw [stepChar_atStart, h0]; simp⟩⟩
      | cons c a =>
        simp only [List.map_cons, List.cons_append, List.cons.injEq] at hb
        obtain ⟨rfl, rfl⟩ := hb
        simp only [fill, Option.getD_some, feed_one]
        exact ⟨trivial, rfl, hP _ _ hp, .inr ⟨a, b, rfl, ht.step h0⟩⟩
  expect := by
    rintro k k' xs ⟨rfl, hp, hr⟩
    refine ⟨rfl, hPe _ hp, ?_⟩
    rcases hr with ⟨b, hb, hs⟩ | ⟨a, b, hb, ht⟩
    · exact .inl ⟨b, hb, hs⟩
    · exact .inr ⟨a, b, hb, ht.expect⟩
  done := fun _ h => h.1
  alike := fun h => by rw [h.1]
  started := by
    rintro k k' xs ⟨rfl, hp, hr⟩
    refine ⟨rfl, hPs _ hp, ?_⟩
    rcases hr with ⟨b, hb, hs⟩ | ⟨a, b, hb, ht⟩
    · exact .inl ⟨b, hb, by simp⟩
    · exact .inr ⟨a, b, hb, ht.started⟩
  mark := by
    rintro k k' x xs ⟨rfl, hp, hr⟩ h0
    cases x with
    | nil => exact .inl (by simp)
    | cons y x =>
      cases y with
      | none => exact .inl (by simp [fill, hd, hd'])
      | some c =>
        by_cases hc : c = BOM
        · subst hc
          refine .inr ⟨some BOM, x, rfl, rfl, rfl, rfl, hPs _ hp, ?_⟩
          rcases hr with ⟨b, hb, hs⟩ | ⟨a, b, hb, ht⟩
          · cases b with
            | nil => simp at hb
            | cons e b =>
              simp only [List.map_cons, List.cons_append, List.cons.injEq] at hb
              exact .inl ⟨b, hb.2, by simp⟩
          · cases a with
            | nil => simp at hb
            | cons e a =>
              simp only [List.map_cons, List.cons_append, List.cons.injEq] at hb
              exact .inr ⟨a, b, hb.2, ht.mark h0⟩
        · exact .inl (by simp [fill, hc])

/-! ## An escape sequence -/

/-- From the state `s` the scalars are taken in without effect, up to the ground state. -/
def Quiet (U : Ucd) : RState → List Char → Prop
  | s, [] => s = .ground false
  | s, c :: r => ∃ s2, (∀ k : Ctl, k.state = s → stepChar U k c = ({ k with state := s2 }, [])) ∧ Quiet U s2 r

theorem quiet_run {s : RState} (p : Char → Bool) (h : ∀ c, p c = true → ∀ k : Ctl, k.state = s → stepChar U k c = ({ k with state := s }, []))
    {r : List Char} (hr : Quiet U s r) : ∀ {ps : List Char}, (∀ c ∈ ps, p c = true) → Quiet U s (ps ++ r) := by
  intro ps
  induction ps with
  | nil => intro _; exact hr
  | cons c ps ih => intro hp; exact ⟨s, h c (hp c (by simp)), ih fun d hd => hp d (by simp [hd])⟩

theorem quiet_escape {e : List Char} (h : IsEscape e) : ∃ r, e = ESC :: r ∧ Quiet U .esc r := by
  have last : ∀ s f, (∀ k : Ctl, k.state = s → stepChar U k f = ({ k with state := .ground false }, [])) → Quiet U s [f] :=
    fun s f h => ⟨.ground false, h, rfl⟩
  have hbr : ∀ c : Char, within 0x20 0x3f c = true → c ≠ '[' := by
    rintro c hc rfl; revert hc; decide
  have hpf : ∀ c : Char, within 0x40 0x7e c = true → within 0x20 0x3f c = false := by
    intro c hc
    simp only [within, decide_eq_true_eq] at hc
    simp only [within, decide_eq_false_iff_not]
    omega
  cases h with
  | csi ps f hp hf hb =>
    replace hf : within 0x40 0x7e f = true := hf
    replace hp : ∀ c ∈ ps, within 0x20 0x3f c = true := hp
    refine ⟨'[' :: ps ++ [f], rfl, .csiStart, fun k hk => by rw [stepChar, hk]; simp, ?_⟩
    have hcsi : Quiet U .csi [f] := last _ _ fun k hk => by
      rw [stepChar, hk]
      simp only [between_within]
      rw [if_neg (by rw [hpf f hf]; simp), if_pos hf]
    cases ps with
    | nil =>
      refine last _ _ fun k hk => ?_
      rw [stepChar, hk]
      simp only [between_within]
      rw [if_neg (hb rfl), if_neg (by rw [hpf f hf]; simp), if_pos hf]
    | cons c ps =>
      refine ⟨.csi, fun k hk => ?_, ?_⟩
      · rw [stepChar, hk]
        simp only [between_within]
        rw [if_neg (hbr c (hp c (by simp))), if_pos (hp c (by simp))]
      · refine quiet_run (within 0x20 0x3f) (fun d hd k hk => ?_) hcsi fun d hd => hp d (by simp [hd])
        rw [stepChar, hk]
        simp only [between_within]
        rw [if_pos hd]
  | osc ps f hp hf =>
    refine ⟨']' :: ps ++ [f], rfl, .osc, fun k hk => by rw [stepChar, hk]; simp, ?_⟩
    refine quiet_run oscText (fun d hd k hk => ?_) (last _ _ fun k hk => ?_) hp
    · simp only [oscText, decide_eq_true_eq] at hd
      rw [stepChar, hk]
      simp only
      rw [if_neg (by rintro (h | h); exact hd.1 h; exact hd.2.1 h), if_neg hd.2.2, ← hk]
    · rw [stepChar, hk]
      simp only
      rw [if_pos hf]
  | linux f hf =>
    refine ⟨_, rfl, .csiStart, fun k hk => by rw [stepChar, hk]; simp, .linux, fun k hk => by rw [stepChar, hk]; simp, last _ _ fun k hk => ?_⟩
    rw [stepChar, hk]
    simp only [between_within]
    rw [if_pos hf]
  | two f hf h1 h2 =>
    refine ⟨_, rfl, last _ _ fun k hk => ?_⟩
    have he : f ≠ ESC := by rintro rfl; revert hf; decide
    rw [stepChar, hk]
    simp only [between_within]
    rw [if_neg h1, if_neg h2, if_neg he, if_pos (by rw [show within 0x40 0x7e f = true from hf]; rfl)]

/-- The items that are marked are in the one source only. -/
def both (x : Char × Bool) : List Char := [x.1]
def unmarked (x : Char × Bool) : List Char := if x.2 then [] else [x.1]

/-- Before the escape sequence, in it, and behind it. -/
inductive Passing (U : Ucd) (e : List Char) (nel lsps : Bool) : Ctl → Ctl → List (Char × Bool) → Prop
  | before (k : Ctl) (a b : List Char) : k.nel = nel → k.lsps = lsps → Toward k a → (k.atStart = true → a ≠ [] ∨ b.head? ≠ some BOM) →
      (b = [] → (a = [] → k.state = .ground false) ∧ ∀ c ∈ a.getLast?, c ≠ '\n' ∧ single nel lsps c ≠ .nl ∧ c ≠ BOM) →
      Passing U e nel lsps k k (a.map (·, false) ++ e.map (·, true) ++ b.map (·, false))
  | within (k : Ctl) (s : RState) (g : Bool) (r b : List Char) : k.atStart = false → Quiet U s r → k.state = .ground g → (b = [] → g = false) →
      Passing U e nel lsps { k with state := s } k (r.map (·, true) ++ b.map (·, false))
  | behind (k : Ctl) (b : List Char) : k.atStart = false → Passing U e nel lsps k k (b.map (·, false))

theorem items_passing {e : List Char} (he : IsEscape e) (nel lsps : Bool) : ItemStep U both unmarked (Passing U e nel lsps) where
  step := by
    intro k k' x xs h0 h
    generalize hx : x :: xs = L at h
    cases h with
    | before _ a b hn hl ht hs hb =>
      cases a with
      | nil =>
        obtain ⟨r, rfl, hq⟩ := quiet_escape (U := U) he
        simp only [List.map_nil, List.nil_append, List.map_cons, List.cons_append, List.cons.injEq] at hx
        obtain ⟨rfl, rfl⟩ := hx
        obtain ⟨g, hg⟩ := ht.here rfl
        have e1 : stepChar U k ESC = ({ k with state := .esc }, []) := by
          rw [stepChar, hg]; rfl
        simp only [both, unmarked, feed_one, e1, if_true, feed]
        refine ⟨trivial, .within k .esc g r b h0 hq hg fun h => ?_⟩
        have := (hb h).1 rfl
        rw [hg] at this
        simpa using this
      | cons c a =>
        simp only [List.map_cons, List.cons_append, List.cons.injEq] at hx
        obtain ⟨rfl, rfl⟩ := hx
        simp only [both, unmarked, feed_one, Bool.false_eq_true, if_false]
        obtain ⟨m1, m2⟩ := stepChar_modes (U := U) k c
        have he : c ≠ ESC := fun e => ht.plain.1 (by simp [e])
        refine ⟨trivial, .before _ a b (m1.trans hn) (m2.trans hl) (ht.step h0) (by rw [stepChar_atStart, h0]; simp) fun h => ⟨?_, fun d hd => (hb h).2 d ?_⟩⟩
        · rintro rfl
          obtain ⟨c1, c2, -⟩ := (hb h).2 c (by simp)
          have p1 := ht.plain.2.1
          have p2 := ht.plain.2.2
          exact (step_outside (U := U) ht.outside he).2.2 (by simpa using p1) (by simpa using p2) c1 (by rw [hn, hl]; exact c2)
        · rw [List.getLast?_cons]; simp [Option.mem_def.1 hd]
    | within _ s g r b h0 hq hg hb =>
      cases r with
      | nil =>
        have hq : s = .ground false := hq
        subst hq
        cases b with
        | nil => simp at hx
        | cons c b =>
          simp only [List.map_nil, List.nil_append, List.map_cons, List.cons.injEq] at hx
          obtain ⟨rfl, rfl⟩ := hx
          simp only [both, unmarked, feed_one, Bool.false_eq_true, if_false]
          have e1 : stepChar U { k' with state := .ground false } c = stepChar U k' c := by
            rw [stepChar.eq_def, stepChar.eq_def, hg]
            simp only [groundStep]
          rw [e1]
          exact ⟨rfl, .behind _ _ (by rw [stepChar_atStart]; exact h0)⟩
      | cons c r =>
        obtain ⟨s2, q1, q2⟩ := hq
        simp only [List.map_cons, List.cons_append, List.cons.injEq] at hx
        obtain ⟨rfl, rfl⟩ := hx
        simp only [both, unmarked, feed_one, if_true, feed]
        rw [q1 _ rfl]
        exact ⟨rfl, .within k' s2 g r b h0 q2 hg hb⟩
    | behind _ b h0 =>
      cases b with
      | nil => simp at hx
      | cons c b =>
        simp only [List.map_cons, List.cons.injEq] at hx
        obtain ⟨rfl, rfl⟩ := hx
        simp only [both, unmarked, feed_one, Bool.false_eq_true, if_false]
        exact ⟨trivial, .behind _ b (by rw [stepChar_atStart]; exact h0)⟩
  expect := by
    intro k k' xs h
    cases h with
    | before _ a b hn hl ht hs hb => exact .before { k with expectStarter := true } a b hn hl ht.expect hs hb
    | within _ s g r b h0 hq hg hb => exact .within { k' with expectStarter := true } s g r b h0 hq hg hb
    | behind _ b h0 => exact .behind { k with expectStarter := true } b h0
  done := by
    intro k k' h0 h
    generalize hx : ([] : List (Char × Bool)) = L at h
    cases h with
    | before _ a b hn hl ht hs hb => rfl
    | within _ s g r b h0 hq hg hb =>
      cases r with
      | nil =>
        cases b with
        | nil =>
          have hq : s = .ground false := hq
          rw [hq, ← hb rfl, ← hg]
        | cons c b => simp at hx
      | cons c r => simp at hx
    | behind _ b h0 => rfl
  alike := by
    intro k k' xs h
    cases h <;> rfl
  started := by
    intro k k' xs h
    cases h with
    | before _ a b hn hl ht hs hb => exact .before { k with atStart := false } a b hn hl ht.started (by simp) hb
    | within _ s g r b h0 hq hg hb => exact .within { k' with atStart := false } s g r b rfl hq hg hb
    | behind _ b h0 => exact .behind { k with atStart := false } b rfl
  mark := by
    intro k k' x xs h h0
    generalize hx : x ++ xs = L at h
    cases h with
    | before _ a b hn hl ht hs hb =>
      cases x with
      | nil => exact .inl (by simp)
      | cons y x =>
        cases a with
        | nil =>
          obtain ⟨r, rfl, hq⟩ := quiet_escape (U := U) he
          have hbh : b.head? ≠ some BOM := (hs h0).resolve_left (by simp)
          refine .inl ⟨?_, ?_⟩
          · simp only [List.map_nil, List.nil_append, List.map_cons, List.cons_append, List.cons.injEq] at hx
            rw [hx.1]
            simp [both]; decide
          · have hp : (y :: x) <+: (ESC :: r).map (·, true) ++ b.map (·, false) := ⟨xs, by simpa using hx⟩
            intro hc
            generalize (ESC :: r) = e at hp
            generalize y :: x = z at hp hc
            clear hx
            induction e generalizing z with
            | nil =>
              cases z with
              | nil => simp at hc
              | cons w z =>
                cases b with
                | nil => simp at hp
                | cons c b =>
                  simp only [List.map_nil, List.nil_append, List.map_cons, List.cons_prefix_cons] at hp
                  rw [hp.1] at hc
                  exact hbh (by simpa [unmarked] using hc)
            | cons c e ih =>
              cases z with
              | nil => simp at hc
              | cons w z =>
                simp only [List.map_cons, List.cons_append, List.cons_prefix_cons] at hp
                rw [hp.1] at hc
                exact ih z hp.2 (by simpa [unmarked] using hc)
        | cons c a =>
          simp only [List.map_cons, List.cons_append, List.cons.injEq] at hx
          obtain ⟨rfl, hx⟩ := hx
          by_cases hc : c = BOM
          · subst hc
            refine .inr ⟨(BOM, false), x, rfl, rfl, rfl, ?_⟩
            rw [hx]
            refine .before { k with atStart := false } a b hn hl (ht.mark h0) (by simp) fun h => ⟨?_, fun d hd => (hb h).2 d ?_⟩
            · rintro rfl
              exact absurd rfl ((hb h).2 BOM (by simp)).2.2
            · rw [List.getLast?_cons]; simp [Option.mem_def.1 hd]
          · exact .inl (by simp [both, unmarked, hc])
    | within _ s g r b h1 hq hg hb => rw [h1] at h0; cases h0
    | behind _ b h1 => rw [h1] at h0; cases h0

end Verif
