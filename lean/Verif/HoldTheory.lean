import Verif.CountTheory
import Verif.ReaderRuns

/-!
# What a reader holds back
-/

namespace Verif
open Ucd Spec

variable {U : Ucd}

/-- A read that leaves room for a scalar in the buffer has written everything up to the last newline or U+34F. -/
theorem readWithStatus_idle (hU : TextLaws U) {t : TextInput} {emitted total : List Char} (h : Inv U t emitted total) {src : List Event}
    {len n : Nat} {st : Status} (hok : (readWithStatus U len t src).ret = .ok n st) (hroom : n + maxUtf8Size ≤ len) :
    Idle (readWithStatus U len t src).input := by
  unfold readWithStatus at hok ⊢
  by_cases hl : len < normalizationBufferSize
  · rw [if_pos hl] at hok; simp at hok
  rw [if_neg hl] at hok ⊢
  have hm : maxUtf8Size ≤ len := by
    have e1 : normalizationBufferSize = 136 := rfl
    have e2 : maxUtf8Size = 4 := rfl
    omega
  cases hd : drain U (len + 1) len t with
  | mk stop p =>
  obtain ⟨out, t'⟩ := p
  obtain ⟨i1, i2, i3, i4, i5, i6, i7⟩ := drain_inv hU (len + 1) len t emitted total h hm (by omega) stop out t' hd
  rw [hd] at hok
  cases stop with
  | panic => simp at hok
  | full =>
    simp only [Ret.ok.injEq] at hok
    have := i7 rfl
    omega
  | empty =>
    dsimp only at hok ⊢
    obtain ⟨j1, j2⟩ := i6 rfl
    split at hok
    · rename_i hp
      rw [if_pos hp]
      exact ⟨j2.quick, j2.iter, j2.queue⟩
    · rename_i hp
      rw [if_neg hp]
      cases hn : nextEvent src with
      | mk e src' =>
      cases e with
      | err => rw [hn] at hok; simp at hok
      | data s status =>
        rw [hn] at hok
        dsimp only at hok ⊢
        generalize hq : (if status ≠ Status.active then _ else _ : TextInput) = t2 at hok ⊢
        cases hd2 : drain U (len + 1) (len - (encode out).length) t2 with
        | mk stop2 p2 =>
        obtain ⟨out2, t3⟩ := p2
        rw [hd2] at hok
        have inv2 : ∃ total2, Inv U t2 (emitted ++ out) total2 := by
          have key : ∀ q, Inv U { t' with queue := t'.queue ++ q } (emitted ++ out) (total ++ q) := by
            intro q
            obtain ⟨⟨segs, a1, a2, a3⟩, a4, a5⟩ := i1
            have z : t'.quick = 0 := j2.quick
            refine ⟨⟨segs, ?_, ?_, a3⟩, ?_, a5⟩
            · simp [a1, z]
            · simpa [z] using a2
            · simp [z]
          have ext : ∀ {a b : TextInput} {x y}, Inv U a x y → a.queue = b.queue → a.iter = b.iter → a.quick = b.quick → Inv U b x y := by
            rintro a b x y ⟨⟨segs, a1, a2, a3⟩, a4, a5⟩ e1 e2 e3
            exact ⟨⟨segs, by rw [← e1, ← e3]; exact a1, by rw [← e1, ← e2, ← e3]; exact a2, a3⟩, by rw [← e1, ← e3]; exact a4, by rw [← e2, ← e3]; exact a5⟩
          subst hq
          split
          · exact ⟨_, ext (key _) (List.append_assoc _ _ _).symm rfl rfl⟩
          · exact ⟨_, ext (key _) rfl rfl rfl⟩
        obtain ⟨total2, inv2⟩ := inv2
        obtain ⟨k1, k2, k3, k4, k5, k6, k7⟩ := drain_inv hU (len + 1) _ t2 _ _ inv2 j1 (by omega) stop2 out2 t3 hd2
        cases stop2 with
        | panic => simp at hok
        | full =>
          simp only [Ret.ok.injEq, encode_append, List.length_append] at hok
          have := k7 rfl
          omega
        | empty =>
          obtain ⟨-, j⟩ := k6 rfl
          dsimp only
          split
          · exact ⟨j.quick, j.iter, j.queue⟩
          · exact j

/-- Control states in which a newline is a newline. -/
def Open (k : Ctl) : Prop := (∃ b, k.state = .ground b) ∨ k.state = .cr ∨ k.state = .ff

theorem groundStep_open (k : Ctl) {c : Char} (h : c ≠ ESC) : Open (groundStep U k c).1 ∧
    (if c = '\n' then 1 else 0) ≤ (groundStep U k c).2.count '\n' := by
  unfold groundStep
  split
  · rename_i hc; subst hc
    exact ⟨Or.inl ⟨_, rfl⟩, by simp⟩
  · rename_i hc
    refine ⟨?_, Nat.zero_le _⟩
    split
    · exact Or.inr (Or.inl rfl)
    · split
      · exact Or.inr (Or.inr rfl)
      · exact Or.inl ⟨_, rfl⟩

theorem stepChar_open {k : Ctl} (hk : Open k) {c : Char} (h : c ≠ ESC) : Open (stepChar U k c).1 ∧
    (if c = '\n' then 1 else 0) ≤ (stepChar U k c).2.count '\n' := by
  unfold stepChar
  rcases hk with ⟨b, hs⟩ | hs | hs
  · rw [hs]; exact groundStep_open k h
  · rw [hs]
    dsimp only
    split
    · obtain ⟨h1, h2⟩ := groundStep_open (U := U) { k with state := .ground true, expectStarter := false } h
      refine ⟨h1, ?_⟩
      rw [List.count_cons]; omega
    · rename_i hc
      refine ⟨Or.inl ⟨_, rfl⟩, ?_⟩
      split <;> simp
  · rw [hs]
    dsimp only
    split
    · obtain ⟨h1, h2⟩ := groundStep_open (U := U) { k with state := .ground false, expectStarter := false } h
      refine ⟨h1, ?_⟩
      rw [List.count_append]; omega
    · rename_i hc
      have hc : c = FF := by simpa using hc
      refine ⟨Or.inr (Or.inr hs), ?_⟩
      subst hc
      simp [FF]

theorem feed_open : ∀ (s : List Char) (k : Ctl), Open k → ESC ∉ s → Open (feed U k s).1 ∧ s.count '\n' ≤ (feed U k s).2.count '\n' := by
  intro s
  induction s with
  | nil => intro k hk _; exact ⟨hk, by simp⟩
  | cons c s ih =>
    intro k hk he
    simp only [List.mem_cons, not_or] at he
    obtain ⟨h1, h2⟩ := stepChar_open (U := U) hk (Ne.symm he.1)
    obtain ⟨h3, h4⟩ := ih _ h1 he.2
    refine ⟨h3, ?_⟩
    simp only [feed]
    rw [List.count_append, List.count_cons]
    simp only [beq_iff_eq]
    omega

theorem processRaw_open (k : Ctl) (s : List Char) (hk : Open k) (he : ESC ∉ s) : Open (processRaw U k s).1 ∧
    s.count '\n' ≤ (processRaw U k s).2.count '\n' := by
  simp only [processRaw]
  have hk' : Open { k with atStart := false } := hk
  split
  · rename_i hb
    cases s with
    | nil => simp at hb
    | cons c s =>
      simp only [Bool.and_eq_true, List.head?_cons, beq_iff_eq, Option.some.injEq] at hb
      simp only [List.mem_cons, not_or] at he
      obtain ⟨h1, h2⟩ := feed_open (U := U) s _ hk' he.2
      refine ⟨h1, ?_⟩
      rw [List.count_cons_of_ne (by rw [hb.2]; decide)]
      exact h2
  · exact feed_open s _ hk' he

theorem finish_open (k : Ctl) (b : Option Char) (st : Status) (hk : Open k) : Open (finish k b st).1 := by
  have h1 : Open (finishState k).1 := by
    unfold finishState
    rcases hk with ⟨x, hs⟩ | hs | hs
    · rw [hs]; exact Or.inl ⟨x, hs⟩
    · rw [hs]; exact Or.inl ⟨_, rfl⟩
    · rw [hs]; exact Or.inl ⟨_, rfl⟩
  simp only [finish]
  split
  · exact Or.inl ⟨_, rfl⟩
  · exact h1

/-- The scalars of a list of reads. -/
def contents : List Event → List Char
  | [] => []
  | .data s _ :: es => s ++ contents es
  | .err :: es => contents es

theorem absorbAll_open (es : List Event) : ∀ kt : Ctl × List Char, Open kt.1 → ESC ∉ contents es →
    kt.2.count '\n' + (contents es).count '\n' ≤ (absorbAll U kt es).2.count '\n' := by
  induction es with
  | nil => intro kt _ _; simp [absorbAll, contents]
  | cons e es ih =>
    intro kt hk he
    cases e with
    | err => exact ih kt hk he
    | data s st =>
      simp only [contents, List.mem_append, not_or] at he
      obtain ⟨h1, h2⟩ := processRaw_open (U := U) kt.1 s hk he.1
      have key : Open (absorb U kt s st).1 ∧ kt.2.count '\n' + s.count '\n' ≤ (absorb U kt s st).2.count '\n' := by
        simp only [absorb]
        split
        · refine ⟨h1, ?_⟩
          simp only [List.count_append]; omega
        · have := finish_open (processRaw U kt.1 s).1 (kt.2 ++ (processRaw U kt.1 s).2).getLast? st h1
          refine ⟨this, ?_⟩
          simp only [List.count_append]; omega
      have := ih (absorb U kt s st) key.1 he.2
      simp only [absorbAll, contents, List.count_append]
      omega

end Verif
