import Verif.Lockstep
import Verif.TokenTheory

/-!
# Sources that differ in form only

Instances of `InStep`: the compatibility modes, newlines written as CRLF or CR, an escape sequence, and U+85, U+2028 and U+2029.
-/

namespace Verif
open Ucd Spec
variable {U : Ucd}

/-! ## The modes -/

/-- The scalar is not one on which the modes differ. -/
def Blind (nel lsps nel' lsps' : Bool) (c : Char) : Prop := (nel ≠ nel' → c ≠ NEL) ∧ (lsps ≠ lsps' → c ≠ LS ∧ c ≠ PS)

theorem groundStep_blind {nel' lsps' : Bool} {k : Ctl} {c : Char} (h : Blind k.nel k.lsps nel' lsps' c) :
    groundStep U { k with nel := nel', lsps := lsps' } c =
      ({ (groundStep U k c).1 with nel := nel', lsps := lsps' }, (groundStep U k c).2) := by
  have e : ((nel' && c == NEL) || (lsps' && (c == LS || c == PS))) = ((k.nel && c == NEL) || (k.lsps && (c == LS || c == PS))) := by
    obtain ⟨h1, h2⟩ := h
    have e1 : (nel' && c == NEL) = (k.nel && c == NEL) := by
      by_cases hn : k.nel = nel'
      · rw [hn]
      · rw [beq_eq_false_iff_ne.2 (h1 hn)]; simp
    have e2 : (lsps' && (c == LS || c == PS)) = (k.lsps && (c == LS || c == PS)) := by
      by_cases hn : k.lsps = lsps'
      · rw [hn]
      · rw [beq_eq_false_iff_ne.2 (h2 hn).1, beq_eq_false_iff_ne.2 (h2 hn).2]; simp
    rw [e1, e2]
  unfold groundStep
  simp only [e]
  (repeat' split) <;> rfl

theorem stepChar_blind {nel' lsps' : Bool} {k : Ctl} {c : Char} (h : Blind k.nel k.lsps nel' lsps' c) :
    stepChar U { k with nel := nel', lsps := lsps' } c =
      ({ (stepChar U k c).1 with nel := nel', lsps := lsps' }, (stepChar U k c).2) := by
  have g : ∀ st e, groundStep U { k with state := st, expectStarter := e, nel := nel', lsps := lsps' } c =
      ({ (groundStep U { k with state := st, expectStarter := e } c).1 with nel := nel', lsps := lsps' },
        (groundStep U { k with state := st, expectStarter := e } c).2) := fun st e => groundStep_blind (U := U) (k := { k with state := st, expectStarter := e }) h
  obtain ⟨st, ex, as, n, l⟩ := k
  simp only at g
  cases st <;> simp only [stepChar, g] <;> (repeat' split) <;> rfl

theorem feed_blind {nel' lsps' : Bool} : ∀ (s : List Char) {k : Ctl}, (∀ c ∈ s, Blind k.nel k.lsps nel' lsps' c) →
    feed U { k with nel := nel', lsps := lsps' } s = ({ (feed U k s).1 with nel := nel', lsps := lsps' }, (feed U k s).2) := by
  intro s
  induction s with
  | nil => intro k _; rfl
  | cons c s ih =>
    intro k h
    obtain ⟨m1, m2⟩ := stepChar_modes (U := U) k c
    rw [feed, stepChar_blind (h c (by simp))]
    simp only
    rw [ih (fun d hd => by rw [m1, m2]; exact h d (by simp [hd]))]
    rfl

theorem finish_blind (nel' lsps' : Bool) (k : Ctl) (b : Option Char) (st : Status) :
    finish { k with nel := nel', lsps := lsps' } b st = ({ (finish k b st).1 with nel := nel', lsps := lsps' }, (finish k b st).2) := by
  obtain ⟨s, ex, as, n, l⟩ := k
  unfold finish
  have hs : (finishState { state := s, expectStarter := ex, atStart := as, nel := nel', lsps := lsps' } : Ctl × List Char) =
      ({ (finishState { state := s, expectStarter := ex, atStart := as, nel := n, lsps := l }).1 with nel := nel', lsps := lsps' },
        (finishState { state := s, expectStarter := ex, atStart := as, nel := n, lsps := l }).2) := by
    cases s <;> rfl
  rw [hs]
  simp only
  split <;> rfl

theorem finish_modes (k : Ctl) (b : Option Char) (st : Status) : (finish k b st).1.nel = k.nel ∧ (finish k b st).1.lsps = k.lsps := by
  have h := finish_blind k.nel k.lsps k b st
  have e : ({ k with nel := k.nel, lsps := k.lsps } : Ctl) = k := rfl
  rw [e] at h
  exact ⟨by rw [h], by rw [h]⟩

theorem processRaw_modes (k : Ctl) (s : List Char) : (processRaw U k s).1.nel = k.nel ∧ (processRaw U k s).1.lsps = k.lsps := by
  unfold processRaw; exact feed_modes _ _

theorem intake_modes (k : Ctl) (q s : List Char) (st : Status) : (intake U k q s st).1.nel = k.nel ∧ (intake U k q s st).1.lsps = k.lsps := by
  obtain ⟨h1, h2⟩ := processRaw_modes (U := U) k s
  unfold intake
  simp only
  split
  · obtain ⟨g1, g2⟩ := finish_modes (processRaw U k s).1 (q ++ (processRaw U k s).2).getLast? st
    exact ⟨g1.trans h1, g2.trans h2⟩
  · exact ⟨h1, h2⟩

theorem intake_blind {nel' lsps' : Bool} {k : Ctl} {s : List Char} (h : ∀ c ∈ s, Blind k.nel k.lsps nel' lsps' c) (q : List Char) (st : Status) :
    intake U { k with nel := nel', lsps := lsps' } q s st =
      ({ (intake U k q s st).1 with nel := nel', lsps := lsps' }, (intake U k q s st).2) := by
  have hp : processRaw U { k with nel := nel', lsps := lsps' } s =
      ({ (processRaw U k s).1 with nel := nel', lsps := lsps' }, (processRaw U k s).2) := by
    unfold processRaw
    refine feed_blind (U := U) (nel' := nel') (lsps' := lsps') (k := { k with atStart := false }) _ ?_
    intro c hc
    refine h c ?_
    split at hc
    · exact List.mem_of_mem_tail hc
    · exact hc
  unfold intake
  rw [hp]
  simp only
  rw [finish_blind]
  split <;> rfl

/-- The texts of a source. -/
def Reads (src : List Event) (s : List Char) : Prop := ∃ st, .data s st ∈ src

theorem next_mem {src : List Event} {s : List Char} {st : Status} (h : (nextEvent src).1 = .data s st) : s = [] ∨ Reads src s := by
  cases src with
  | nil => simp [nextEvent] at h; exact .inl h.1
  | cons e r => simp only [nextEvent] at h; subst h; exact .inr ⟨st, by simp⟩

theorem next_reads {src : List Event} {s : List Char} (h : Reads (nextEvent src).2 s) : Reads src s := by
  cases src with
  | nil => exact h
  | cons e r => obtain ⟨st, h⟩ := h; exact ⟨st, by simp only [nextEvent] at h; simp [h]⟩

theorem inStep_modes (nel lsps nel' lsps' : Bool) : InStep U fun k src k' src' =>
    k.nel = nel ∧ k.lsps = lsps ∧ k' = { k with nel := nel', lsps := lsps' } ∧ src' = src ∧
    ∀ s, Reads src s → ∀ c ∈ s, Blind nel lsps nel' lsps' c where
  expect := by
    rintro k src k' src' ⟨h1, h2, h3, h4, h5⟩
    exact ⟨h1, h2, by rw [h3], h4, h5⟩
  step := by
    rintro k src k' src' ⟨h1, h2, h3, h4, h5⟩
    subst h4 h3
    have h5' : ∀ s, Reads (nextEvent src').2 s → ∀ c ∈ s, Blind nel lsps nel' lsps' c := fun s hs => h5 s (next_reads hs)
    cases e : (nextEvent src').1 with
    | err => exact .inl ⟨rfl, rfl, h1, h2, rfl, rfl, h5'⟩
    | data s st =>
      refine .inr ⟨s, s, st, rfl, rfl, fun q => ?_⟩
      have hs : ∀ c ∈ s, Blind k.nel k.lsps nel' lsps' c := by
        rw [h1, h2]
        rcases next_mem e with rfl | hr
        · simp
        · exact h5 s hr
      rw [intake_blind hs]
      obtain ⟨m1, m2⟩ := intake_modes (U := U) k q s st
      exact ⟨rfl, m1.trans h1, m2.trans h2, rfl, rfl, h5'⟩

/-! ## Newlines -/

/-- CRLF and lone CR replaced by LF, in one piece of the content; a CR at the end is held back until the next piece. -/
def lfPiece : Bool → List Char → List Char × Bool
  | held, [] => ([], held)
  | true, c :: r =>
    if c = '\n' then ('\n' :: (lfPiece false r).1, (lfPiece false r).2)
    else if c = '\r' then ('\n' :: (lfPiece true r).1, (lfPiece true r).2)
    else ('\n' :: c :: (lfPiece false r).1, (lfPiece false r).2)
  | false, c :: r =>
    if c = '\r' then lfPiece true r
    else (c :: (lfPiece false r).1, (lfPiece false r).2)

/-- The same in a whole source: what is held back is given out with a push or with the end. -/
def lfSource : Bool → List Event → List Event
  | true, [] => [.data ['\n'] .end_]
  | false, [] => []
  | held, .err :: r => .err :: lfSource held r
  | held, .data s st :: r =>
    if st = .active then .data (lfPiece held s).1 st :: lfSource (lfPiece held s).2 r
    else .data ((lfPiece held s).1 ++ if (lfPiece held s).2 then ['\n'] else []) st :: lfSource false r

/-- The two control states: alike, or the one waits after a CR and the other has not seen it. -/
def LfRel (held : Bool) (k k' : Ctl) : Prop :=
  ((∃ g, k'.state = .ground g) ∨ k'.state = .ff) ∧
  if held then k.state = .cr ∧ ∃ s e, k = { k' with state := s, expectStarter := e } else k = k'

theorem step_lf {k' : Ctl} (h : (∃ g, k'.state = .ground g) ∨ k'.state = .ff) :
    stepChar U k' '\n' = ({ k' with state := .ground true, expectStarter := false }, ['\n']) := by
  rcases h with ⟨g, h⟩ | h
  · rw [stepChar, h]; simp [groundStep]
  · rw [stepChar, h]; simp [groundStep, FF]

theorem step_plain {k : Ctl} {c : Char} (h : (∃ g, k.state = .ground g) ∨ k.state = .ff) (h1 : c ≠ '\r') (h2 : c ≠ ESC) :
    (∃ g, (stepChar U k c).1.state = .ground g) ∨ (stepChar U k c).1.state = .ff := by
  have hg : ∀ k : Ctl, (∃ g, (groundStep U k c).1.state = .ground g) ∨ (groundStep U k c).1.state = .ff := by
    intro k
    unfold groundStep
    rw [if_neg h1, if_neg h2]
    (repeat' split) <;> simp
  rcases h with ⟨g, h⟩ | h
  · rw [stepChar, h]; exact hg k
  · rw [stepChar, h]
    simp only
    split
    · exact hg _
    · exact .inr h

theorem step_cr {k' : Ctl} (h : (∃ g, k'.state = .ground g) ∨ k'.state = .ff) :
    (stepChar U k' '\r').2 = [] ∧ LfRel true (stepChar U k' '\r').1 k' := by
  unfold LfRel
  rcases h with ⟨g, h⟩ | h
  · refine ⟨by rw [stepChar, h]; simp [groundStep], .inl ⟨g, h⟩, ?_⟩
    rw [if_pos rfl, stepChar, h]
    simp only [groundStep]
    simp only [show ('\r' = '\n') = False by decide, if_false, if_true]
    exact ⟨trivial, .cr, k'.expectStarter, rfl⟩
  · refine ⟨by rw [stepChar, h]; simp [groundStep, FF], .inr h, ?_⟩
    rw [if_pos rfl, stepChar, h]
    simp only [groundStep]
    simp only [show ('\r' = '\n') = False by decide, show ('\r' ≠ FF) = True by decide, if_false, if_true]
    exact ⟨trivial, .cr, false, rfl⟩

theorem feed_lf : ∀ (s : List Char) (held : Bool) {k k' : Ctl}, ESC ∉ s → LfRel held k k' →
    (feed U k s).2 = (feed U k' (lfPiece held s).1).2 ∧ LfRel (lfPiece held s).2 (feed U k s).1 (feed U k' (lfPiece held s).1).1 := by
  intro s
  induction s with
  | nil => intro held k k' _ h; exact ⟨by cases held <;> rfl, by cases held <;> exact h⟩
  | cons c s ih =>
    intro held k k' he h
    have he' : ESC ∉ s := fun g => he (by simp [g])
    have hc : c ≠ ESC := fun g => he (by simp [g])
    cases held with
    | false =>
      obtain ⟨h1, h2⟩ := h
      have h2 : k = k' := h2
      subst h2
      rw [lfPiece]
      by_cases hr : c = '\r'
      · subst hr
        rw [if_pos rfl]
        obtain ⟨g1, g2⟩ := step_cr (U := U) h1
        obtain ⟨i1, i2⟩ := ih true he' g2
        rw [feed]
        simp only [g1, List.nil_append]
        exact ⟨i1, i2⟩
      · rw [if_neg hr]
        obtain ⟨i1, i2⟩ := ih false (k := (stepChar U k c).1) (k' := (stepChar U k c).1) he' ⟨step_plain h1 hr hc, rfl⟩
        simp only [feed]
        exact ⟨by rw [i1], i2⟩
    | true =>
      obtain ⟨h1, h2⟩ := h
      obtain ⟨h2, st, ex, h3⟩ : k.state = .cr ∧ ∃ s e, k = { k' with state := s, expectStarter := e } := h2
      have hn := step_lf (U := U) h1
      have hg : LfRel false { k' with state := .ground true, expectStarter := false } { k' with state := .ground true, expectStarter := false } :=
        ⟨.inl ⟨true, rfl⟩, rfl⟩
      have hk : ({ k with state := .ground true, expectStarter := false } : Ctl) = { k' with state := .ground true, expectStarter := false } := by
        rw [h3]
      rw [lfPiece]
      by_cases hl : c = '\n'
      · subst hl
        rw [if_pos rfl]
        obtain ⟨i1, i2⟩ := ih false he' hg
        have e : stepChar U k '\n' = ({ k' with state := .ground true, expectStarter := false }, ['\n']) := by
          rw [stepChar, h2]; simp [hk]
        simp only [feed, e, hn]
        exact ⟨by rw [i1], i2⟩
      · rw [if_neg hl]
        have e : stepChar U k c = ((groundStep U { k' with state := .ground true, expectStarter := false } c).1,
            '\n' :: (groundStep U { k' with state := .ground true, expectStarter := false } c).2) := by
          rw [stepChar, h2]; simp only [if_pos hl, hk, ne_eq]
        have e' : groundStep U { k' with state := .ground true, expectStarter := false } c =
            stepChar U { k' with state := .ground true, expectStarter := false } c := rfl
        by_cases hr : c = '\r'
        · subst hr
          rw [if_pos rfl]
          obtain ⟨g1, g2⟩ := step_cr (U := U) hg.1
          rw [e'] at e
          rw [g1] at e
          obtain ⟨i1, i2⟩ := ih true he' g2
          simp only [feed, e, hn]
          exact ⟨by rw [i1], i2⟩
        · rw [if_neg hr]
          obtain ⟨i1, i2⟩ := ih false (k := (stepChar U { k' with state := .ground true, expectStarter := false } c).1)
            (k' := (stepChar U { k' with state := .ground true, expectStarter := false } c).1) he' ⟨step_plain hg.1 hr hc, rfl⟩
          rw [e'] at e
          simp only [feed, e, hn]
          exact ⟨by rw [i1]; simp, i2⟩

theorem lfPiece_held_head (s : List Char) : (lfPiece true s).1.head? ≠ some BOM := by
  cases s with
  | nil => simp [lfPiece]
  | cons c r =>
    rw [lfPiece]
    (repeat' split) <;> simp <;> decide

theorem processRaw_lf {held : Bool} {k k' : Ctl} (h : LfRel held k k') (ha : held = true → k'.atStart = false) (s y : List Char) (he : ESC ∉ s)
    (hy : y.head? ≠ some BOM) : ∃ s0, ESC ∉ s0 ∧ processRaw U k s = feed U { k with atStart := false } s0 ∧
      processRaw U k' ((lfPiece held s).1 ++ y) = feed U { k' with atStart := false } ((lfPiece held s0).1 ++ y) ∧
      (lfPiece held s0).2 = (lfPiece held s).2 := by
  have hat : k.atStart = k'.atStart := by
    obtain ⟨-, h2⟩ := h
    cases held with
    | false => have h2 : k = k' := h2; rw [h2]
    | true => obtain ⟨-, st, ex, h3⟩ : k.state = .cr ∧ ∃ s e, k = { k' with state := s, expectStarter := e } := h2; rw [h3]
  unfold processRaw
  by_cases hk : k'.atStart = true
  · have hh : held = false := by
      cases held with
      | false => rfl
      | true => rw [ha rfl] at hk; cases hk
    subst hh
    simp only [hat, hk, Bool.true_and]
    by_cases hs : s.head? = some BOM
    · cases s with
      | nil => simp at hs
      | cons c r =>
        have hc : c = BOM := by simpa using hs
        subst hc
        have e : lfPiece false (BOM :: r) = (BOM :: (lfPiece false r).1, (lfPiece false r).2) := by
          rw [lfPiece, if_neg (by decide)]
        refine ⟨r, fun g => he (by simp [g]), by simp, ?_, by rw [e]⟩
        rw [e]; simp
    · refine ⟨s, he, by simp [hs], ?_, rfl⟩
      have : ((lfPiece false s).1 ++ y).head? ≠ some BOM := by
        cases s with
        | nil => simpa [lfPiece] using hy
        | cons c r =>
          rw [lfPiece]
          split
          · have := lfPiece_held_head r
            cases e : (lfPiece true r).1 with
            | nil => simpa using hy
            | cons d x => rw [e] at this; simpa using this
          · simpa using hs
      rw [if_neg (by simpa using this)]
  · have hk : k'.atStart = false := by simpa using hk
    simp only [hat, hk, Bool.false_and]
    exact ⟨s, he, by simp, by simp, rfl⟩

theorem LfRel.atStart {held : Bool} {k k' : Ctl} (h : LfRel held k k') (b : Bool) : LfRel held { k with atStart := b } { k' with atStart := b } := by
  obtain ⟨h1, h2⟩ := h
  refine ⟨h1, ?_⟩
  cases held with
  | false => have h2 : k = k' := h2; rw [h2]; rfl
  | true =>
    obtain ⟨h2, st, ex, h3⟩ : k.state = .cr ∧ ∃ s e, k = { k' with state := s, expectStarter := e } := h2
    exact ⟨h2, st, ex, by rw [h3]⟩

theorem LfRel.expect {held : Bool} {k k' : Ctl} (h : LfRel held k k') : LfRel held { k with expectStarter := true } { k' with expectStarter := true } := by
  obtain ⟨h1, h2⟩ := h
  refine ⟨h1, ?_⟩
  cases held with
  | false => have h2 : k = k' := h2; rw [h2]; rfl
  | true =>
    obtain ⟨h2, st, ex, h3⟩ : k.state = .cr ∧ ∃ s e, k = { k' with state := s, expectStarter := e } := h2
    exact ⟨h2, st, true, by rw [h3]⟩

theorem finish_ground (k : Ctl) (b : Option Char) (st : Status) : ∃ g, (finish k b st).1.state = .ground g := by
  unfold finish finishState
  obtain ⟨s, ex, as, n, l⟩ := k
  cases s <;> simp only <;> split <;> exact ⟨_, rfl⟩

/-- A read that is not the last before a push or the end. -/
theorem intake_lf {held : Bool} {k k' : Ctl} (h : LfRel held k k') (ha : held = true → k'.atStart = false) {s : List Char} (he : ESC ∉ s) (q : List Char) :
    (intake U k q s .active).2 = (intake U k' q (lfPiece held s).1 .active).2 ∧
    LfRel (lfPiece held s).2 (intake U k q s .active).1 (intake U k' q (lfPiece held s).1 .active).1 ∧
    (intake U k' q (lfPiece held s).1 .active).1.atStart = false := by
  obtain ⟨s0, g1, g2, g3, g4⟩ := processRaw_lf (U := U) h ha s [] he (by simp)
  rw [List.append_nil, List.append_nil] at g3
  obtain ⟨i1, i2⟩ := feed_lf (U := U) s0 held g1 (h.atStart false)
  unfold intake
  simp only [ne_eq, not_true_eq_false, if_false]
  rw [g2, g3, ← g4]
  exact ⟨i1, i2, feed_atStart _ _⟩

/-- A read that comes with a push or the end. -/
theorem intake_lf_last {held : Bool} {k k' : Ctl} (h : LfRel held k k') (ha : held = true → k'.atStart = false) {s : List Char} (he : ESC ∉ s) (q : List Char)
    {st : Status} (hst : st ≠ .active) :
    (intake U k q s st).2 = (intake U k' q ((lfPiece held s).1 ++ if (lfPiece held s).2 then ['\n'] else []) st).2 ∧
    LfRel false (intake U k q s st).1 (intake U k' q ((lfPiece held s).1 ++ if (lfPiece held s).2 then ['\n'] else []) st).1 := by
  obtain ⟨s0, g1, g2, g3, g4⟩ := processRaw_lf (U := U) h ha s (if (lfPiece held s).2 then ['\n'] else []) he (by split <;> simp; decide)
  obtain ⟨i1, i2⟩ := feed_lf (U := U) s0 held g1 (h.atStart false)
  unfold intake
  simp only [if_pos hst]
  rw [g2, g3, feed_append, i1]
  rw [g4] at i2
  simp only
  generalize hK : (feed U { k with atStart := false } s0).1 = K at *
  generalize hX : feed U { k' with atStart := false } (lfPiece held s0).1 = X at *
  obtain ⟨K', O⟩ := X
  simp only at i2 ⊢
  cases hp : (lfPiece held s).2 with
  | false =>
    rw [hp] at i2
    obtain ⟨-, i2⟩ := i2
    have i2 : K = K' := i2
    subst i2
    simp only [Bool.false_eq_true, if_false, feed, List.append_nil, true_and]
    exact ⟨.inl (finish_ground _ _ _), rfl⟩
  | true =>
    rw [hp] at i2
    obtain ⟨i1', i2⟩ := i2
    obtain ⟨i2, s1, e1, i3⟩ : K.state = .cr ∧ ∃ s e, K = { K' with state := s, expectStarter := e } := i2
    have hn := step_lf (U := U) i1'
    simp only [if_true, feed, hn, List.append_nil]
    have hf : finish K (q ++ O).getLast? st = ({ K' with state := .ground true, expectStarter := false }, ['\n']) := by
      unfold finish finishState
      rw [i2]
      simp only
      have : endGuard ((['\n'] : List Char).getLast?.or (q ++ O).getLast?) = [] := show endGuard (some '\n') = [] by decide
      rw [this, if_neg (by simp), i3]
      rfl
    have hf' : finish { K' with state := .ground true, expectStarter := false } (q ++ (O ++ ['\n'])).getLast? st =
        ({ K' with state := .ground true, expectStarter := false }, []) := by
      unfold finish finishState
      simp only
      rw [← List.append_assoc, List.getLast?_concat]
      have : endGuard ((List.getLast? ([] : List Char)).or (some '\n')) = [] := by decide
      rw [this, if_neg (by simp)]
      rfl
    rw [hf, hf', List.append_nil]
    exact ⟨rfl, .inl ⟨true, rfl⟩, rfl⟩

theorem inStep_lf : InStep U fun k src k' src' =>
    ∃ held, LfRel held k k' ∧ (held = true → k'.atStart = false) ∧ src' = lfSource held src ∧ ∀ s, Reads src s → ESC ∉ s where
  expect := by
    rintro k src k' src' ⟨held, h1, h2, h3, h4⟩
    exact ⟨held, h1.expect, h2, h3, h4⟩
  step := by
    rintro k src k' src' ⟨held, h1, h2, h3, h4⟩
    subst h3
    cases src with
    | nil =>
      refine .inr ⟨[], if held then ['\n'] else [], .end_, rfl, by cases held <;> rfl, fun q => ?_⟩
      obtain ⟨g1, g2⟩ := intake_lf_last (U := U) h1 h2 (s := []) (by simp) q (st := .end_) (by simp)
      have e : ((lfPiece held []).1 ++ if (lfPiece held []).2 = true then ['\n'] else []) = if held then ['\n'] else [] := by cases held <;> rfl
      rw [e] at g1 g2
      refine ⟨g1, false, g2, by simp, by cases held <;> rfl, h4⟩
    | cons ev r =>
      have h4' : ∀ s, Reads r s → ESC ∉ s := fun s ⟨st, hs⟩ => h4 s ⟨st, by simp [hs]⟩
      cases ev with
      | err => exact .inl ⟨rfl, by cases held <;> rfl, held, h1, h2, by cases held <;> rfl, h4'⟩
      | data s st =>
        have he : ESC ∉ s := h4 s ⟨st, by simp⟩
        by_cases hst : st = .active
        · subst hst
          have e : lfSource held (.data s .active :: r) = .data (lfPiece held s).1 .active :: lfSource (lfPiece held s).2 r := by
            rw [lfSource, if_pos rfl]
          rw [e]
          refine .inr ⟨s, _, .active, rfl, rfl, fun q => ?_⟩
          obtain ⟨g1, g2, g3⟩ := intake_lf (U := U) h1 h2 he q
          exact ⟨g1, _, g2, fun _ => g3, rfl, h4'⟩
        · have e : lfSource held (.data s st :: r) =
              .data ((lfPiece held s).1 ++ if (lfPiece held s).2 then ['\n'] else []) st :: lfSource false r := by
            rw [lfSource, if_neg hst]
          rw [e]
          refine .inr ⟨s, _, st, rfl, rfl, fun q => ?_⟩
          obtain ⟨g1, g2⟩ := intake_lf_last (U := U) h1 h2 he q hst
          exact ⟨g1, false, g2, by simp, rfl, h4'⟩

end Verif
