import Verif.Layered

/-!
# A color writer on a color writer
-/

namespace Verif
open Ucd

variable {U : Ucd}

/-- The same writer on another inner stream. -/
def Writer.on (w : Writer) (k : Sink) : Writer := { w with sink := k }

/-- The result on another inner stream: a failure abandons it. -/
def onR (r : Writer × Out) (k : Sink) : Writer × Out := (r.1.on (if r.2 = .ok then k else k.abandon), r.2)

theorem putChar_on (k : Sink) (w : Writer) (c : Char) : putChar rej (w.on k) c = onR (putChar rej w c) k := by
  cases w with
  | mk b cr e a st q sk =>
    cases st <;> simp only [putChar, Writer.on]
    · split
      · cases a <;> rfl
      · split
        · rfl
        · split
          · cases rej <;> rfl
          · rfl
    · split <;> rfl
    · split
      · rfl
      · split <;> rfl

theorem putAll_on (k : Sink) : ∀ (l : List Char) (w : Writer), putAll rej (w.on k) l = onR (putAll rej w l) k := by
  intro l
  induction l with
  | nil => intro w; rfl
  | cons c l ih =>
    intro w
    simp only [putAll, putChar_on]
    cases hp : putChar rej w c with
    | mk p o =>
      cases o
      · exact ih p
      · rfl
      · rfl

theorem stateMachine_on (k : Sink) (w : Writer) (s : List Char) : stateMachine U (w.on k) s = onR (stateMachine U w s) k := by
  unfold stateMachine
  simp only
  split <;> exact putAll_on k _ w

theorem load_on (k : Sink) {w : Writer} (hc : w.crlf = false) (op : Op) : load U (w.on k) op = onR (load U w op) k := by
  have hp : ∀ s, prepStr U (w.on k) s = onR (prepStr U w s) k := by
    intro s
    unfold prepStr
    rw [show (w.on k).crlf = w.crlf from rfl, hc]
    exact stateMachine_on k w s
  cases op with
  | str s => exact hp s
  | text s => simp only [load, prepText_eq]; rfl
  | bytes b =>
    simp only [load]
    split
    · exact hp _
    · rfl
  | _ => rfl

/-- The ground state depends on the last scalar only. -/
theorem putChar_ground {w w' : Writer} {c : Char} {g : Ground} (h : putChar rej w c = (w', .ok)) (hg : w'.state = .ground g) :
    g = groundAfter [c] ∧ w'.buffer.getLast? = some c := by
  unfold putChar at h
  split at h
  · split at h
    · split at h
      · simp at h; rw [← h] at hg; simp at hg
      · simp at h
    · split at h
      · rename_i hn
        simp only [Prod.mk.injEq, and_true] at h
        subst h; subst hn
        simp only [WState.ground.injEq] at hg
        exact ⟨hg.symm, by simp⟩
      · split at h
        · cases rej <;> simp at h
        · rename_i hn _
          simp only [Prod.mk.injEq, and_true] at h
          subst h
          simp only [WState.ground.injEq] at hg
          refine ⟨?_, by simp⟩
          rw [← hg]
          simp [groundAfter, hn]
  · split at h
    · simp at h; rw [← h] at hg; simp at hg
    · simp at h
  · split at h
    · simp only [Prod.mk.injEq, and_true] at h
      rename_i hs _
      subst h
      simp only at hg
      rw [hs] at hg
      simp at hg
    · split at h
      · rename_i hm
        simp only [Prod.mk.injEq, and_true] at h
        subst h; subst hm
        simp only [WState.ground.injEq] at hg
        exact ⟨by rw [← hg]; decide +kernel, by simp⟩
      · simp at h

theorem putAll_ground {l : List Char} : ∀ {w w' : Writer} {g : Ground}, putAll rej w l = (w', .ok) → w'.state = .ground g →
    (l = [] ∧ w' = w) ∨ ∃ c, g = groundAfter [c] ∧ w'.buffer.getLast? = some c := by
  induction l with
  | nil => intro w w' g h _; simp [putAll] at h; exact Or.inl ⟨rfl, h.symm⟩
  | cons c l ih =>
    intro w w' g h hg
    unfold putAll at h
    split at h
    · rename_i w1 h1
      rcases ih h hg with ⟨h2, h3⟩ | h2
      · subst h3
        exact Or.inr ⟨c, putChar_ground h1 hg⟩
      · exact Or.inr h2
    · rename_i h1; rw [h] at h1; exact absurd rfl (h1 w')

theorem groundAfter_last {T : List Char} {c : Char} (h : T.getLast? = some c) : groundAfter T = groundAfter [c] := by
  simp [groundAfter, h]

/-- After filling the buffer a writer in the ground state is in the one that the buffer leads to. -/
theorem load_ground (hU : TextLaws U) {op : Op} (hw : op.isWrite = true) (hf : op.Firm U) {w w' : Writer} {g : Ground} (h : load U w op = (w', .ok)) (hc : w.crlf = false)
    (hb : w.buffer = []) (hg : w'.state = .ground g) : (w'.buffer = [] ∧ w.state = .ground g) ∨ (w'.buffer ≠ [] ∧ g = groundAfter w'.buffer) := by
  have key : ∀ s, prepStr U w s = (w', .ok) → (w'.buffer = [] ∧ w.state = .ground g) ∨ (w'.buffer ≠ [] ∧ g = groundAfter w'.buffer) := by
    intro s hs
    unfold prepStr at hs
    rw [hc] at hs
    obtain ⟨-, h2⟩ := stateMachine_ok hU hs
    rcases putAll_ground h2 hg with ⟨-, h3⟩ | ⟨c, h3, h4⟩
    · subst h3; exact Or.inl ⟨hb, hg⟩
    · refine Or.inr ⟨fun e => by simp [e] at h4, ?_⟩
      rw [groundAfter_last h4]; exact h3
  cases op with
  | str s => exact key s h
  | text s =>
    simp only [load, prepText_eq, hc, hb, Prod.mk.injEq, and_true] at h
    subst h
    simp only [WState.ground.injEq] at hg
    refine Or.inr ⟨?_, ?_⟩
    · simpa using hf.2.1
    · simpa using hg.symm
  | bytes b =>
    simp only [load] at h
    split at h
    · exact key _ h
    · simp at h
  | _ => simp [Op.isWrite] at hw

/-- What is in the buffer is not changed by another normalization. -/
theorem load_fix (hU : TextLaws U) {op : Op} (hw : op.isWrite = true) (hf : op.Firm U) {w w' : Writer} (h : load U w op = (w', .ok)) (hc : w.crlf = false)
    (hs : SeqOk w) (hb : w.buffer = []) : normChain U w'.buffer = w'.buffer := by
  refine (normChain_eq_iff hU).2 ⟨load_nss hU hf.ok h (Or.inl hc) hs hb, ?_⟩
  have key : ∀ s, prepStr U w s = (w', .ok) → Pre U false w'.buffer := by
    intro s hp
    unfold prepStr at hp
    rw [hc] at hp
    obtain ⟨-, h2⟩ := stateMachine_ok hU hp
    have h3 := (putAll_ok h2).2.1
    rw [hb, List.nil_append] at h3
    have h4 : Pre U false (pend w ++ normChain U s) := by
      refine pre_append.2 ⟨pre_of_all fun c hc => isAssigned_of (hU.assigned_ascii c (pend_ascii hs c hc)), ?_⟩
      cases hq : pend w with
      | nil => exact pre_normChain hU s
      | cons a q =>
        cases hn : normChain U s with
        | nil => trivial
        | cons c l =>
          have := pre_normChain hU s
          rw [hn] at this
          refine ⟨fun hx => ?_, this.2⟩
          rw [hn] at h2
          have := isAssigned_of (hU.assigned_ascii c (putAll_head h2 (by rw [hq]; simp)))
          rw [this] at hx; simp at hx
    rw [← h3] at h4
    exact (pre_append.1 h4).1
  cases op with
  | str s => exact key s h
  | text s =>
    simp only [load, prepText_eq, hc, hb, Prod.mk.injEq, and_true] at h
    subst h
    simp only [Bool.false_eq_true, if_false, List.nil_append]
    exact ((normChain_eq_iff hU).1 hf.2.2).2
  | bytes b =>
    simp only [load] at h
    split at h
    · exact key _ h
    · simp at h
  | _ => simp [Op.isWrite] at hw

theorem putAll_then {a b : List Char} : ∀ {w w' : Writer}, putAll rej w a = (w', .ok) → putAll rej w (a ++ b) = putAll rej w' b := by
  induction a with
  | nil => intro w w' h; simp [putAll] at h; rw [← h]; rfl
  | cons c a ih =>
    intro w w' h
    unfold putAll at h
    rw [List.cons_append, putAll.eq_def]
    split at h
    · rename_i w1 h1
      simp only [h1]
      exact ih h
    · rename_i h1; rw [h] at h1; exact absurd rfl (h1 w')

theorem putAll_held {ps : List Char} (hp : ∀ p ∈ ps, between 0x20 0x3f p = true) : ∀ {w : Writer}, w.state = .csi →
    putAll rej w ps = ({ w with seq := w.seq ++ ps }, .ok) := by
  induction ps with
  | nil => intro w _; simp [putAll]
  | cons c ps ih =>
    intro w hs
    have h1 : putChar rej w c = ({ w with seq := w.seq ++ [c] }, .ok) := by
      simp only [putChar, hs, hp c (by simp), if_true]
    rw [putAll, h1]
    simp only
    have h2 := ih (fun p h => hp p (by simp [h])) (w := { w with seq := w.seq ++ [c] }) hs
    rw [h2]
    simp

/-- A color writer takes whole color sequences and allowed scalars. -/
theorem putAll_whole {T : List Char} (h : Items false true T) : ∀ {w : Writer} {g : Ground}, w.state = .ground g → w.ansi = true →
    ∃ q, putAll rej w T = ({ w with buffer := w.buffer ++ T, state := .ground (groundFrom g T), seq := q }, .ok) := by
  induction h with
  | nil => intro w g hg _; exact ⟨w.seq, by simp [putAll, groundFrom, ← hg]⟩
  | char s c _ hc ih =>
    intro w g hg ha
    obtain ⟨q, hq⟩ := ih hg ha
    refine ⟨q, ?_⟩
    rw [putAll_then hq, putAll_plain (g := groundFrom g s) rfl (by simpa using hc)]
    simp [groundFrom_append]
  | newline _ _ hc => simp at hc
  | color s ps _ _ hp ih =>
    intro w g hg ha
    obtain ⟨q, hq⟩ := ih hg ha
    refine ⟨ESC :: '[' :: ps ++ ['m'], ?_⟩
    have e1 : ESC :: '[' :: ps ++ ['m'] = ESC :: '[' :: (ps ++ ['m']) := rfl
    rw [putAll_then hq, e1]
    cases w with
    | mk b cr e a st q0 sk =>
      simp only at ha
      subst ha
      rw [putAll]
      have p1 : ∀ (b : List Char) (g : Ground) (q : List Char), putChar rej ⟨b, cr, e, true, .ground g, q, sk⟩ ESC = (⟨b, cr, e, true, .esc, [ESC], sk⟩, .ok) := by
        intros; rfl
      have p2 : ∀ (b : List Char) (q : List Char), putChar rej ⟨b, cr, e, true, .esc, q, sk⟩ '[' = (⟨b, cr, e, true, .csi, q ++ ['['], sk⟩, .ok) := by
        intros; rfl
      have p3 : ∀ (b : List Char) (q : List Char), putChar rej ⟨b, cr, e, true, .csi, q, sk⟩ 'm' = (⟨b ++ q ++ ['m'], cr, e, true, .ground .other, q ++ ['m'], sk⟩, .ok) := by
        intros; rfl
      rw [p1]
      simp only
      rw [putAll, p2]
      simp only
      rw [putAll_then (putAll_held hp rfl)]
      simp only [putAll]
      rw [p3]
      have eg : groundFrom g (s ++ ESC :: '[' :: (ps ++ ['m'])) = .other := by
        rw [show s ++ ESC :: '[' :: (ps ++ ['m']) = (s ++ ESC :: '[' :: ps) ++ ['m'] from by simp, groundFrom_append]
        simp only [groundFrom]
        rw [if_neg (by simp)]
        decide +kernel
      simp [eg]

/-- The three color writers keep step. -/
structure ColorLive (w : Writer) (l : Layered) : Prop where
  outer : l.outer = w.on l.outer.sink
  crlf : w.crlf = false
  ansi : w.ansi = true
  buffer : w.buffer = []
  seq : SeqOk w
  mode : l.inner.crlf = false ∧ l.inner.ansi = true ∧ l.inner.buffer = []
  sink : l.inner.sink = w.sink
  expect : l.inner.expectStarter = w.expectStarter
  ground : ∃ g, l.inner.state = .ground g ∧ ∀ g', w.state = .ground g' → g' = g

theorem color_write (hU : TextLaws U) {w : Writer} {l : Layered} (h : ColorLive w l) {op : Op} (hw : op.isWrite = true) (ho : op.Firm U) :
    (ColorLive (step U w op).1 (l.step U op).1 ∨ Gone (step U w op).1 (l.step U op).1) ∧ (l.step U op).2 = (step U w op).2 := by
  obtain ⟨g, g1, g2⟩ := h.ground
  have ha : (abandon l.inner).sink = w.sink.abandon := by
    show l.inner.sink.abandon = _
    rw [h.sink]
  rw [layered_write l hw, step_write hw, h.outer, load_on _ h.crlf]
  cases hl : load U w op with
  | mk p o =>
    cases o with
    | ok =>
      obtain ⟨s1, s2⟩ := load_ok hU ho.ok hl
      obtain ⟨s3, s4⟩ := s2 h.seq (by rw [h.buffer]; exact .nil)
      rw [s1.crlf, s1.ansi, h.crlf, h.ansi] at s4
      have hfix := load_fix hU hw ho hl h.crlf h.seq h.buffer
      have hk : ∀ c ∈ p.buffer, checkChar c = none := by
        intro c hc
        rcases items_chars s4 c hc with h1 | h1 | h1
        · exact (okChar_check.1 h1).1
        · simp at h1
        · rw [h1.2]; decide +kernel
      obtain ⟨q, hq⟩ := putAll_whole (rej := false) s4 g1 h.mode.2.1
      have hi : writeStr U l.inner p.buffer =
          writeBuffer U { l.inner with buffer := p.buffer, state := .ground (groundFrom g p.buffer), seq := q } := by
        rw [writeStr_eq]
        unfold prepStr
        rw [h.mode.1]
        simp only [Bool.false_eq_true, if_false]
        rw [stateMachine_clean hU hk, hfix, hq, h.mode.2.2]
        rfl
      have hg : ∀ g', p.state = .ground g' → g' = groundFrom g p.buffer := by
        intro g' hp
        rcases load_ground hU hw ho hl h.crlf h.buffer hp with ⟨e1, e2⟩ | ⟨e1, e2⟩
        · rw [e1]; exact g2 g' e2
        · simp [groundFrom, e1, e2]
      simp only [onR, if_true, Layered.writeBuffer, Writer.on, hi]
      simp only [writeBuffer, s1.expect, h.expect, s1.sink, h.sink]
      split
      · exact ⟨Or.inr ⟨ha, rfl, rfl, rfl, rfl⟩, rfl⟩
      · cases hs : w.sink.writeStr p.buffer with
        | mk k b =>
          cases b with
          | true =>
            refine ⟨Or.inl ⟨rfl, s1.crlf.trans h.crlf, s1.ansi.trans h.ansi, rfl, s3, ⟨h.mode.1, h.mode.2.1, rfl⟩, rfl, rfl, ⟨_, rfl, hg⟩⟩, rfl⟩
          | false => exact ⟨Or.inr ⟨rfl, rfl, rfl, rfl, rfl⟩, rfl⟩
    | err =>
      obtain ⟨-, f⟩ := load_not_ok hU hl (by simp)
      exact ⟨Or.inr ⟨by rw [f.sink]; exact ha, by rw [f.sink]; rfl, f.state, f.state, rfl⟩, rfl⟩
    | panic => exact absurd (load_not_ok hU hl (by simp)).1 (by simp)

theorem color_step (hU : TextLaws U) {w : Writer} {l : Layered} (h : ColorLive w l) {op : Op} (ho : op.Firm U) :
    (ColorLive (step U w op).1 (l.step U op).1 ∨ Gone (step U w op).1 (l.step U op).1) ∧ (l.step U op).2 = (step U w op).2 := by
  cases hw : op.isWrite with
  | true => exact color_write hU h hw ho
  | false =>
    obtain ⟨g, g1, g2⟩ := h.ground
    have ho' : l.outer.state = w.state := by rw [h.outer]; rfl
    have ha : l.inner.sink.abandon = w.sink.abandon := by rw [h.sink]
    have hgone : Gone w.fail l.fail := ⟨ha, rfl, rfl, rfl, rfl⟩
    cases op with
    | flush =>
      simp only [step, Layered.step, Layered.flush, flush, ho']
      cases hs : w.state with
      | ground g' =>
        have := g2 g' hs
        subst this
        cases g' with
        | zwjOrPrepend => exact ⟨Or.inr hgone, rfl⟩
        | _ =>
          simp only [g1, h.sink]
          refine ⟨Or.inl ⟨?_, h.crlf, h.ansi, h.buffer, ?_, h.mode, rfl, rfl, ⟨_, rfl, ?_⟩⟩, trivial⟩
          · have e := h.outer
            generalize l.outer.sink = k at e
            simp only [e, Writer.on]
          · show SeqOk _
            simp only [SeqOk]
          · intro g' hg; rw [← hs] at hg; exact g2 g' hg
      | _ => exact ⟨Or.inl h, rfl⟩
    | close =>
      by_cases hn : w.state = .ground .newline
      · have := g2 _ hn
        subst this
        simp only [step, Layered.step, Layered.close, close, checkNl, ho', hn, g1, h.sink, if_true]
        exact ⟨Or.inr ⟨rfl, rfl, rfl, rfl, rfl⟩, trivial⟩
      · simp only [step, Layered.step, Layered.close, close, checkNl, ho', hn, if_false]
        exact ⟨Or.inr ⟨ha, rfl, rfl, rfl, rfl⟩, trivial⟩
    | abandon => exact ⟨Or.inr ⟨ha, rfl, rfl, rfl, rfl⟩, rfl⟩
    | _ => simp [Op.isWrite] at hw

theorem color_run (hU : TextLaws U) {ops : List Op} : ∀ {w : Writer} {l : Layered}, (ColorLive w l ∨ Gone w l) → (∀ op ∈ ops, op.Firm U) →
    (ColorLive (run U w ops) (l.run U ops) ∨ Gone (run U w ops) (l.run U ops)) ∧ l.results U ops = results U w ops := by
  induction ops with
  | nil => intro w l h _; exact ⟨h, rfl⟩
  | cons op ops ih =>
    intro w l h ho
    have := ho op (by simp)
    have key : (ColorLive (step U w op).1 (l.step U op).1 ∨ Gone (step U w op).1 (l.step U op).1) ∧ (l.step U op).2 = (step U w op).2 := by
      rcases h with h | h
      · exact color_step hU h this
      · exact ⟨Or.inr (gone_step hU h this.ok).1, (gone_step hU h this.ok).2⟩
    obtain ⟨h1, h2⟩ := ih key.1 fun o h => ho o (by simp [h])
    exact ⟨h1, by simp only [Layered.results, results]; rw [key.2, h2]⟩

end Verif
