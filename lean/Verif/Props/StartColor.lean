import Verif.Props.Sharp
import Verif.Props.Sharper

/-! C32 with color: what the first scalar sent can be when color sequences may be held back. -/

namespace Verif
open Spec

/-- Every text passed to `write_text` begins with a scalar that may start Basic Text. -/
def Spec.TextStarts (ops : List Op) : Prop := ∀ s, Op.text s ∈ ops → ∃ c ∈ s.head?, isStart ucd15 c = true

/-- Expecting a starter, or holding back the beginning of a color sequence. -/
def Poised (w : Writer) : Prop := w.expectStarter = true ∨ pend w ≠ []

theorem esc_start : isStart ucd15 ESC = true := by decide +kernel

/-- What a string makes ready in color mode begins with the escape of the sequence held back; if nothing is made ready, all is held back. -/
theorem poised_str {w p : Writer} {s : List Char} (h : stateMachine ucd15 w s = (p, .ok)) (hs : SeqOk w) (hb : w.buffer = [])
    (hne : pend w ≠ [] ∨ s ≠ []) :
    (p.buffer = [] → pend p ≠ []) ∧ (pend w ≠ [] → ∀ c ∈ p.buffer.head?, isStart ucd15 c = true) := by
  have h2 := (putAll_ok (stateMachine_ok textLaws15 h).2).2.1
  rw [hb, List.nil_append] at h2
  constructor
  · intro he hp
    rw [he, hp] at h2
    have h3 := h2.symm
    simp only [List.append_nil, List.append_eq_nil_iff] at h3
    rcases hne with h4 | h4
    · exact h4 h3.1
    · exact normChain_ne_nil textLaws15 h4 h3.2
  · intro hp c hc
    have h3 : c ∈ (pend w ++ normChain ucd15 s).head? := by
      rw [← h2, List.head?_append, Option.mem_def.1 hc]; rfl
    cases hd : (pend w).head? with
    | none => exact absurd (List.head?_eq_none_iff.1 hd) hp
    | some d =>
      rw [List.head?_append, hd] at h3
      simp only [Option.mem_def] at h3
      rw [← Option.some.inj h3, pend_head hs d hd]
      exact esc_start

theorem poised_load {op : Op} (hw : op.isWrite = true) {w p : Writer} (hl : load ucd15 w op = (p, .ok)) (hm : w.crlf = false)
    (hs : SeqOk w) (hb : w.buffer = []) (hne : pend w ≠ [] ∨ op.src ≠ [])
    (ht : ∀ s, op = .text s → ∃ c ∈ s.head?, isStart ucd15 c = true) :
    (p.buffer = [] → pend p ≠ []) ∧ (pend w ≠ [] → ∀ c ∈ p.buffer.head?, isStart ucd15 c = true) := by
  cases op with
  | str s =>
    simp only [load, prepStr, hm] at hl
    exact poised_str (by simpa [Op.src] using hl) hs hb hne
  | text s =>
    simp only [load, prepText, hm, Prod.mk.injEq, and_true] at hl
    obtain ⟨c, hc, hst⟩ := ht s rfl
    have hbuf : p.buffer = s := by rw [← hl]; simp [hb]
    constructor
    · intro he; rw [hbuf] at he; rw [he] at hc; simp at hc
    · intro _ d hd
      rw [hbuf, Option.mem_def.1 hc] at hd
      rw [← Option.some.inj hd]; exact hst
  | bytes b =>
    simp only [load] at hl
    split at hl
    · simp only [prepStr, hm] at hl
      exact poised_str (by simpa [Op.src] using hl) hs hb hne
    · simp at hl
  | _ => simp [Op.isWrite] at hw

theorem pend_of {w : Writer} (h : w.state = .esc ∨ w.state = .csi) (hs : SeqOk w) : pend w ≠ [] := by
  unfold SeqOk at hs
  unfold pend
  rcases h with h | h <;> rw [h] at hs ⊢ <;> simp only at hs ⊢
  · rw [hs.1]; simp
  · obtain ⟨⟨ps, -, he⟩, -⟩ := hs
    rw [he]; simp

theorem pend_ground {w : Writer} {g : Ground} (h : w.state = .ground g) : pend w = [] := by
  unfold pend; rw [h]

/-- One call of a poised writer in color mode. -/
theorem poised_step {base : List Char} {op : Op} (ho : op.Ok ucd15) {w : Writer} (h : Safe base w) (hm : w.crlf = false) (hp : Poised w)
    (hne : op.isWrite = true → pend w = [] → op.src ≠ []) (ht : ∀ s, op = .text s → ∃ c ∈ s.head?, isStart ucd15 c = true) :
    ∃ d, Delta w (step ucd15 w op).1 d ∧ (∀ c ∈ d.head?, isStart ucd15 c = true) ∧
      (d = [] → (step ucd15 w op).1.sink.dead = true ∨ pend (step ucd15 w op).1 ≠ [] ∨
        op.isWrite = false ∧ (step ucd15 w op).1.expectStarter = true ∧ pend w = []) := by
  cases hd : w.sink.dead with
  | true =>
    refine ⟨[], ?_, by simp, fun _ => Or.inl (dead_step textLaws15 op hd).2.1⟩
    unfold Delta; rw [(dead_step textLaws15 op hd).1]; simp
  | false =>
    obtain ⟨hb, hseq, -⟩ := h.live hd
    cases hw : op.isWrite with
    | true =>
      have hne' : pend w ≠ [] ∨ op.src ≠ [] := by
        by_cases hp0 : pend w = []
        · exact Or.inr (hne hw hp0)
        · exact Or.inl hp0
      rcases write_cases textLaws15 hw w with ⟨p, w', hl, hs, hS⟩ | ⟨p, w', hl, hs, hB⟩ | ⟨w', hl, hs, hF⟩
      · have hL := (load_ok textLaws15 ho hl).1
        obtain ⟨k1, k2⟩ := poised_load hw hl hm hseq hb hne' ht
        rw [hs]
        refine ⟨p.buffer, by unfold Delta; rw [hS.sent, hL.sink], ?_, ?_⟩
        · rcases hp with hp | hp
          · intro c hc; exact hS.start (by rw [hL.expect]; exact hp) c hc
          · exact k2 hp
        · intro he
          right; left
          have : pend w' = pend p := by unfold pend; rw [hS.state, hS.seq]
          rw [this]
          exact k1 he
      · have hL := (load_ok textLaws15 ho hl).1
        obtain ⟨k1, k2⟩ := poised_load hw hl hm hseq hb hne' ht
        rcases hp with hp | hp
        · obtain ⟨d, h1, h2, -⟩ := writeBuffer_start (U := ucd15) p (by rw [hL.expect]; exact hp)
          have hs' := step_write (U := ucd15) hw w
          rw [hl] at hs'
          simp only at hs'
          rw [← hs'] at h1
          refine ⟨d, by unfold Delta at h1 ⊢; rw [h1, hL.sink], h2, fun _ => Or.inl ?_⟩
          rw [hs]; exact hB.dead
        · obtain ⟨q, x, e1, e2, -, -⟩ := hB.sent
          rw [hs]
          refine ⟨q, by unfold Delta; rw [e2, hL.sink], ?_, fun _ => Or.inl hB.dead⟩
          intro c hc
          apply k2 hp
          rw [e1, List.head?_append, Option.mem_def.1 hc]; rfl
      · rw [hs]
        refine ⟨[], by unfold Delta; simp [hF.sink, Sink.abandon], by simp, fun _ => Or.inl ?_⟩
        show w'.sink.dead = true
        rw [hF.sink]; rfl
    | false =>
      cases op with
      | str | text | bytes => simp [Op.isWrite] at hw
      | flush =>
        refine ⟨[], ?_, by simp, fun _ => ?_⟩
        · show (flush w).1.sink.sent = _
          rcases flush_cases w with ⟨h, -⟩ | ⟨h, -⟩ | ⟨-, h⟩ <;> rw [h]
          · simp [Writer.fail, Writer.reset, Sink.abandon]
          · simp
          · simp [(sink_flush_sent w.sink).1]
        · show (flush w).1.sink.dead = true ∨ pend (flush w).1 ≠ [] ∨ _ ∧ (flush w).1.expectStarter = true ∧ _
          rcases flush_cases w with ⟨h, -⟩ | ⟨h, h'⟩ | ⟨⟨g, hg, -⟩, h⟩ <;> rw [h]
          · exact Or.inl rfl
          · exact Or.inr (Or.inl (pend_of h' hseq))
          · exact Or.inr (Or.inr ⟨rfl, rfl, pend_ground hg⟩)
      | close =>
        refine ⟨[], ?_, by simp, fun _ => Or.inl ?_⟩
        · show (close w).1.sink.sent = _
          rcases close_cases w with ⟨h, -⟩ | ⟨-, h⟩ <;> rw [h]
          · simp [Writer.fail, Writer.reset, Sink.abandon]
          · simp [Sink.close, (sink_flush_sent w.sink).1]
        · show (close w).1.sink.dead = true
          rcases close_cases w with ⟨h, -⟩ | ⟨-, h⟩ <;> rw [h] <;> rfl
      | abandon =>
        refine ⟨[], ?_, by simp, fun _ => Or.inl rfl⟩
        show (abandon w).sink.sent = _
        simp [abandon, Sink.abandon, Writer.reset]

theorem poised_run {base : List Char} {ops : List Op} : ∀ {w : Writer}, (∀ op ∈ ops, op.Ok ucd15) → (pend w = [] → FirstWrite ops) →
    TextStarts ops → Safe base w → w.crlf = false → Poised w →
    ∃ d, Delta w (run ucd15 w ops) d ∧ ∀ c ∈ d.head?, isStart ucd15 c = true := by
  induction ops with
  | nil => intro w _ _ _ _ _ _; exact ⟨[], by simp [Delta, run], by simp⟩
  | cons op ops ih =>
    intro w ho hne ht h hm hp
    have h1 := ho op (by simp)
    have ho' : ∀ o ∈ ops, o.Ok ucd15 := fun o h => ho o (by simp [h])
    have ht' : TextStarts ops := fun s hs => ht s (by simp [hs])
    obtain ⟨d, hd1, hd2, hd3⟩ := poised_step h1 h hm hp (fun hw h0 => hne h0 op (by simp [hw])) (fun s hs => ht s (by simp [hs]))
    by_cases hd : d = []
    · subst hd
      have go : Poised (step ucd15 w op).1 → (pend (step ucd15 w op).1 = [] → FirstWrite ops) →
          ∃ d, Delta w (run ucd15 w (op :: ops)) d ∧ ∀ c ∈ d.head?, isStart ucd15 c = true := by
        intro g1 g2
        obtain ⟨d', h4, h5⟩ := ih (w := (step ucd15 w op).1) ho' g2 ht'
          (safe_step textLaws15 h1 h) (by rw [(step_mode textLaws15 h1 w).1]; exact hm) g1
        refine ⟨d', ?_, h5⟩
        unfold Delta at *
        rw [run, h4, hd1]; simp
      rcases hd3 rfl with h3 | h3 | ⟨hw, h3, h3'⟩
      · refine ⟨[], ?_, by simp⟩
        have := dead_delta textLaws15 h3 ops
        unfold Delta at *
        rw [run, this, hd1]; simp
      · exact go (Or.inr h3) fun h0 => absurd h0 h3
      · exact go (Or.inl h3) fun _ => by simpa [FirstWrite, hw] using hne h3'
    · obtain ⟨d', h4⟩ := run_delta textLaws15 (ops := ops) (w := (step ucd15 w op).1) ho'
      refine ⟨d ++ d', ?_, ?_⟩
      · unfold Delta at *
        rw [run, h4, hd1]; simp
      · intro c hc
        apply hd2
        cases d with
        | nil => exact absurd rfl hd
        | cons x d => simpa using hc

/-- C32, with color as well: if the first write does not write nothing and, in color mode, every text passed to `write_text` begins with a
scalar that may start Basic Text, then so does all that is sent. -/
theorem c32_color_partial (w : Writer) (hw : Fresh w) (ops : List Op) (ho : ∀ op ∈ ops, op.Ok ucd15) (hne : FirstWrite ops)
    (ht : w.ansi = true → TextStarts ops) :
    ∃ T, (run ucd15 w ops).sink.sent = w.sink.sent ++ T ∧ ∀ c ∈ T.head?, isStart ucd15 c = true := by
  cases ha : w.ansi with
  | false => exact c32_first_write_partial w hw ha ops ho hne
  | true =>
    have hm : w.crlf = false := by
      rcases hw.mode with h | h
      · exact h
      · rw [ha] at h; cases h
    exact poised_run ho (fun _ => hne) (ht ha) hw.safe hm (Or.inl hw.expect)

example : Fresh (Writer.newAnsi true goodSink) ∧ FirstWrite [.str [ESC], .str ['[', '1', 'm', 'a', '\n']] ∧
    TextStarts [.str [ESC], .str ['[', '1', 'm', 'a', '\n']] ∧
    (run ucd15 (.newAnsi true goodSink) [.str [ESC], .str ['[', '1', 'm', 'a', '\n']]).sink.sent = [ESC, '[', '1', 'm', 'a', '\n'] :=
  ⟨⟨rfl, rfl, rfl, rfl, Or.inl rfl⟩, by simp [FirstWrite, Op.isWrite, Op.src], by simp [TextStarts], by decide +kernel⟩

/-- C32 fails with color though no write is empty: `write_text` after the beginning of a color sequence drops it, and the sequence has
used up the check. -/
theorem c32_refuted_color : results ucd15 (.newAnsi true goodSink) [.str [ESC], .text ['́', '\n'], .close] = [.ok, .ok, .ok] ∧
    (run ucd15 (.newAnsi true goodSink) [.str [ESC], .text ['́', '\n'], .close]).sink.sent = ['́', '\n'] ∧
    isStart ucd15 '́' = false ∧ FirstWrite [.str [ESC], .text ['́', '\n'], .close] ∧ Op.Ok ucd15 (.text ['́', '\n']) := by
  refine ⟨by decide +kernel, by decide +kernel, by decide +kernel, by simp [FirstWrite, Op.isWrite, Op.src], ?_⟩
  show isBasicTextSubstr ucd15 _ = true
  decide +kernel

end Verif
