import Verif.WriterFacts

/-!
# CRLF mode against plain mode, BOM mode against plain mode, color sequences
-/

namespace Verif
open Ucd
variable {U : Ucd}

/-- The results of a sequence of calls. -/
def results (U : Ucd) : Writer → List Op → List Out
  | _, [] => []
  | w, op :: ops => (step U w op).2 :: results U (step U w op).1 ops

/-! ## CRLF mode -/

structure CrlfRel (base base' : List Char) (w w' : Writer) : Prop where
  text : ∃ T, w.sink.sent = base ++ T ∧ w'.sink.sent = base' ++ toCrlf T
  crlf : w.crlf = false ∧ w'.crlf = true
  ansi : w.ansi = false ∧ w'.ansi = false
  dead : w'.sink.dead = w.sink.dead
  script : w.sink.script = [] ∧ w'.sink.script = []
  live : w.sink.dead = false → w.buffer = [] ∧ w'.buffer = [] ∧ w'.expectStarter = w.expectStarter ∧
    ∃ g, w.state = .ground g ∧ w'.state = .ground g

theorem dead_script (hU : TextLaws U) {w : Writer} (op : Op) (hd : w.sink.dead = true) (hs : w.sink.script = []) :
    (step U w op).1.sink.script = [] := by
  have hfl : w.sink.flush = (w.sink, false) := by unfold Sink.flush; simp [hd]
  cases hw : op.isWrite with
  | true =>
    rw [step_write hw]
    cases hl : load U w op with
    | mk p o =>
      have hp : p.sink.script = [] ∧ p.sink.dead = true := by
        cases o with
        | ok =>
          cases op with
          | str s => rw [(prepStr_ok hU hl).1.sink]; exact ⟨hs, hd⟩
          | text s => simp [load] at hl; rw [← hl, prepText_eq]; exact ⟨hs, hd⟩
          | bytes b =>
            simp only [load] at hl
            split at hl
            · rw [(prepStr_ok hU hl).1.sink]; exact ⟨hs, hd⟩
            · simp at hl
          | _ => simp [Op.isWrite] at hw
        | err => rw [(load_not_ok hU hl (by simp)).2.sink]; exact ⟨hs, rfl⟩
        | panic => exact absurd (load_not_ok hU hl (by simp)).1 (by simp)
      cases o with
      | ok =>
        simp only
        unfold writeBuffer
        simp only
        split
        · exact hp.1
        · simp only [Sink.writeStr, hp.2, if_true]; exact hp.1
      | _ => exact hp.1
  | false =>
    cases op with
    | flush =>
      simp only [step]
      rcases flush_cases w with ⟨hf, -⟩ | ⟨hf, -⟩ | ⟨-, hf⟩ <;> rw [hf]
      · exact hs
      · exact hs
      · rw [hfl]; exact hs
    | close =>
      simp only [step]
      rcases close_cases w with ⟨hf, -⟩ | ⟨-, hf⟩ <;> rw [hf]
      · exact hs
      · unfold Sink.close; rw [hfl]; exact hs
    | abandon => exact hs
    | _ => simp [Op.isWrite] at hw

theorem crlf_step (hU : TextLaws U) {base base' : List Char} {op : Op} (ho : op.Ok U) {w w' : Writer} (h : CrlfRel base base' w w') :
    (step U w op).2 = (step U w' op).2 ∧ CrlfRel base base' (step U w op).1 (step U w' op).1 := by
  obtain ⟨T, hT, hT'⟩ := h.text
  have m1 := step_mode hU ho w
  have m2 := step_mode hU ho w'
  cases hd : w.sink.dead with
  | true =>
    have hd' := h.dead.trans hd
    obtain ⟨a1, a2, a3⟩ := dead_step hU op hd
    obtain ⟨b1, b2, b3⟩ := dead_step hU op hd'
    refine ⟨?_, ⟨⟨T, by rw [a1, hT], by rw [b1, hT']⟩, by rw [m1.1, m2.1]; exact h.crlf, by rw [m1.2, m2.2]; exact h.ansi, by rw [a2, b2], ⟨dead_script hU op hd h.script.1, dead_script hU op hd' h.script.2⟩, ?_⟩⟩
    · by_cases hop : op = .abandon
      · subst hop; rfl
      · rw [a3 hop, b3 hop]
    · intro hx; rw [a2] at hx; simp at hx
  | false =>
    have hd' := h.dead.trans hd
    obtain ⟨l1, l2, l3, g, l4, l5⟩ := h.live hd
    cases hw : op.isWrite with
    | true =>
      by_cases hg : Good U w.expectStarter op
      · rw [step_good hU hw l4 l1 hd h.script.1 hg, step_good hU hw l5 l2 hd' h.script.2 (by rw [l3]; exact hg)]
        refine ⟨rfl, ⟨⟨T ++ said U op, ?_, ?_⟩, h.crlf, h.ansi, h.dead, h.script, fun _ => ⟨l1, l2, rfl, _, rfl, rfl⟩⟩⟩
        · simp [hT, enc, h.crlf.1]
        · simp [hT', enc, h.crlf.2, toCrlf_append]
      · obtain ⟨a1, a2, a3, a4, a5⟩ := step_bad hU hw l4 h.ansi.1 l1 hg
        obtain ⟨b1, b2, b3, b4, b5⟩ := step_bad hU hw l5 h.ansi.2 l2 (by rw [l3]; exact hg)
        refine ⟨by rw [a1, b1], ⟨⟨T, by rw [a2]; exact hT, by rw [b2]; exact hT'⟩, by rw [a4, b4]; exact h.crlf, by rw [a5, b5]; exact h.ansi, by rw [a2, b2]; rfl, by rw [a2, b2]; exact h.script, ?_⟩⟩
        rw [a2]; intro hx; simp [Sink.abandon] at hx
    | false =>
      have f1 : w.sink.flush = (w.sink, true) := by unfold Sink.flush; simp [hd, h.script.1]
      have f2 : w'.sink.flush = (w'.sink, true) := by unfold Sink.flush; simp [hd', h.script.2]
      have fin : ∀ {a b : Writer}, a.sink.sent = w.sink.sent → b.sink.sent = w'.sink.sent → a.sink.dead = true → b.sink.dead = true →
          a.sink.script = w.sink.script → b.sink.script = w'.sink.script → a.crlf = w.crlf → b.crlf = w'.crlf → a.ansi = w.ansi → b.ansi = w'.ansi →
          CrlfRel base base' a b := by
        intro a b e1 e2 e3 e4 e5 e6 e7 e8 e9 e10
        refine ⟨⟨T, by rw [e1, hT], by rw [e2, hT']⟩, by rw [e7, e8]; exact h.crlf, by rw [e9, e10]; exact h.ansi, by rw [e3, e4], by rw [e5, e6]; exact h.script, ?_⟩
        rw [e3]; intro hx; simp at hx
      cases op with
      | flush =>
        simp only [step]
        unfold flush
        rw [l4, l5, f1, f2]
        cases g with
        | zwjOrPrepend => exact ⟨rfl, fin rfl rfl rfl rfl rfl rfl rfl rfl rfl rfl⟩
        | newline => exact ⟨rfl, ⟨h.text, h.crlf, h.ansi, h.dead, h.script, fun _ => ⟨l1, l2, rfl, _, rfl, rfl⟩⟩⟩
        | other => exact ⟨rfl, ⟨h.text, h.crlf, h.ansi, h.dead, h.script, fun _ => ⟨l1, l2, rfl, _, rfl, rfl⟩⟩⟩
      | close =>
        simp only [step]
        unfold close checkNl
        simp only [l4, l5]
        cases g with
        | newline =>
          simp only [if_true, Sink.close, f1, f2]
          exact ⟨trivial, fin rfl rfl rfl rfl rfl rfl rfl rfl rfl rfl⟩
        | zwjOrPrepend => exact ⟨rfl, fin rfl rfl rfl rfl rfl rfl rfl rfl rfl rfl⟩
        | other => exact ⟨rfl, fin rfl rfl rfl rfl rfl rfl rfl rfl rfl rfl⟩
      | abandon => exact ⟨rfl, fin rfl rfl rfl rfl rfl rfl rfl rfl rfl rfl⟩
      | _ => simp [Op.isWrite] at hw

theorem crlf_run (hU : TextLaws U) {base base' : List Char} {ops : List Op} : ∀ {w w' : Writer}, (∀ op ∈ ops, op.Ok U) → CrlfRel base base' w w' →
    results U w ops = results U w' ops ∧ CrlfRel base base' (run U w ops) (run U w' ops) := by
  induction ops with
  | nil => intro w w' _ h; exact ⟨rfl, h⟩
  | cons op ops ih =>
    intro w w' ho h
    obtain ⟨h1, h2⟩ := crlf_step hU (ho op (by simp)) h
    obtain ⟨h3, h4⟩ := ih (fun o h => ho o (by simp [h])) h2
    exact ⟨by simp only [results, h1, h3], h4⟩

/-! ## What the sink held before does not matter -/

/-- The same writer over a sink that held `x` before. -/
def Writer.shift (x : List Char) (w : Writer) : Writer := { w with sink := { w.sink with sent := x ++ w.sink.sent } }

/-- The same for a result. -/
def shiftR (x : List Char) (r : Writer × Out) : Writer × Out := (r.1.shift x, r.2)

theorem putChar_shift (x : List Char) (rej : Bool) (w : Writer) (c : Char) : putChar rej (w.shift x) c = shiftR x (putChar rej w c) := by
  unfold putChar
  cases hs : w.state <;> simp only [Writer.shift, hs] <;> (repeat' split) <;> first | rfl | simp_all [shiftR, Writer.shift]

theorem putAll_shift (x : List Char) (rej : Bool) : ∀ (l : List Char) (w : Writer), putAll rej (w.shift x) l = shiftR x (putAll rej w l) := by
  intro l
  induction l with
  | nil => intro w; rfl
  | cons c l ih =>
    intro w
    unfold putAll
    rw [putChar_shift]
    cases hp : putChar rej w c with
    | mk w1 o => cases o <;> simp only [shiftR] <;> first | exact ih w1 | rfl

theorem stateMachine_shift (x : List Char) (w : Writer) (s : List Char) : stateMachine U (w.shift x) s = shiftR x (stateMachine U w s) := by
  unfold stateMachine
  simp only
  split <;> exact putAll_shift _ _ _ _

theorem writeBuffer_shift (x : List Char) (w : Writer) : writeBuffer U (w.shift x) = shiftR x (writeBuffer U w) := by
  obtain ⟨buf, crlf, ex, ansi, st, seq, sent, dead, script⟩ := w
  show writeBuffer U ⟨buf, crlf, ex, ansi, st, seq, x ++ sent, dead, script⟩ = _
  unfold writeBuffer
  simp only
  by_cases hb : (ex && !(Option.map (isStart U) buf.head?).getD true) = true
  · rw [if_pos hb, if_pos hb]; rfl
  · rw [if_neg hb, if_neg hb]
    unfold Sink.writeStr
    cases dead with
    | true => rfl
    | false =>
      cases script with
      | nil => simp [shiftR, Writer.shift]
      | cons e r => cases e <;> simp [shiftR, Writer.shift, Writer.fail, Writer.reset, Sink.abandon]

theorem crlfRest_shift (x : List Char) : ∀ (l : List (List Char)) (w : Writer), crlfRest U (w.shift x) l = shiftR x (crlfRest U w l) := by
  intro l
  induction l with
  | nil => intro w; rfl
  | cons y l ih =>
    intro w
    rw [crlfRest_cons, crlfRest_cons, show (w.shift x).crlfNl = w.crlfNl.shift x from rfl, stateMachine_shift]
    cases hp : stateMachine U w.crlfNl y with
    | mk w1 o => cases o <;> simp only [shiftR] <;> first | exact ih w1 | rfl

theorem prepStr_shift (x : List Char) (w : Writer) (s : List Char) : prepStr U (w.shift x) s = shiftR x (prepStr U w s) := by
  unfold prepStr
  rw [show (w.shift x).crlf = w.crlf from rfl]
  split
  · cases hs : splitNl s with
    | nil => rfl
    | cons y l =>
      rw [crlfLoop_cons, crlfLoop_cons, stateMachine_shift]
      cases hp : stateMachine U w y with
      | mk w1 o => cases o <;> simp only [shiftR] <;> first | exact crlfRest_shift x l w1 | rfl
  · exact stateMachine_shift x w s

theorem load_shift (x : List Char) (w : Writer) (op : Op) : load U (w.shift x) op = shiftR x (load U w op) := by
  cases op with
  | str s => exact prepStr_shift x w s
  | text s => simp only [load, prepText_eq]; rfl
  | bytes b =>
    simp only [load]
    split
    · exact prepStr_shift x w _
    · rfl
  | _ => rfl

theorem step_shift (x : List Char) (w : Writer) (op : Op) : step U (w.shift x) op = shiftR x (step U w op) := by
  cases hw : op.isWrite with
  | true =>
    rw [step_write hw, step_write hw, load_shift]
    cases hl : load U w op with
    | mk p o => cases o <;> simp only [shiftR] <;> first | exact writeBuffer_shift x p | rfl
  | false =>
    have hf : ({ w.sink with sent := x ++ w.sink.sent } : Sink).flush = ({ w.sink.flush.1 with sent := x ++ w.sink.flush.1.sent }, w.sink.flush.2) := by
      unfold Sink.flush
      simp only
      split
      · rfl
      · split <;> rfl
    cases op with
    | flush =>
      simp only [step]
      unfold flush
      rw [show (w.shift x).state = w.state from rfl]
      split
      · rfl
      · simp only [Writer.shift, hf]; rfl
      · rfl
    | close =>
      simp only [step]
      unfold close checkNl
      simp only [show (w.shift x).state = w.state from rfl]
      by_cases hn : w.state = .ground .newline
      · simp only [hn, if_true, Sink.close, Writer.shift, hf]; rfl
      · simp only [if_neg hn]; rfl
    | abandon => rfl
    | _ => simp [Op.isWrite] at hw

theorem run_shift (x : List Char) : ∀ (ops : List Op) (w : Writer), run U (w.shift x) ops = (run U w ops).shift x ∧
    results U (w.shift x) ops = results U w ops := by
  intro ops
  induction ops with
  | nil => intro w; exact ⟨rfl, rfl⟩
  | cons op ops ih =>
    intro w
    obtain ⟨h1, h2⟩ := ih (step U w op).1
    simp only [run, results, step_shift, shiftR]
    exact ⟨h1, by rw [h2]⟩

/-! ## Color sequences -/

theorem items_esc {crlf : Bool} {T : List Char} (h : Items crlf true T) : ∀ a b, T = a ++ ESC :: b →
    ∃ ps c, (∀ p ∈ ps, between 0x20 0x3f p = true) ∧ b = '[' :: ps ++ 'm' :: c := by
  induction h with
  | nil => intro a b h; simp at h
  | char s c hs hc ih =>
    intro a b h
    rcases List.eq_nil_or_concat b with rfl | ⟨b, d, rfl⟩
    · exfalso
      have := congrArg List.getLast? h
      simp at this
      exact (okChar_check.1 hc).2 this
    · rw [List.concat_eq_append, ← List.cons_append, ← List.append_assoc] at h
      obtain ⟨h1, h2⟩ := List.append_inj' h rfl
      obtain ⟨ps, c', hp, hb⟩ := ih a b h1
      exact ⟨ps, c' ++ [d], hp, by rw [List.concat_eq_append, hb]; simp⟩
  | newline s hs hc ih =>
    intro a b h
    rcases List.eq_nil_or_concat b with rfl | ⟨b, d, rfl⟩
    · exfalso
      have := congrArg List.getLast? h
      simp at this
      exact absurd this (by decide)
    · rcases List.eq_nil_or_concat b with rfl | ⟨b, e, rfl⟩
      · exfalso
        have h2 := (List.append_inj' (s₁ := s) (t₁ := ['\r', '\n']) (s₂ := a) (t₂ := [ESC, d]) (by simpa using h) rfl).2
        simp at h2
        exact absurd h2.1 (by decide)
      · rw [List.concat_eq_append, List.concat_eq_append] at h
        have h' : s ++ ['\r', '\n'] = (a ++ ESC :: b) ++ [e, d] := by simpa using h
        obtain ⟨h1, h2⟩ := List.append_inj' h' rfl
        obtain ⟨ps, c', hp, hb⟩ := ih a b h1
        exact ⟨ps, c' ++ [e, d], hp, by rw [List.concat_eq_append, List.concat_eq_append, hb]; simp⟩
  | color s ps hs hc hp ih =>
    intro a b h
    rw [List.append_eq_append_iff] at h
    rcases h with ⟨x, h1, h2⟩ | ⟨x, h1, h2⟩
    · -- the ESC lies in the sequence
      cases x with
      | nil =>
        simp only [List.nil_append, List.cons_append, List.cons.injEq, true_and] at h2
        exact ⟨ps, [], hp, by rw [← h2]; simp⟩
      | cons y ys =>
        exfalso
        simp only [List.cons_append, List.cons.injEq] at h2
        have hm : ESC ∈ '[' :: (ps ++ ['m']) := by rw [h2.2]; simp
        simp only [List.mem_cons, List.mem_append, List.not_mem_nil, or_false] at hm
        rcases hm with hm | hm | hm
        · exact absurd hm (by decide)
        · exact absurd (hp _ hm) (by decide)
        · exact absurd hm (by decide)
    · cases x with
      | nil =>
        simp only [List.nil_append, List.cons_append, List.cons.injEq, true_and] at h2
        exact ⟨ps, [], hp, by rw [h2]; simp⟩
      | cons y ys =>
        simp only [List.cons_append, List.cons.injEq] at h2
        obtain ⟨rfl, h2⟩ := h2
        obtain ⟨qs, c', hq, hb⟩ := ih a ys h1
        exact ⟨qs, c' ++ (ESC :: '[' :: (ps ++ ['m'])), hq, by rw [h2, hb]; simp⟩

theorem param_ok : rangeAll okN 0x20 0x20 = true := by decide +kernel

theorem items_chars {crlf ansi : Bool} {T : List Char} (h : Items crlf ansi T) : ∀ c ∈ T, okChar c = true ∨ (crlf = true ∧ c = '\r') ∨ (ansi = true ∧ c = ESC) := by
  induction h with
  | nil => simp
  | char s c hs hc ih =>
    intro d hd
    simp only [List.mem_append, List.mem_singleton] at hd
    rcases hd with hd | rfl
    · exact ih d hd
    · exact Or.inl hc
  | newline s hs hc ih =>
    intro d hd
    simp only [List.mem_append, List.mem_cons, List.not_mem_nil, or_false] at hd
    rcases hd with hd | rfl | rfl
    · exact ih d hd
    · exact Or.inr (Or.inl ⟨hc, rfl⟩)
    · exact Or.inl (by decide +kernel)
  | color s ps hs hc hp ih =>
    intro d hd
    simp only [List.mem_append, List.mem_cons, List.not_mem_nil, or_false] at hd
    rcases hd with hd | (rfl | rfl | hd) | rfl
    · exact ih d hd
    · exact Or.inr (Or.inr ⟨hc, rfl⟩)
    · exact Or.inl (by decide +kernel)
    · left
      have := hp d hd
      simp only [between, Bool.and_eq_true, decide_eq_true_eq] at this
      rw [okChar_iff]
      exact rangeAll_mem param_ok this.1 (by omega)
    · exact Or.inl (by decide +kernel)

end Verif
