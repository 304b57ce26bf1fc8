import Verif.WriterPlain
import Verif.HeadTheory

/-!
# What the sink has been sent
-/

namespace Verif
open Ucd
variable {U : Ucd}

/-! ## The state knows the last scalar -/

theorem putChar_track {rej : Bool} {w w' : Writer} {c : Char} {T : List Char} (h : putChar rej w c = (w', .ok))
    (_ht : ∀ g, w.state = .ground g → g = groundAfter (T ++ w.buffer)) :
    ∀ g, w'.state = .ground g → g = groundAfter (T ++ w'.buffer) := by
  unfold putChar at h
  split at h
  · split at h
    · split at h
      · simp at h; rw [← h]; simp
      · simp at h
    · split at h
      · rename_i hc
        simp at h; rw [← h, hc]; intro g hg
        simp only [WState.ground.injEq] at hg
        rw [← hg, ← List.append_assoc, groundAfter_nl]
      · rename_i hn
        split at h
        · cases rej <;> simp at h
        · simp at h; rw [← h]; intro g hg
          simp only [WState.ground.injEq] at hg
          rw [← hg, ← List.append_assoc, groundAfter_append _ (by simp)]
          simp [groundAfter, hn]
  · split at h
    · simp at h; rw [← h]; simp
    · simp at h
  · rename_i hcsi
    split at h
    · simp at h; rw [← h]; intro g hg; simp [hcsi] at hg
    · split at h
      · rename_i hc
        simp at h; rw [← h, hc]; intro g hg
        simp only [WState.ground.injEq] at hg
        rw [← hg, ← List.append_assoc, ← List.append_assoc, groundAfter_append _ (by simp)]
        decide +kernel
      · simp at h

theorem putAll_track {rej : Bool} {T : List Char} : ∀ {l : List Char} {w w' : Writer}, putAll rej w l = (w', .ok) →
    (∀ g, w.state = .ground g → g = groundAfter (T ++ w.buffer)) →
    ∀ g, w'.state = .ground g → g = groundAfter (T ++ w'.buffer) := by
  intro l
  induction l with
  | nil => intro w w' h ht; simp [putAll] at h; rw [← h]; exact ht
  | cons c l ih =>
    intro w w' h ht
    unfold putAll at h
    split at h
    · rename_i w1 h1; exact ih h (putChar_track h1 ht)
    · rename_i h1; rw [h] at h1; exact absurd rfl (h1 w')

theorem crlfRest_track (hU : TextLaws U) {T : List Char} : ∀ {l : List (List Char)} {w w' : Writer}, crlfRest U w l = (w', .ok) →
    (∀ g, w.state = .ground g → g = groundAfter (T ++ w.buffer)) →
    ∀ g, w'.state = .ground g → g = groundAfter (T ++ w'.buffer) := by
  intro l
  induction l with
  | nil => intro w w' h ht; simp [crlfRest] at h; rw [← h]; exact ht
  | cons x xs ih =>
    intro w w' h ht
    rw [crlfRest_cons] at h
    split at h
    · rename_i w1 h1
      refine ih h (putAll_track (stateMachine_ok hU h1).2 ?_)
      intro g hg
      simp only [Writer.crlfNl, WState.ground.injEq] at hg ⊢
      rw [← hg, show T ++ (w.buffer ++ ['\r', '\n']) = (T ++ w.buffer ++ ['\r']) ++ ['\n'] by simp, groundAfter_nl]
    · rename_i h1; rw [h] at h1; exact absurd rfl (h1 w')

theorem prepStr_track (hU : TextLaws U) {T s : List Char} {w w' : Writer} (h : prepStr U w s = (w', .ok))
    (ht : ∀ g, w.state = .ground g → g = groundAfter (T ++ w.buffer)) :
    ∀ g, w'.state = .ground g → g = groundAfter (T ++ w'.buffer) := by
  unfold prepStr at h
  split at h
  · cases hs : splitNl s with
    | nil => exact absurd hs (splitNl_ne s)
    | cons x xs =>
      rw [hs, crlfLoop_cons] at h
      split at h
      · rename_i w1 h1
        exact crlfRest_track hU h (putAll_track (stateMachine_ok hU h1).2 ht)
      · rename_i h1; rw [h] at h1; exact absurd rfl (h1 w')
  · exact putAll_track (stateMachine_ok hU h).2 ht

theorem groundAfter_toCrlf (s : List Char) : groundAfter (toCrlf s) = groundAfter s := by
  rcases List.eq_nil_or_concat s with rfl | ⟨s, c, rfl⟩
  · rfl
  · rw [List.concat_eq_append, toCrlf_append, groundAfter_append s (by simp)]
    by_cases hc : c = '\n'
    · subst hc; rw [groundAfter_append _ (by simp [toCrlf])]; rfl
    · rw [toCrlf_id (s := [c]) (by simpa using fun h => hc h.symm), groundAfter_append _ (by simp)]

theorem toCrlf_ne {s : List Char} (h : s ≠ []) : toCrlf s ≠ [] := by
  cases s with
  | nil => exact absurd rfl h
  | cons c s =>
    unfold toCrlf
    rw [List.flatMap_cons]
    split <;> simp

/-- A valid call that is not `write_text` with an empty text. -/
def Op.Strict (U : Ucd) : Op → Prop
  | .text s => isBasicTextSubstr U s = true ∧ s ≠ []
  | _ => True

theorem Op.Strict.ok {op : Op} (h : op.Strict U) : op.Ok U := by
  cases op with
  | text s => exact h.1
  | _ => trivial

theorem load_track (hU : TextLaws U) {op : Op} (ho : op.Strict U) {T : List Char} {w w' : Writer} (h : load U w op = (w', .ok))
    (ht : ∀ g, w.state = .ground g → g = groundAfter (T ++ w.buffer)) :
    ∀ g, w'.state = .ground g → g = groundAfter (T ++ w'.buffer) := by
  cases op with
  | str s => exact prepStr_track hU h ht
  | text s =>
    simp only [load, Prod.mk.injEq, and_true] at h
    rw [← h, prepText_eq]
    intro g hg
    simp only [WState.ground.injEq] at hg
    rw [← hg]
    simp only
    rw [← List.append_assoc]
    split
    · rw [groundAfter_append _ (toCrlf_ne ho.2), groundAfter_toCrlf]
    · rw [groundAfter_append _ ho.2]
  | bytes b =>
    simp only [load] at h
    split at h
    · exact prepStr_track hU h ht
    · simp at h
  | _ => simp [load] at h; subst h; exact ht

/-- As long as the sink is alive the writer knows how the text sent so far ends. -/
def Tracked (base : List Char) (w : Writer) : Prop :=
  w.sink.dead = false → w.buffer = [] ∧ ∃ T, w.sink.sent = base ++ T ∧ ∀ g, w.state = .ground g → g = groundAfter T

theorem tracked_step (hU : TextLaws U) {base : List Char} {w : Writer} {op : Op} (ho : op.Strict U) (h : Tracked base w) :
    Tracked base (step U w op).1 := by
  cases hw : op.isWrite with
  | true =>
    rcases write_cases hU hw w with ⟨p, w', hl, hs, hS⟩ | ⟨p, w', hl, hs, hB⟩ | ⟨w', hl, hs, hF⟩
    · rw [hs]
      intro _
      obtain ⟨a1, -⟩ := load_ok hU ho.ok hl
      obtain ⟨hb, T, hT, ht⟩ := h (by rw [← a1.sink]; exact hS.alive)
      refine ⟨hS.buffer, T ++ p.buffer, by rw [hS.sent, a1.sink, hT]; simp, ?_⟩
      rw [hS.state]
      exact load_track hU ho hl (by simpa [hb] using ht)
    · rw [hs]; intro hd; rw [hB.dead] at hd; simp at hd
    · rw [hs]; intro hd; rw [hF.sink] at hd; simp [Sink.abandon] at hd
  | false =>
    cases op with
    | flush =>
      simp only [step]
      rcases flush_cases w with ⟨hf, -⟩ | ⟨hf, -⟩ | ⟨-, hf⟩ <;> rw [hf]
      · intro hd; simp [Writer.fail, Sink.abandon] at hd
      · exact h
      · have hk := sink_flush_sent w.sink
        unfold Tracked
        simp only [hk.1, hk.2]
        exact h
    | close =>
      simp only [step]
      rcases close_cases w with ⟨hf, -⟩ | ⟨-, hf⟩ <;> rw [hf]
      · intro hd; simp [Writer.fail, Sink.abandon] at hd
      · intro hd; simp [Sink.close] at hd
    | abandon => intro hd; simp [step, abandon, Sink.abandon] at hd
    | _ => simp [Op.isWrite] at hw

theorem tracked_run (hU : TextLaws U) {base : List Char} {ops : List Op} : ∀ {w : Writer}, (∀ op ∈ ops, op.Strict U) → Tracked base w →
    Tracked base (run U w ops) := by
  induction ops with
  | nil => intro w _ h; exact h
  | cons op ops ih => intro w ho h; exact ih (fun o h => ho o (by simp [h])) (tracked_step hU (ho op (by simp)) h)

theorem Fresh.tracked {w : Writer} (h : Fresh w) : Tracked w.sink.sent w := by
  refine fun _ => ⟨h.buffer, [], by simp, ?_⟩
  intro g hg; rw [h.state] at hg; injection hg with hg; rw [← hg]; rfl

theorem groundAfter_newline {T : List Char} (h : groundAfter T = .newline) : T = [] ∨ T.getLast? = some '\n' := by
  unfold groundAfter at h
  cases hT : T.getLast? with
  | none => exact Or.inl (List.getLast?_eq_none_iff.1 hT)
  | some c =>
    rw [hT] at h
    simp only at h
    split at h
    · rename_i hc; rw [hc]; exact Or.inr rfl
    · unfold groundOf at h; split at h <;> simp at h

theorem groundAfter_end {T : List Char} (h : groundAfter T ≠ .zwjOrPrepend) : ∀ c ∈ T.getLast?, isEnd c = true := by
  intro c hc
  unfold groundAfter at h
  rw [hc] at h
  simp only at h
  split at h
  · rename_i he; rw [he]; exact end_nl
  · unfold groundOf at h
    cases hx : isEnd c with
    | true => rfl
    | false => rw [hx] at h; simp at h

/-! ## Stream-Safe NFC -/

theorem inert_cr (hU : TextLaws U) : U.Inert '\r' := hU.ctl_inert '\r' (by decide)
theorem inert_lf (hU : TextLaws U) : U.Inert '\n' := hU.ctl_inert '\n' (by decide)

theorem nss_toCrlf (hU : TextLaws U) : ∀ (n : Nat) (s : List Char), s.length ≤ n → U.isNfcStreamSafe s = true → U.isNfcStreamSafe (toCrlf s) = true := by
  intro n
  induction n with
  | zero =>
    intro s hs h
    have : s = [] := List.length_eq_zero_iff.1 (by omega)
    subst this; exact nss_nil
  | succ n ih =>
    intro s hs h
    by_cases hn : '\n' ∈ s
    · obtain ⟨x, y, rfl⟩ := List.append_of_mem hn
      rw [nss_inert hU.law (inert_lf hU)] at h
      simp only [List.length_append, List.length_cons] at hs
      rw [toCrlf_append, show toCrlf ('\n' :: y) = '\r' :: '\n' :: toCrlf y from rfl, nss_inert hU.law (inert_cr hU)]
      refine ⟨ih x (by omega) h.1, ?_⟩
      rw [show '\n' :: toCrlf y = [] ++ '\n' :: toCrlf y from rfl, nss_inert hU.law (inert_lf hU)]
      exact ⟨nss_nil, ih y (by omega) h.2⟩
    · rw [toCrlf_id hn]; exact h

theorem enc_nss (hU : TextLaws U) {crlf : Bool} {s : List Char} (h : U.isNfcStreamSafe s = true) : U.isNfcStreamSafe (enc crlf s) = true := by
  unfold enc
  split
  · exact nss_toCrlf hU _ s (Nat.le_refl _) h
  · exact h

theorem said_nss (hU : TextLaws U) {op : Op} (ho : op.Ok U) : U.isNfcStreamSafe (said U op) = true := by
  cases op with
  | str s => exact normChain_nss hU s
  | text s => exact (substr_iff.1 ho).2
  | bytes b => exact normChain_nss hU _
  | _ => exact nss_nil

/-- ASCII scalars join nothing before them. -/
theorem apart_ascii (hU : TextLaws U) {c : Char} (h : c.toNat ≤ 0x7f) : Apart U c := by
  obtain ⟨h1, h2, h3, -, h5⟩ := hU.law.ascii c h
  exact ⟨h1, h3, h5, (hU.law.qc_yes c h2).2⟩

theorem nss_apart (hU : TextLaws U) {a b : List Char} (ha : U.isNfcStreamSafe a = true) (hb : U.isNfcStreamSafe b = true)
    (h : ∀ c ∈ b.head?, Apart U c) : U.isNfcStreamSafe (a ++ b) = true :=
  nss_append hU.law ha hb h

theorem param_ascii {p : Char} (h : between 0x20 0x3f p = true) : p.toNat ≤ 0x7f := by
  simp [between] at h
  omega

theorem nss_ascii (U : Ucd) {s : List Char} (h : ∀ c ∈ s, c.toNat ≤ 0x7f) : U.isNfcStreamSafe s = true := by
  have key : U.quickGo 0 0 .yes s = .yes := by
    induction s with
    | nil => rfl
    | cons c s ih =>
      simp only [quickGo, if_pos (h c (by simp))]
      exact ih fun d hd => h d (by simp [hd])
  unfold isNfcStreamSafe quick
  rw [key]

theorem pend_ascii {w : Writer} (h : SeqOk w) : ∀ c ∈ pend w, c.toNat ≤ 0x7f := by
  unfold SeqOk at h
  unfold pend
  cases hs : w.state with
  | ground g => simp
  | esc =>
    rw [hs] at h
    simp only at h ⊢
    rw [h.1]
    intro c hc; simp at hc; rw [hc]; decide
  | csi =>
    rw [hs] at h
    simp only at h ⊢
    obtain ⟨⟨ps, hp, he⟩, -⟩ := h
    rw [he]
    intro c hc
    simp only [List.mem_cons] at hc
    rcases hc with rfl | rfl | hc
    · decide
    · decide
    · exact param_ascii (hp c hc)

theorem putAll_head {rej : Bool} {w w' : Writer} {c : Char} {l : List Char} (h : putAll rej w (c :: l) = (w', .ok)) (hp : pend w ≠ []) :
    c.toNat ≤ 0x7f := by
  unfold putAll at h
  split at h
  · rename_i w1 h1
    unfold pend at hp
    unfold putChar at h1
    split at h1
    · rename_i g hg; rw [hg] at hp; simp at hp
    · split at h1
      · rename_i hc; rw [hc]; decide
      · simp at h1
    · split at h1
      · rename_i hc; exact param_ascii hc
      · split at h1
        · rename_i hc; rw [hc]; decide
        · simp at h1
  · rename_i h1; rw [h] at h1; exact absurd rfl (h1 w')

theorem stateMachine_nss (hU : TextLaws U) {w w' : Writer} {s : List Char} (h : stateMachine U w s = (w', .ok)) (hs : SeqOk w) (hb : w.buffer = []) :
    U.isNfcStreamSafe w'.buffer = true := by
  have h2 := (stateMachine_ok hU h).2
  have h3 := (putAll_ok h2).2.1
  rw [hb, List.nil_append] at h3
  have h4 : U.isNfcStreamSafe (pend w ++ normChain U s) = true := by
    by_cases hp : pend w = []
    · rw [hp]; exact normChain_nss hU s
    · refine nss_apart hU (nss_ascii U (pend_ascii hs)) (normChain_nss hU s) ?_
      cases hn : normChain U s with
      | nil => simp
      | cons c l =>
        rw [hn] at h2
        intro d hd
        simp at hd; rw [← hd]
        exact apart_ascii hU (putAll_head h2 hp)
  rw [← h3] at h4
  exact nss_prefix hU.law h4

theorem prepStr_nss (hU : TextLaws U) {w w' : Writer} {s : List Char} (h : prepStr U w s = (w', .ok)) (hm : w.crlf = false ∨ w.ansi = false)
    (hs : SeqOk w) (hb : w.buffer = []) : U.isNfcStreamSafe w'.buffer = true := by
  cases hc : w.crlf with
  | false =>
    unfold prepStr at h
    rw [hc] at h
    exact stateMachine_nss hU h hs hb
  | true =>
    have ha : w.ansi = false := by rcases hm with h | h <;> simp_all
    obtain ⟨g, hg⟩ : ∃ g, w.state = .ground g := by
      unfold SeqOk at hs
      cases hst : w.state with
      | ground g => exact ⟨g, rfl⟩
      | esc => rw [hst] at hs; simp [ha] at hs
      | csi => rw [hst] at hs; simp [ha] at hs
    have hcl := prepStr_plain_ok hU hg ha (s := s) (by rw [h])
    rw [prepStr_plain hU hg hcl] at h
    simp only [Prod.mk.injEq, and_true] at h
    rw [← h, hb]
    exact enc_nss hU (normChain_nss hU s)

theorem load_nss (hU : TextLaws U) {op : Op} (ho : op.Ok U) {w w' : Writer} (h : load U w op = (w', .ok)) (hm : w.crlf = false ∨ w.ansi = false)
    (hs : SeqOk w) (hb : w.buffer = []) : U.isNfcStreamSafe w'.buffer = true := by
  cases op with
  | str s => exact prepStr_nss hU h hm hs hb
  | text s =>
    simp only [load, Prod.mk.injEq, and_true] at h
    rw [← h, prepText_eq, hb]
    exact enc_nss hU (crlf := w.crlf) (substr_iff.1 ho).2
  | bytes b =>
    simp only [load] at h
    split at h
    · exact prepStr_nss hU h hm hs hb
    · simp at h
  | _ => simp [load] at h; subst h; rw [hb]; exact nss_nil

/-! ## What a call sends -/

/-- What the sink has got between two moments. -/
def Delta (w w' : Writer) (d : List Char) : Prop := w'.sink.sent = w.sink.sent ++ d

theorem step_delta (hU : TextLaws U) {op : Op} (ho : op.Ok U) (w : Writer) : ∃ d, Delta w (step U w op).1 d := by
  cases hw : op.isWrite with
  | true =>
    rcases write_cases hU hw w with ⟨p, w', hl, hs, hS⟩ | ⟨p, w', hl, hs, hB⟩ | ⟨w', hl, hs, hF⟩
    · rw [hs]; exact ⟨p.buffer, by unfold Delta; rw [hS.sent, (load_ok hU ho hl).1.sink]⟩
    · rw [hs]
      obtain ⟨q, x, -, e, -⟩ := hB.sent
      exact ⟨q, by unfold Delta; rw [e, (load_ok hU ho hl).1.sink]⟩
    · rw [hs]; exact ⟨[], by unfold Delta; rw [hF.sink]; simp [Sink.abandon]⟩
  | false =>
    refine ⟨[], ?_⟩
    unfold Delta
    cases op with
    | flush =>
      simp only [step]
      rcases flush_cases w with ⟨hf, -⟩ | ⟨hf, -⟩ | ⟨-, hf⟩ <;> rw [hf]
      · simp [Writer.fail, Writer.reset, Sink.abandon]
      · simp
      · simp [(sink_flush_sent w.sink).1]
    | close =>
      simp only [step]
      rcases close_cases w with ⟨hf, -⟩ | ⟨-, hf⟩ <;> rw [hf]
      · simp [Writer.fail, Writer.reset, Sink.abandon]
      · simp [Sink.close, (sink_flush_sent w.sink).1]
    | abandon => simp [step, abandon, Writer.reset, Sink.abandon]
    | _ => simp [Op.isWrite] at hw

theorem run_delta (hU : TextLaws U) {ops : List Op} : ∀ {w : Writer}, (∀ op ∈ ops, op.Ok U) → ∃ d, Delta w (run U w ops) d := by
  induction ops with
  | nil => intro w _; exact ⟨[], by simp [Delta, run]⟩
  | cons op ops ih =>
    intro w ho
    obtain ⟨d, hd⟩ := step_delta hU (ho op (by simp)) w
    obtain ⟨e, he⟩ := ih (w := (step U w op).1) fun o h => ho o (by simp [h])
    refine ⟨d ++ e, ?_⟩
    unfold Delta at *
    rw [run, he, hd]; simp

theorem step_mode (hU : TextLaws U) {op : Op} (ho : op.Ok U) (w : Writer) : (step U w op).1.crlf = w.crlf ∧ (step U w op).1.ansi = w.ansi := by
  cases hw : op.isWrite with
  | true =>
    rcases write_cases hU hw w with ⟨p, w', hl, hs, hS⟩ | ⟨p, w', hl, hs, hB⟩ | ⟨w', hl, hs, hF⟩
    · have := (load_ok hU ho hl).1
      rw [hs]; exact ⟨hS.crlf.trans this.crlf, hS.ansi.trans this.ansi⟩
    · have := (load_ok hU ho hl).1
      rw [hs]; exact ⟨hB.crlf.trans this.crlf, hB.ansi.trans this.ansi⟩
    · rw [hs]; exact ⟨hF.crlf, hF.ansi⟩
  | false =>
    cases op with
    | flush =>
      simp only [step]
      rcases flush_cases w with ⟨hf, -⟩ | ⟨hf, -⟩ | ⟨-, hf⟩ <;> rw [hf] <;> exact ⟨rfl, rfl⟩
    | close =>
      simp only [step]
      rcases close_cases w with ⟨hf, -⟩ | ⟨-, hf⟩ <;> rw [hf] <;> exact ⟨rfl, rfl⟩
    | abandon => exact ⟨rfl, rfl⟩
    | _ => simp [Op.isWrite] at hw

theorem run_mode (hU : TextLaws U) {ops : List Op} : ∀ {w : Writer}, (∀ op ∈ ops, op.Ok U) →
    (run U w ops).crlf = w.crlf ∧ (run U w ops).ansi = w.ansi := by
  induction ops with
  | nil => intro w _; exact ⟨rfl, rfl⟩
  | cons op ops ih =>
    intro w ho
    have h1 := step_mode hU (ho op (by simp)) w
    have h2 := ih (w := (step U w op).1) fun o h => ho o (by simp [h])
    exact ⟨h2.1.trans h1.1, h2.2.trans h1.2⟩

/-- Whatever one call sends is in Stream-Safe NFC. -/
theorem step_nss (hU : TextLaws U) {base : List Char} {op : Op} (ho : op.Ok U) {w : Writer} (h : Safe base w) (hm : w.crlf = false ∨ w.ansi = false) :
    ∃ d, Delta w (step U w op).1 d ∧ U.isNfcStreamSafe d = true := by
  cases hw : op.isWrite with
  | true =>
    rcases write_cases hU hw w with ⟨p, w', hl, hs, hS⟩ | ⟨p, w', hl, hs, hB⟩ | ⟨w', hl, hs, hF⟩
    · have hL := (load_ok hU ho hl).1
      obtain ⟨b1, b2, -⟩ := h.live (by rw [← hL.sink]; exact hS.alive)
      rw [hs]
      exact ⟨p.buffer, by unfold Delta; rw [hS.sent, hL.sink], load_nss hU ho hl hm b2 b1⟩
    · have hL := (load_ok hU ho hl).1
      rw [hs]
      obtain ⟨q, x, e1, e2, e3, -⟩ := hB.sent
      refine ⟨q, by unfold Delta; rw [e2, hL.sink], ?_⟩
      cases hd : w.sink.dead with
      | true => rw [e3 (by rw [hL.sink]; exact hd)]; exact nss_nil
      | false =>
        obtain ⟨b1, b2, -⟩ := h.live hd
        have := load_nss hU ho hl hm b2 b1
        rw [e1] at this
        exact nss_prefix hU.law this
    · rw [hs]; exact ⟨[], by unfold Delta; rw [hF.sink]; simp [Sink.abandon], nss_nil⟩
  | false =>
    refine ⟨[], ?_, nss_nil⟩
    unfold Delta
    cases op with
    | flush =>
      simp only [step]
      rcases flush_cases w with ⟨hf, -⟩ | ⟨hf, -⟩ | ⟨-, hf⟩ <;> rw [hf]
      · simp [Writer.fail, Writer.reset, Sink.abandon]
      · simp
      · simp [(sink_flush_sent w.sink).1]
    | close =>
      simp only [step]
      rcases close_cases w with ⟨hf, -⟩ | ⟨-, hf⟩ <;> rw [hf]
      · simp [Writer.fail, Writer.reset, Sink.abandon]
      · simp [Sink.close, (sink_flush_sent w.sink).1]
    | abandon => simp [step, abandon, Writer.reset, Sink.abandon]
    | _ => simp [Op.isWrite] at hw

/-! ## The whole stream -/

/-- The text handed to a write. -/
def Op.src : Op → List Char
  | .str s => s
  | .text s => s
  | .bytes b => (decodePrefix b).1
  | _ => []

theorem said_apart (hU : TextLaws U) (hS : StartLaws U) {op : Op} (h : ∀ c ∈ op.src.head?, isStart U c = true ∧ isJamoVT c = false) :
    ∀ c ∈ (said U op).head?, Apart U c := by
  cases op with
  | str s => exact head_normChain_apart hU hS h
  | text s => intro c hc; exact apart_of_start hU (h c hc).1 (h c hc).2
  | bytes b => exact head_normChain_apart hU hS h
  | _ => simp [said]

theorem enc_apart (hU : TextLaws U) {crlf : Bool} {s : List Char} (h : ∀ c ∈ s.head?, Apart U c) : ∀ c ∈ (enc crlf s).head?, Apart U c := by
  unfold enc
  split
  · cases s with
    | nil => simp [toCrlf]
    | cons c s =>
      by_cases hc : c = '\n'
      · subst hc
        intro d hd
        simp [toCrlf] at hd
        rw [← hd]; exact apart_ascii hU (by decide)
      · intro d hd
        simp [toCrlf, hc] at hd
        rw [← hd]; exact h c rfl
  · exact h

theorem seqOk_ground {w : Writer} (h : SeqOk w) (ha : w.ansi = false) : ∃ g, w.state = .ground g := by
  unfold SeqOk at h
  cases hst : w.state with
  | ground g => exact ⟨g, rfl⟩
  | esc => rw [hst] at h; simp [ha] at h
  | csi => rw [hst] at h; simp [ha] at h

/-- In plain and CRLF mode a successful load holds exactly the encoded text. -/
theorem load_buffer (hU : TextLaws U) {op : Op} (hw : op.isWrite = true) {w p : Writer} (hl : load U w op = (p, .ok)) (ha : w.ansi = false)
    (hs : SeqOk w) (hb : w.buffer = []) : p.buffer = enc w.crlf (said U op) := by
  obtain ⟨g, hg⟩ := seqOk_ground hs ha
  have hc := load_plain_ok hU hg ha (op := op) (by rw [hl])
  rw [load_plain hU hw hg hc] at hl
  simp only [Prod.mk.injEq, and_true] at hl
  rw [← hl, hb]; rfl

theorem nss_step (hU : TextLaws U) (hSt : StartLaws U) {base T : List Char} {op : Op} (ho : op.Ok U)
    (hh : ∀ c ∈ op.src.head?, isStart U c = true ∧ isJamoVT c = false) {w : Writer} (h : Safe base w) (ha : w.ansi = false)
    (_hT : w.sink.sent = base ++ T) (hn : U.isNfcStreamSafe T = true) :
    ∃ d, Delta w (step U w op).1 d ∧ U.isNfcStreamSafe (T ++ d) = true := by
  cases hw : op.isWrite with
  | false =>
    obtain ⟨d, hd, -⟩ := step_nss hU ho h (Or.inr ha)
    cases op with
    | str | text | bytes => simp [Op.isWrite] at hw
    | flush | close | abandon =>
      refine ⟨d, hd, ?_⟩
      have : d = [] := by
        unfold Delta at hd
        simp only [step] at hd
        first
        | (rcases flush_cases w with ⟨hf, -⟩ | ⟨hf, -⟩ | ⟨-, hf⟩ <;> rw [hf] at hd
           · simpa [Writer.fail, Writer.reset, Sink.abandon] using hd
           · simpa using hd
           · simpa [(sink_flush_sent w.sink).1] using hd)
        | (rcases close_cases w with ⟨hf, -⟩ | ⟨-, hf⟩ <;> rw [hf] at hd
           · simpa [Writer.fail, Writer.reset, Sink.abandon] using hd
           · simpa [Sink.close, (sink_flush_sent w.sink).1] using hd)
        | simpa [abandon, Writer.reset, Sink.abandon] using hd
      rw [this]; simpa using hn
  | true =>
    have key : ∀ p, load U w op = (p, .ok) → w.sink.dead = false → U.isNfcStreamSafe (T ++ p.buffer) = true := by
      intro p hl hd
      obtain ⟨b1, b2, -⟩ := h.live hd
      rw [load_buffer hU hw hl ha b2 b1]
      exact nss_apart hU hn (enc_nss hU (said_nss hU ho)) (enc_apart hU (said_apart hU hSt hh))
    rcases write_cases hU hw w with ⟨p, w', hl, hs, hS⟩ | ⟨p, w', hl, hs, hB⟩ | ⟨w', hl, hs, hF⟩
    · have hL := (load_ok hU ho hl).1
      rw [hs]
      exact ⟨p.buffer, by unfold Delta; rw [hS.sent, hL.sink], key p hl (by rw [← hL.sink]; exact hS.alive)⟩
    · have hL := (load_ok hU ho hl).1
      rw [hs]
      obtain ⟨q, x, e1, e2, e3, -⟩ := hB.sent
      refine ⟨q, by unfold Delta; rw [e2, hL.sink], ?_⟩
      cases hd : w.sink.dead with
      | true => rw [e3 (by rw [hL.sink]; exact hd)]; simpa using hn
      | false =>
        have := key p hl hd
        rw [e1, ← List.append_assoc] at this
        exact nss_prefix hU.law this
    · rw [hs]; exact ⟨[], by unfold Delta; rw [hF.sink]; simp [Sink.abandon], by simpa using hn⟩

theorem nss_run (hU : TextLaws U) (hSt : StartLaws U) {base : List Char} {ops : List Op} : ∀ {w : Writer} {T : List Char}, (∀ op ∈ ops, op.Ok U) →
    (∀ op ∈ ops, ∀ c ∈ op.src.head?, isStart U c = true ∧ isJamoVT c = false) → Safe base w → w.ansi = false →
    w.sink.sent = base ++ T → U.isNfcStreamSafe T = true →
    ∃ T', (run U w ops).sink.sent = base ++ T' ∧ U.isNfcStreamSafe T' = true := by
  induction ops with
  | nil => intro w T _ _ _ _ hT hn; exact ⟨T, hT, hn⟩
  | cons op ops ih =>
    intro w T ho hh hs ha hT hn
    obtain ⟨d, hd, hn'⟩ := nss_step hU hSt (ho op (by simp)) (hh op (by simp)) hs ha hT hn
    exact ih (fun o h => ho o (by simp [h])) (fun o h => hh o (by simp [h])) (safe_step hU (ho op (by simp)) hs)
      (by rw [(step_mode hU (ho op (by simp)) w).2]; exact ha) (by rw [show (step U w op).1.sink.sent = w.sink.sent ++ d from hd, hT]; simp) hn'

end Verif
