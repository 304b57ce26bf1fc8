import Verif.WriterModes
import Verif.ReaderFacts
import Verif.SpecLaws

/-!
# Writer output as reader input
-/

namespace Verif
open Ucd Spec

variable {U : Ucd}

/-- The chain neither adds nor removes a final inert scalar. -/
theorem last_normChain_inert (hU : TextLaws U) {b : Char} (hb : U.Inert b) (ha : isAssigned U b = true) (hc : b ≠ CGJ) {s : List Char} :
    (normChain U s).getLast? = some b ↔ s.getLast? = some b := by
  constructor
  · intro h
    have hm : b ∈ s := mem_normChain_inert hU hb hc (List.mem_of_getLast? h)
    obtain ⟨x, y, hy, rfl⟩ : ∃ x y, b ∉ y ∧ s = x ++ b :: y := by
      clear h
      induction s with
      | nil => simp at hm
      | cons d s ih =>
        by_cases hs : b ∈ s
        · obtain ⟨x, y, hy, rfl⟩ := ih hs
          exact ⟨d :: x, y, hy, rfl⟩
        · have : b = d := by simpa [hs] using hm
          subst this
          exact ⟨[], s, hs, rfl⟩
    rw [normChain_split hU hb ha hc] at h
    by_cases hn : y = []
    · subst hn; simp
    · have hne := normChain_ne_nil hU hn
      exfalso
      apply hy
      apply mem_normChain_inert hU hb hc
      rw [List.getLast?_append, List.getLast?_cons] at h
      cases hl : (normChain U y).getLast? with
      | none => simp at hl; exact absurd hl hne
      | some e =>
        rw [hl] at h
        simp at h
        subst h
        exact List.mem_of_getLast? hl
  · intro h
    obtain ⟨x, rfl⟩ := List.getLast?_eq_some_iff.1 h
    rw [normChain_split hU hb ha hc]
    simp [normChain_nil]

theorem isAssigned_of {c : Char} (h : U.assigned c = true) : isAssigned U c = true := by
  simp [isAssigned, h]

theorem nl_assigned (hU : TextLaws U) : isAssigned U '\n' = true := isAssigned_of (hU.assigned_ascii '\n' (by decide))

theorem last_normChain_nl (hU : TextLaws U) {s : List Char} : (normChain U s).getLast? = some '\n' ↔ s.getLast? = some '\n' :=
  last_normChain_inert hU (inert_lf hU) (nl_assigned hU) (by decide)

/-- What a reader adds at the end of text it would otherwise deliver as `T`. -/
def endTail (T : List Char) : List Char :=
  match T.getLast? with
  | none => []
  | some c => if c = '\n' then [] else if isEnd c then ['\n'] else [CGJ, '\n']

theorem normChain_cgj (hU : TextLaws U) : normChain U [CGJ] = [CGJ] := by
  apply normChain_of_assigned hU
  · exact (nss_inert_concat (x := []) hU.law hU.law.inert_cgj).2 nss_nil
  · intro c hc
    simp at hc; subst hc
    exact isAssigned_of hU.assigned_cgj

theorem normChain_translate (hU : TextLaws U) {nel lsps : Bool} {s : List Char} (h1 : ∀ c ∈ s.head?, isStart U c = true)
    (h2 : ∀ c ∈ s, okChar c = true) :
    normChain U (translate U nel lsps s) = normChain U s ++ endTail (normChain U s) := by
  rw [translate_clean h1 h2]
  rcases List.eq_nil_or_concat s with rfl | ⟨x, c, hs⟩
  · simp [normChain_nil, endTail]
  · rw [List.concat_eq_append] at hs
    subst hs
    by_cases hc : c = '\n'
    · subst hc
      rw [if_pos (by simp), normChain_split hU (inert_lf hU) (nl_assigned hU) (by decide)]
      simp [normChain_nil, endTail]
    · rw [if_neg (by simpa using hc), normChain_split hU (inert_lf hU) (nl_assigned hU) (by decide) _ [], normChain_nil]
      by_cases he : isEnd c = true
      · rw [guardEnd_end (by simpa using he)]
        have hlast := last_normChain hU (s := x ++ [c]) (by simpa using he)
        have hne := normChain_ne_nil hU (s := x ++ [c]) (by simp)
        have hnl : (normChain U (x ++ [c])).getLast? ≠ some '\n' := by
          rw [Ne, last_normChain_nl hU]; simpa using hc
        unfold endTail
        cases hl : (normChain U (x ++ [c])).getLast? with
        | none => simp at hl; exact absurd hl hne
        | some e =>
          rw [hl] at hnl hlast
          simp at hnl hlast
          simp [hnl, hlast]
      · have he : isEnd c = false := by simpa using he
        have hi := hU.end_inert c he
        have ha := isAssigned_of (hU.end_assigned c he)
        have hcg : c ≠ CGJ := by rintro rfl; simp [end_cgj] at he
        have hg : guardEnd (x ++ [c]) = x ++ c :: [CGJ] := by
          rw [guardEnd_eq]; simp [endGuard, he]
        rw [hg, normChain_split hU hi ha hcg, normChain_split hU hi ha hcg, normChain_cgj hU, normChain_nil]
        simp [endTail, hc, he]

theorem assigned_normChain (hU : TextLaws U) {s : List Char} (h : ∀ c ∈ s, isAssigned U c = true) : ∀ c ∈ normChain U s, isAssigned U c = true := by
  intro c hc
  cases ha : isAssigned U c with
  | true => rfl
  | false =>
    have hn : c ≠ CGJ := by rintro rfl; rw [isAssigned_of hU.assigned_cgj] at ha; simp at ha
    have hu : U.assigned c = false := by
      cases hx : U.assigned c with
      | false => rfl
      | true => rw [isAssigned_of hx] at ha; simp at ha
    rw [← ha]
    exact (h c (mem_normChain_inert hU (hU.unassigned_inert c hu) hn hc))

/-- Reading CRLF text back gives LF text. -/
theorem toLF_toCrlf {s : List Char} (h : '\r' ∉ s) : toLF (toCrlf s) = s := by
  induction s with
  | nil => rfl
  | cons c s ih =>
    have ih := ih (by simp at h; exact h.2)
    have hc : c ≠ '\r' := by rintro rfl; simp at h
    by_cases hn : c = '\n'
    · subst hn
      show toLF ('\r' :: '\n' :: toCrlf s) = _
      rw [toLF_cr]
      show '\n' :: toLF (toCrlf s) = _
      rw [ih]
    · have : toCrlf (c :: s) = c :: toCrlf s := by simp [toCrlf, hn]
      rw [this, toLF.eq_3 _ _ (by rintro _ rfl; exact absurd rfl hc) (by rintro rfl; exact absurd rfl hc), ih]

/-- In CRLF mode a U+D is followed by U+A; otherwise there is none. -/
theorem items_cr {crlf ansi : Bool} {T : List Char} (h : Items crlf ansi T) : ∀ a b, T = a ++ '\r' :: b → ∃ c, b = '\n' :: c := by
  induction h with
  | nil => simp
  | char s c _ hc ih =>
    intro a b h
    rcases List.eq_nil_or_concat b with rfl | ⟨b', d, rfl⟩
    · have : c = '\r' := by
        have := congrArg List.getLast? h
        simpa using this
      subst this
      exact absurd hc (by decide)
    · rw [List.concat_eq_append, ← List.cons_append, ← List.append_assoc] at h
      obtain ⟨h1, h2⟩ := List.append_inj_left' h rfl, List.append_inj_right' h rfl
      obtain ⟨c', hc'⟩ := ih a b' (List.append_inj_left' h rfl)
      exact ⟨c' ++ [d], by rw [hc']; simp⟩
  | newline s _ _ ih =>
    intro a b h
    rcases List.eq_nil_or_concat b with rfl | ⟨b', d, rfl⟩
    · have := congrArg List.getLast? h
      simp at this
    · rw [List.concat_eq_append, ← List.cons_append, ← List.append_assoc] at h
      have h' : s ++ ['\r'] ++ ['\n'] = a ++ '\r' :: b' ++ [d] := by simpa using h
      have hd : '\n' = d := by simpa using List.append_inj_right' h' rfl
      subst hd
      have h2 : s ++ ['\r'] = a ++ '\r' :: b' := List.append_inj_left' h' rfl
      rcases List.eq_nil_or_concat b' with rfl | ⟨b'', e, rfl⟩
      · exact ⟨[], rfl⟩
      · rw [List.concat_eq_append, ← List.cons_append, ← List.append_assoc] at h2
        obtain ⟨c', hc'⟩ := ih a b'' (List.append_inj_left' h2 rfl)
        exact ⟨c' ++ [e] ++ ['\n'], by rw [hc']; simp⟩
  | color s ps _ _ hp ih =>
    intro a b h
    have key : ∀ (q : List Char), (∀ c ∈ q, c ≠ '\r') → ∀ b, s ++ q = a ++ '\r' :: b → ∃ c, b = '\n' :: c := by
      intro q hq b h
      rcases List.append_eq_append_iff.1 h with ⟨x, hx1, hx2⟩ | ⟨x, hx1, hx2⟩
      · exact absurd rfl (hq '\r' (by rw [hx2]; simp))
      · cases x with
        | nil =>
          simp at hx1 hx2
          exact absurd rfl (hq '\r' (by rw [← hx2]; simp))
        | cons d x =>
          simp at hx2
          obtain ⟨rfl, hb⟩ := hx2
          obtain ⟨c', hc'⟩ := ih a x hx1
          exact ⟨c' ++ q, by rw [hb, hc']; simp⟩
    apply key _ _ b h
    intro c hc
    simp at hc
    rcases hc with rfl | rfl | hc | rfl
    · decide
    · decide
    · rintro rfl
      exact absurd (hp _ hc) (by decide)
    · decide

/-! ## A sink that does not fail -/

theorem step_script (hU : TextLaws U) {w : Writer} {op : Op} (ho : op.Ok U) (hs : w.sink.script = []) : (step U w op).1.sink.script = [] := by
  cases hw : op.isWrite with
  | true =>
    rw [step_write hw]
    cases hl : load U w op with
    | mk p o =>
      have hp : p.sink.script = [] := by
        cases o with
        | ok => rw [(load_ok hU ho hl).1.sink]; exact hs
        | err => rw [(load_not_ok hU hl (by simp)).2.sink]; exact hs
        | panic => exact absurd (load_not_ok hU hl (by simp)).1 (by simp)
      cases o with
      | ok =>
        simp only
        unfold writeBuffer
        simp only
        split
        · exact hp
        · unfold Sink.writeStr
          simp only [hp]
          split <;> rename_i heq <;> split at heq <;> simp at heq <;> rw [← heq] <;> try exact hp
      | _ => exact hp
  | false =>
    have hf : w.sink.flush.1.script = [] := by
      unfold Sink.flush; split <;> simp [hs]
    cases op with
    | flush =>
      show (flush w).1.sink.script = []
      rcases flush_cases w with ⟨h, -⟩ | ⟨h, -⟩ | ⟨-, h⟩ <;> rw [h]
      · exact hs
      · exact hs
      · exact hf
    | close =>
      show (close w).1.sink.script = []
      rcases close_cases w with ⟨h, -⟩ | ⟨-, h⟩ <;> rw [h]
      · exact hs
      · exact hf
    | abandon => exact hs
    | _ => simp [Op.isWrite] at hw

theorem whole_step (hU : TextLaws U) {base : List Char} {w : Writer} {op : Op} (ho : op.Ok U) (h : Safe base w) (hs : w.sink.script = [])
    (hT : ∃ T, w.sink.sent = base ++ T ∧ Items w.crlf w.ansi T) :
    ∃ T, (step U w op).1.sink.sent = base ++ T ∧ Items w.crlf w.ansi T := by
  have hm := step_mode hU ho w
  cases hd : (step U w op).1.sink.dead with
  | false =>
    have := ((safe_step hU ho h).live hd).2.2
    rw [hm.1, hm.2] at this
    exact this
  | true =>
    have same : (step U w op).1.sink.sent = w.sink.sent := by
      cases hw : op.isWrite with
      | true =>
        rcases write_cases hU hw w with ⟨p, w', hl, hst, hS⟩ | ⟨p, w', hl, hst, hB⟩ | ⟨w', hl, hst, hF⟩ <;> rw [hst] at hd ⊢
        · simp [hS.alive'] at hd
        · obtain ⟨q, x, -, h2, -, h4⟩ := hB.sent
          have hsame := (load_ok hU ho hl).1.sink
          rw [hsame] at h2 h4
          rw [h2, h4 hs]; simp
        · rw [hF.sink]; rfl
      | false =>
        cases op with
        | flush =>
          show (flush w).1.sink.sent = _
          rcases flush_cases w with ⟨h, -⟩ | ⟨h, -⟩ | ⟨-, h⟩ <;> rw [h]
          · rfl
          · exact (sink_flush_sent w.sink).1
        | close =>
          show (close w).1.sink.sent = _
          rcases close_cases w with ⟨h, -⟩ | ⟨-, h⟩ <;> rw [h]
          · rfl
          · exact (sink_flush_sent w.sink).1
        | abandon => rfl
        | _ => simp [Op.isWrite] at hw
    rw [same]; exact hT

/-- With a sink that does not fail, what has been sent is always made of whole items. -/
theorem whole_run (hU : TextLaws U) {base : List Char} {ops : List Op} : ∀ {w : Writer}, (∀ op ∈ ops, op.Ok U) → Safe base w → w.sink.script = [] →
    (∃ T, w.sink.sent = base ++ T ∧ Items w.crlf w.ansi T) →
    ∃ T, (run U w ops).sink.sent = base ++ T ∧ Items w.crlf w.ansi T := by
  induction ops with
  | nil => intro w _ _ _ h; exact h
  | cons op ops ih =>
    intro w ho h hs hT
    have h1 := ho op (by simp)
    have hm := step_mode hU h1 w
    have := ih (w := (step U w op).1) (fun o h => ho o (by simp [h])) (safe_step hU h1 h) (step_script hU h1 hs)
      (by rw [hm.1, hm.2]; exact whole_step hU h1 h hs hT)
    rw [hm.1, hm.2] at this
    exact this

/-! ## What a run sends first -/

theorem writeBuffer_start (w : Writer) (he : w.expectStarter = true) :
    ∃ d, Delta w (writeBuffer U w).1 d ∧ (∀ c ∈ d.head?, isStart U c = true) ∧
      (d = [] → w.buffer = [] ∨ (writeBuffer U w).1.sink.dead = true) := by
  unfold writeBuffer Delta
  simp only
  split
  · exact ⟨[], by simp [Writer.fail, Writer.reset, Sink.abandon], by simp, fun _ => Or.inr rfl⟩
  · rename_i hb
    have hst : ∀ c ∈ w.buffer.head?, isStart U c = true := by
      intro c hc
      simp only [Option.mem_def] at hc
      simpa [he, hc] using hb
    unfold Sink.writeStr
    by_cases hd : w.sink.dead = true
    · simp only [hd, if_true]
      exact ⟨[], by simp [Writer.fail, Writer.reset, Sink.abandon], by simp, fun _ => Or.inr rfl⟩
    · rw [if_neg hd]
      cases hs : w.sink.script with
      | nil => exact ⟨w.buffer, rfl, hst, fun h => Or.inl h⟩
      | cons e r =>
        cases e with
        | ok => exact ⟨w.buffer, rfl, hst, fun h => Or.inl h⟩
        | fail n =>
          refine ⟨w.buffer.take n, rfl, ?_, fun _ => Or.inr rfl⟩
          intro c hc
          cases n with
          | zero => simp at hc
          | succ n =>
            apply hst
            cases hbuf : w.buffer with
            | nil => rw [hbuf] at hc; simp at hc
            | cons x xs => rw [hbuf] at hc; simpa using hc

theorem enc_eq_nil {crlf : Bool} {s : List Char} (h : enc crlf s = []) : s = [] := by
  cases crlf with
  | false => exact h
  | true =>
    apply Classical.byContradiction
    intro hn
    exact toCrlf_ne hn h

theorem dead_delta (hU : TextLaws U) {w : Writer} (hd : w.sink.dead = true) (ops : List Op) : Delta w (run U w ops) [] := by
  unfold Delta; rw [(dead_run hU hd).1]; simp

/-- The step from a writer expecting a starter. -/
theorem start_step (hU : TextLaws U) {base : List Char} {op : Op} (ho : op.Ok U)
    (hne : op.isWrite = true → op.src ≠ []) {w : Writer} (h : Safe base w) (ha : w.ansi = false) (he : w.expectStarter = true) :
    ∃ d, Delta w (step U w op).1 d ∧ (∀ c ∈ d.head?, isStart U c = true) ∧
      (d = [] → (step U w op).1.expectStarter = true ∨ (step U w op).1.sink.dead = true) := by
  cases hd : w.sink.dead with
  | true =>
    refine ⟨[], ?_, by simp, fun _ => Or.inr (dead_step hU op hd).2.1⟩
    unfold Delta; rw [(dead_step hU op hd).1]; simp
  | false =>
    obtain ⟨hb, hseq, -⟩ := h.live hd
    cases hw : op.isWrite with
    | true =>
      rw [step_write hw]
      cases hl : load U w op with
      | mk p o =>
        cases o with
        | ok =>
          have hsame := (load_ok hU ho hl).1
          have hbuf := load_buffer hU hw hl ha hseq hb
          obtain ⟨d, h1, h2, h3⟩ := writeBuffer_start (U := U) p (by rw [hsame.expect]; exact he)
          refine ⟨d, ?_, h2, ?_⟩
          · unfold Delta at h1 ⊢; rw [h1, hsame.sink]
          · intro hd0
            rcases h3 hd0 with h4 | h4
            · exfalso
              rw [hbuf] at h4
              have := enc_eq_nil h4
              apply hne hw
              cases op with
              | str s => apply Classical.byContradiction; intro hn; exact normChain_ne_nil hU hn this
              | text s => exact this
              | bytes b => apply Classical.byContradiction; intro hn; exact normChain_ne_nil hU hn this
              | _ => simp [Op.isWrite] at hw
            · exact Or.inr h4
        | err =>
          have := (load_not_ok hU hl (by simp)).2
          exact ⟨[], by unfold Delta; simp [this.sink, Sink.abandon], by simp, fun _ => Or.inr (by simp [this.sink, Sink.abandon])⟩
        | panic => exact absurd (load_not_ok hU hl (by simp)).1 (by simp)
    | false =>
      refine ⟨[], ?_, by simp, fun _ => ?_⟩ <;> cases op <;> first | simp [Op.isWrite] at hw | skip
      · show (flush w).1.sink.sent = _
        rcases flush_cases w with ⟨h, -⟩ | ⟨h, -⟩ | ⟨-, h⟩ <;> rw [h]
        · simp [Writer.fail, Writer.reset, Sink.abandon]
        · simp
        · simp [(sink_flush_sent w.sink).1]
      · show (close w).1.sink.sent = _
        rcases close_cases w with ⟨h, -⟩ | ⟨-, h⟩ <;> rw [h]
        · simp [Writer.fail, Writer.reset, Sink.abandon]
        · simp [Sink.close, (sink_flush_sent w.sink).1]
      · show (abandon w).sink.sent = _
        simp [abandon, Sink.abandon, Writer.reset]
      · show (flush w).1.expectStarter = true ∨ _
        left
        rcases flush_cases w with ⟨h, -⟩ | ⟨h, -⟩ | ⟨-, h⟩ <;> rw [h]
        · exact he
        · exact he
      · right
        show (close w).1.sink.dead = true
        rcases close_cases w with ⟨h, -⟩ | ⟨-, h⟩ <;> rw [h] <;> rfl
      · exact Or.inr rfl

/-- From a writer expecting a starter, whatever is sent next begins with one, if no write is empty. -/
theorem start_run (hU : TextLaws U) {base : List Char} {ops : List Op} : ∀ {w : Writer}, (∀ op ∈ ops, op.Ok U) →
    (∀ op ∈ ops, op.isWrite = true → op.src ≠ []) → Safe base w → w.ansi = false → w.expectStarter = true →
    ∃ d, Delta w (run U w ops) d ∧ ∀ c ∈ d.head?, isStart U c = true := by
  induction ops with
  | nil => intro w _ _ _ _ _; exact ⟨[], by simp [Delta, run], by simp⟩
  | cons op ops ih =>
    intro w ho hne h ha he
    have h1 := ho op (by simp)
    obtain ⟨d, hd1, hd2, hd3⟩ := start_step hU h1 (hne op (by simp)) h ha he
    by_cases hd : d = []
    · subst hd
      rcases hd3 rfl with h3 | h3
      · obtain ⟨d', h4, h5⟩ := ih (w := (step U w op).1) (fun o h => ho o (by simp [h])) (fun o h => hne o (by simp [h]))
          (safe_step hU h1 h) (by rw [(step_mode hU h1 w).2]; exact ha) h3
        refine ⟨d', ?_, h5⟩
        unfold Delta at *
        rw [run, h4, hd1]; simp
      · refine ⟨[], ?_, by simp⟩
        have := dead_delta hU h3 ops
        unfold Delta at *
        rw [run, this, hd1]; simp
    · obtain ⟨d', h4⟩ := run_delta hU (ops := ops) (w := (step U w op).1) (fun o h => ho o (by simp [h]))
      refine ⟨d ++ d', ?_, ?_⟩
      · unfold Delta at *
        rw [run, h4, hd1]; simp
      · intro c hc
        apply hd2
        cases d with
        | nil => exact absurd rfl hd
        | cons x d => simpa using hc

theorem runs_script (hU : TextLaws U) {ops : List Op} : ∀ {w : Writer}, (∀ op ∈ ops, op.Ok U) → w.sink.script = [] →
    (run U w ops).sink.script = [] := by
  induction ops with
  | nil => intro w _ h; exact h
  | cons op ops ih =>
    intro w ho h
    exact ih (fun o h => ho o (by simp [h])) (step_script hU (ho op (by simp)) h)

end Verif
