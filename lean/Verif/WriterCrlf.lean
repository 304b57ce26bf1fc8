import Verif.WriterModes

/-!
# CR LF mode on sinks that fail

Two writers, one with CR LF compatibility, on sinks that succeed and fail at the same operations.
-/

namespace Verif
open Ucd
variable {U : Ucd}

/-- Whether the operation succeeds. -/
def SinkEvent.isOk : SinkEvent → Bool
  | .ok => true
  | .fail _ => false

/-- Sinks whose coming operations fare alike, though more or less of a failing write may go out. -/
def Sink.alike (k k' : Sink) : Prop := k'.dead = k.dead ∧ k'.script.map SinkEvent.isOk = k.script.map SinkEvent.isOk

theorem Sink.alike_flush {k k' : Sink} (h : k.alike k') : k'.flush.2 = k.flush.2 ∧ k.flush.1.alike k'.flush.1 ∧ k.flush.1.sent = k.sent ∧ k'.flush.1.sent = k'.sent := by
  obtain ⟨sent, dead, script⟩ := k
  obtain ⟨sent', dead', script'⟩ := k'
  obtain ⟨h1, h2⟩ := h
  simp only at h1 h2
  subst h1
  unfold Sink.flush
  cases dead' with
  | true => exact ⟨rfl, ⟨rfl, h2⟩, rfl, rfl⟩
  | false =>
    cases script with
    | nil => rw [List.map_eq_nil_iff.1 h2]; exact ⟨rfl, ⟨rfl, rfl⟩, rfl, rfl⟩
    | cons x r =>
      cases script' with
      | nil => simp at h2
      | cons x' r' =>
        have hx : x'.isOk = x.isOk := (List.cons.inj h2).1
        have hr := (List.cons.inj h2).2
        cases x <;> cases x' <;> simp [SinkEvent.isOk] at hx
        · exact ⟨rfl, ⟨rfl, hr⟩, rfl, rfl⟩
        · exact ⟨rfl, ⟨rfl, hr⟩, rfl, rfl⟩

/-- A write to sinks that fare alike: both succeed, or both fail with some part gone out. -/
theorem Sink.alike_write {k k' : Sink} (h : k.alike k') (s s' : List Char) :
    (k'.writeStr s').2 = (k.writeStr s).2 ∧ (k.writeStr s).1.alike (k'.writeStr s').1 ∧
      ((k.writeStr s).2 = true → (k.writeStr s).1.sent = k.sent ++ s ∧ (k'.writeStr s').1.sent = k'.sent ++ s') ∧
      ∃ n n', (k.writeStr s).1.sent = k.sent ++ s.take n ∧ (k'.writeStr s').1.sent = k'.sent ++ s'.take n' := by
  obtain ⟨sent, dead, script⟩ := k
  obtain ⟨sent', dead', script'⟩ := k'
  obtain ⟨h1, h2⟩ := h
  simp only at h1 h2
  subst h1
  unfold Sink.writeStr
  cases dead' with
  | true => exact ⟨rfl, ⟨rfl, h2⟩, by simp, 0, 0, by simp, by simp⟩
  | false =>
    cases script with
    | nil => rw [List.map_eq_nil_iff.1 h2]; exact ⟨rfl, ⟨rfl, rfl⟩, fun _ => ⟨rfl, rfl⟩, s.length, s'.length, by simp, by simp⟩
    | cons x r =>
      cases script' with
      | nil => simp at h2
      | cons x' r' =>
        have hx : x'.isOk = x.isOk := (List.cons.inj h2).1
        have hr := (List.cons.inj h2).2
        cases x <;> cases x' <;> simp [SinkEvent.isOk] at hx
        · exact ⟨rfl, ⟨rfl, hr⟩, fun _ => ⟨rfl, rfl⟩, s.length, s'.length, by simp, by simp⟩
        · rename_i n n'
          exact ⟨rfl, ⟨rfl, hr⟩, by simp, n, n', by simp, by simp⟩

/-- The two writers: exactly corresponding texts while the sinks are in use, up to a part of one more text later. -/
structure CrlfAlike (base base' : List Char) (w w' : Writer) : Prop where
  text : ∃ T t t' s, w.sink.sent = base ++ T ++ t ∧ w'.sink.sent = base' ++ toCrlf T ++ t' ∧ t <+: s ∧ t' <+: toCrlf s ∧
    (w.sink.dead = false → t = [] ∧ t' = [])
  crlf : w.crlf = false ∧ w'.crlf = true
  ansi : w.ansi = false ∧ w'.ansi = false
  dead : w'.sink.dead = w.sink.dead
  live : w.sink.dead = false → w.sink.alike w'.sink ∧ w.buffer = [] ∧ w'.buffer = [] ∧ w'.expectStarter = w.expectStarter ∧
    ∃ g, w.state = .ground g ∧ w'.state = .ground g

/-- A write that is fine, on any sink. -/
theorem step_good_any (hU : TextLaws U) {op : Op} (hw : op.isWrite = true) {w : Writer} {g : Ground} (hg : w.state = .ground g)
    (hb : w.buffer = []) (h : Good U w.expectStarter op) :
    step U w op = match w.sink.writeStr (enc w.crlf (said U op)) with
      | (sink, true) => ({ w with expectStarter := false, state := .ground (groundNext U g op), sink, buffer := [] }, .ok)
      | (sink, false) => ({ w with expectStarter := false, state := .ground (groundNext U g op), sink, buffer := [] }.fail, .err) := by
  rw [step_write hw, load_plain hU hw hg h.1]
  simp only
  unfold writeBuffer
  simp only
  rw [if_neg]
  · simp only [hb, List.nil_append]
    cases w.sink.writeStr (enc w.crlf (said U op)) with
    | mk k o => cases o <;> rfl
  · simp only [hb, List.nil_append]
    cases he : w.expectStarter with
    | false => simp
    | true =>
      cases hh : (enc w.crlf (said U op)).head? with
      | none => simp
      | some c => simp [(head_enc U hU).2 (h.2 he) c hh]

theorem crlf_alike_step (hU : TextLaws U) {base base' : List Char} {op : Op} (ho : op.Ok U) {w w' : Writer} (h : CrlfAlike base base' w w') :
    (step U w op).2 = (step U w' op).2 ∧ CrlfAlike base base' (step U w op).1 (step U w' op).1 := by
  obtain ⟨T, t, t', s, hT, hT', ht, ht', hz⟩ := h.text
  have m1 := step_mode hU ho w
  have m2 := step_mode hU ho w'
  cases hd : w.sink.dead with
  | true =>
    have hd' := h.dead.trans hd
    obtain ⟨a1, a2, a3⟩ := dead_step hU op hd
    obtain ⟨b1, b2, b3⟩ := dead_step hU op hd'
    refine ⟨?_, ⟨⟨T, t, t', s, by rw [a1, hT], by rw [b1, hT'], ht, ht', fun hx => by rw [a2] at hx; simp at hx⟩, by rw [m1.1, m2.1]; exact h.crlf,
      by rw [m1.2, m2.2]; exact h.ansi, by rw [a2, b2], fun hx => by rw [a2] at hx; simp at hx⟩⟩
    by_cases hop : op = .abandon
    · subst hop; rfl
    · rw [a3 hop, b3 hop]
  | false =>
    obtain ⟨rfl, rfl⟩ := hz hd
    simp only [List.append_nil] at hT hT'
    have hd' := h.dead.trans hd
    obtain ⟨lk, l1, l2, l3, g, l4, l5⟩ := h.live hd
    cases hw : op.isWrite with
    | true =>
      by_cases hg : Good U w.expectStarter op
      · rw [step_good_any hU hw l4 l1 hg, step_good_any hU hw l5 l2 (by rw [l3]; exact hg)]
        obtain ⟨e1, e2, e3, n, n', e4, e5⟩ := Sink.alike_write lk (enc w.crlf (said U op)) (enc w'.crlf (said U op))
        have c1 : enc w.crlf (said U op) = said U op := by simp [enc, h.crlf.1]
        have c2 : enc w'.crlf (said U op) = toCrlf (said U op) := by simp [enc, h.crlf.2]
        revert e1 e2 e3 e4 e5
        cases hk : w.sink.writeStr (enc w.crlf (said U op)) with
        | mk k o =>
          cases hk' : w'.sink.writeStr (enc w'.crlf (said U op)) with
          | mk k' o' =>
            simp only
            intro e1 e2 e3 e4 e5
            subst e1
            cases o' with
            | true =>
              obtain ⟨e6, e7⟩ := e3 rfl
              refine ⟨rfl, ⟨⟨T ++ said U op, [], [], [], ?_, ?_, List.nil_prefix, List.nil_prefix, fun _ => ⟨rfl, rfl⟩⟩, h.crlf, h.ansi, e2.1,
                fun _ => ⟨e2, rfl, rfl, rfl, _, rfl, rfl⟩⟩⟩
              · simp [e6, hT, c1]
              · simp [e7, hT', c2, toCrlf_append]
            | false =>
              refine ⟨rfl, ⟨⟨T, (said U op).take n, (toCrlf (said U op)).take n', said U op, ?_, ?_, List.take_prefix _ _, List.take_prefix _ _, ?_⟩,
                h.crlf, h.ansi, rfl, ?_⟩⟩
              · rw [← c1, ← hT]; exact e4
              · rw [← c2, ← hT']; exact e5
              · intro hx; simp [Writer.fail, Sink.abandon] at hx
              · intro hx; simp [Writer.fail, Sink.abandon] at hx
      · obtain ⟨a1, a2, a3, a4, a5⟩ := step_bad hU hw l4 h.ansi.1 l1 hg
        obtain ⟨b1, b2, b3, b4, b5⟩ := step_bad hU hw l5 h.ansi.2 l2 (by rw [l3]; exact hg)
        refine ⟨by rw [a1, b1], ⟨⟨T, [], [], [], by rw [a2]; simpa [Sink.abandon] using hT, by rw [b2]; simpa [Sink.abandon] using hT', List.nil_prefix, List.nil_prefix, fun _ => ⟨rfl, rfl⟩⟩,
          by rw [a4, b4]; exact h.crlf, by rw [a5, b5]; exact h.ansi, by rw [a2, b2]; rfl, ?_⟩⟩
        rw [a2]; intro hx; simp [Sink.abandon] at hx
    | false =>
      obtain ⟨f1, f2, f3, f4⟩ := Sink.alike_flush lk
      have fin : ∀ {a b : Writer}, a.sink.sent = w.sink.sent → b.sink.sent = w'.sink.sent → a.sink.dead = true → b.sink.dead = true →
          a.crlf = w.crlf → b.crlf = w'.crlf → a.ansi = w.ansi → b.ansi = w'.ansi → CrlfAlike base base' a b := by
        intro a b e1 e2 e3 e4 e7 e8 e9 e10
        refine ⟨⟨T, [], [], [], by rw [e1, hT, List.append_nil], by rw [e2, hT', List.append_nil], List.nil_prefix, List.nil_prefix, fun _ => ⟨rfl, rfl⟩⟩,
          by rw [e7, e8]; exact h.crlf, by rw [e9, e10]; exact h.ansi, by rw [e3, e4], ?_⟩
        rw [e3]; intro hx; simp at hx
      cases op with
      | flush =>
        simp only [step]
        unfold flush
        rw [l4, l5]
        cases g with
        | zwjOrPrepend => exact ⟨rfl, fin rfl rfl rfl rfl rfl rfl rfl rfl⟩
        | _ =>
          simp only [f1]
          refine ⟨trivial, ⟨⟨T, [], [], [], by simp [f3, hT], by simp [f4, hT'], List.nil_prefix, List.nil_prefix, fun _ => ⟨rfl, rfl⟩⟩, h.crlf, h.ansi, f2.1,
            fun _ => ⟨f2, l1, l2, rfl, _, rfl, rfl⟩⟩⟩
      | close =>
        simp only [step]
        unfold close checkNl
        simp only [l4, l5]
        cases g with
        | newline =>
          simp only [if_true, Sink.close, f1]
          exact ⟨rfl, fin f3 f4 rfl rfl rfl rfl rfl rfl⟩
        | zwjOrPrepend => exact ⟨rfl, fin rfl rfl rfl rfl rfl rfl rfl rfl⟩
        | other => exact ⟨rfl, fin rfl rfl rfl rfl rfl rfl rfl rfl⟩
      | abandon => exact ⟨rfl, fin rfl rfl rfl rfl rfl rfl rfl rfl⟩
      | _ => simp [Op.isWrite] at hw

theorem crlf_alike_run (hU : TextLaws U) {base base' : List Char} {ops : List Op} : ∀ {w w' : Writer}, (∀ op ∈ ops, op.Ok U) → CrlfAlike base base' w w' →
    results U w ops = results U w' ops ∧ CrlfAlike base base' (run U w ops) (run U w' ops) := by
  induction ops with
  | nil => intro w w' _ h; exact ⟨rfl, h⟩
  | cons op ops ih =>
    intro w w' ho h
    obtain ⟨h1, h2⟩ := crlf_alike_step hU (ho op (by simp)) h
    obtain ⟨h3, h4⟩ := ih (fun o h => ho o (by simp [h])) h2
    exact ⟨by simp only [results, h1, h3], h4⟩

end Verif
