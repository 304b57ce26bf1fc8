import Verif.Fate
import Verif.Props.Conserve
import Verif.Props.Abandon

/-!
# Property C131: panics while streams are alive
-/

namespace Verif
open Ucd Spec

/-- C131: a panic anywhere in the program, while writers are alive in the calls given up, aborts the process iff dropping one of them
panics; else it unwinds and can be caught. -/
theorem c131_unwind (ws : List Writer) :
    (unwind ws = .aborts ↔ ∃ w ∈ ws, dropPanics w = true) ∧ (unwind ws = .unwinds ↔ ∀ w ∈ ws, dropPanics w = false) := by
  unfold unwind
  cases h : ws.any dropPanics <;> simp_all

/-- C131: a panic while a writer is alive, after any calls on it: the process is aborted iff the stream is not over and part of a
color sequence is held back or the text `T` sent since the last `write_text("")` ends otherwise than with a newline. -/
theorem c131_writer (w : Writer) (hw : Fresh w) (a b : List Op) (hs : Since a b) (ho : ∀ op ∈ a ++ b, op.Ok ucd15) (T : List Char)
    (hT : (run ucd15 w (a ++ b)).sink.sent = (run ucd15 w a).sink.sent ++ T) :
    unwind [run ucd15 w (a ++ b)] = .aborts ↔ (run ucd15 w (a ++ b)).sink.dead = false ∧
      (pend (run ucd15 w (a ++ b)) ≠ [] ∨ ∃ c ∈ T.getLast?, c ≠ '\n') := by
  rw [(c131_unwind _).1, ← c35_drop_iff w hw a b hs ho T hT]
  simp

example : unwind [run ucd15 (.new goodSink) [.str ['a', '\n']]] = .unwinds ∧ unwind [run ucd15 (.new goodSink) [.str ['a']]] = .aborts ∧
    unwind [run ucd15 (.new goodSink) [.str ['a'], .flush]] = .aborts ∧ unwind [run ucd15 (.new goodSink) [.str ['a'], .text []]] = .unwinds ∧
    unwind [run ucd15 (.new goodSink) [.str ['a'], .abandon]] = .unwinds ∧
    unwind [run ucd15 (.new goodSink) [.str ['a', '\n']], run ucd15 (.new goodSink) [.str ['a']]] = .aborts := by decide +kernel

/-- C131: `abandon` is the way out: after it, whatever is called, the writer can be dropped, with or without a panic under way. -/
theorem c131_abandoned (w : Writer) (ops : List Op) :
    unwind [run ucd15 w (.abandon :: ops)] = .unwinds ∧ retire (run ucd15 w (.abandon :: ops)) = .fine := by
  have key : ∀ (ops : List Op) (w : Writer), w.sink.dead = true → Over w → (run ucd15 w ops).sink.dead = true ∧ Over (run ucd15 w ops) := by
    intro ops
    induction ops with
    | nil => intro w h h'; exact ⟨h, h'⟩
    | cons op ops ih => intro w h h'; exact ih _ (dead_step textLaws15 op h).2.1 (over_step textLaws15 op h')
  obtain ⟨h1, h2⟩ := key ops (Verif.abandon w) rfl (fun _ => rfl)
  have h3 : dropPanics (run ucd15 w (.abandon :: ops)) = false := by
    show dropPanics (run ucd15 (Verif.abandon w) ops) = false
    unfold dropPanics
    rw [h2 h1]; rfl
  exact ⟨((c131_unwind _).2).2 (by simpa using h3), by unfold retire; rw [h3]; rfl⟩

example : dropPanics (run ucd15 (.new goodSink) [.str ['a']]) = true ∧
    retire (run ucd15 (.new goodSink) [.str ['a'], .abandon, .str ['b'], .close]) = .fine := by decide +kernel

/-- C131: abandoning a duplexer, in whatever state: it succeeds iff no text that was read is undelivered, and then nothing panics
later; else the call panics, and the process is aborted iff dropping the output half panics. -/
theorem c131_duplexer (d : Duplexer) :
    (d.abandonFate = .fine ↔ d.input.abandon ≠ none) ∧
    (d.abandonFate = .unwinds ↔ d.input.abandon = none ∧ dropPanics d.output = false) ∧
    (d.abandonFate = .aborts ↔ d.input.abandon = none ∧ dropPanics d.output = true) := by
  unfold Duplexer.abandonFate Duplexer.abandon unwind retire
  cases d.input.abandon with
  | some t => simp [dropPanics, Verif.abandon, Writer.reset]
  | none => cases h : dropPanics d.output <;> simp [h]

/-- C131, exactly: a duplexer on a stream that gives `chunks`, after calls that all succeed.  The reads have taken in the chunks and the last
has left room; none delivered a newline; what was written since the last `write_text("")` is `T`.  Then abandoning it panics
iff the chunks end, but for U+D and U+C left open, with a scalar that is neither a newline nor U+34F; and it aborts the
process iff moreover `T` ends otherwise than with a newline, or part of a color sequence is held back. -/
theorem c131_exact (nel lsps : Bool) (chunks : List (List Char)) (hb : BomSafe chunks []) (he : ESC ∉ chunks.flatten) (rest : List Event)
    (hrest : rest ≠ []) (w : Writer) (hw : Fresh w) (hd : w.sink.dead = false) (ops : List DOp) (lens : List Nat) (len : Nat) (hl : reads ops = lens ++ [len])
    (a b : List Op) (hab : writes ops = a ++ b) (hs : Since a b) (ho : ∀ op ∈ a ++ b, op.Ok ucd15) (hc : ∀ o ∈ a ++ b, o ≠ .close ∧ o ≠ .abandon)
    (hok : ∀ x ∈ writeOuts (dresults ucd15 (.make nel lsps (chunks.map (fun c => .data c .active) ++ rest) w) ops), x = .ok)
    (n : Nat) (st : Status) (out : List Char)
    (hlast : (readOuts (dresults ucd15 (.make nel lsps (chunks.map (fun c => .data c .active) ++ rest) w) ops)).getLast? = some (.ok n st, out))
    (hroom : n + 4 ≤ len)
    (hnl : ∀ r ∈ readOuts (dresults ucd15 (.make nel lsps (chunks.map (fun c => .data c .active) ++ rest) w) ops),
      r.1.isOk = true → r.2.getLast? ≠ some '\n')
    (hsrc : (drun ucd15 (.make nel lsps (chunks.map (fun c => .data c .active) ++ rest) w) ops).src = rest)
    (T : List Char) (hT : (run ucd15 w (a ++ b)).sink.sent = (run ucd15 w a).sink.sent ++ T) :
    let d := drun ucd15 (.make nel lsps (chunks.map (fun c => .data c .active) ++ rest) w) ops
    (d.abandonFate ≠ .fine ↔ ∃ c ∈ lastDecided (dropBom chunks.flatten), ¬ Breaks nel lsps c ∧ c ≠ CGJ) ∧
    (d.abandonFate = .aborts ↔ (∃ c ∈ lastDecided (dropBom chunks.flatten), ¬ Breaks nel lsps c ∧ c ≠ CGJ) ∧
      (run ucd15 w (a ++ b)).sink.dead = false ∧ (pend (run ucd15 w (a ++ b)) ≠ [] ∨ ∃ c ∈ T.getLast?, c ≠ '\n')) := by
  intro d
  have hout : d.output = run ucd15 w (a ++ b) := by
    rw [← hab]
    exact output_run ops _ (fun o h => (hc o (hab ▸ h)).2) hnl
  obtain ⟨r1, r2⟩ := reads_alone textLaws15 ops (.make nel lsps (chunks.map (fun c => .data c .active) ++ rest) w) hd
    (by rw [hab]; exact hc) hok
  rw [hl] at r1 r2
  have hin : d.input.abandon = none ↔ ∃ c ∈ lastDecided (dropBom chunks.flatten), ¬ Breaks nel lsps c ∧ c ≠ CGJ := by
    rw [r1, List.getLast?_map] at hlast
    obtain ⟨r, hr, hr'⟩ := Option.map_eq_some_iff.mp hlast
    simp only [finalState, hr] at r2
    obtain ⟨e1, e2⟩ := Prod.mk.inj r2
    have hr2 : r.src = rest := e2.symm.trans hsrc
    have := c28_exact_plain nel lsps chunks hb he rest hrest lens len r n st hr hr2 (Prod.mk.inj hr').1 hroom
    rw [← this]
    exact iff_of_eq (congrArg (fun t : TextInput => t.abandon = none) e1)
  obtain ⟨k1, -, k3⟩ := c131_duplexer d
  refine ⟨?_, ?_⟩
  · rw [← hin, Ne, k1]; simp
  · rw [k3, hin, hout, c35_drop_iff w hw a b hs ho T hT]

/-- The calls of `c131_refuted`: half a line is written and half a line is read. -/
def halfLines : Duplexer :=
  drun ucd15 (.make false false ([['b']].map (fun c => .data c .active) ++ [.err]) (.new goodSink)) [.op (.str ['a']), .read 136]

/-- The hypotheses of `c131_exact` hold of them. -/
example : BomSafe [['b']] [] ∧ readOuts (dresults ucd15 (.make false false ([['b']].map (fun c => .data c .active) ++ [.err]) (.new goodSink))
      [.op (.str ['a']), .read 136]) = [(.ok 0 .active, [])] ∧
    writeOuts (dresults ucd15 (.make false false ([['b']].map (fun c => .data c .active) ++ [.err]) (.new goodSink))
      [.op (.str ['a']), .read 136]) = [.ok] ∧ halfLines.src = [.err] ∧ halfLines.output.sink.sent = ['a'] := by
  refine ⟨?_, ?_, ?_, ?_, ?_⟩ <;> first | decide +kernel | simp [BomSafe]

/-- C131, the claim that abandoning a stream never takes the process down is refuted: with half a line read and half a line written, it
does.  Reading a line instead, or writing one, or reading nothing, leaves at most a panic that can be caught. -/
theorem c131_refuted : halfLines.abandonFate = .aborts ∧
    (drun ucd15 (.make false false [.data ['b'] .active, .err] (.new goodSink)) [.op (.str ['a', '\n']), .read 136]).abandonFate = .unwinds ∧
    (drun ucd15 (.make false false [.data ['b', '\n', 'c'] .active, .err] (.new goodSink)) [.op (.str ['a']), .read 136]).abandonFate = .unwinds ∧
    (drun ucd15 (.make false false [.data ['b', '\n'] .active, .err] (.new goodSink)) [.op (.str ['a']), .read 136]).abandonFate = .fine ∧
    (drun ucd15 (.make false false [] (.new goodSink)) [.op (.str ['a'])]).abandonFate = .fine := by decide +kernel

/-- C131: with the two lines of `abandon` exchanged it would never abort, and would panic in the same cases. -/
theorem c131_other_order (d : Duplexer) :
    d.abandonOutputFirst ≠ .aborts ∧ (d.abandonOutputFirst = .fine ↔ d.abandonFate = .fine) := by
  rw [(c131_duplexer d).1]
  unfold Duplexer.abandonOutputFirst unwind retire
  cases d.input.abandon <;> simp [dropPanics, Verif.abandon, Writer.reset]

end Verif
