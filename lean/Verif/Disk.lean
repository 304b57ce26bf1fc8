import Verif.LayeredColor
import Verif.WriterReader
import Verif.CutShort

/-!
# A writer on a disk that may fill up

The inner stream takes bytes and has room for a number of them; a write that does not fit leaves on it the bytes that did, also if they end
in the middle of a scalar, and fails.  This lifts the simplification of `Sink` that a failing write is cut at a scalar.
-/

namespace Verif
open Ucd

variable {U : Ucd}

theorem crlfRest_on (k : Sink) : ∀ (l : List (List Char)) (w : Writer), crlfRest U (w.on k) l = onR (crlfRest U w l) k := by
  intro l
  induction l with
  | nil => intro w; rfl
  | cons x l ih =>
    intro w
    simp only [crlfRest]
    have := stateMachine_on (U := U) k { w with state := .ground .newline, buffer := w.buffer ++ ['\r', '\n'] } x
    rw [show ({ w.on k with state := .ground .newline, buffer := (w.on k).buffer ++ ['\r', '\n'] } : Writer) =
      ({ w with state := .ground .newline, buffer := w.buffer ++ ['\r', '\n'] } : Writer).on k from rfl, this]
    cases stateMachine U { w with state := .ground .newline, buffer := w.buffer ++ ['\r', '\n'] } x with
    | mk p o =>
      cases o
      · exact ih p
      · rfl
      · rfl

theorem crlfLoop_on (k : Sink) (w : Writer) (l : List (List Char)) : crlfLoop U (w.on k) l = onR (crlfLoop U w l) k := by
  cases l with
  | nil => rfl
  | cons x l =>
    simp only [crlfLoop, stateMachine_on]
    cases stateMachine U w x with
    | mk p o =>
      cases o
      · exact crlfRest_on k l p
      · rfl
      · rfl

/-- What a call does before it writes to the inner stream does not depend on that stream. -/
theorem load_on_any (k : Sink) (w : Writer) (op : Op) : load U (w.on k) op = onR (load U w op) k := by
  cases hc : w.crlf with
  | false => exact load_on k hc op
  | true =>
    have hp : ∀ s, prepStr U (w.on k) s = onR (prepStr U w s) k := by
      intro s
      unfold prepStr
      rw [show (w.on k).crlf = w.crlf from rfl, hc]
      exact crlfLoop_on k w _
    cases op with
    | str s => exact hp s
    | text s => simp only [load, prepText_eq]; rfl
    | bytes b =>
      simp only [load]
      split
      · exact hp _
      · rfl
    | _ => rfl

/-- A `TextWriter` (or a `TextDuplexer`'s writing half) on a stream of bytes: the bytes on it, and for how many more there is room.  The sink
of `w` has the scalars that are on it completely. -/
structure OnDisk where
  w : Writer
  bytes : Bytes
  free : Nat
  deriving DecidableEq, Repr

/-- A call (`src/text_output.rs:262-292`, `428-513`).  Each call makes at most one write (C127); what it writes is found by letting it succeed.
If that does not fit, the call is made with a write that fails after the scalars that fit completely. -/
def OnDisk.step (U : Ucd) (x : OnDisk) (op : Op) : OnDisk × Out :=
  let good := Verif.step U (x.w.on { x.w.sink with script := [] }) op
  let d := encode (good.1.sink.sent.drop x.w.sink.sent.length)
  if d.length ≤ x.free then ({ w := good.1, bytes := x.bytes ++ d, free := x.free - d.length }, good.2)
  else
    let bad := Verif.step U (x.w.on { x.w.sink with script := [.fail (feedBytes (d.take x.free)).1.length] }) op
    ({ w := bad.1, bytes := x.bytes ++ d.take x.free, free := 0 }, bad.2)

/-- Calls one after another. -/
def OnDisk.run (U : Ucd) : OnDisk → List Op → OnDisk
  | x, [] => x
  | x, op :: ops => OnDisk.run U (x.step U op).1 ops

/-- Their results. -/
def OnDisk.results (U : Ucd) : OnDisk → List Op → List Out
  | _, [] => []
  | x, op :: ops => (x.step U op).2 :: OnDisk.results U (x.step U op).1 ops

/-- The new writer's disk with room for `n` bytes. -/
def OnDisk.start (w : Writer) (n : Nat) : OnDisk := { w, bytes := encode w.sink.sent, free := n }

theorem OnDisk.run_append (x : OnDisk) (a b : List Op) : x.run U (a ++ b) = (x.run U a).run U b := by
  induction a generalizing x with
  | nil => rfl
  | cons op a ih => exact ih _

theorem others_send_nothing (w : Writer) {op : Op} (hop : op.isWrite = false) : (step U w op).1.sink.sent = w.sink.sent := by
  cases op with
  | flush =>
    rcases flush_cases w with ⟨h1, -⟩ | ⟨h1, -⟩ | ⟨-, h1⟩
    · simp only [step, h1]; rfl
    · simp only [step, h1]
    · simp only [step, h1]; exact (sink_flush_sent _).1
  | close =>
    simp only [step, close, checkNl]
    by_cases hn : w.state = .ground .newline
    · simp only [hn, if_true]; exact (sink_flush_sent _).1
    · simp only [hn, if_false]; rfl
  | abandon => rfl
  | _ => simp [Op.isWrite] at hop

/-- A write to an unlimited stream that sends something. -/
theorem sends (hU : TextLaws U) {w : Writer} {op : Op} (ho : op.Ok U) (hs : w.sink.script = []) {d : List Char}
    (hd : (step U w op).1.sink.sent = w.sink.sent ++ d) (hn : d ≠ []) (n : Nat) : op.isWrite = true ∧
    (step U w op).2 = .ok ∧
    (step U (w.on { w.sink with script := [.fail n] }) op).2 = .err ∧
    (step U (w.on { w.sink with script := [.fail n] }) op).1.sink = { sent := w.sink.sent ++ d.take n, dead := true, script := [] } := by
  cases hw : op.isWrite with
  | false =>
    exfalso
    apply hn
    have : (step U w op).1.sink.sent = w.sink.sent := others_send_nothing w hw
    rw [this] at hd
    simpa using hd
  | true =>
    refine ⟨rfl, ?_⟩
    rw [step_write hw] at hd ⊢
    rw [step_write hw, load_on_any]
    cases hl : load U w op with
    | mk p o =>
      rw [hl] at hd
      cases o with
      | ok =>
        have hk := (load_ok hU ho hl).1.sink
        simp only [onR] at hd ⊢
        simp only [writeBuffer, Writer.on] at hd ⊢
        simp only [if_true]
        split
        · rename_i hb
          rw [if_pos hb] at hd
          simp only [Writer.fail, Writer.reset, Sink.abandon, hk] at hd
          exact absurd (by simpa using hd) hn
        · rename_i hb
          rw [if_neg hb] at hd
          rw [hk]
          cases hdead : w.sink.dead with
          | true =>
            simp only [hk, Sink.writeStr, hdead, if_true, Writer.fail, Writer.reset, Sink.abandon] at hd
            exact absurd (by simpa using hd) hn
          | false =>
            simp only [hk, Sink.writeStr, hdead, hs] at hd ⊢
            have : p.buffer = d := by simpa using hd
            subst this
            simp [Writer.fail, Writer.reset, Sink.abandon]
      | err =>
        have := (load_not_ok hU hl (by simp)).2.sink
        simp only [this, Sink.abandon] at hd
        exact absurd (by simpa using hd) hn
      | panic => exact absurd (load_not_ok hU hl (by simp)).1 (by simp)

/-- The writer on the disk is the one on the unlimited stream. -/
structure DiskLive (cap : Nat) (g : Writer) (x : OnDisk) : Prop where
  script : g.sink.script = []
  same : x.w = g
  bytes : x.bytes = encode g.sink.sent
  room : x.bytes.length + x.free = cap

/-- The disk is full and the writer on it has given up. -/
structure DiskFull (cap : Nat) (g : Writer) (x : OnDisk) : Prop where
  script : x.w.sink.script = []
  dead : x.w.sink.dead = true
  bytes : x.bytes = (encode g.sink.sent).take cap
  over : cap < (encode g.sink.sent).length
  parts : ∃ t κ, g.sink.sent = x.w.sink.sent ++ t ∧ x.bytes = encode x.w.sink.sent ++ κ ∧ Begins κ t

theorem Writer.on_self {w : Writer} (h : w.sink.script = []) : w.on { w.sink with script := [] } = w := by
  cases w with
  | mk b cr e a st q sk =>
    cases sk
    cases h
    rfl

theorem Begins.append {κ : Bytes} {t : List Char} (h : Begins κ t) (s : List Char) : Begins κ (t ++ s) := by
  rcases h with h | ⟨c, t', z, rfl, h⟩
  · exact .inl h
  · exact .inr ⟨c, t' ++ s, z, rfl, h⟩

theorem encode_app (a b : List Char) : encode (a ++ b) = encode a ++ encode b := by simp [encode]

/-- One call on the disk and on the unlimited stream. -/
theorem DiskLive.step (hU : TextLaws U) {cap : Nat} {g : Writer} {x : OnDisk} (h : DiskLive cap g x) {op : Op} (ho : op.Ok U) :
    (DiskLive cap (Verif.step U g op).1 (x.step U op).1 ∧ (x.step U op).2 = (Verif.step U g op).2) ∨
    (DiskFull cap (Verif.step U g op).1 (x.step U op).1 ∧ op.isWrite = true ∧ (x.step U op).2 = .err ∧ (Verif.step U g op).2 = .ok) := by
  have hgs := step_script hU ho h.script
  obtain ⟨w, bs, fr⟩ := x
  have hw : w = g := h.same
  have hb : bs = encode g.sink.sent := h.bytes
  have hr : bs.length + fr = cap := h.room
  subst hw
  obtain ⟨d, hd⟩ := step_delta hU ho w
  have hd : (Verif.step U w op).1.sink.sent = w.sink.sent ++ d := hd
  unfold OnDisk.step
  simp only [Writer.on_self h.script]
  rw [hd, List.drop_left]
  split
  · rename_i hl
    refine .inl ⟨⟨hgs, rfl, ?_, ?_⟩, rfl⟩
    · simp only [hd, encode_app, hb]
    · simp only [List.length_append]; omega
  · rename_i hl
    have hn : d ≠ [] := by rintro rfl; exact hl (by simp [encode])
    obtain ⟨t, e1, e2, e3⟩ := cut_whole (T := d) (b := (encode d).take fr) (x := (encode d).drop fr) (List.take_append_drop _ _).symm
    obtain ⟨s1, s2, s3, s4⟩ := sends hU ho h.script hd hn (feedBytes ((encode d).take fr)).1.length
    generalize (feedBytes ((encode d).take fr)).2 = κ at e2 e3
    generalize (feedBytes ((encode d).take fr)).1 = u at e1 e2 s3 s4 ⊢
    have ht : d.take u.length = u := by rw [e1]; exact List.take_left
    refine .inr ⟨⟨?_, ?_, ?_, ?_, t, κ, ?_, ?_, e3⟩, s1, s3, s2⟩
    · simp only [s4]
    · simp only [s4]
    · show bs ++ (encode d).take fr = _
      rw [hd, encode_app, ← hb, ← hr, List.take_length_add_append]
    · simp only [hd, encode_app, List.length_append, ← hb]; omega
    · simp only [hd, s4, ht, List.append_assoc, ← e1]
    · simp only [s4, ht, encode_app, hb, List.append_assoc, ← e2]

theorem DiskFull.step (hU : TextLaws U) {cap : Nat} {g : Writer} {x : OnDisk} (h : DiskFull cap g x) {op : Op} (ho : op.Ok U) :
    DiskFull cap (Verif.step U g op).1 (x.step U op).1 ∧ (op ≠ .abandon → (x.step U op).2 = .err) := by
  obtain ⟨d1, d2, d3⟩ := dead_step hU op h.dead
  obtain ⟨e, he⟩ := step_delta hU ho g
  have he : (Verif.step U g op).1.sink.sent = g.sink.sent ++ e := he
  obtain ⟨t, κ, p1, p2, p3⟩ := h.parts
  unfold OnDisk.step
  simp only [Writer.on_self h.script, d1, List.drop_length]
  have : (encode ([] : List Char)) = [] := rfl
  simp only [this, List.length_nil, Nat.zero_le, if_true, List.append_nil]
  refine ⟨⟨step_script hU ho h.script, d2, ?_, ?_, t ++ e, κ, ?_, ?_, p3.append e⟩, d3⟩
  · rw [he, encode_app, List.take_append, h.bytes]
    have := h.over
    rw [show cap - (encode g.sink.sent).length = 0 by omega]; simp
  · have := h.over
    rw [he, encode_app, List.length_append]; omega
  · simp only [d1, he, p1, List.append_assoc]
  · simp only [d1, p2]

end Verif
