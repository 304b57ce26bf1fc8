import Verif.CallErrors
import Verif.Props.Pull
import Verif.Props.Writer
import Verif.Props.Tables

/-!
# Every failure of a writer is reported as what it is (C99)

`stepF ucd15 f w op` is a call with its error; `f` bounds the iterations of loops inside.
-/

namespace Verif
open Ucd Spec

/-- C99: every call returns without panicking, and apart from saying which error it is does what the model of the other properties does. -/
theorem c99_calls (w : Writer) (op : Op) : ∃ n, ∃ r : Writer × OutF, (∀ f ≥ n, stepF ucd15 f w op = some r) ∧
    (r.1, r.2.out) = step ucd15 w op ∧ r.2 ≠ .panic := by
  obtain ⟨n, r, h1, h2⟩ := stepF_spec textLaws15 w op
  refine ⟨n, r, h1, h2, fun hp => ?_⟩
  have := step_no_panic textLaws15 w op
  rw [← h2, hp] at this
  exact this rfl

theorem pend_state {w : Writer} (h : SeqOk w) : pend w = [] ↔ ∃ g, w.state = .ground g := by
  unfold SeqOk at h
  unfold pend
  cases hs : w.state with
  | ground g => simp
  | esc => rw [hs] at h; simp [h.1]
  | csi => rw [hs] at h; obtain ⟨⟨ps, -, h⟩, -⟩ := h; simp [h]

/-- The calls fall into those up to the last `write_text` of an empty text, and those after it. -/
def Spec.Since (a b : List Op) : Prop := (a = [] ∨ ∃ a', a = a' ++ [.text []]) ∧ .text [] ∉ b

/-- Every sequence of calls does. -/
theorem since_exists (ops : List Op) : ∃ a b, ops = a ++ b ∧ Since a b := by
  induction ops with
  | nil => exact ⟨[], [], rfl, Or.inl rfl, by simp⟩
  | cons op ops ih =>
    obtain ⟨a, b, rfl, h1, h2⟩ := ih
    rcases h1 with rfl | ⟨a', rfl⟩
    · by_cases h : op = .text []
      · subst h; exact ⟨[.text []], b, rfl, Or.inr ⟨[], rfl⟩, h2⟩
      · exact ⟨[], op :: b, rfl, Or.inl rfl, by simp; exact ⟨fun e => h e.symm, h2⟩⟩
    · exact ⟨op :: (a' ++ [.text []]), b, rfl, Or.inr ⟨op :: a', rfl⟩, h2⟩

theorem text_nil_tracked (v : Writer) : Tracked (step ucd15 v (.text [])).1.sink.sent (step ucd15 v (.text [])).1 := by
  intro hd
  rcases write_cases textLaws15 (op := .text []) rfl v with ⟨p, w', hl, hs, hS⟩ | ⟨p, w', hl, hs, hB⟩ | ⟨w', hl, hs, hF⟩
  · rw [hs]
    refine ⟨hS.buffer, [], by simp, ?_⟩
    have : p.state = .ground .newline := by
      simp only [load, Prod.mk.injEq, and_true] at hl
      rw [← hl, prepText]
      split <;> rfl
    intro g hg
    rw [hS.state, this] at hg
    injection hg with hg
    rw [← hg]; rfl
  · rw [hs] at hd; simp only at hd; rw [hB.dead] at hd; simp at hd
  · rw [hs] at hd; simp only at hd; rw [hF.sink] at hd; simp [Sink.abandon] at hd

theorem tracked_since {w : Writer} (hw : Fresh w) {a : List Op} (h : a = [] ∨ ∃ a', a = a' ++ [.text []]) :
    Tracked (run ucd15 w a).sink.sent (run ucd15 w a) := by
  rcases h with rfl | ⟨a', rfl⟩
  · exact hw.tracked
  · rw [run_append]
    exact text_nil_tracked _

/-- The state of a writer in terms of what it has sent. -/
theorem state_of (w : Writer) (hw : Fresh w) (a b : List Op) (hs : Since a b) (ho : ∀ op ∈ a ++ b, op.Ok ucd15) (T : List Char)
    (hT : (run ucd15 w (a ++ b)).sink.sent = (run ucd15 w a).sink.sent ++ T) :
    ((pend (run ucd15 w (a ++ b)) ≠ []) ∧ (run ucd15 w (a ++ b)).sink.dead = false ∧ ((run ucd15 w (a ++ b)).state = .esc ∨ (run ucd15 w (a ++ b)).state = .csi)) ∨
    (pend (run ucd15 w (a ++ b)) = [] ∧ (run ucd15 w (a ++ b)).sink.dead = false ∧ (run ucd15 w (a ++ b)).state = .ground (groundAfter T)) ∨
    (pend (run ucd15 w (a ++ b)) = [] ∧ (run ucd15 w (a ++ b)).sink.dead = true ∧ (run ucd15 w (a ++ b)).state = .ground .newline) := by
  have hov := over_run textLaws15 (ops := a ++ b) (w := w) (fun _ => hw.state)
  have ht : Tracked (run ucd15 w a).sink.sent (run ucd15 w (a ++ b)) := by
    rw [run_append]
    refine tracked_run textLaws15 (fun op h => ?_) (tracked_since hw hs.1)
    have := ho op (by simp [h])
    cases op with
    | text s => exact ⟨this, by rintro rfl; exact hs.2 h⟩
    | _ => trivial
  replace hs := safe_run textLaws15 ho hw.safe
  generalize run ucd15 w (a ++ b) = v at *
  cases hd : v.sink.dead with
  | true => right; right; exact ⟨by simp [pend, hov hd], rfl, hov hd⟩
  | false =>
    obtain ⟨-, hq, -⟩ := hs.live hd
    obtain ⟨-, T', h1, h2⟩ := ht hd
    have : T' = T := List.append_cancel_left (h1.symm.trans hT)
    subst this
    cases hst : v.state with
    | ground g =>
      right; left
      exact ⟨by simp [pend, hst], rfl, by rw [h2 g hst]⟩
    | esc => left; exact ⟨by rw [Ne, pend_state hq, hst]; simp, rfl, Or.inl rfl⟩
    | csi => left; exact ⟨by rw [Ne, pend_state hq, hst]; simp, rfl, Or.inr rfl⟩

/-- C99, flush: after any calls on a new writer, `T` being what the inner stream got since the last `write_text` of an empty text, or
from the beginning if there is none: flush complains of an escape sequence exactly if one is held back; of a ZWJ or Prepend exactly if the stream is not over, none is
held back and the last scalar sent may not end Basic Text; otherwise it returns what the inner stream's flush returns. -/
theorem c99_flush (w : Writer) (hw : Fresh w) (a b : List Op) (hs : Since a b) (ho : ∀ op ∈ a ++ b, op.Ok ucd15) (T : List Char)
    (hT : (run ucd15 w (a ++ b)).sink.sent = (run ucd15 w a).sink.sent ++ T) (f : Nat) :
    (stepF ucd15 f (run ucd15 w (a ++ b)) .flush).map (·.2) = some (
      if pend (run ucd15 w (a ++ b)) ≠ [] then .fault .flushEscape
      else if (run ucd15 w (a ++ b)).sink.dead = false ∧ ∃ c ∈ T.getLast?, isEnd c = false then .fault .flushJoiner
      else if (run ucd15 w (a ++ b)).sink.flush.2 then .ok else .fault .inner) := by
  have h := state_of w hw a b hs ho T hT
  generalize run ucd15 w (a ++ b) = v at *
  simp only [stepF, Option.map_some, Option.some.injEq]
  rcases h with ⟨h1, h2, h3 | h3⟩ | ⟨h1, h2, h3⟩ | ⟨h1, h2, h3⟩
  · rw [if_pos h1]; simp [flushF, h3]
  · rw [if_pos h1]; simp [flushF, h3]
  · rw [if_neg (by simp [h1])]
    by_cases hl : ∃ c ∈ T.getLast?, isEnd c = false
    · rw [if_pos ⟨h2, hl⟩]
      obtain ⟨c, hc, he⟩ := hl
      simp only [Option.mem_def] at hc
      have hn : c ≠ '\n' := by rintro rfl; simp [show isEnd '\n' = true by decide] at he
      have : v.state = .ground .zwjOrPrepend := by rw [h3]; simp [groundAfter, hc, hn, groundOf, he]
      simp [flushF, this]
    · rw [if_neg (fun hx => hl hx.2)]
      have : ∀ g, v.state = .ground g → g ≠ .zwjOrPrepend := by
        rintro g hg rfl
        rw [h3] at hg
        injection hg with hg
        unfold groundAfter at hg
        cases hc : T.getLast? with
        | none => rw [hc] at hg; simp at hg
        | some c =>
          rw [hc] at hg
          simp only at hg
          split at hg
          · simp at hg
          · unfold groundOf at hg
            split at hg
            · simp at hg
            · rename_i he
              exact hl ⟨c, by simp [hc], by simpa using he⟩
      cases hg : groundAfter T <;> rw [hg] at h3 <;> first | exact absurd rfl (this _ h3) | simp [flushF, h3]
  · rw [if_neg (by simp [h1]), if_neg (by simp [h2])]
    simp [flushF, h3]

/-- C99, close: likewise it complains of an incomplete escape sequence exactly if one is held back, of a ZWJ or Prepend exactly if the
last scalar sent may not end Basic Text, of the missing newline exactly if the last scalar sent is another one than U+A, and otherwise
returns what the inner stream's close returns. -/
theorem c99_close (w : Writer) (hw : Fresh w) (a b : List Op) (hs : Since a b) (ho : ∀ op ∈ a ++ b, op.Ok ucd15) (T : List Char)
    (hT : (run ucd15 w (a ++ b)).sink.sent = (run ucd15 w a).sink.sent ++ T) (f : Nat) :
    (stepF ucd15 f (run ucd15 w (a ++ b)) .close).map (·.2) = some (
      if pend (run ucd15 w (a ++ b)) ≠ [] then .fault .endEscape
      else if (run ucd15 w (a ++ b)).sink.dead = false ∧ ∃ c ∈ T.getLast?, isEnd c = false then .fault .endJoiner
      else if (run ucd15 w (a ++ b)).sink.dead = false ∧ ∃ c ∈ T.getLast?, c ≠ '\n' then .fault .endLine
      else if (run ucd15 w (a ++ b)).sink.close.2 then .ok else .fault .inner) := by
  have h := state_of w hw a b hs ho T hT
  generalize run ucd15 w (a ++ b) = v at *
  simp only [stepF, Option.map_some, Option.some.injEq]
  rcases h with ⟨h1, h2, h3 | h3⟩ | ⟨h1, h2, h3⟩ | ⟨h1, h2, h3⟩
  · rw [if_pos h1]; simp [closeF, checkNlF, h3]
  · rw [if_pos h1]; simp [closeF, checkNlF, h3]
  · rw [if_neg (by simp [h1])]
    cases hc : T.getLast? with
    | none =>
      have : v.state = .ground .newline := by rw [h3]; simp [groundAfter, hc]
      simp [closeF, checkNlF, this]
    | some c =>
      by_cases hn : c = '\n'
      · subst hn
        have : v.state = .ground .newline := by rw [h3]; simp [groundAfter, hc]
        simp [closeF, checkNlF, this, show isEnd '\n' = true by decide]
      · cases he : isEnd c with
        | false =>
          have : v.state = .ground .zwjOrPrepend := by rw [h3]; simp [groundAfter, hc, hn, groundOf, he]
          simp [closeF, checkNlF, this, h2, he]
        | true =>
          have : v.state = .ground .other := by rw [h3]; simp [groundAfter, hc, hn, groundOf, he]
          simp [closeF, checkNlF, this, h2, he, hn]
  · rw [if_neg (by simp [h1]), if_neg (by simp [h2]), if_neg (by simp [h2])]
    simp [closeF, checkNlF, h3]

/-- C99: a scalar blamed as ZWJ or Prepend is one. -/
theorem c99_joiner (c : Char) (h : isEnd c = false) : c = ZWJ ∨ inRanges Tables.gcbPrepend c.toNat = true :=
  (c56_end_partial c (by rintro rfl; revert h; decide +kernel) (by rintro rfl; revert h; decide +kernel)).1 h

/-- C99, write of bytes: it complains of the encoding exactly if the bytes do not begin with a scalar, and says that they are
unfinished exactly if more bytes would make them one.  Otherwise the error is that of writing the scalars at the beginning. -/
theorem c99_bytes (w : Writer) (b : Bytes) : ∃ n, ∃ r : Writer × OutF, (∀ f ≥ n, stepF ucd15 f w (.bytes b) = some r) ∧
    ((∃ u, r.2 = .fault (.utf8 u)) ↔ b ≠ [] ∧ ∀ c q, b ≠ encodeChar c ++ q) ∧
    (r.2 = .fault (.utf8 true) ↔ b ≠ [] ∧ (∀ c q, b ≠ encodeChar c ++ q) ∧ ∃ q c, b ++ q = encodeChar c) ∧
    ((∀ u, r.2 ≠ .fault (.utf8 u)) → ∃ s q, b = encode s ++ q ∧ (∀ s' q', b = encode s' ++ q' → s'.length ≤ s.length) ∧
      ∀ f ≥ n, stepF ucd15 f w (.str s) = some r) := by
  have hspec := decodePrefix_spec b
  have hcall : ∀ (o : OutE) u, o.call ≠ .fault (.utf8 u) := by intro o u; cases o <;> simp [OutE.call]
  by_cases hp : (decodePrefix b).2 = [] ∨ (encode (decodePrefix b).1).length ≠ 0
  · obtain ⟨n, r, h1, h2, -⟩ := writeStrE_spec textLaws15 w (decodePrefix b).1
    have hbeg : ¬ (b ≠ [] ∧ ∀ c q, b ≠ encodeChar c ++ q) := by
      rintro ⟨hb, hx⟩
      cases hd : (decodePrefix b).1 with
      | nil =>
        rw [hd] at hp
        have := hspec.1
        rcases hp with hp | hp
        · rw [hd, hp] at this; exact hb (by simpa [encode] using this.symm)
        · simp [encode] at hp
      | cons c s =>
        have := hspec.1
        rw [hd, encode_cons, List.append_assoc] at this
        exact hx c _ this.symm
    refine ⟨n, (r.1, r.2.call), fun f hf => ?_, ?_, ?_, fun _ => ?_⟩
    · simp only [stepF, writeBytesF]
      rw [if_pos hp, h1 f hf]; rfl
    · simp only [hbeg, iff_false]
      rintro ⟨u, hu⟩
      exact hcall _ _ hu
    · simp only [hcall, false_iff]
      rintro ⟨x, y, -⟩
      exact hbeg ⟨x, y⟩
    · refine ⟨(decodePrefix b).1, (decodePrefix b).2, hspec.1.symm, ?_, fun f hf => by simp only [stepF, h1 f hf, Option.map_some]⟩
      rintro s' r' rfl
      obtain ⟨t, ht⟩ := decodePrefix_maximal s' r'
      rw [ht]; simp
  · simp only [not_or, ne_eq, Decidable.not_not] at hp
    have hd : (decodePrefix b).1 = [] := by
      cases hd : (decodePrefix b).1 with
      | nil => rfl
      | cons c s =>
        have := List.length_pos_iff.2 (encodeChar_ne_nil c)
        rw [hd, encode_cons, List.length_append] at hp
        omega
    have hb : b ≠ [] := by
      rintro rfl
      have := hspec.1
      rw [hd] at this
      exact hp.1 (by simpa [encode] using this)
    have hn : ∀ c q, b ≠ encodeChar c ++ q := by
      intro c q hc
      have hc : b = encode [c] ++ q := by simpa [encode] using hc
      obtain ⟨t, ht⟩ := decodePrefix_maximal [c] q
      rw [← hc, hd] at ht
      simp at ht
    refine ⟨0, (w.fail, .fault (.utf8 (incomplete b))), fun f _ => ?_, ?_, ?_, fun h => absurd rfl (h _)⟩
    · simp only [stepF, writeBytesF]
      rw [if_neg (by simp [hp])]
    · exact ⟨fun _ => ⟨hb, hn⟩, fun _ => ⟨_, rfl⟩⟩
    · simp only [OutF.fault.injEq, Fault.utf8.injEq]
      constructor
      · intro h; exact ⟨hb, hn, incomplete_more h⟩
      · rintro ⟨-, -, q, c, h⟩
        refine incomplete_of h.symm hb ?_
        rintro rfl
        exact hn c [] (by simpa using h)

theorem wire_start (crlf : Bool) (s : List Char) :
    (!((wire crlf s).head?.map (isStart ucd15)).getD true) = s.head?.any (fun c => !isStart ucd15 c) := by
  have h1 : isStart ucd15 '\r' = true := by decide +kernel
  have h2 : isStart ucd15 '\n' = true := by decide +kernel
  cases crlf with
  | false => cases s <;> simp [wire]
  | true =>
    cases s with
    | nil => rfl
    | cons c s => by_cases hc : c = '\n' <;> simp [wire, hc, h1, h2]

/-- C99, `write_text`: never a complaint about the text, and about its beginning exactly if a beginning is expected and it may not be one;
`w` is a writer between calls. -/
theorem c99_text (w : Writer) (hb : w.buffer = []) (s : List Char) (f : Nat) :
    (stepF ucd15 f w (.text s)).map (·.2) = some (
      if w.expectStarter = true ∧ ∃ c ∈ s.head?, isStart ucd15 c = false then .fault .start
      else if (w.sink.writeStr (wire w.crlf s)).2 then .ok else .fault .inner) := by
  have hp : writeTextF ucd15 w s = ((writeBufferE ucd15 (prepText w s)).1, (writeBufferE ucd15 (prepText w s)).2.call) := rfl
  simp only [stepF, hp, Option.map_some, Option.some.injEq]
  rw [prepText_eq, hb, List.nil_append]
  change (writeBufferE ucd15 { w with buffer := wire w.crlf s, state := .ground (groundAfter s) }).2.call = _
  unfold writeBufferE
  simp only [wire_start]
  have hx : (∃ c ∈ s.head?, isStart ucd15 c = false) ↔ s.head?.any (fun c => !isStart ucd15 c) = true := by
    cases s.head? <;> simp
  by_cases h1 : w.expectStarter = true ∧ ∃ c ∈ s.head?, isStart ucd15 c = false
  · rw [if_pos h1, if_pos (by rw [hx] at h1; simp only [Bool.and_eq_true]; exact h1)]
    rfl
  · rw [if_neg h1, if_neg (by rw [hx] at h1; simp only [Bool.and_eq_true]; exact h1)]
    rcases hk : w.sink.writeStr (wire w.crlf s) with ⟨k, _ | _⟩ <;> rfl

/-- C99, `write_str` outside color mode on an inner stream that works: it complains of a scalar exactly if one of the text is rejected or
U+1B, and the error is one of such a scalar; and of the beginning exactly if there is no such scalar, a beginning is expected and the
first scalar may not be one. -/
theorem c99_str (w : Writer) (hw : Ready w) (ha : w.ansi = false) (s : List Char) : ∃ n, ∃ r : Writer × OutF,
    (∀ f ≥ n, stepF ucd15 f w (.str s) = some r) ∧
    ((∃ e, r.2 = .fault (.text e)) ↔ ∃ c ∈ s, c = ESC ∨ checkChar c ≠ none) ∧
    (∀ e, r.2 = .fault (.text e) → ∃ c ∈ s, (c = ESC ∧ e = .escape) ∨ checkChar c = some e) ∧
    (r.2 = .fault .start ↔ (∀ c ∈ s, checkChar c = none ∧ c ≠ ESC) ∧ w.expectStarter = true ∧ ∃ c ∈ s.head?, isStart ucd15 c = false) ∧
    (r.2 ≠ .fault .inner) := by
  obtain ⟨g, hg⟩ := hw.state
  obtain ⟨n, r, h1, h2, h3⟩ := c95_text_error_iff w g hg ha s
  obtain ⟨n', r', h1', h2', -, -, h5', h6', h7'⟩ := writeStrE_spec textLaws15 w s
  have hr : r' = r := by
    have a := h1 (max n n') (Nat.le_max_left _ _)
    rw [h1' _ (Nat.le_max_right n n')] at a
    exact Option.some.inj a
  subst hr
  have hok := (c38_write_str_accepts w hw ha s).1
  have hstep : step ucd15 w (.str s) = (r'.1, r'.2.out) := h2'.symm
  rw [hstep] at hok
  have hin : r'.2 ≠ .sink := by
    intro h
    have := h7' h
    unfold Sink.writeStr at this
    simp [hw.alive, hw.reliable] at this
  have hnp : r'.2 ≠ .panic := by
    intro h
    have := step_no_panic textLaws15 w (.str s)
    rw [hstep, h] at this
    exact this rfl
  refine ⟨n, (r'.1, r'.2.call), fun f hf => by simp only [stepF, h1 f hf, Option.map_some], ?_, ?_, ?_, ?_⟩
  · rw [← h2]
    constructor
    · rintro ⟨e, he⟩
      refine ⟨e, ?_⟩
      cases ho : r'.2 <;> rw [ho] at he <;> simp [OutE.call] at he
      rw [he]
    · rintro ⟨e, he⟩
      exact ⟨e, by rw [he]; rfl⟩
  · intro e he
    refine h3 e ?_
    cases ho : r'.2 <;> rw [ho] at he <;> simp [OutE.call] at he
    rw [he]
  · constructor
    · intro he
      have ho : r'.2 = .start := by cases ho : r'.2 <;> rw [ho] at he <;> simp [OutE.call] at he
      have hnt : ¬ ∃ c ∈ s, c = ESC ∨ checkChar c ≠ none := by rw [← h2, ho]; simp
      have hch : ∀ c ∈ s, checkChar c = none ∧ c ≠ ESC := by
        intro c hc
        refine ⟨Classical.byContradiction fun hx => hnt ⟨c, hc, Or.inr hx⟩, fun hx => hnt ⟨c, hc, Or.inl hx⟩⟩
      refine ⟨hch, h6' ho, Classical.byContradiction fun hx => ?_⟩
      have := hok.2 ⟨hch, fun _ c hc => by
        cases hi : isStart ucd15 c with
        | true => rfl
        | false => exact absurd ⟨c, hc, hi⟩ hx⟩
      rw [ho] at this
      simp [OutE.out] at this
    · rintro ⟨hch, hex, c, hc, hi⟩
      cases ho : r'.2 with
      | start => rfl
      | ok =>
        rw [ho] at hok
        have := (hok.1 rfl).2 hex c hc
        rw [hi] at this; simp at this
      | text e =>
        obtain ⟨d, hd, h⟩ := h2.1 ⟨e, ho⟩
        rcases h with h | h
        · exact absurd h (hch d hd).2
        · exact absurd (hch d hd).1 h
      | sink => exact absurd ho hin
      | panic => exact absurd ho hnp
  · intro he
    cases ho : r'.2 <;> rw [ho] at he <;> simp [OutE.call] at he
    exact hin ho

/-- C99: after a failed write or close, whatever is called next, every later flush or close reports the error of the inner stream. -/
theorem c99_after_failure (w : Writer) (op : Op) (hop : op ≠ .flush) (hf : (step ucd15 w op).2 = .err) (ops : List Op) (f : Nat) :
    (stepF ucd15 f (run ucd15 (step ucd15 w op).1 ops) .flush).map (·.2) = some (.fault .inner) ∧
    (stepF ucd15 f (run ucd15 (step ucd15 w op).1 ops) .close).map (·.2) = some (.fault .inner) := by
  obtain ⟨hd, hs⟩ := failed_dead textLaws15 hf hop
  have hr := dead_run textLaws15 (ops := ops) hd
  have hst := over_run textLaws15 (ops := ops) (w := (step ucd15 w op).1) (fun _ => hs) hr.2
  generalize run ucd15 (step ucd15 w op).1 ops = v at *
  have hfl : v.sink.flush = (v.sink, false) := by unfold Sink.flush; simp [hr.2]
  constructor
  · simp [stepF, flushF, hst, hfl]
  · simp [stepF, closeF, checkNlF, hst, Sink.close, hfl]

/-- The results of calls made one after the other. -/
def resultsF (U : Ucd) (f : Nat) : Writer → List Op → List (Option OutF)
  | _, [] => []
  | w, op :: ops => (stepF U f w op).map (·.2) :: resultsF U f (step U w op).1 ops

example : resultsF ucd15 50 (.new goodSink) [.str ['a', ZWJ], .flush, .close] = [some .ok, some (.fault .flushJoiner), some (.fault .inner)] ∧
    resultsF ucd15 50 (.new goodSink) [.str ['a'], .flush, .close, .close] = [some .ok, some .ok, some (.fault .endLine), some (.fault .inner)] ∧
    resultsF ucd15 50 (.newAnsi true goodSink) [.str ['a', ESC], .flush, .str ['[', '1'], .close] = [some .ok, some (.fault .flushEscape), some .ok, some (.fault .endEscape)] ∧
    resultsF ucd15 50 (.new goodSink) [.bytes [0xc3], .close] = [some (.fault (.utf8 true)), some (.fault .inner)] ∧
    resultsF ucd15 50 (.new goodSink) [.bytes [0x61, 0xc3], .bytes [0xa9], .close] = [some .ok, some (.fault (.utf8 false)), some (.fault .inner)] ∧
    resultsF ucd15 50 (.new goodSink) [.text ['́']] = [some (.fault .start)] ∧
    resultsF ucd15 50 (.new goodSink) [.str ['a', '\x07'], .flush] = [some (.fault (.text (.controlCode '\x07'))), some (.fault .inner)] := by decide +kernel

end Verif
