import Verif.LineBuffered
import Verif.Props.Buffered
import Verif.TextFile

/-!
# A writer behind a line buffer (C151)
-/

namespace Verif
open Ucd Spec

/-- Bytes in pieces that end with newlines are strings that do. -/
theorem pieces_strings {gs : List Bytes} : ∀ {s : List Char}, gs.flatten = encode s → (∀ g ∈ gs, g.getLast? = some 10) →
    ∃ ss : List (List Char), gs = ss.map encode ∧ ss.flatten = s ∧ ∀ t ∈ ss, t.getLast? = some '\n' := by
  induction gs with
  | nil => intro s h _; exact ⟨[], rfl, encode_injective (by simpa [encode] using h), by simp⟩
  | cons g gs ih =>
    intro s h hg
    obtain ⟨p, rfl⟩ : ∃ p, g = p ++ [10] := by
      have := hg g (by simp)
      exact List.getLast?_eq_some_iff.1 this
    obtain ⟨u, v, rfl, rfl, h2⟩ := encode_low (s := s) (x := p) (y := gs.flatten) (b := 10) (by rw [← h]; simp) (by decide)
    obtain ⟨ss, rfl, e2, e3⟩ := ih h2 (fun g hm => hg g (by simp [hm]))
    refine ⟨(u ++ ['\n']) :: ss, by simp [encode_append, show encode ['\n'] = [10] by decide], by rw [List.flatten_cons, e2]; simp, ?_⟩
    intro t ht
    rcases List.mem_cons.1 ht with rfl | ht
    · simp
    · exact e3 t ht

theorem direct_lines {w w' : Writer} (hw : WIdle w) {ss : List (List Char)} (hs : ∀ s ∈ ss, s = [] ∨ s.getLast? = some '\n') :
    direct ucd15 w (ss.map encode) = some (w', .ok) ↔ direct ucd15 w [encode ss.flatten] = some (w', .ok) := by
  have key := writeChunks_lines textLaws15 hw hs
  have hd : ∀ bs, direct ucd15 w bs = some (w', .ok) ↔ ∃ v, writeChunks ucd15 w bs = some (v, .ok) ∧ flush v = (w', .ok) := by
    intro bs
    unfold direct
    cases h : writeChunks ucd15 w bs with
    | none => simp
    | some r => obtain ⟨v, o⟩ := r; cases o <;> simp
  rw [hd, hd]
  have one : ∀ v, writeChunks ucd15 w [encode ss.flatten] = some (v, .ok) ↔ writeAll ucd15 w (encode ss.flatten) = some (v, .ok) := by
    intro v
    simp only [writeChunks]
    cases h : writeAll ucd15 w (encode ss.flatten) with
    | none => simp
    | some r => obtain ⟨x, o⟩ := r; cases o <;> simp
  constructor
  · rintro ⟨v, a, b⟩; exact ⟨v, (one v).2 ((key v).1 a), b⟩
  · rintro ⟨v, a, b⟩; exact ⟨v, (key v).2 ((one v).1 a), b⟩

/-- C151: through a `LineWriter` that has room for each write with the part of a line that is before it, all that is written comes to the
writer, in order, in pieces that end where lines end, and what is left after the last newline with the flush.  For all bytes and every writer,
whether it fails or not. -/
theorem c151_pieces (cap : Nat) (w : Writer) (bs : List Bytes) (hf : Fits cap [] bs) :
    ∃ (gs : List Bytes) (last : Bytes), gs.flatten ++ last = bs.flatten ∧ (∀ g ∈ gs, g.getLast? = some 10) ∧ 10 ∉ last ∧
      (BufW.around cap w).lineSession ucd15 bs = direct ucd15 w (gs ++ [last]) := by
  simpa [BufW.around] using line_session (U := ucd15) bs (BufW.around cap w) (by simp [BufW.around]) hf

/-- C151: so the lines of a text may be written in any pieces, in the middle of scalars and of what is to be composed too: it is as if the text
had been written at once. -/
theorem c151_whole (cap : Nat) (w w' : Writer) (hw : WIdle w) (s : List Char) (hs : s = [] ∨ s.getLast? = some '\n') (bs : List Bytes)
    (hb : bs.flatten = encode s) (hf : Fits cap [] bs) :
    (BufW.around cap w).lineSession ucd15 bs = some (w', .ok) ↔ direct ucd15 w [encode s] = some (w', .ok) := by
  obtain ⟨gs, last, h1, h2, h3, h4⟩ := c151_pieces cap w bs hf
  rw [hb] at h1
  have hlast : last = [] := by
    rcases hs with rfl | hs
    · rw [show encode ([] : List Char) = [] from rfl] at h1
      exact (List.append_eq_nil_iff.1 h1).2
    · obtain ⟨u, rfl⟩ := List.getLast?_eq_some_iff.1 hs
      rcases List.eq_nil_or_concat last with rfl | ⟨q, c, rfl⟩
      · rfl
      · rw [List.concat_eq_append] at *
        rw [encode_append, show encode ['\n'] = [10] by decide, ← List.append_assoc] at h1
        have := congrArg List.getLast? h1
        simp only [List.getLast?_append, List.getLast?_singleton, Option.some_or, Option.some.injEq] at this
        exact absurd (by simp [this]) h3
  subst hlast
  rw [List.append_nil] at h1
  obtain ⟨ss, rfl, e2, e3⟩ := pieces_strings h1 h2
  have := direct_lines (w' := w') hw (ss := ss ++ [[]]) (by
    intro t ht
    rcases List.mem_append.1 ht with ht | ht
    · exact Or.inr (e3 t ht)
    · exact Or.inl (by simpa using ht))
  rw [h4]
  rw [List.map_append, List.flatten_append, e2] at this
  simpa [show encode ([] : List Char) = [] from rfl] using this

/-- C151: and what a new writer has sent in the end is the text, normalized, whatever the pieces are. -/
theorem c151_sent (cap : Nat) (w' : Writer) (s : List Char) (hs : s = [] ∨ s.getLast? = some '\n') (bs : List Bytes)
    (hb : bs.flatten = encode s) (hf : Fits cap [] bs) (h : (BufW.around cap (.new goodSink)).lineSession ucd15 bs = some (w', .ok)) :
    w'.sink.sent = normChain ucd15 s := by
  have hw : WIdle (.new goodSink) := idle_new rfl rfl
  rw [c151_whole cap _ _ hw s hs bs hb hf] at h
  have := c148_sent 0 w' [s] (by simpa using hs) ((c148_lines 0 _ _ hw [s] (by simpa using hs)).2 (by simpa using h))
  simpa using this

/-- Bytes one at a time, a line at most eight bytes long. -/
example : ((BufW.around 9 (.new goodSink)).lineSession ucd15 ((encode ['e', '́', '\n', 'a', '\n', 'c', '\n']).map fun b => [b])).map
    (fun r => (r.1.sink.sent, r.2)) = some (['é', '\n', 'a', '\n', 'c', '\n'], .ok) := by decide +kernel

/-- C151: there is room if no line has more than `l` bytes, no write more than `m`, and the capacity is greater than the two together. -/
theorem c151_room (cap l m : Nat) (hc : l + m < cap) (bs : List Bytes) (hm : ∀ b ∈ bs, b.length ≤ m)
    (hl : ∀ u v t, bs.flatten = u ++ v ++ t → 10 ∉ v → v.length ≤ l) : Fits cap [] bs := by
  rintro a b c rfl
  obtain ⟨h1, h2, -, -⟩ := cutNl_spec ([] ++ a.flatten)
  have := hl (cutNl ([] ++ a.flatten)).1 (cutNl ([] ++ a.flatten)).2 (b ++ c.flatten) (by rw [h1]; simp) h2
  have := hm b (by simp)
  omega

/-- C151: it comes to an end, and does not panic. -/
theorem c151_total (cap : Nat) (w : Writer) (bs : List Bytes) (hf : Fits cap [] bs) :
    ∃ w' o, (BufW.around cap w).lineSession ucd15 bs = some (w', o) ∧ o ≠ .panic := by
  obtain ⟨gs, last, -, -, -, h⟩ := c151_pieces cap w bs hf
  rw [h]
  unfold direct
  obtain ⟨w1, o1, h1, h2⟩ := writeChunks_total textLaws15 w (gs ++ [last])
  rw [h1]
  cases o1 with
  | ok =>
    refine ⟨_, _, rfl, ?_⟩
    split
    · simp
    · simp only; split <;> simp
    · simp
  | err => exact ⟨_, _, rfl, h2⟩
  | panic => exact ⟨_, _, rfl, h2⟩

/-- C151: without room for the whole line what is sent depends on the pieces. -/
theorem c151_refuted_long :
    ((BufW.around 2 (.new goodSink)).lineSession ucd15 [encode ['e'], encode ['́', '\n']]).map (fun r => (r.1.sink.sent, r.2)) =
      some (['e', '́', '\n'], .ok) ∧
    ((BufW.around 8 (.new goodSink)).lineSession ucd15 [encode ['e'], encode ['́', '\n']]).map (fun r => (r.1.sink.sent, r.2)) = some (['é', '\n'], .ok) := by
  decide +kernel

end Verif
