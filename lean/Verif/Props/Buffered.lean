import Verif.Buffered
import Verif.Props.Pieces

/-!
# A writer behind a buffer (C148)
-/

namespace Verif
open Ucd Spec

/-- A `BufWriter` with this capacity around the writer. -/
def BufW.around (cap : Nat) (w : Writer) : BufW := { cap, buf := [], w }

/-- C148: writing through the buffer is writing directly in pieces: all that is written comes, in its order, and each piece is writes that
follow each other.  For every capacity, all bytes, and every writer, whether it fails or not. -/
theorem c148_pieces (cap : Nat) (w : Writer) (bs : List Bytes) : ∃ gs : List (List Bytes), gs.flatten = bs ∧
    (BufW.around cap w).session ucd15 bs = direct ucd15 w (gs.map List.flatten) := by
  obtain ⟨a, gs, h1, h2⟩ := session_groups (U := ucd15) bs (BufW.around cap w)
  exact ⟨a :: gs, by simpa using h1, by simpa [BufW.around] using h2⟩

/-- C148: it comes to an end, and does not panic. -/
theorem c148_total (cap : Nat) (w : Writer) (bs : List Bytes) : ∃ w' o, (BufW.around cap w).session ucd15 bs = some (w', o) ∧ o ≠ .panic := by
  obtain ⟨gs, -, h⟩ := c148_pieces cap w bs
  rw [h]
  unfold direct
  obtain ⟨w1, o1, h1, h2⟩ := writeChunks_total textLaws15 w (gs.map List.flatten)
  rw [h1]
  cases o1 with
  | ok =>
    refine ⟨_, _, rfl, ?_⟩
    split
    · simp
    · simp only; split <;> simp
    · simp
  | err => exact ⟨_, _, rfl, h2⟩
  | panic => exact ⟨_, _, rfl, h2⟩

theorem groups_lines {gs : List (List Bytes)} {ss : List (List Char)} (h : gs.flatten = ss.map encode) (hs : ∀ s ∈ ss, s = [] ∨ s.getLast? = some '\n') :
    ∃ ts : List (List Char), gs.map List.flatten = ts.map encode ∧ ts.flatten = ss.flatten ∧ ∀ t ∈ ts, t = [] ∨ t.getLast? = some '\n' := by
  induction gs generalizing ss with
  | nil =>
    have : ss = [] := by simpa using h.symm
    exact ⟨[], rfl, by simp [this], by simp⟩
  | cons g gs ih =>
    rw [List.flatten_cons] at h
    obtain ⟨a, b, rfl, h1, h2⟩ := List.map_eq_append_iff.1 h.symm
    obtain ⟨ts, e1, e2, e3⟩ := ih h2.symm fun s hm => hs s (by simp [hm])
    refine ⟨a.flatten :: ts, ?_, by simp [e2], ?_⟩
    · rw [List.map_cons, List.map_cons, e1, ← h1]
      congr 1
      clear h h1 h2 hs
      induction a with
      | nil => rfl
      | cons x a iha => simp [encode_append, iha]
    · intro t ht
      rcases List.mem_cons.1 ht with rfl | ht
      · have ha : ∀ s ∈ a, s = [] ∨ s.getLast? = some '\n' := fun s hm => hs s (by simp [hm])
        clear h h1 h2 hs ht
        induction a with
        | nil => exact Or.inl rfl
        | cons x a iha =>
          rcases iha fun s hm => ha s (by simp [hm]) with e | e
          · rw [List.flatten_cons, e, List.append_nil]; exact ha x (by simp)
          · right; rw [List.flatten_cons, List.getLast?_append, e]; rfl
      · exact e3 t ht

/-- C148: if the writes are of whole lines, then whatever the capacity is, writing succeeds exactly if writing all at once without a buffer
does, and leaves the writer, with what it has sent, the same. -/
theorem c148_lines (cap : Nat) (w w' : Writer) (hw : WIdle w) (ss : List (List Char)) (hs : ∀ s ∈ ss, s = [] ∨ s.getLast? = some '\n') :
    (BufW.around cap w).session ucd15 (ss.map encode) = some (w', .ok) ↔ direct ucd15 w [encode ss.flatten] = some (w', .ok) := by
  obtain ⟨gs, h1, h2⟩ := c148_pieces cap w (ss.map encode)
  obtain ⟨ts, e1, e2, e3⟩ := groups_lines h1 hs
  have key := writeChunks_lines textLaws15 hw e3
  rw [e2] at key
  rw [h2, e1]
  have hd : ∀ bs, direct ucd15 w bs = some (w', .ok) ↔ ∃ v, writeChunks ucd15 w bs = some (v, .ok) ∧ flush v = (w', .ok) := by
    intro bs
    unfold direct
    cases h : writeChunks ucd15 w bs with
    | none => simp
    | some r => obtain ⟨v, o⟩ := r; cases o <;> simp
  rw [hd, hd]
  have one : ∀ v, writeChunks ucd15 w [encode ss.flatten] = some (v, .ok) ↔ writeAll ucd15 w (encode ss.flatten) = some (v, .ok) := by
    intro v
    simp only [writeChunks]
    cases h : writeAll ucd15 w (encode ss.flatten) with
    | none => simp
    | some r => obtain ⟨x, o⟩ := r; cases o <;> simp
  constructor
  · rintro ⟨v, a, b⟩; exact ⟨v, (one v).2 ((key v).1 a), b⟩
  · rintro ⟨v, a, b⟩; exact ⟨v, (key v).2 ((one v).1 a), b⟩

/-- C148: so the capacity does not matter. -/
theorem c148_capacity (cap cap' : Nat) (w w' : Writer) (hw : WIdle w) (ss : List (List Char)) (hs : ∀ s ∈ ss, s = [] ∨ s.getLast? = some '\n') :
    (BufW.around cap w).session ucd15 (ss.map encode) = some (w', .ok) ↔ (BufW.around cap' w).session ucd15 (ss.map encode) = some (w', .ok) :=
  (c148_lines cap w w' hw ss hs).trans (c148_lines cap' w w' hw ss hs).symm

/-- C148: what a new writer has sent in the end is the lines, normalized. -/
theorem c148_sent (cap : Nat) (w' : Writer) (ss : List (List Char)) (hs : ∀ s ∈ ss, s = [] ∨ s.getLast? = some '\n')
    (h : (BufW.around cap (.new goodSink)).session ucd15 (ss.map encode) = some (w', .ok)) : w'.sink.sent = normChain ucd15 ss.flatten := by
  have hw : WIdle (.new goodSink) := idle_new rfl rfl
  rw [c148_lines cap _ _ hw ss hs, direct_cons] at h
  by_cases hn : ss.flatten = []
  · rw [hn, encode_nil, writeAll_nil] at h
    have : w' = (flush (.new goodSink)).1 := by
      simp only [direct, writeChunks, Option.some.injEq] at h
      rw [h]
    rw [this, hn]; rfl
  · have hl : ss.flatten.getLast? = some '\n' := by
      clear h
      induction ss with
      | nil => exact absurd rfl hn
      | cons s ss ih =>
        have hs' : ∀ s ∈ ss, s = [] ∨ s.getLast? = some '\n' := fun t ht => hs t (by simp [ht])
        by_cases hr : ss.flatten = []
        · rw [List.flatten_cons, hr, List.append_nil] at hn ⊢
          exact (hs s (by simp)).resolve_left hn
        · rw [List.flatten_cons, List.getLast?_append, ih hs' hr]; rfl
    rw [writeAll_encode _ hn] at h
    rcases writeStr_lines textLaws15 hw hl with ⟨v, hv, -, h1, -, h2⟩ | ⟨h1, -⟩
    · rw [h1] at h
      have hf : flush v = ({ v with expectStarter := true }, .ok) := by simp [flush, hv.state, Sink.flush, hv.dead, hv.script]
      simp only [direct, writeChunks, hf, Option.some.injEq, Prod.mk.injEq, and_true] at h
      rw [← h, h2]
      rfl
    · generalize writeStr ucd15 (.new goodSink) ss.flatten = r at h h1
      obtain ⟨v, o⟩ := r
      simp only at h1
      subst h1
      simp at h

theorem session_fits (bs : List Bytes) : ∀ x : BufW, (x.buf ++ bs.flatten).length < x.cap →
    x.session ucd15 bs = direct ucd15 x.w [x.buf ++ bs.flatten] := by
  induction bs with
  | nil => intro x _; simp [BufW.session, flush_eq]
  | cons b bs ih =>
    intro x h
    simp only [List.flatten_cons, List.length_append] at h
    have h1 : b.length < x.cap - x.buf.length := by omega
    rw [BufW.session, BufW.writeAll, if_pos h1]
    have := ih { x with buf := x.buf ++ b } (by simp only [List.length_append]; omega)
    simpa using this

/-- C148: what fits into the buffer is written at once, however it was cut, in the middle of lines or of scalars too. -/
theorem c148_fits (cap : Nat) (w : Writer) (bs : List Bytes) (h : bs.flatten.length < cap) :
    (BufW.around cap w).session ucd15 bs = direct ucd15 w [bs.flatten] := by
  simpa [BufW.around] using session_fits bs (BufW.around cap w) (by simpa [BufW.around] using h)

/-- Three lines through a buffer of four bytes. -/
example : ((BufW.around 4 (.new goodSink)).session ucd15 ([['a', '\n'], ['e', '́', '\n'], ['c', '\n']].map encode)).map (fun r => (r.1.sink.sent, r.2)) =
    some (['a', '\n', 'é', '\n', 'c', '\n'], .ok) := by decide +kernel

/-- C148: with writes that are not whole lines, what is sent depends on the capacity: a mark that comes after its letter is composed with it
only if both are in the buffer together. -/
theorem c148_refuted_capacity :
    ((BufW.around 8 (.new goodSink)).session ucd15 [encode ['e'], encode ['́', '\n']]).map (fun r => (r.1.sink.sent, r.2)) = some (['é', '\n'], .ok) ∧
    ((BufW.around 3 (.new goodSink)).session ucd15 [encode ['e'], encode ['́', '\n']]).map (fun r => (r.1.sink.sent, r.2)) =
      some (['e', '́', '\n'], .ok) ∧ isBasicText ucd15 ['e', '́', '\n'] = false := by decide +kernel

/-- C148: and so does whether writing succeeds, if a scalar is cut. -/
theorem c148_refuted_cut :
    ((BufW.around 8 (.new goodSink)).session ucd15 [[0xc3], [0xa9, 0x0a]]).map (fun r => (r.1.sink.sent, r.2)) = some (['é', '\n'], .ok) ∧
    ((BufW.around 2 (.new goodSink)).session ucd15 [[0xc3], [0xa9, 0x0a]]).map (fun r => (r.1.sink.sent, r.2)) = some ([], .err) := by decide +kernel

end Verif
