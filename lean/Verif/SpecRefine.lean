import Verif.ReaderOutput
import Verif.Spec

/-!
# The reader's state machine computes the specified translation
-/

namespace Verif
open Ucd Spec
variable {U : Ucd}

theorem feed_append {k : Ctl} {a b : List Char} :
    feed U k (a ++ b) = ((feed U (feed U k a).1 b).1, (feed U k a).2 ++ (feed U (feed U k a).1 b).2) := by
  induction a generalizing k with
  | nil => simp [feed]
  | cons c a ih => simp only [List.cons_append, feed, ih, List.append_assoc]

/-- Feed everything and complete the state. -/
def full (U : Ucd) (k : Ctl) (s : List Char) : Ctl × List Char :=
  let p := feed U k s
  ((finishState p.1).1, p.2 ++ (finishState p.1).2)

/-- Put something in front of the output. -/
def pre (o : List Char) (p : Ctl × List Char) : Ctl × List Char := (p.1, o ++ p.2)

theorem pre_nil (p : Ctl × List Char) : pre [] p = p := rfl

theorem pre_pre (a b : List Char) (p : Ctl × List Char) : pre a (pre b p) = pre (a ++ b) p := by simp [pre]

theorem full_cons (k : Ctl) (c : Char) (s : List Char) :
    full U k (c :: s) = pre (stepChar U k c).2 (full U (stepChar U k c).1 s) := by
  simp [full, feed, pre]

theorem full_ground (k : Ctl) {b : Bool} (h : k.state = .ground b) (c : Char) (s : List Char) :
    full U k (c :: s) = pre (groundStep U k c).2 (full U (groundStep U k c).1 s) := by
  rw [full_cons]; simp [stepChar, h]

theorem between_within (a b : Nat) (c : Char) : between a b c = within a b c := by
  simp [between, within]

theorem full_fall (k : Ctl) (st : RState) (c : Char) (s : List Char)
    (h : stepChar U { k with state := st } c = groundStep U { k with state := .ground false } c) :
    full U { k with state := st } (c :: s) = full U { k with state := .ground false } (c :: s) := by
  rw [full_cons, h, full_ground _ rfl]

theorem full_linux (k : Ctl) (s : List Char) :
    full U { k with state := .linux } s = full U { k with state := .ground false } (dropOne (within 0 0x7f) s) := by
  cases s with
  | nil => rfl
  | cons c s =>
    cases h : within 0 0x7f c with
    | true => simp [full_cons, stepChar, dropOne, between_within, h, pre]
    | false =>
      rw [full_fall k _ c s (by simp [stepChar, between_within, h])]
      simp [dropOne, h]

theorem full_csi (k : Ctl) (s : List Char) :
    full U { k with state := .csi } s = full U { k with state := .ground false } (dropOne finCan (s.dropWhile param)) := by
  induction s with
  | nil => rfl
  | cons c s ih =>
    cases h : param c with
    | true =>
      rw [full_cons, List.dropWhile_cons, if_pos h, ← ih]
      simp [stepChar, between_within, show within 0x20 0x3f c = true from h, pre]
    | false =>
      rw [List.dropWhile_cons, if_neg (by simp [h])]
      have h' : within 0x20 0x3f c = false := h
      cases h2 : finCan c with
      | true =>
        rw [full_cons]
        have : within 0x40 0x7e c = true ∨ c = CAN := by simpa [finCan, final] using h2
        rcases this with h3 | h3
        · simp [stepChar, between_within, h', h3, pre, dropOne, h2]
        · subst h3
          simp [stepChar, between_within, h', pre, dropOne, h2]
      | false =>
        have : within 0x40 0x7e c = false ∧ c ≠ CAN := by simpa [finCan, final] using h2
        rw [full_fall k _ c s (by simp [stepChar, between_within, h', this])]
        simp [dropOne, h2]

theorem full_csiStart (k : Ctl) (s : List Char) :
    full U { k with state := .csiStart } s = full U { k with state := .ground false } (afterEsc finCan ('[' :: s)) := by
  cases s with
  | nil => rfl
  | cons c s =>
    by_cases hb : c = '['
    · subst hb
      rw [full_cons, show afterEsc finCan ('[' :: '[' :: s) = dropOne (within 0 0x7f) s from rfl, ← full_linux]
      simp [stepChar, pre]
    · rw [show afterEsc finCan ('[' :: c :: s) = dropOne finCan ((c :: s).dropWhile param) by
        unfold afterEsc
        split
        · rename_i heq; simp at heq; exact absurd heq.1 hb
        · rename_i heq; simp at heq; rw [heq]
        · rename_i heq; simp at heq
        · rename_i h1 h2; exact absurd rfl (h1 _)]
      rw [← full_csi, full_cons, full_cons]
      simp [stepChar, hb]

theorem groundStep_esc (k : Ctl) : groundStep U k ESC = ({ k with state := .esc }, []) := by
  unfold groundStep
  rw [if_neg (by decide), if_neg (by decide), if_neg (by decide), if_pos rfl]

theorem full_osc (k : Ctl) (s : List Char) :
    full U { k with state := .osc } s =
      full U { k with state := .ground false } (dropOne (fun c => c = BEL ∨ c = CAN) (s.dropWhile oscText)) := by
  induction s with
  | nil => rfl
  | cons c s ih =>
    cases h : oscText c with
    | true =>
      rw [full_cons, List.dropWhile_cons, if_pos h, ← ih]
      have : c ≠ BEL ∧ c ≠ CAN ∧ c ≠ ESC := by simpa [oscText] using h
      simp [stepChar, this, pre]
    | false =>
      rw [List.dropWhile_cons, if_neg (by simp [h])]
      by_cases h1 : c = BEL ∨ c = CAN
      · simp [full_cons, stepChar, dropOne, h1, pre]
      · have h2 : c = ESC := by
          simp only [oscText, decide_eq_false_iff_not] at h
          grind
        subst h2
        simp only [dropOne, h1, decide_false, Bool.false_eq_true, if_false]
        rw [full_cons, full_ground _ rfl, groundStep_esc]
        simp only [stepChar, if_neg h1, if_true]

theorem full_esc (k : Ctl) (s : List Char) :
    full U { k with state := .esc } s =
      full U { k with state := .ground false } (afterEsc finCan (s.dropWhile (· = ESC))) := by
  induction s with
  | nil => rfl
  | cons c s ih =>
    by_cases h : c = ESC
    · subst h
      rw [full_cons, List.dropWhile_cons, if_pos (by simp), ← ih]
      simp only [stepChar]
      rw [if_neg (by decide), if_neg (by decide), if_pos trivial, pre_nil]
    · rw [List.dropWhile_cons, if_neg (by simp [h])]
      by_cases h1 : c = '['
      · subst h1
        rw [full_cons, ← full_csiStart]
        simp [stepChar, pre]
      by_cases h2 : c = ']'
      · subst h2
        rw [full_cons, show afterEsc finCan (']' :: s) = dropOne (fun c => c = BEL ∨ c = CAN) (s.dropWhile oscText) from rfl, ← full_osc]
        simp [stepChar, pre]
      rw [show afterEsc finCan (c :: s) = dropOne finCan (c :: s) by
        unfold afterEsc
        split
        · rename_i heq; simp at heq; exact absurd heq.1 h1
        · rename_i heq; simp at heq; exact absurd heq.1 h1
        · rename_i heq; simp at heq; exact absurd heq.1 h2
        · rfl]
      cases h3 : finCan c with
      | true =>
        have : within 0x40 0x7e c = true ∨ c = CAN := by simpa [finCan, final] using h3
        rcases this with h4 | h4
        · simp [full_cons, stepChar, between_within, h, h1, h2, h4, pre, dropOne, h3]
        · subst h4
          rw [full_cons, dropOne, if_pos h3]
          simp only [stepChar]
          rw [if_neg h1, if_neg h2, if_neg h, if_pos (by simp), pre_nil]
      | false =>
        have : within 0x40 0x7e c = false ∧ c ≠ CAN := by simpa [finCan, final] using h3
        rw [full_fall k _ c s (by simp [stepChar, between_within, h, h1, h2, this])]
        simp [dropOne, h3]

theorem full_cr (k : Ctl) (s : List Char) :
    full U { k with state := .cr } s =
      pre ['\n'] (full U { k with state := .ground true, expectStarter := false } (dropOne (· = '\n') s)) := by
  cases s with
  | nil => rfl
  | cons c s =>
    by_cases h : c = '\n'
    · subst h; simp [full_cons, stepChar, dropOne]
    · rw [full_cons]
      simp only [stepChar, ne_eq, h, not_false_eq_true, if_true, dropOne, decide_false, Bool.false_eq_true, if_false]
      rw [full_ground _ rfl, pre_pre]
      rfl

theorem full_ff (k : Ctl) (s : List Char) :
    full U { k with state := .ff } s =
      pre (if (s.dropWhile (· = FF)).head? = some '\n' ∨ (s.dropWhile (· = FF)).head? = some '\r' then [] else [' '])
        (full U { k with state := .ground false, expectStarter := false } (s.dropWhile (· = FF))) := by
  induction s with
  | nil => rfl
  | cons c s ih =>
    by_cases h : c = FF
    · subst h
      have hd : List.dropWhile (fun x => decide (x = FF)) (FF :: s) = s.dropWhile (· = FF) := by simp
      rw [full_cons, hd, ← ih]
      simp [stepChar, pre]
    · have hd : List.dropWhile (fun x => decide (x = FF)) (c :: s) = c :: s := by simp [h]
      rw [hd, full_cons]
      simp only [stepChar, ne_eq, h, not_false_eq_true, if_true]
      rw [full_ground _ rfl, pre_pre]
      simp only [List.head?_cons, Option.some.injEq]
      by_cases h1 : c = '\n'
      · simp [h1]
      · by_cases h2 : c = '\r'
        · simp [h2]
        · simp [h1, h2]

/-! ## The whole translation -/

/-- Guard the first scalar if it is still expected to be a starter. -/
def guardIf (U : Ucd) (e : Bool) (s : List Char) : List Char := if e then guardStart U s else s

/-- Whether the last item was a newline; `b` if there was none. -/
def nlAfter (b : Bool) (ts : List Tok) : Bool :=
  match ts.getLast? with
  | some t => t == .nl
  | none => b

theorem nlAfter_cons (b : Bool) (t : Tok) (ts : List Tok) : nlAfter b (t :: ts) = nlAfter (t == .nl) ts := by
  unfold nlAfter
  rw [List.getLast?_cons]
  cases ts.getLast? <;> rfl

theorem guardIf_start {c : Char} (h : isStart U c = true) (e : Bool) (s : List Char) : guardIf U e (c :: s) = c :: s := by
  cases e <;> simp [guardIf, guardStart, h]

theorem guardIf_false (s : List Char) : guardIf U false s = s := rfl

theorem startGuard_eq (e : Bool) (r s : List Char) (h : r ≠ []) : guardIf U e (r ++ s) = startGuard U e r ++ s := by
  cases r with
  | nil => exact absurd rfl h
  | cons c r =>
    cases e <;> cases hc : isStart U c <;> simp [guardIf, guardStart, startGuard, hc]

theorem full_tokens (hU : TextLaws U) : ∀ (n : Nat) (s : List Char) (k : Ctl) (b : Bool), s.length ≤ n → k.state = .ground b →
    (full U k s).2 = guardIf U k.expectStarter ((tokens finCan (single k.nel k.lsps) s).flatMap Tok.out) ∧
    (full U k s).1.state = .ground (nlAfter b (tokens finCan (single k.nel k.lsps) s)) := by
  intro n
  induction n with
  | zero =>
    intro s k b hs hk
    have : s = [] := List.length_eq_zero_iff.1 (by omega)
    subst this
    rw [tokens]
    constructor
    · simp [full, feed, finishState, hk, guardIf, guardStart]
    · simp [full, feed, finishState, hk, nlAfter]
  | succ n ih =>
    intro s k b hs hk
    cases s with
    | nil =>
      rw [tokens]
      constructor
      · simp [full, feed, finishState, hk, guardIf, guardStart]
      · simp [full, feed, finishState, hk, nlAfter]
    | cons c r =>
      simp only [List.length_cons] at hs
      rw [full_ground k hk, tokens]
      unfold groundStep
      by_cases h1 : c = '\n'
      · rw [if_pos h1, if_pos h1]
        obtain ⟨i1, i2⟩ := ih r { k with state := .ground true, expectStarter := false } true (by omega) rfl
        rw [nlAfter_cons]
        refine ⟨?_, i2⟩
        simp only [pre, i1, List.flatMap_cons, Tok.out, List.cons_append, List.nil_append, guardIf_start (start_nl hU)]
        rfl
      rw [if_neg h1, if_neg h1]
      by_cases h2 : c = '\r'
      · rw [if_pos h2, if_pos h2, pre_nil, full_cr]
        have := dropOne_le (· = '\n') r
        obtain ⟨i1, i2⟩ := ih (dropOne (· = '\n') r) { k with state := .ground true, expectStarter := false } true (by omega) rfl
        rw [nlAfter_cons]
        refine ⟨?_, i2⟩
        simp only [pre, i1, List.flatMap_cons, Tok.out, List.cons_append, List.nil_append, guardIf_start (start_nl hU)]
        rfl
      rw [if_neg h2, if_neg h2]
      by_cases h3 : c = FF
      · rw [if_pos h3, if_pos h3, pre_nil, full_ff]
        have := dropWhile_le (· = FF) r
        obtain ⟨i1, i2⟩ := ih (r.dropWhile (· = FF)) { k with state := .ground false, expectStarter := false } false (by omega) rfl
        simp only
        by_cases h4 : (r.dropWhile (· = FF)).head? = some '\n' ∨ (r.dropWhile (· = FF)).head? = some '\r'
        · rw [if_pos h4, if_pos h4, pre_nil]
          generalize hr' : r.dropWhile (· = FF) = r' at h4 i1 i2 ⊢
          have hnl : ∃ ts, tokens finCan (single k.nel k.lsps) r' = .nl :: ts := by
            cases r' with
            | nil => simp at h4
            | cons d r'' =>
              simp only [List.head?_cons, Option.some.injEq] at h4
              rcases h4 with rfl | rfl
              · exact ⟨tokens finCan (single k.nel k.lsps) r'', by rw [tokens, if_pos rfl]⟩
              · exact ⟨tokens finCan (single k.nel k.lsps) (dropOne (· = '\n') r''), by rw [tokens, if_neg (by decide), if_pos rfl]⟩
          obtain ⟨ts, hts⟩ := hnl
          simp only [hts] at i1 i2 ⊢
          rw [nlAfter_cons] at i2 ⊢
          refine ⟨?_, i2⟩
          rw [i1, List.flatMap_cons, Tok.out, List.singleton_append, guardIf_start (start_nl hU), guardIf_start (start_nl hU)]
        · rw [if_neg h4, if_neg h4, nlAfter_cons]
          refine ⟨?_, i2⟩
          simp only [pre, i1, List.flatMap_cons, Tok.out, List.cons_append, List.nil_append, guardIf_start (start_space hU)]
          rfl
      rw [if_neg h3, if_neg h3]
      by_cases h4 : c = ESC
      · rw [if_pos h4, if_pos h4, pre_nil, full_esc]
        have a1 := afterEsc_le finCan (r.dropWhile (· = ESC))
        have a2 := dropWhile_le (· = ESC) r
        obtain ⟨i1, i2⟩ := ih (afterEsc finCan (r.dropWhile (· = ESC))) { k with state := .ground false } false (by omega) rfl
        rw [nlAfter_cons]
        exact ⟨by simpa [Tok.out] using i1, i2⟩
      rw [if_neg h4, if_neg h4]
      simp only
      have hnl : (((k.nel && c == NEL) || (k.lsps && (c == LS || c == PS))) = true) ↔
          ((k.nel = true ∧ c = NEL) ∨ (k.lsps = true ∧ (c = LS ∨ c = PS))) := by
        simp only [Bool.or_eq_true, Bool.and_eq_true, beq_iff_eq]
      generalize ((k.nel && c == NEL) || (k.lsps && (c == LS || c == PS))) = nl at hnl ⊢
      obtain ⟨i1, i2⟩ := ih r { k with state := .ground nl, expectStarter := false } nl (by omega) rfl
      rw [nlAfter_cons]
      cases nl with
      | true =>
        have hs : single k.nel k.lsps c = .nl := by unfold single; rw [if_pos (hnl.1 rfl)]
        rw [hs]
        refine ⟨?_, i2⟩
        rw [if_pos rfl, replace_nl]
        simp only [pre, i1, List.flatMap_cons, Tok.out]
        rw [startGuard_eq _ _ _ (by simp)]
        rfl
      | false =>
        have hs : single k.nel k.lsps c = .text (replace c) := by
          unfold single; rw [if_neg (fun h => by simpa using hnl.2 h)]
        rw [hs]
        refine ⟨?_, i2⟩
        rw [if_neg (by simp)]
        simp only [pre, i1, List.flatMap_cons, Tok.out]
        rw [startGuard_eq _ _ _ (replace_ne_nil c)]
        rfl

end Verif
