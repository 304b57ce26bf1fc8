import Verif.LockstepPlaces
import Verif.Props.Reader

/-!
# Sources that differ in form only: properties C22, C23, C25

Here the two sources are read call by call: each read of the one corresponds to a read of the other.  Then every call returns the
same, and nothing has to be assumed about byte-order marks and unassigned scalars.
-/

namespace Verif
open Ucd Spec

/-! ## C22 -/

theorem lfPiece_append (s t : List Char) : ∀ held, lfPiece held (s ++ t) =
    ((lfPiece held s).1 ++ (lfPiece (lfPiece held s).2 t).1, (lfPiece (lfPiece held s).2 t).2) := by
  induction s with
  | nil => intro held; cases held <;> rfl
  | cons c s ih =>
    intro held
    cases held with
    | false =>
      rw [List.cons_append, lfPiece, lfPiece]
      split
      · exact ih true
      · rw [ih false]; rfl
    | true =>
      rw [List.cons_append, lfPiece, lfPiece]
      split
      · rw [ih false]; rfl
      split
      · rw [ih true]; rfl
      · rw [ih false]; rfl

theorem lfPiece_toLF : ∀ (s : List Char), (lfPiece false s).1 ++ (if (lfPiece false s).2 then ['\n'] else []) = toLF s ∧
    (lfPiece true s).1 ++ (if (lfPiece true s).2 then ['\n'] else []) = toLF ('\r' :: s) := by
  intro s
  induction s with
  | nil => exact ⟨rfl, rfl⟩
  | cons c s ih =>
    have hc : c ≠ '\r' → toLF (c :: s) = c :: toLF s := by
      intro h
      rw [toLF]
      · intro r h'; exact absurd h' h
      · intro h'; exact absurd h' h
    refine ⟨?_, ?_⟩
    · rw [lfPiece]
      split
      · rename_i h; subst h; exact ih.2
      · rename_i h; rw [hc h, ← ih.1]; rfl
    · rw [lfPiece, toLF_cr]
      split
      · rename_i h; subst h
        rw [show dropOne (· = '\n') ('\n' :: s) = s by simp [dropOne], ← ih.1]; rfl
      split
      · rename_i h h'; subst h'
        rw [show dropOne (· = '\n') ('\r' :: s) = '\r' :: s by simp [dropOne], ← ih.2]; rfl
      · rename_i h h'
        rw [show dropOne (· = '\n') (c :: s) = c :: s by simp [dropOne, h], hc h', ← ih.1]; rfl

/-- The source with the newlines unified is cut like the original, and its content is the content with the newlines unified. -/
theorem lfSource_script (chunks : List (List Char)) (last : List Char) : ∃ chunks' last', lfSource false (script chunks last) = script chunks' last' ∧
    chunks'.length = chunks.length ∧ chunks'.flatten ++ last' = toLF (chunks.flatten ++ last) := by
  have key : ∀ (chunks : List (List Char)) held, ∃ chunks' last', lfSource held (script chunks last) = script chunks' last' ∧
      chunks'.length = chunks.length ∧ chunks'.flatten ++ last' =
        (lfPiece held (chunks.flatten ++ last)).1 ++ (if (lfPiece held (chunks.flatten ++ last)).2 then ['\n'] else []) := by
    intro chunks
    induction chunks with
    | nil =>
      intro held
      refine ⟨[], (lfPiece held last).1 ++ (if (lfPiece held last).2 then ['\n'] else []), ?_, rfl, rfl⟩
      show lfSource held [.data last .end_] = _
      rw [lfSource, if_neg (by simp)]
      rfl
    | cons c chunks ih =>
      intro held
      obtain ⟨chunks', last', h1, h2, h3⟩ := ih (lfPiece held c).2
      refine ⟨(lfPiece held c).1 :: chunks', last', ?_, by simp [h2], ?_⟩
      · show lfSource held (.data c .active :: script chunks last) = _
        rw [lfSource, if_pos rfl, h1]
        rfl
      · rw [List.flatten_cons, List.append_assoc, h3, List.flatten_cons, List.append_assoc, lfPiece_append c]
        simp
  obtain ⟨chunks', last', h1, h2, h3⟩ := key chunks false
  exact ⟨chunks', last', h1, h2, h3.trans (lfPiece_toLF _).1⟩

/-- C22, call by call: for any source without ESC, whatever its pushes and errors, each call returns the same for the source in which every
CRLF and every other CR is LF.  (A CR at the end of a read is one of the next read, with what follows it, or of this one if it comes with a
push or with the end.) -/
theorem c22_same_calls (nel lsps : Bool) (src : List Event) (h : ∀ s, Reads src s → ESC ∉ s) (lens : List Nat) :
    (readMany ucd15 lens (.new nel lsps) (lfSource false src)).map (fun r => (r.ret, r.out)) =
    (readMany ucd15 lens (.new nel lsps) src).map (fun r => (r.ret, r.out)) :=
  inStep_lf.readMany lens (t := .new nel lsps) (k' := (TextInput.new nel lsps).ctl)
    ⟨false, ⟨.inl ⟨true, rfl⟩, rfl⟩, by simp, rfl, h⟩

/-- C22: in particular the text delivered is the same, with a CR and its LF in different reads and an unassigned scalar behind U+34F. -/
example : lfSource false (script [['a', '\r'], ['\n', '\r', '͏'], ['͸', '\r']] ['b', '\r']) =
      script [['a'], ['\n', '\n', '͏'], ['͸']] ['\n', 'b', '\n'] ∧
    output ucd15 false false (script [['a', '\r'], ['\n', '\r', '͏'], ['͸', '\r']] ['b', '\r']) [136, 136, 136, 136] =
      ['a', '\n', '\n', '͏', '͏', '͸', '͏', '\n', 'b', '\n'] ∧
    output ucd15 false false (script [['a'], ['\n', '\n', '͏'], ['͸']] ['\n', 'b', '\n']) [136, 136, 136, 136] =
      ['a', '\n', '\n', '͏', '͏', '͸', '͏', '\n', 'b', '\n'] := by decide +kernel

/-- C22 for a source cut into reads: the content with the newlines unified, cut into as many reads, is delivered as the original. -/
theorem c22_newline_forms_cut (nel lsps : Bool) (chunks : List (List Char)) (last : List Char) (hesc : ESC ∉ chunks.flatten ++ last) :
    ∃ chunks' last', chunks'.flatten ++ last' = toLF (chunks.flatten ++ last) ∧ chunks'.length = chunks.length ∧
      ∀ lens, (readMany ucd15 lens (.new nel lsps) (script chunks' last')).map (fun r => (r.ret, r.out)) =
        (readMany ucd15 lens (.new nel lsps) (script chunks last)).map (fun r => (r.ret, r.out)) := by
  obtain ⟨chunks', last', h1, h2, h3⟩ := lfSource_script chunks last
  refine ⟨chunks', last', h3, h2, fun lens => ?_⟩
  rw [← h1]
  refine c22_same_calls nel lsps _ (fun s hs g => hesc ?_) lens
  obtain ⟨st, hs⟩ := hs
  simp only [script, List.mem_append, List.mem_map, List.mem_singleton, Event.data.injEq] at hs
  rcases hs with ⟨c, hc, rfl, -⟩ | ⟨rfl, -⟩
  · exact List.mem_append_left _ (List.mem_flatten.2 ⟨_, hc, g⟩)
  · exact List.mem_append_right _ g

/-! ## C25 -/

/-- C25, call by call: for any source in which the scalars the modes are about do not occur, whatever its pushes and errors, each call
returns the same in both modes. -/
theorem c25_same_calls (nel lsps nel' lsps' : Bool) (src : List Event)
    (h1 : nel ≠ nel' → ∀ s, Reads src s → NEL ∉ s) (h2 : lsps ≠ lsps' → ∀ s, Reads src s → LS ∉ s ∧ PS ∉ s) (lens : List Nat) :
    (readMany ucd15 lens (.new nel' lsps') src).map (fun r => (r.ret, r.out)) = (readMany ucd15 lens (.new nel lsps) src).map (fun r => (r.ret, r.out)) :=
  (inStep_modes nel lsps nel' lsps').readMany lens (t := .new nel lsps) (k' := (TextInput.new nel' lsps').ctl)
    ⟨rfl, rfl, rfl, rfl, fun s hs _ hc => ⟨fun hn e => h1 hn s hs (e ▸ hc), fun hl => ⟨fun e => (h2 hl s hs).1 (e ▸ hc), fun e => (h2 hl s hs).2 (e ▸ hc)⟩⟩⟩

/-- C25, call by call: with the mode, U+85, U+2028 and U+2029 in ordinary text stand for a newline, without it for a space.  The item `none`
is the place of the scalar in the content, which is cut into reads in any way. -/
theorem c25_translate_same_calls (nel lsps : Bool) (a b : List Char) (c : Char) (hc : c = NEL ∨ c = LS ∨ c = PS) (ha : Plain a)
    (pieces : List (List (Option Char))) (last : List (Option Char)) (h : pieces.flatten ++ last = a.map some ++ none :: b.map some) (lens : List Nat) :
    (readMany ucd15 lens (.new nel lsps) (script (pieces.map (·.map (·.getD c))) (last.map (·.getD c)))).map (fun r => (r.ret, r.out)) =
    (readMany ucd15 lens (.new nel lsps) (script (pieces.map (·.map (·.getD (if (if c = NEL then nel else lsps) then '\n' else ' '))))
      (last.map (·.getD (if (if c = NEL then nel else lsps) then '\n' else ' '))))).map (fun r => (r.ret, r.out)) := by
  generalize hd : (if (if c = NEL then nel else lsps) then '\n' else ' ' : Char) = d
  have hm : ∀ (d : Char) (p : List (Option Char)), p.flatMap (fill d) = p.map (·.getD d) := by
    intro d p
    induction p with
    | nil => rfl
    | cons x p ih => rw [List.flatMap_cons, ih]; rfl
  have hsp : isStart ucd15 ' ' = true := start_space textLaws15
  have hnl : isStart ucd15 '\n' = true := start_nl textLaws15
  have r0 : replace '\n' = ['\n'] := replace_nl
  have r1 : replace ' ' = [' '] := by decide +kernel
  have r2 : replace NEL = [' '] := by decide +kernel
  have r3 : replace LS = [' '] := by decide +kernel
  have r4 : replace PS = [' '] := by decide +kernel
  have key := (items_place (U := ucd15) (P := fun k => k.nel = nel ∧ k.lsps = lsps) (d := d) (d' := c)
    (by subst hd; generalize (if c = NEL then nel else lsps) = m; cases m <;> decide) (by rcases hc with rfl | rfl | rfl <;> decide)
    (fun k c ⟨e1, e2⟩ => ⟨(stepChar_modes k c).1.trans e1, (stepChar_modes k c).2.trans e2⟩)
    (fun k e => e) (fun k e => e) ?_).readMany nel lsps pieces last
    ⟨rfl, ⟨rfl, rfl⟩, .inr ⟨a, b, h, toward_new nel lsps ha⟩⟩ lens
  · simp only [hm] at key
    exact key
  · rintro k ⟨e1, e2⟩ ⟨g, hg⟩
    rw [stepChar.eq_def, stepChar.eq_def, hg]
    simp only
    subst hd
    rcases hc with rfl | rfl | rfl
    · cases nel <;> simp [groundStep, e1, e2, NEL, LS, PS, FF, ESC] <;> simp_all [startGuard, NEL]
    · cases lsps <;> simp [groundStep, e1, e2, NEL, LS, PS, FF, ESC] <;> simp_all [startGuard, LS]
    · cases lsps <;> simp [groundStep, e1, e2, NEL, LS, PS, FF, ESC] <;> simp_all [startGuard, PS]

/-- U+2028 between U+34F and an unassigned scalar, where a read ends, and the newline in its place. -/
example : output ucd15 false true (script [['a', '͏', '\u2028'], ['͸']] ['\r']) [136, 136, 136] = ['a', '͏', '\n', '͏', '͸', '͏', '\n'] ∧
    output ucd15 false true (script [['a', '͏', '\n'], ['͸']] ['\r']) [136, 136, 136] = ['a', '͏', '\n', '͏', '͸', '͏', '\n'] := by decide +kernel

/-! ## C23 -/

/-- C23, call by call: a complete escape sequence in ordinary text contributes nothing, though it may be cut into reads.  The items that are
marked are its scalars; the other source has the same reads without them. -/
theorem c23_same_calls (nel lsps : Bool) (a e b : List Char) (ha : Plain a) (he : IsEscape e) (hbom : a ≠ [] ∨ b.head? ≠ some BOM)
    (hb : b = [] → ∃ c, a.getLast? = some c ∧ c ≠ '\n' ∧ single nel lsps c ≠ .nl ∧ c ≠ BOM)
    (pieces : List (List (Char × Bool))) (last : List (Char × Bool))
    (h : pieces.flatten ++ last = a.map (·, false) ++ e.map (·, true) ++ b.map (·, false)) (lens : List Nat) :
    (readMany ucd15 lens (.new nel lsps) (script (pieces.map fun p => (p.filter (!·.2)).map (·.1)) ((last.filter (!·.2)).map (·.1)))).map (fun r => (r.ret, r.out)) =
    (readMany ucd15 lens (.new nel lsps) (script (pieces.map (·.map (·.1))) (last.map (·.1)))).map (fun r => (r.ret, r.out)) := by
  have h1 : ∀ p : List (Char × Bool), p.flatMap both = p.map (·.1) := by
    intro p
    induction p with
    | nil => rfl
    | cons x p ih => rw [List.flatMap_cons, ih]; rfl
  have h2 : ∀ p : List (Char × Bool), p.flatMap unmarked = (p.filter (!·.2)).map (·.1) := by
    intro p
    induction p with
    | nil => rfl
    | cons x p ih =>
      obtain ⟨c, m⟩ := x
      rw [List.flatMap_cons, ih]
      cases m <;> simp [unmarked]
  have key := (items_passing (U := ucd15) he nel lsps).readMany nel lsps pieces last
    (by
      rw [h]
      refine .before _ a b rfl rfl (toward_new nel lsps ha) (fun _ => hbom) fun hb0 => ?_
      obtain ⟨c, c1, c2⟩ := hb hb0
      refine ⟨fun h0 => ?_, fun d hd => ?_⟩
      · rw [h0] at c1; simp at c1
      · rw [c1] at hd
        have : c = d := by simpa using hd
        exact this ▸ c2) lens
  simp only [h1, h2] at key
  exact key

/-- A sequence cut into three reads, before an unassigned scalar. -/
example : output ucd15 false false (script [['a', '͏', '\x1b'], ['[', '3'], ['m', '͸']] []) [136, 136, 136, 136] =
      ['a', '͏', '͏', '͸', '͏', '\n'] ∧
    output ucd15 false false (script [['a', '͏'], [], ['͸']] []) [136, 136, 136, 136] = ['a', '͏', '͏', '͸', '͏', '\n'] := by decide +kernel

end Verif
