import Verif.PullReader
import Verif.PullWriter
import Verif.WriterPlain
import Verif.ReaderRuns
import Verif.Ucd15Text

/-!
# Properties of the iterator chain, and of the errors a writer reports

C94: the scalars are pulled through the chain of iterators one at a time, and the result is that of the functions
on lists that the other properties are about.  C95: the error of a failing write.
-/

namespace Verif
open Ucd
variable {σ : Type}

/-! ## C94 -/

theorem pull_yields {next : Iter σ} {s : σ} {l : List Char} (h : Yields next s l) :
    ∃ n, ∀ f ≥ n, ∀ k, ∃ t, pull next f k s = some (l.take k, t) := by
  induction h with
  | @nil s s' h =>
    obtain ⟨n, hn⟩ := h
    refine ⟨n, fun f hf k => ?_⟩
    cases k with
    | zero => exact ⟨s, rfl⟩
    | succ k => exact ⟨s', by simp [pull, hn f hf]⟩
  | @cons s s' c l h _ ih =>
    obtain ⟨n, hn⟩ := h
    obtain ⟨m, hm⟩ := ih
    refine ⟨max n m, fun f hf k => ?_⟩
    cases k with
    | zero => exact ⟨s, rfl⟩
    | succ k =>
      obtain ⟨t, ht⟩ := hm f (by omega) k
      exact ⟨t, by simp [pull, hn f (by omega), ht]⟩

/-- Every call of `next` on the chain returns, and the calls yield the scalars of the normalized text in order. -/
theorem c94_chain (s : List Char) : ∃ n, ∀ f ≥ n, ∀ k, ∃ t,
    pull (chainNext ucd15 listNext) f k (ChainSt.new s) = some ((normChain ucd15 s).take k, t) :=
  pull_yields (yields_chain textLaws15 (yields_list s))

/-- The same behind `Categorize`, whose error cell is filled when a rejected scalar comes out as U+1A. -/
theorem c94_chain_categorized (s : List Char) : (∃ n, ∀ f ≥ n, ∀ k, ∃ t,
      pull (chainNext ucd15 catNext) f k (ChainSt.new ⟨s, none⟩) = some ((normChain ucd15 (categorize s)).take k, t)) ∧
    ∀ f k l t t', pull (chainNext ucd15 catNext) f k (ChainSt.new ⟨s, none⟩) = some (l, t) →
      chainNext ucd15 catNext f t = some (some SUB, t') → t'.base.error.isSome = true := by
  refine ⟨pull_yields (yields_chain textLaws15 (yields_cat s none)), fun f k l t t' h h' => ?_⟩
  have hL := cell_chain textLaws15 (cell_cat s)
  have key : ∀ (k : Nat) (u t : ChainSt CatSt) (l : List Char),
      ChainInv (CatInv s) (fun s => s.error.isSome = true) u → pull (chainNext ucd15 catNext) f k u = some (l, t) →
      ChainInv (CatInv s) (fun s => s.error.isSome = true) t := by
    intro k
    induction k with
    | zero => intro u t l hu hp; simp [pull] at hp; rw [← hp.2]; exact hu
    | succ k ih =>
      intro u t l hu hp
      simp only [pull] at hp
      split at hp
      · simp at hp
      · rename_i u' hn
        simp at hp; rw [← hp.2]; exact hL.keep hu hn
      · rename_i c u' hn
        split at hp
        · simp at hp
        · rename_i l' t' hp'
          simp at hp
          rw [← hp.2]
          exact ih u' t' l' (hL.keep hu hn) hp'
  exact hL.sub (key k _ t l (chainInv_new ⟨[], rfl, rfl⟩) h) h'

/-- Reads over the iterator, one after the other. -/
def readManyP (U : Ucd) (f : Nat) : List Nat → InputP → List Event → Option (List (Ret × List Char))
  | [], _, _ => some []
  | len :: lens, t, src =>
    match readWithStatusP U f len t src with
    | none => none
    | some r =>
      match readManyP U f lens r.input r.src with
      | none => none
      | some l => some ((r.ret, r.out) :: l)

theorem readManyP_sim {U : Ucd} (hU : TextLaws U) : ∀ (lens : List Nat) {p : InputP} {t : TextInput} (src : List Event),
    Sim U p t → ∃ n, ∀ f ≥ n, readManyP U f lens p src = some ((readMany U lens t src).map fun r => (r.ret, r.out))
  | [], _, _, _, _ => ⟨0, fun _ _ => rfl⟩
  | len :: lens, p, t, src, h => by
    obtain ⟨n, p', h1, h2⟩ := readWithStatusP_sim hU len h src
    obtain ⟨m, hm⟩ := readManyP_sim hU lens (readWithStatus U len t src).src h2
    exact ⟨max n m, fun f hf => by simp [readManyP, readMany, h1 f (by omega), hm f (by omega)]⟩

/-- A reader that pulls its text through the iterator returns and delivers the same as one that normalizes whole
segments, in every mode, for every source and every sequence of reads. -/
theorem c94_reader (nel lsps : Bool) (lens : List Nat) (src : List Event) :
    ∃ n, ∀ f ≥ n, readManyP ucd15 f lens (.new nel lsps) src =
      some ((readMany ucd15 lens (.new nel lsps) src).map fun r => (r.ret, r.out)) :=
  readManyP_sim textLaws15 lens src (sim_new textLaws15 nel lsps)

/-- A write that pulls its text through the iterator, stopping at the first failure, does the same as one that
normalizes all of it first. -/
theorem c94_writer (w : Writer) (s : List Char) : ∃ n, ∃ r : Writer × OutE,
    (∀ f ≥ n, writeStrE ucd15 f w s = some r) ∧ (r.1, r.2.out) = writeStr ucd15 w s := by
  obtain ⟨n, r, h1, h2, -⟩ := writeStrE_spec textLaws15 w s
  exact ⟨n, r, h1, h2⟩

example : pull (chainNext ucd15 listNext) 20 20 (ChainSt.new ['a', 'e', '́', '͸', '\n']) =
    some (['a', 'é', CGJ, '͸', CGJ, '\n'], {
      iter := { iter := ⟨⟨⟨⟨⟨[], true⟩, false, false, none⟩, []⟩, 0, none⟩, true⟩, buffer := [], start := 0, stop := 0 },
      state := .finished 0, buffer := [], composee := none, lastCcc := none }) := by decide +kernel

example : readManyP ucd15 60 [136, 136] (.new false false) [.data ['e', '́', '\n', 'x'] .active, .data ['\n'] .end_] =
    some [(.ok 3 .active, ['é', '\n']), (.ok 2 .end_, ['x', '\n'])] := by decide +kernel

/-! ## C95 -/

/-- Every write has a result that is not a panic, and its error is one of three: an error of the text, which is what
`check_basic_text_char` says about one of the scalars of the text that was written, or about U+1B, or, in color
mode, about an escape sequence; the error that the text does not begin with a starter, only at the start; or the
error of the inner stream. -/
theorem c95_write_error (w : Writer) (s : List Char) : ∃ n, ∃ r : Writer × OutE,
    (∀ f ≥ n, writeStrE ucd15 f w s = some r) ∧ (r.1, r.2.out) = writeStr ucd15 w s ∧ r.2 ≠ .panic ∧
    (∀ e, r.2 = .text e → (∃ c ∈ s, checkChar c = some e) ∨ (e = .escape ∧ ESC ∈ s ∧ w.ansi = false) ∨
      (e = .unrecognizedEscape ∧ (w.ansi = true ∨ ∀ g, w.state ≠ .ground g))) ∧
    (r.2 = .start → w.expectStarter = true) ∧
    (r.2 = .sink → ∃ t, (w.sink.writeStr t).2 = false) := by
  obtain ⟨n, r, h1, h2, h3, h4, h5, h6, h7⟩ := writeStrE_spec textLaws15 w s
  exact ⟨n, r, h1, h2, h4, h5, h6, fun h => ⟨_, h7 h⟩⟩

/-- Outside color mode the error is one of the text exactly if the text has a scalar that is rejected or is U+1B. -/
theorem c95_text_error_iff (w : Writer) (g : Ground) (hg : w.state = .ground g) (ha : w.ansi = false) (s : List Char) :
    ∃ n, ∃ r : Writer × OutE, (∀ f ≥ n, writeStrE ucd15 f w s = some r) ∧
      ((∃ e, r.2 = .text e) ↔ ∃ c ∈ s, c = ESC ∨ checkChar c ≠ none) ∧
      ∀ e, r.2 = .text e → ∃ c ∈ s, (c = ESC ∧ e = .escape) ∨ checkChar c = some e := by
  obtain ⟨n, r, h1, h2, h3, h4, h5, h6, h7⟩ := writeStrE_spec textLaws15 w s
  refine ⟨n, r, h1, ?_, fun e he => ?_⟩
  · rw [h3]
    constructor
    · intro h
      apply Classical.byContradiction
      intro hn
      apply h
      have : ∀ c ∈ s, okChar c = true := by
        intro c hc
        rw [okChar_check]
        have : ¬ (c = ESC ∨ checkChar c ≠ none) := fun hx => hn ⟨c, hc, hx⟩
        simp only [not_or, Classical.not_not] at this
        exact ⟨this.2, this.1⟩
      rw [prepStr_plain textLaws15 hg this]
    · rintro ⟨c, hc, hx⟩ ho
      have := okChar_check.1 (prepStr_plain_ok textLaws15 hg ha ho c hc)
      rcases hx with hx | hx
      · exact this.2 hx
      · exact hx this.1
  · rcases h5 e he with ⟨c, hc, hx⟩ | ⟨hx, hc, -⟩ | ⟨-, hx⟩
    · exact ⟨c, hc, Or.inr hx⟩
    · exact ⟨ESC, hc, Or.inl ⟨rfl, hx⟩⟩
    · rcases hx with hx | hx
      · rw [ha] at hx; simp at hx
      · exact absurd hg (hx g)

/-- The error about the first scalar that has one. -/
def Spec.firstOffence (s : List Char) : Option BasicTextError :=
  s.findSome? fun c => if c = ESC then some .escape else checkChar c

theorem putPull_first : ∀ (s : List Char) (w : Writer) (g : Ground) (e0 : Option BasicTextError), w.state = .ground g → w.ansi = false →
    ∃ w', (∀ f > s.length, putPull catNext CatSt.error f w ⟨s, e0⟩ = some (w', match Spec.firstOffence s with
      | none => .ok
      | some e => .text e)) ∧ w'.ansi = false
  | [], w, g, e0, hg, ha => ⟨w, fun f hf => by
      obtain ⟨f, rfl⟩ : ∃ g, f = g + 1 := ⟨f - 1, by omega⟩
      simp [putPull, catNext, Spec.firstOffence], ha⟩
  | c :: s, w, g, e0, hg, ha => by
    have hES : ESC ≠ SUB := by decide
    have hEN : ESC ≠ '\n' := by decide
    have hSN : SUB ≠ '\n' := by decide
    by_cases hE : c = ESC
    · subst hE
      refine ⟨w.fail, fun f hf => ?_, ha⟩
      obtain ⟨f, rfl⟩ : ∃ g, f = g + 1 := ⟨f - 1, by omega⟩
      simp [putPull, catNext, check_esc, Spec.firstOffence, putCharE, hg, ha, hES, hEN]
    · cases hc : checkChar c with
      | some e =>
        refine ⟨w.fail, fun f hf => ?_, ha⟩
        obtain ⟨f, rfl⟩ : ∃ g, f = g + 1 := ⟨f - 1, by omega⟩
        simp [putPull, catNext, hc, Spec.firstOffence, putCharE, hg, ha, hE, hSN]
      | none =>
        have hS : c ≠ SUB := by
          rintro rfl
          have := check_sub
          rw [hc] at this; simp at this
        have hst : ∃ w1 g1, putCharE e0 w c = (w1, .ok) ∧ w1.state = .ground g1 ∧ w1.ansi = false := by
          by_cases hN : c = '\n'
          · subst hN
            exact ⟨{ w with state := .ground .newline, buffer := w.buffer ++ ['\n'] }, .newline, by simp [putCharE, hg, ha, hE], rfl, ha⟩
          · exact ⟨{ w with state := .ground (groundOf c), buffer := w.buffer ++ [c] }, groundOf c,
              by simp [putCharE, hg, hN, hE, hS], rfl, ha⟩
        obtain ⟨w1, g1, h1, h2, h3⟩ := hst
        obtain ⟨w', h4, h5⟩ := putPull_first s w1 g1 e0 h2 h3
        refine ⟨w', fun f hf => ?_, h5⟩
        obtain ⟨f, rfl⟩ : ∃ g, f = g + 1 := ⟨f - 1, by omega⟩
        simp only [List.length_cons] at hf
        have := h4 f (by omega)
        simp [putPull, catNext, hc, h1, this, Spec.firstOffence, hE]

/-- For text that the quick check finds to be normalized, and that is all assigned, the error is that of the first
scalar that has one. -/
theorem c95_first (w : Writer) (g : Ground) (hg : w.state = .ground g) (ha : w.ansi = false) (hc : w.crlf = false) (s : List Char)
    (hq : ucd15.quick s = .yes) (has : ∀ c ∈ s, ucd15.assigned c = true) :
    ∃ n, ∃ r : Writer × OutE, (∀ f ≥ n, writeStrE ucd15 f w s = some r) ∧
      ∀ e, r.2 = .text e ↔ Spec.firstOffence s = some e := by
  obtain ⟨w', h, -⟩ := putPull_first s w g none hg ha
  have hsm : ∀ f > s.length, stateMachineE ucd15 f w s = some (w', match Spec.firstOffence s with
      | none => .ok
      | some e => .text e) := by
    intro f hf
    rw [stateMachineE, if_pos ⟨hq, by simpa using has⟩, h f hf]
  cases ho : Spec.firstOffence s with
  | none =>
    refine ⟨s.length + 1, writeBufferE ucd15 w', fun f hf => ?_, fun e => ?_⟩
    · simp [writeStrE, hc, hsm f (by omega), ho]
    · simp only [reduceCtorEq, iff_false]
      unfold writeBufferE
      simp only
      split
      · simp
      · split <;> simp
  | some e =>
    refine ⟨s.length + 1, (w', .text e), fun f hf => ?_, fun e' => ?_⟩
    · simp [writeStrE, hc, hsm f (by omega), ho]
    · simp

theorem quickGo_ascii : ∀ (s : List Char) (last n : Nat), (∀ c ∈ s, c.toNat ≤ 0x7f) → ucd15.quickGo last n .yes s = .yes
  | [], _, _, _ => rfl
  | c :: s, last, n, h => by
    unfold quickGo
    rw [if_pos (h c (by simp))]
    exact quickGo_ascii s 0 0 fun d hd => h d (by simp [hd])

/-- In particular for ASCII. -/
theorem c95_first_ascii (w : Writer) (g : Ground) (hg : w.state = .ground g) (ha : w.ansi = false) (hc : w.crlf = false) (s : List Char)
    (hs : ∀ c ∈ s, c.toNat ≤ 0x7f) : ∃ n, ∃ r : Writer × OutE, (∀ f ≥ n, writeStrE ucd15 f w s = some r) ∧
      ∀ e, r.2 = .text e ↔ Spec.firstOffence s = some e :=
  c95_first w g hg ha hc s (quickGo_ascii s 0 0 hs) fun c hc => textLaws15.assigned_ascii c (hs c hc)

/-- Whatever the text, in CRLF mode too: if all of its scalars that are rejected have the same error, that is the error of the write. So it is about the right scalar if
there is one only. -/
theorem c95_single (w : Writer) (g : Ground) (hg : w.state = .ground g) (ha : w.ansi = false) (s : List Char) (e : BasicTextError)
    (he : Spec.firstOffence s = some e) (hs : ∀ c ∈ s, (c = ESC → e = .escape) ∧ (c ≠ ESC → ∀ e', checkChar c = some e' → e' = e)) :
    ∃ n, ∃ r : Writer × OutE, (∀ f ≥ n, writeStrE ucd15 f w s = some r) ∧ r.2 = .text e := by
  obtain ⟨n, r, h1, h2, h3⟩ := c95_text_error_iff w g hg ha s
  refine ⟨n, r, h1, ?_⟩
  obtain ⟨e', h4⟩ := h2.2 (by
    obtain ⟨c, hc, hx⟩ := List.exists_of_findSome?_eq_some he
    refine ⟨c, hc, ?_⟩
    split at hx
    · exact Or.inl ‹_›
    · exact Or.inr (by rw [hx]; simp))
  rw [h4]
  obtain ⟨c, hc, ⟨rfl, h5⟩ | h5⟩ := h3 e' h4
  · rw [h5, (hs _ hc).1 rfl]
  · rw [(hs c hc).2 (by rintro rfl; rw [check_esc] at h5; simp at h5) e' h5]

theorem firstOffence_append (a b : List Char) : Spec.firstOffence (a ++ b) = (Spec.firstOffence a).or (Spec.firstOffence b) := by
  simp [Spec.firstOffence, List.findSome?_append]

theorem firstOffence_lines : ∀ (s : List Char), (splitNl s).findSome? Spec.firstOffence = Spec.firstOffence s
  | [] => rfl
  | c :: s => by
    have ih := firstOffence_lines s
    rw [splitNl]
    split
    · rename_i h
      subst h
      rw [List.findSome?_cons, show Spec.firstOffence [] = none from rfl]
      simp only
      rw [ih, show '\n' :: s = ['\n'] ++ s from rfl, firstOffence_append, show Spec.firstOffence ['\n'] = none by decide]
      rfl
    · cases hx : splitNl s with
      | nil => exact absurd hx (splitNl_ne s)
      | cons x xs =>
        rw [hx, List.findSome?_cons] at ih
        rw [List.findSome?_cons, show c :: x = [c] ++ x from rfl, firstOffence_append, show c :: s = [c] ++ s from rfl, firstOffence_append, ← ih]
        cases Spec.firstOffence [c] with
        | some e => rfl
        | none => rfl

theorem stateMachineE_first {w : Writer} {g : Ground} (hg : w.state = .ground g) (ha : w.ansi = false) {s : List Char}
    (hq : ucd15.quick s = .yes) (has : ∀ c ∈ s, ucd15.assigned c = true) :
    ∃ w', (∀ f > s.length, stateMachineE ucd15 f w s = some (w', match Spec.firstOffence s with
      | none => .ok
      | some e => .text e)) ∧ w'.ansi = false := by
  obtain ⟨w', h, h'⟩ := putPull_first s w g none hg ha
  exact ⟨w', fun f hf => by rw [stateMachineE, if_pos ⟨hq, by simpa using has⟩, h f hf], h'⟩

/-- The same in CRLF mode, line by line. -/
theorem c95_first_crlf (w : Writer) (g : Ground) (hg : w.state = .ground g) (ha : w.ansi = false) (hc : w.crlf = true) (s : List Char)
    (hq : ∀ l ∈ splitNl s, ucd15.quick l = .yes) (has : ∀ c ∈ s, ucd15.assigned c = true) :
    ∃ n, ∃ r : Writer × OutE, (∀ f ≥ n, writeStrE ucd15 f w s = some r) ∧
      ∀ e, r.2 = .text e ↔ Spec.firstOffence s = some e := by
  have hrest : ∀ (xs : List (List Char)), (∀ l ∈ xs, ucd15.quick l = .yes ∧ ∀ c ∈ l, ucd15.assigned c = true) → ∀ w : Writer, w.ansi = false →
      ∃ w' n, ∀ f ≥ n, crlfRestE ucd15 f w xs = some (w', match xs.findSome? Spec.firstOffence with
        | none => .ok
        | some e => .text e) := by
    intro xs
    induction xs with
    | nil => intro _ w _; exact ⟨w, 0, fun f _ => rfl⟩
    | cons x xs ih =>
      intro hx w ha
      obtain ⟨w1, h1, h2⟩ := stateMachineE_first (w := { w with state := .ground .newline, buffer := w.buffer ++ ['\r', '\n'] }) rfl ha (hx x (by simp)).1 (hx x (by simp)).2
      cases ho : Spec.firstOffence x with
      | some e => exact ⟨w1, x.length + 1, fun f hf => by rw [crlfRestE, h1 f (by omega), ho, List.findSome?_cons, ho]⟩
      | none =>
        obtain ⟨w', n, h4⟩ := ih (fun l hl => hx l (by simp [hl])) w1 h2
        exact ⟨w', n + x.length + 1, fun f hf => by rw [crlfRestE, h1 f (by omega), ho, List.findSome?_cons, ho]; exact h4 f (by omega)⟩
  have hloop : ∃ w' n, ∀ f ≥ n, crlfLoopE ucd15 f w (splitNl s) = some (w', match Spec.firstOffence s with
        | none => .ok
        | some e => .text e) := by
    rw [← firstOffence_lines]
    have hx : ∀ l ∈ splitNl s, ucd15.quick l = .yes ∧ ∀ c ∈ l, ucd15.assigned c = true := fun l hl => ⟨hq l hl, fun c hc => has c (splitNl_mem s l hl c hc)⟩
    revert hx
    cases splitNl s with
    | nil => exact fun _ => ⟨w, 0, fun f _ => rfl⟩
    | cons x xs =>
      intro hx
      obtain ⟨w1, h1, h2⟩ := stateMachineE_first hg ha (hx x (by simp)).1 (hx x (by simp)).2
      cases ho : Spec.firstOffence x with
      | some e => exact ⟨w1, x.length + 1, fun f hf => by rw [crlfLoopE, h1 f (by omega), ho, List.findSome?_cons, ho]⟩
      | none =>
        obtain ⟨w', n, h4⟩ := hrest xs (fun l hl => hx l (by simp [hl])) w1 h2
        exact ⟨w', n + x.length + 1, fun f hf => by rw [crlfLoopE, h1 f (by omega), ho, List.findSome?_cons, ho]; exact h4 f (by omega)⟩
  obtain ⟨w', n, hsm⟩ := hloop
  cases ho : Spec.firstOffence s with
  | none =>
    refine ⟨n, writeBufferE ucd15 w', fun f hf => ?_, fun e => ?_⟩
    · simp [writeStrE, hc, hsm f hf, ho]
    · simp only [reduceCtorEq, iff_false]
      unfold writeBufferE
      simp only
      split
      · simp
      · split <;> simp
  | some e =>
    refine ⟨n, (w', .text e), fun f hf => ?_, fun e' => ?_⟩
    · simp [writeStrE, hc, hsm f hf, ho]
    · simp

/-- For other text it need not be the first: normalizing reads ahead, and the second error replaces the first. -/
theorem c95_refuted_first :
    (writeStrE ucd15 20 (.new ⟨[], false, []⟩) ['\x01', '\x02', 'e', '\u0301', '\n']).map (·.2) = some (.text (.controlCode '\x02')) ∧
    Spec.firstOffence ['\x01', '\x02', 'e', '\u0301', '\n'] = some (.controlCode '\x01') ∧
    (writeStrE ucd15 20 (.new ⟨[], false, []⟩) ['\x01', '\x02', '\u00e9', '\n']).map (·.2) = some (.text (.controlCode '\x01')) := by
  decide +kernel

example : (writeStrE ucd15 20 (.new ⟨[], false, []⟩) ['a', ESC, '\x07']).map (·.2) = some (.text .escape) ∧
    (writeStrE ucd15 20 (.newAnsi true ⟨[], false, []⟩) ['a', ESC, '\x07']).map (·.2) = some (.text .unrecognizedEscape) ∧
    (writeStrE ucd15 20 (.new ⟨[], false, []⟩) ['\u0301', '\n']).map (·.2) = some .start ∧
    (writeStrE ucd15 20 (.new ⟨[], false, [.fail 1]⟩) ['a', '\n']).map (·.2) = some .sink ∧
    (writeStrE ucd15 20 (.newCrlf ⟨[], false, []⟩) ['a', '\n', '\u2028']).map (·.2) = some (.text .lineSeparation) := by decide +kernel

end Verif
