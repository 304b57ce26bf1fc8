import Verif.ExactDefault
import Verif.ReaderExact
import Verif.LossyTheory
import Verif.ReaderLive

/-!
# The ways to read, mixed

The calls by which a program can take text from a `TextReader`, other than reading to the end, and what any sequence of them
amounts to.
-/

namespace Verif
variable {U : Ucd}

/-- `layered_io::default_read_exact_using_status` (dependency, as `src/read_text.rs:75-104` but for bytes), which
`read_exact_str_using_status` and `read_exact_text_substr_using_status` of a `TextReader` come to (`src/text_input.rs:73-117`):
read into what is left of the buffer until it is full or the end is reported.  `none` when the loop has not ended after `fuel`
iterations. -/
def readExactStatus (U : Ucd) : Nat → Nat → TextInput → List Event → Option FillResult
  | 0, _, _, _ => none
  | fuel + 1, len, t, src =>
    if len = 0 then some { ret := .ok .active, out := [], input := t, src }
    else
      let r := readWithStatus U len t src
      match r.ret with
      | .ok n st =>
        if st = .end_ then
          some { ret := if len - n = 0 then .ok st else .unexpectedEof, out := r.out, input := r.input, src := r.src }
        else (readExactStatus U fuel (len - n) r.input r.src).map fun x => { x with out := r.out ++ x.out }
      | .invalidInput => some { ret := .invalidInput, out := r.out, input := r.input, src := r.src }
      | .sourceError => some { ret := .sourceError, out := r.out, input := r.input, src := r.src }
      | .panic => some { ret := .panic, out := r.out, input := r.input, src := r.src }

/-- A call that reads (`src/text_reader.rs:107-198`). -/
inductive Way where
  /-- `read_with_status`, `read_str_with_status`, `read_text_substr_with_status` with a buffer of `len` bytes. -/
  | status (len : Nat)
  /-- `read`, `read_str`, `read_text_substr` with a buffer of `len` bytes. -/
  | plain (len : Nat)
  /-- `read_vectored` (the standard library's: reads into the first buffer that is not empty). -/
  | vectored (lens : List Nat)
  /-- `read_exact`, `read_exact_str`, `read_exact_text_substr` with a buffer of `len` bytes. -/
  | exact (len : Nat)
  /-- `read_exact_using_status`, `read_exact_str_using_status`, `read_exact_text_substr_using_status`. -/
  | exactStatus (len : Nat)
  /-- `default_read_exact_text_substr` with a buffer that holds `buf`. -/
  | fill (buf : List Char)
  /-- `default_read_exact_text_substr_using_status` with a buffer that holds `buf`. -/
  | fillStatus (buf : List Char)

/-- What a call did: whether its result says that the source is at its end (the status; `Ok(0)`; `UnexpectedEof`), and the text it put into
the buffer. -/
structure WayResult where
  ended : Bool
  out : List Char
  input : TextInput
  src : List Event
  deriving DecidableEq, Repr

/-- The calls of `Way`; `fuel` bounds the loops. -/
def Way.call (U : Ucd) (fuel : Nat) (t : TextInput) (src : List Event) : Way → Option WayResult
  | .status len =>
    let r := readWithStatus U len t src
    some { ended := match r.ret with | .ok _ .end_ => true | _ => false, out := r.out, input := r.input, src := r.src }
  | .plain len =>
    let r := readWithStatus U len t src
    some { ended := stdRet r.ret = .ok 0, out := r.out, input := r.input, src := r.src }
  | .vectored lens =>
    let r := readWithStatus U ((lens.find? (· ≠ 0)).getD 0) t src
    some { ended := stdRet r.ret = .ok 0, out := r.out, input := r.input, src := r.src }
  | .exact len => (readExact U fuel len t src).map fun x => { ended := x.ret = .unexpectedEof, out := x.out, input := x.input, src := x.src }
  | .exactStatus len => (readExactStatus U fuel len t src).map fun x =>
      { ended := x.ret = .unexpectedEof ∨ x.ret = .ok .end_, out := x.out, input := x.input, src := x.src }
  | .fill buf => (fillExact U fuel buf t src).map fun x => { ended := x.ret = .unexpectedEof, out := x.out, input := x.input, src := x.src }
  | .fillStatus buf => (fillExactStatus U fuel buf t src).map fun x =>
      { ended := x.ret = .unexpectedEof ∨ x.ret = .ok .end_, out := x.out, input := x.input, src := x.src }

/-- The calls one after the other. -/
def mixed (U : Ucd) (fuel : Nat) : List Way → TextInput → List Event → Option (List WayResult)
  | [], _, _ => some []
  | w :: ws, t, src =>
    match w.call U fuel t src with
    | none => none
    | some x => (mixed U fuel ws x.input x.src).map (x :: ·)

/-- What the buffers received. -/
def received (xs : List WayResult) : List Char := xs.flatMap (·.out)

/-- The reader and the source after the calls. -/
def afterWays (t : TextInput) (src : List Event) : List WayResult → TextInput × List Event
  | [] => (t, src)
  | x :: xs => afterWays x.input x.src xs

/-- A call amounts to the reads `lens`. -/
structure Amounts (U : Ucd) (t : TextInput) (src : List Event) (lens : List Nat) (ended : Bool) (out : List Char) (t' : TextInput) (src' : List Event) : Prop where
  out : out = written (readMany U lens t src)
  state : (t', src') = finalState t src (readMany U lens t src)
  ended : ended = true → ∃ r n, (readMany U lens t src).getLast? = some r ∧ r.ret = .ok n .end_

theorem Amounts.none {t : TextInput} {src : List Event} : Amounts U t src [] false [] t src := ⟨rfl, rfl, by simp⟩

theorem Amounts.one {t : TextInput} {src : List Event} (len : Nat) {e : Bool} (h : e = true → ∃ n, (readWithStatus U len t src).ret = .ok n .end_) :
    Amounts U t src [len] e (readWithStatus U len t src).out (readWithStatus U len t src).input (readWithStatus U len t src).src :=
  ⟨by simp [readMany, written], by simp [readMany, finalState], fun he => by
    obtain ⟨n, hn⟩ := h he
    exact ⟨_, n, by simp [readMany], hn⟩⟩

theorem Amounts.more {t : TextInput} {src : List Event} (len : Nat) {lens : List Nat} {e : Bool} {o : List Char} {t' : TextInput} {src' : List Event}
    (h : Amounts U (readWithStatus U len t src).input (readWithStatus U len t src).src lens e o t' src') :
    Amounts U t src (len :: lens) e ((readWithStatus U len t src).out ++ o) t' src' :=
  ⟨by rw [h.out]; simp [readMany, written], by rw [h.state, readMany, finalState_cons], fun he => by
    obtain ⟨r, n, h1, h2⟩ := h.ended he
    exact ⟨r, n, by rw [readMany, List.getLast?_cons, h1]; rfl, h2⟩⟩

theorem stdRet_zero {r : Ret} (h : stdRet r = .ok 0) : ∃ n, r = .ok n .end_ := by
  cases r with
  | ok n st =>
    simp only [stdRet] at h
    split at h
    · cases h
    · rename_i hn
      injection h with h
      subst h
      cases st <;> simp_all
  | _ => simp [stdRet] at h

theorem readExact_amounts : ∀ (fuel len : Nat) (t : TextInput) (src : List Event) (x : ExactResult), readExact U fuel len t src = some x →
    ∃ lens, Amounts U t src lens (decide (x.ret = .unexpectedEof)) x.out x.input x.src := by
  intro fuel
  induction fuel with
  | zero => intro len t src x h; simp [readExact] at h
  | succ fuel ih =>
    intro len t src x h
    rw [readExact] at h
    split at h
    · cases h; exact ⟨[], Amounts.none⟩
    · simp only at h
      split at h
      · rename_i hs
        cases h
        exact ⟨[len], Amounts.one len fun _ => stdRet_zero hs⟩
      · obtain ⟨y, hy, rfl⟩ := Option.map_eq_some_iff.1 h
        obtain ⟨lens, ha⟩ := ih _ _ _ _ hy
        exact ⟨_, ha.more len⟩
      · obtain ⟨y, hy, rfl⟩ := Option.map_eq_some_iff.1 h
        obtain ⟨lens, ha⟩ := ih _ _ _ _ hy
        exact ⟨_, ha.more len⟩
      all_goals
        cases h
        exact ⟨[len], Amounts.one len (by simp)⟩

theorem readExactStatus_amounts : ∀ (fuel len : Nat) (t : TextInput) (src : List Event) (x : FillResult), readExactStatus U fuel len t src = some x →
    ∃ lens, Amounts U t src lens (decide (x.ret = .unexpectedEof ∨ x.ret = .ok .end_)) x.out x.input x.src := by
  intro fuel
  induction fuel with
  | zero => intro len t src x h; simp [readExactStatus] at h
  | succ fuel ih =>
    intro len t src x h
    rw [readExactStatus] at h
    split at h
    · cases h; exact ⟨[], by simpa using Amounts.none⟩
    · simp only at h
      split at h
      · rename_i n st hs
        split at h
        · rename_i he
          subst he
          cases h
          exact ⟨[len], Amounts.one len fun _ => ⟨n, hs⟩⟩
        · obtain ⟨y, hy, rfl⟩ := Option.map_eq_some_iff.1 h
          obtain ⟨lens, ha⟩ := ih _ _ _ _ hy
          exact ⟨_, ha.more len⟩
      all_goals
        cases h
        exact ⟨[len], Amounts.one len (by simp)⟩

theorem fillExact_amounts : ∀ (fuel : Nat) (buf : List Char) (t : TextInput) (src : List Event) (x : FillResult), fillExact U fuel buf t src = some x →
    ∃ lens, Amounts U t src lens (decide (x.ret = .unexpectedEof)) x.out x.input x.src := by
  intro fuel
  induction fuel with
  | zero => intro buf t src x h; simp [fillExact] at h
  | succ fuel ih =>
    intro buf t src x h
    rw [fillExact] at h
    split at h
    · cases h; exact ⟨[], Amounts.none⟩
    · simp only at h
      split at h
      · rename_i hs
        cases h
        exact ⟨[_], Amounts.one _ fun _ => stdRet_zero hs⟩
      · split at h
        · obtain ⟨y, hy, rfl⟩ := Option.map_eq_some_iff.1 h
          obtain ⟨lens, ha⟩ := ih _ _ _ _ hy
          exact ⟨_, ha.more _⟩
        · cases h
          exact ⟨[_], Amounts.one _ (by simp)⟩
      all_goals
        cases h
        exact ⟨[_], Amounts.one _ (by simp)⟩

theorem fillExactStatus_amounts : ∀ (fuel : Nat) (buf : List Char) (t : TextInput) (src : List Event) (x : FillResult),
    fillExactStatus U fuel buf t src = some x →
    ∃ lens, Amounts U t src lens (decide (x.ret = .unexpectedEof ∨ x.ret = .ok .end_)) x.out x.input x.src := by
  intro fuel
  induction fuel with
  | zero => intro buf t src x h; simp [fillExactStatus] at h
  | succ fuel ih =>
    intro buf t src x h
    rw [fillExactStatus] at h
    split at h
    · cases h; exact ⟨[], by simpa using Amounts.none⟩
    · simp only at h
      split at h
      · rename_i n st hs
        split at h
        · split at h
          · rename_i he
            subst he
            cases h
            exact ⟨[_], Amounts.one _ fun _ => ⟨n, hs⟩⟩
          · obtain ⟨y, hy, rfl⟩ := Option.map_eq_some_iff.1 h
            obtain ⟨lens, ha⟩ := ih _ _ _ _ hy
            exact ⟨_, ha.more _⟩
        · cases h
          exact ⟨[_], Amounts.one _ (by simp)⟩
      all_goals
        cases h
        exact ⟨[_], Amounts.one _ (by simp)⟩

/-- Every way of reading amounts to some reads. -/
theorem way_amounts {fuel : Nat} {t : TextInput} {src : List Event} {w : Way} {x : WayResult} (h : w.call U fuel t src = some x) :
    ∃ lens, Amounts U t src lens x.ended x.out x.input x.src := by
  cases w with
  | status len =>
    cases h
    refine ⟨[len], Amounts.one len fun he => ?_⟩
    simp only at he
    split at he
    · rename_i n hn; exact ⟨n, hn⟩
    · cases he
  | plain len => cases h; exact ⟨[len], Amounts.one len fun he => stdRet_zero (of_decide_eq_true he)⟩
  | vectored lens => cases h; exact ⟨[_], Amounts.one _ fun he => stdRet_zero (of_decide_eq_true he)⟩
  | exact len =>
    obtain ⟨y, hy, rfl⟩ := Option.map_eq_some_iff.1 h
    exact readExact_amounts _ _ _ _ _ hy
  | exactStatus len =>
    obtain ⟨y, hy, rfl⟩ := Option.map_eq_some_iff.1 h
    exact readExactStatus_amounts _ _ _ _ _ hy
  | fill buf =>
    obtain ⟨y, hy, rfl⟩ := Option.map_eq_some_iff.1 h
    exact fillExact_amounts _ _ _ _ _ hy
  | fillStatus buf =>
    obtain ⟨y, hy, rfl⟩ := Option.map_eq_some_iff.1 h
    exact fillExactStatus_amounts _ _ _ _ _ hy

/-- So does every mixture. -/
theorem mixed_amounts {fuel : Nat} : ∀ (ws : List Way) (t : TextInput) (src : List Event) (xs : List WayResult), mixed U fuel ws t src = some xs →
    ∃ lens, received xs = written (readMany U lens t src) ∧ afterWays t src xs = finalState t src (readMany U lens t src) ∧
      ((∃ x ∈ xs.getLast?, x.ended = true) → ∃ r n, (readMany U lens t src).getLast? = some r ∧ r.ret = .ok n .end_) ∧ (xs = [] → lens = []) := by
  intro ws
  induction ws with
  | nil => intro t src xs h; cases h; exact ⟨[], rfl, rfl, by simp, fun _ => rfl⟩
  | cons w ws ih =>
    intro t src xs h
    rw [mixed] at h
    split at h
    · cases h
    · rename_i x hx
      obtain ⟨ys, hy, rfl⟩ := Option.map_eq_some_iff.1 h
      obtain ⟨l1, ha⟩ := way_amounts hx
      obtain ⟨l2, h1, h2, h3, h4⟩ := ih _ _ _ hy
      have hst : finalState t src (readMany U l1 t src) = (x.input, x.src) := ha.state.symm
      refine ⟨l1 ++ l2, ?_, ?_, ?_, by simp⟩
      · rw [readMany_append, hst]
        show x.out ++ received ys = _
        rw [ha.out, h1]
        simp [written]
      · rw [readMany_append, finalState_append, hst]
        exact h2
      · rw [readMany_append, hst]
        cases ys with
        | nil =>
          rintro ⟨z, hz, he⟩
          cases hz
          obtain ⟨r, n, g1, g2⟩ := ha.ended he
          rw [h4 rfl]
          exact ⟨r, n, by simpa [readMany] using g1, g2⟩
        | cons y ys =>
          rintro ⟨z, hz, he⟩
          obtain ⟨r, n, g1, g2⟩ := h3 ⟨z, by simpa using hz, he⟩
          exact ⟨r, n, by rw [List.getLast?_append, g1]; rfl, g2⟩

end Verif
