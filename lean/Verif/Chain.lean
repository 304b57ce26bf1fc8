import Verif.BufferedReader

/-!
# `Read::chain`
-/

namespace Verif
open Ucd

variable {U : Ucd}

/-- `std::io::Chain<TextReader<_>, TextReader<_>>`: whether the first is done, and the two readers with the rests of the scripts of their sources. -/
structure ChainR where
  done : Bool
  t1 : TextInput
  s1 : List Event
  t2 : TextInput
  s2 : List Event
  deriving DecidableEq, Repr

/-- A read of the second reader (`src/text_reader.rs:117-119`, by `layered_io::default_read`). -/
def ChainR.second (U : Ucd) (c : ChainR) (n : Nat) : ChainR × StdRet × Bytes :=
  let r := readWithStatus U n c.t2 c.s2
  ({ c with t2 := r.input, s2 := r.src }, stdRet r.ret, if r.ret.isOk then encode r.out else [])

/-- `Chain::read` (standard library): the first reader is read until it gives nothing, then the second.  The buffer cannot be empty where
that is asked, as the reader refuses it. -/
def ChainR.read (U : Ucd) (c : ChainR) (n : Nat) : ChainR × StdRet × Bytes :=
  if c.done then c.second U n
  else
    let r := readWithStatus U n c.t1 c.s1
    if stdRet r.ret = .ok 0 then { c with done := true, t1 := r.input, s1 := r.src }.second U n
    else ({ c with t1 := r.input, s1 := r.src }, stdRet r.ret, if r.ret.isOk then encode r.out else [])

/-- The results of calls, and the bytes that they deliver. -/
def ChainR.calls (U : Ucd) (c : ChainR) : List Nat → List (StdRet × Bytes)
  | [] => []
  | n :: ns => (c.read U n).2 :: ChainR.calls U (c.read U n).1 ns

theorem stdRet_nothing {r : Ret} : stdRet r = .ok 0 ↔ r = .ok 0 .end_ := by
  cases r with
  | ok n st => simp only [stdRet]; split <;> simp_all
  | _ => simp [stdRet]

theorem calls_done (ns : List Nat) : ∀ c : ChainR, c.done = true →
    c.calls U ns = (readMany U ns c.t2 c.s2).map fun r => (stdRet r.ret, if r.ret.isOk then encode r.out else []) := by
  induction ns with
  | nil => intro c _; rfl
  | cons n ns ih =>
    intro c hc
    rw [ChainR.calls, readMany, List.map_cons]
    have : c.read U n = c.second U n := by rw [ChainR.read, if_pos hc]
    rw [this, ih _ (by simpa [ChainR.second] using hc)]
    rfl

theorem encode_delivered (rs : List ReadResult) : encode (delivered rs) =
    ((rs.map fun r => (stdRet r.ret, if r.ret.isOk then encode r.out else [])).map Prod.snd).flatten := by
  induction rs with
  | nil => rfl
  | cons r rs ih =>
    simp only [delivered, List.flatMap_cons, encode_append] at ih ⊢
    rw [ih]
    simp only [List.map_cons, List.flatten_cons]
    split <;> simp [encode]

/-- The calls are reads of the first reader, and when it has ended, of the second. -/
theorem calls_chain (ns : List Nat) : ∀ c : ChainR, c.done = false → ∃ a b : List Nat,
    ((c.calls U ns).map Prod.snd).flatten = encode (delivered (readMany U a c.t1 c.s1)) ++ encode (delivered (readMany U b c.t2 c.s2)) ∧
    (b ≠ [] → ∃ r, (readMany U a c.t1 c.s1).getLast? = some r ∧ r.ret = .ok 0 .end_) ∧
    (((c.calls U ns).map Prod.fst).getLast? = some (.ok 0) →
      b ≠ [] ∧ ∃ r, (readMany U b c.t2 c.s2).getLast? = some r ∧ r.ret = .ok 0 .end_) := by
  induction ns with
  | nil => intro c _; exact ⟨[], [], rfl, by simp, by simp [ChainR.calls]⟩
  | cons n ns ih =>
    intro c hc
    by_cases h0 : stdRet (readWithStatus U n c.t1 c.s1).ret = .ok 0
    · have he := stdRet_nothing.1 h0
      have hnil : encode (readWithStatus U n c.t1 c.s1).out = [] := List.length_eq_zero_iff.1 (ret_count he).symm
      have hcalls : c.calls U (n :: ns) =
          ChainR.calls U { c with done := true, t1 := (readWithStatus U n c.t1 c.s1).input, s1 := (readWithStatus U n c.t1 c.s1).src } (n :: ns) := by
        rw [ChainR.calls, ChainR.calls]
        have e : c.read U n = ChainR.read U { c with done := true, t1 := (readWithStatus U n c.t1 c.s1).input, s1 := (readWithStatus U n c.t1 c.s1).src } n := by
          rw [ChainR.read, if_neg (by simp [hc]), ChainR.read, if_pos rfl]
          simp only [h0, if_true]
        rw [e]
      refine ⟨[n], n :: ns, ?_, fun _ => ⟨readWithStatus U n c.t1 c.s1, by simp [readMany], he⟩, ?_⟩
      · rw [hcalls, calls_done _ _ rfl, ← encode_delivered]
        simp [readMany, delivered]
        split
        · exact hnil
        · rfl
      · rw [hcalls, calls_done _ _ rfl]
        intro hl
        refine ⟨by simp, ?_⟩
        simp only [List.map_map, List.getLast?_map, Option.map_eq_some_iff, Function.comp] at hl
        obtain ⟨r, hr, h⟩ := hl
        exact ⟨r, hr, stdRet_nothing.1 h⟩
    · have e : c.read U n = ({ c with t1 := (readWithStatus U n c.t1 c.s1).input, s1 := (readWithStatus U n c.t1 c.s1).src },
          stdRet (readWithStatus U n c.t1 c.s1).ret, if (readWithStatus U n c.t1 c.s1).ret.isOk then encode (readWithStatus U n c.t1 c.s1).out else []) := by
        rw [ChainR.read, if_neg (by simp [hc])]
        simp only [h0, if_false]
      obtain ⟨a, b, h1, h2, h3⟩ := ih (c.read U n).1 (by rw [e]; exact hc)
      rw [e] at h1 h2 h3
      simp only at h1 h2 h3
      refine ⟨n :: a, b, ?_, ?_, ?_⟩
      · rw [ChainR.calls, e]
        simp only [List.map_cons, List.flatten_cons, h1, readMany, delivered, List.flatMap_cons, encode_append]
        split <;> simp [encode]
      · intro hb
        obtain ⟨r, hr, h⟩ := h2 hb
        exact ⟨r, by rw [readMany, List.getLast?_cons, hr]; rfl, h⟩
      · intro hl
        rw [ChainR.calls, e, List.map_cons, List.getLast?_cons] at hl
        cases hq : ((ChainR.calls U { c with t1 := (readWithStatus U n c.t1 c.s1).input, s1 := (readWithStatus U n c.t1 c.s1).src } ns).map Prod.fst).getLast? with
        | none => rw [hq] at hl; exact absurd (by simpa using hl) h0
        | some q => rw [hq] at hl; exact h3 (by rw [hq]; simpa using hl)

/-- When the first reader gives nothing, the call is one of the second. -/
theorem calls_switch (c : ChainR) (hc : c.done = false) (n : Nat) (ns : List Nat) (h0 : stdRet (readWithStatus U n c.t1 c.s1).ret = .ok 0) :
    (c.calls U (n :: ns)).map Prod.fst = (readMany U (n :: ns) c.t2 c.s2).map fun r => stdRet r.ret := by
  have e : c.read U n = ChainR.read U { c with done := true, t1 := (readWithStatus U n c.t1 c.s1).input, s1 := (readWithStatus U n c.t1 c.s1).src } n := by
    rw [ChainR.read, if_neg (by simp [hc]), ChainR.read, if_pos rfl]
    simp only [h0, if_true]
  have := calls_done (U := U) (n :: ns)
    { c with done := true, t1 := (readWithStatus U n c.t1 c.s1).input, s1 := (readWithStatus U n c.t1 c.s1).src } rfl
  rw [ChainR.calls, ← e] at this
  rw [ChainR.calls, this, List.map_map]
  rfl

/-- If either reader comes to give nothing, so does the chain. -/
theorem chain_reach (lens : Nat → Nat) (t2 : TextInput) (s2 : List Event)
    (h2 : ∀ i, ∃ m r, (readMany U ((List.range' i (m + 1)).map lens) t2 s2).getLast? = some r ∧ r.ret = .ok 0 .end_) (k : Nat) :
    ∀ (i : Nat) (t1 : TextInput) (s1 : List Event),
      (∃ r, (readMany U ((List.range' i (k + 1)).map lens) t1 s1).getLast? = some r ∧ r.ret = .ok 0 .end_) →
      ∃ m, ((ChainR.calls U { done := false, t1 := t1, s1 := s1, t2 := t2, s2 := s2 } ((List.range' i (m + 1)).map lens)).map Prod.fst).getLast? =
        some (.ok 0) := by
  induction k with
  | zero =>
    intro i t1 s1 ⟨r, hr, he⟩
    have h0 : stdRet (readWithStatus U (lens i) t1 s1).ret = .ok 0 := by
      simp [readMany] at hr
      rw [hr]; exact stdRet_nothing.2 he
    obtain ⟨m, r2, hr2, he2⟩ := h2 i
    refine ⟨m, ?_⟩
    rw [List.range'_succ, List.map_cons] at hr2 ⊢
    rw [calls_switch _ rfl _ _ h0, List.getLast?_map, hr2, Option.map_some, stdRet_nothing.2 he2]
  | succ k ih =>
    intro i t1 s1 ⟨r, hr, he⟩
    by_cases h0 : stdRet (readWithStatus U (lens i) t1 s1).ret = .ok 0
    · obtain ⟨m, r2, hr2, he2⟩ := h2 i
      refine ⟨m, ?_⟩
      rw [List.range'_succ, List.map_cons] at hr2 ⊢
      rw [calls_switch _ rfl _ _ h0, List.getLast?_map, hr2, Option.map_some, stdRet_nothing.2 he2]
    · obtain ⟨m, hm⟩ := ih (i + 1) (readWithStatus U (lens i) t1 s1).input (readWithStatus U (lens i) t1 s1).src (by
        refine ⟨r, ?_, he⟩
        rw [List.range'_succ, List.map_cons, readMany, List.getLast?_cons] at hr
        rw [List.range'_succ, List.map_cons, readMany, List.getLast?_cons] at hr ⊢
        simpa using hr)
      refine ⟨m + 1, ?_⟩
      rw [List.range'_succ, List.map_cons, ChainR.calls, List.map_cons, List.getLast?_cons]
      have e : (ChainR.read U { done := false, t1 := t1, s1 := s1, t2 := t2, s2 := s2 } (lens i)).1 =
          { done := false, t1 := (readWithStatus U (lens i) t1 s1).input, s1 := (readWithStatus U (lens i) t1 s1).src, t2 := t2, s2 := s2 } := by
        rw [ChainR.read, if_neg (by simp)]
        simp only [h0, if_false]
      rw [e, hm]
      rfl

end Verif
