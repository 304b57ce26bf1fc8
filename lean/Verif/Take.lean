import Verif.BufferedReader

/-!
# `Read::take`

`std::io::Take` around a reader, and around a reader that is behind a buffer.
-/

namespace Verif
open Ucd

variable {U : Ucd}

/-- `Take::read` (standard library) around a `TextReader` (`src/text_reader.rs:117-119`), with calls of these sizes: at the limit nothing is
read; otherwise the buffer is cut down to the limit, and the limit goes down by what has been read.  The results, and what is delivered. -/
def takeReads (U : Ucd) : Nat → List Nat → TextInput → List Event → List (StdRet × Bytes)
  | _, [], _, _ => []
  | limit, n :: ns, t, src =>
    if limit = 0 then (.ok 0, []) :: takeReads U limit ns t src
    else
      let r := readWithStatus U (min n limit) t src
      let b := if r.ret.isOk then encode r.out else []
      (stdRet r.ret, b) :: takeReads U (limit - b.length) ns r.input r.src

/-- The same around a `BufReader` around one. -/
def BufR.takeReads (U : Ucd) : Nat → List Nat → BufR → List (StdRet × Bytes)
  | _, [], _ => []
  | limit, n :: ns, x =>
    if limit = 0 then (.ok 0, []) :: BufR.takeReads U limit ns x
    else
      let a := x.read U (min n limit)
      (a.2.1, a.2.2) :: BufR.takeReads U (limit - a.2.2.length) ns a.1

/-- These are calls of smaller sizes, up to the limit. -/
theorem takeReads_calls (hU : TextLaws U) (ns : List Nat) : ∀ (limit : Nat) (x : BufR), x.Sound U → ∃ ms : List Nat, (ns = [] → ms = []) ∧
    ((BufR.takeReads U limit ns x).map Prod.snd).flatten = x.bytes U ms ∧ (x.bytes U ms).length ≤ limit ∧
    (∀ o ∈ (BufR.takeReads U limit ns x).map Prod.fst, o = .ok 0 ∨ o ∈ x.results U ms) ∧
    (∀ n ∈ ns.getLast?, 0 < n → ((BufR.takeReads U limit ns x).map Prod.fst).getLast? = some (.ok 0) →
      (x.bytes U ms).length = limit ∨ ∃ ms' m, ms = ms' ++ [m] ∧ 0 < m ∧ (x.results U ms).getLast? = some (.ok 0)) := by
  induction ns with
  | nil => intro limit x _; exact ⟨[], fun _ => rfl, rfl, by simp [BufR.bytes], by simp [BufR.takeReads], by simp⟩
  | cons n ns ih =>
    intro limit x hx
    rw [BufR.takeReads]
    by_cases h0 : limit = 0
    · obtain ⟨ms, e0, e1, e2, e3, e4⟩ := ih limit x hx
      rw [if_pos h0]
      refine ⟨ms, by simp, by simpa using e1, e2, ?_, fun m hm hp hr => Or.inl (by omega)⟩
      intro o ho
      simp only [List.map_cons, List.mem_cons] at ho
      rcases ho with rfl | ho
      · exact Or.inl rfl
      · exact e3 o ho
    · rw [if_neg h0]
      obtain ⟨s1, s2, s3, -⟩ := bufr_sound hU x (min n limit) hx
      have hle : (x.read U (min n limit)).2.2.length ≤ limit := by
        by_cases h : ∃ k, (x.read U (min n limit)).2.1 = .ok k
        · obtain ⟨k, hk⟩ := h
          obtain ⟨a1, a2⟩ := s2 k hk
          omega
        · rw [s3 fun k hk => h ⟨k, hk⟩]; simp
      obtain ⟨ms, e0, e1, e2, e3, e4⟩ := ih (limit - (x.read U (min n limit)).2.2.length) _ s1
      refine ⟨min n limit :: ms, by simp, ?_, ?_, ?_, ?_⟩
      · simp [BufR.bytes, e1]
      · simp only [BufR.bytes, List.length_append]; omega
      · intro o ho
        simp only [List.map_cons, List.mem_cons] at ho
        rw [BufR.results]
        rcases ho with rfl | ho
        · exact Or.inr (by simp)
        · exact (e3 o ho).imp id fun h => by simp [h]
      · intro m hm hp hr
        cases ns with
        | nil =>
          simp at hm; subst hm
          simp only [BufR.takeReads, List.map_cons, List.map_nil, List.getLast?_singleton] at hr e1 e2
          rw [e0 rfl]
          exact Or.inr ⟨[], min n limit, rfl, by omega, by simpa [BufR.results] using hr⟩
        | cons n' ns =>
          have hr' : ((BufR.takeReads U (limit - (x.read U (min n limit)).2.2.length) (n' :: ns) (x.read U (min n limit)).1).map Prod.fst).getLast? = some (.ok 0) := by
            have hne : (BufR.takeReads U (limit - (x.read U (min n limit)).2.2.length) (n' :: ns) (x.read U (min n limit)).1).map Prod.fst ≠ [] := by
              rw [BufR.takeReads]; split <;> simp
            simp only [List.map_cons] at hr
            rw [List.getLast?_cons] at hr
            cases hq : ((BufR.takeReads U (limit - (x.read U (min n limit)).2.2.length) (n' :: ns) (x.read U (min n limit)).1).map Prod.fst).getLast? with
            | none => exact absurd (List.getLast?_eq_none_iff.1 hq) hne
            | some q => rw [hq] at hr; simpa using hr
          rcases e4 m (by simpa using hm) hp hr' with h | ⟨ms', m', rfl, h2, h3⟩
          · left; simp only [BufR.bytes, List.length_append]; omega
          · right
            refine ⟨min n limit :: ms', m', rfl, h2, ?_⟩
            rw [BufR.results, List.getLast?_cons, h3]; rfl

end Verif
