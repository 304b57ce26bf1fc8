import Verif.Take
import Verif.Props.BufferedReader
import Verif.Props.Prompt

/-!
# `Read::take` (C153)
-/

namespace Verif
open Ucd Spec

/-- C153: with a `BufReader` of at least 136 bytes between, `take` works: at every moment what it has delivered is a beginning of the bytes of the
whole text, no more than the limit; no call is refused for its size; and if a call with room for a byte gives none, it is the bytes of the
text up to the limit, or all of them. -/
theorem c153_buffered (limit cap : Nat) (hc : 136 ≤ cap) (nel lsps : Bool) (src : List Event) (hsrc : Ending src) (ns : List Nat) (lens : List Nat)
    (hl : Completes ucd15 nel lsps src lens) :
    let rs := BufR.takeReads ucd15 limit ns (BufR.around cap nel lsps src)
    (rs.map Prod.snd).flatten <+: encode (output ucd15 nel lsps src lens) ∧ (rs.map Prod.snd).flatten.length ≤ limit ∧
    (∀ o ∈ rs.map Prod.fst, o = .interrupted ∨ ∃ k, o = .ok k) ∧
    ∀ n ∈ ns.getLast?, 0 < n → (rs.map Prod.fst).getLast? = some (.ok 0) →
      (rs.map Prod.snd).flatten = (encode (output ucd15 nel lsps src lens)).take limit := by
  have hx : (BufR.around cap nel lsps src).Sound ucd15 := ⟨⟨_, _, _, Rel.init nel lsps⟩, by simp [BufR.around]⟩
  obtain ⟨ms, -, e1, e2, e3, e4⟩ := takeReads_calls textLaws15 ns limit _ hx
  have hp : (BufR.around cap nel lsps src).bytes ucd15 ms <+: encode (output ucd15 nel lsps src lens) := by
    obtain ⟨lens', -, h⟩ := c149_bytes cap nel lsps src ms
    obtain ⟨t, ht⟩ := c118_beginning nel lsps src hsrc lens' lens hl
    refine ⟨((BufR.around cap nel lsps src).run ucd15 ms).buf ++ encode t, ?_⟩
    rw [← ht, encode_append, ← List.append_assoc, h, output]
  simp only
  rw [e1]
  refine ⟨hp, e2, ?_, fun n hn h0 hr => ?_⟩
  · intro o ho
    rcases e3 o ho with rfl | h
    · exact Or.inr ⟨0, rfl⟩
    · exact c149_no_error cap hc nel lsps src hsrc.no_err ms o h
  · rcases e4 n hn h0 hr with h | ⟨ms', m, rfl, h2, h3⟩
    · obtain ⟨t, ht⟩ := hp
      rw [← ht, ← h, List.take_left' rfl]
    · have := c149_whole cap nel lsps src hsrc ms' m h2 h3 lens hl
      rw [this] at e2 ⊢
      rw [List.take_of_length_le e2]

/-- C153: without the buffer it does not: as soon as less than 136 bytes are left up to the limit, but not none, every call is refused, in
every state of the reader and for all sources, and nothing more is delivered. -/
theorem c153_stuck (limit : Nat) (h0 : 0 < limit) (hl : limit < 136) (t : TextInput) (src : List Event) (ns : List Nat) :
    ∀ a ∈ takeReads ucd15 limit ns t src, a = (.invalidInput, []) := by
  induction ns with
  | nil => simp [takeReads]
  | cons n ns ih =>
    have : readWithStatus ucd15 (min n limit) t src = { ret := .invalidInput, out := [], input := t, src := src } := by
      rw [readWithStatus, if_pos (show min n limit < normalizationBufferSize from by rw [show normalizationBufferSize = 136 from rfl]; omega)]
    intro a ha
    rw [takeReads, if_neg (by omega), this] at ha
    rcases List.mem_cons.1 ha with rfl | ha
    · rfl
    · exact ih a ha

/-- So with a limit of 140 a longer text breaks off with an error, and with a buffer between it comes up to the limit. -/
theorem c153_refuted_direct :
    (takeReads ucd15 140 [200, 200, 200] (.new false false) (script [] (List.replicate 150 'a'))).map (fun a => (a.1, a.2.length)) =
      [(.ok 137, 137), (.invalidInput, 0), (.invalidInput, 0)] ∧
    (BufR.takeReads ucd15 140 [200, 200, 200] (BufR.around 136 false false (script [] (List.replicate 150 'a')))).map (fun a => (a.1, a.2.length)) =
      [(.ok 137, 137), (.ok 3, 3), (.ok 0, 0)] := by
  decide +kernel

/-- The hypotheses of `c153_buffered` hold of this source. -/
example : Ending (script [['a', '\r']] ['\n', 'e', '́']) ∧ Completes ucd15 false false (script [['a', '\r']] ['\n', 'e', '́']) [136, 136] ∧
    (BufR.takeReads ucd15 3 [1, 1, 1, 1, 1] (BufR.around 136 false false (script [['a', '\r']] ['\n', 'e', '́']))) =
      [(.interrupted, []), (.ok 1, [97]), (.ok 1, [10]), (.ok 1, [0xc3]), (.ok 0, [])] :=
  ⟨ending_script _ _, completes_of (by decide +kernel), by decide +kernel⟩

/-- A `BufReader` in a state that calls on this source lead to. -/
def BufR.Reached (nel lsps : Bool) (src : List Event) (x : BufR) : Prop :=
  136 ≤ x.cap ∧ ∃ lens, finalState (.new nel lsps) src (readMany ucd15 lens (.new nel lsps) src) = (x.input, x.src)

theorem reached_read {nel lsps : Bool} {src : List Event} (x : BufR) (n : Nat) (h : x.Reached nel lsps src) :
    (x.read ucd15 n).1.Reached nel lsps src := by
  obtain ⟨h1, lens, h2⟩ := h
  rcases bufr_step (U := ucd15) x n with ⟨-, e, -⟩ | ⟨-, len, -, e0, e1, e2, -⟩
  · rw [e]; exact ⟨h1, lens, h2⟩
  · refine ⟨by rw [e0]; exact h1, lens ++ [len], ?_⟩
    rw [readMany_append, h2, e1, e2]
    simp [readMany, finalState]

theorem reached_ends {nel lsps : Bool} {src : List Event} (hsrc : Ending src) (x : BufR) (h : x.Reached nel lsps src) {n : Nat} (hn : 0 < n) :
    ∃ m, (x.results ucd15 (List.replicate (m + 1) n)).getLast? = some (.ok 0) := by
  obtain ⟨hc, lens, h2⟩ := h
  have hl : normalizationBufferSize ≤ (if x.cap ≤ n then n else x.cap) := by
    rw [show normalizationBufferSize = 136 from rfl]; split <;> omega
  generalize hL : (if x.cap ≤ n then n else x.cap) = len at hl
  obtain ⟨es, -, hR, -⟩ := run_rel textLaws15 lens _ src [] [] (Rel.init (U := ucd15) nel lsps)
  rw [h2] at hR
  obtain ⟨k, r, hr, n', hn'⟩ := reach textLaws15 (ctl_new (U := ucd15) nel lsps) (fun _ => len) (fun _ => hl) x.input x.src _ _ 1 0 hR (by simp)
  rw [show (List.range' 0 k).map (fun _ => len) = List.replicate k len by simp [List.map_const']] at hr
  have hrun : (readMany ucd15 (lens ++ List.replicate k len) (.new nel lsps) src).getLast? = some r := by
    rw [readMany_append, h2, List.getLast?_append, hr]; rfl
  have hnext := read_after_end textLaws15 hsrc hrun hn' hl
  refine bufr_reach (U := ucd15) hn k x _ ?_ hnext
  rw [hL, List.replicate_succ', readMany_append, show finalState x.input x.src _ = (r.input, r.src) by simp [finalState, hr], List.getLast?_append]
  rfl

/-- C153: with a `BufReader` of at least 136 bytes between, `take` comes to its end: calls of any size but 0 come to one that gives none. -/
theorem c153_ends (limit cap : Nat) (hc : 136 ≤ cap) (nel lsps : Bool) (src : List Event) (hsrc : Ending src) (n : Nat) (hn : 0 < n) :
    ∃ m, ((BufR.takeReads ucd15 limit (List.replicate m n) (BufR.around cap nel lsps src)).map Prod.fst).getLast? = some (.ok 0) := by
  suffices H : ∀ (limit : Nat) (x : BufR), x.Reached nel lsps src →
      ∃ m, ((BufR.takeReads ucd15 limit (List.replicate (m + 1) n) x).map Prod.fst).getLast? = some (.ok 0) by
    obtain ⟨m, h⟩ := H limit (BufR.around cap nel lsps src) ⟨hc, [], rfl⟩
    exact ⟨m + 1, h⟩
  intro limit
  induction limit using Nat.strongRecOn with
  | _ limit ih =>
    by_cases h0 : limit = 0
    · intro x _
      exact ⟨0, by simp [BufR.takeReads, h0]⟩
    · suffices K : ∀ (k : Nat) (x : BufR), x.Reached nel lsps src →
          (x.results ucd15 (List.replicate (k + 1) (min n limit))).getLast? = some (.ok 0) →
          ∃ m, ((BufR.takeReads ucd15 limit (List.replicate (m + 1) n) x).map Prod.fst).getLast? = some (.ok 0) by
        intro x hx
        obtain ⟨k, hk⟩ := reached_ends hsrc x hx (n := min n limit) (by omega)
        exact K k x hx hk
      have step : ∀ (x : BufR) (m : Nat),
          ((BufR.takeReads ucd15 (limit - (x.read ucd15 (min n limit)).2.2.length) (List.replicate (m + 1) n) (x.read ucd15 (min n limit)).1).map Prod.fst).getLast? =
            some (.ok 0) →
          ((BufR.takeReads ucd15 limit (List.replicate (m + 1 + 1) n) x).map Prod.fst).getLast? = some (.ok 0) := by
        intro x m h
        rw [List.replicate_succ, BufR.takeReads, if_neg h0]
        simp only
        rw [List.map_cons, List.getLast?_cons, h]
        rfl
      intro k
      induction k with
      | zero =>
        intro x hx hk
        refine ⟨0, ?_⟩
        simp [BufR.results] at hk
        simp [BufR.takeReads, h0, hk]
      | succ k ihk =>
        intro x hx hk
        by_cases hb : (x.read ucd15 (min n limit)).2.2.length = 0
        · rw [List.replicate_succ, BufR.results, List.getLast?_cons] at hk
          rw [List.replicate_succ, BufR.results, List.getLast?_cons] at hk
          obtain ⟨m, hm⟩ := ihk _ (reached_read x (min n limit) hx) (by
            rw [List.replicate_succ, BufR.results, List.getLast?_cons]
            simpa using hk)
          exact ⟨m + 1, step x m (by rw [hb]; exact hm)⟩
        · obtain ⟨m, hm⟩ := ih (limit - (x.read ucd15 (min n limit)).2.2.length) (by omega) _ (reached_read x (min n limit) hx)
          exact ⟨m + 1, step x m hm⟩

/-- C153: the number that a successful call returns is that of the bytes which it delivers, and a call that fails delivers none, whatever the
limit, the capacity, the sizes and the source. -/
theorem c153_count (cap : Nat) (nel lsps : Bool) (src : List Event) (limit : Nat) (ns : List Nat) :
    ∀ a ∈ BufR.takeReads ucd15 limit ns (BufR.around cap nel lsps src),
      (∀ k, a.1 = .ok k → a.2.length = k ∧ k ≤ limit) ∧ ((∀ k, a.1 ≠ .ok k) → a.2 = []) := by
  suffices H : ∀ (limit : Nat) (x : BufR), x.Sound ucd15 → ∀ a ∈ BufR.takeReads ucd15 limit ns x,
      (∀ k, a.1 = .ok k → a.2.length = k ∧ k ≤ limit) ∧ ((∀ k, a.1 ≠ .ok k) → a.2 = []) from
    H limit _ ⟨⟨_, _, _, Rel.init nel lsps⟩, by simp [BufR.around]⟩
  induction ns with
  | nil => intro limit x _ a ha; simp [BufR.takeReads] at ha
  | cons n ns ih =>
    intro limit x hx a ha
    rw [BufR.takeReads] at ha
    split at ha
    · rcases List.mem_cons.1 ha with rfl | ha
      · exact ⟨fun k h => by cases h; exact ⟨rfl, Nat.zero_le _⟩, fun _ => rfl⟩
      · exact ih limit x hx a ha
    · obtain ⟨h0, h1, h2, -⟩ := bufr_sound textLaws15 x (min n limit) hx
      rcases List.mem_cons.1 ha with rfl | ha
      · exact ⟨fun k h => ⟨(h1 k h).1, by have := (h1 k h).2; omega⟩, h2⟩
      · obtain ⟨e1, e2⟩ := ih _ _ h0 a ha
        exact ⟨fun k h => ⟨(e1 k h).1, by have := (e1 k h).2; omega⟩, e2⟩

end Verif
