import Verif.BufferedReader
import Verif.Props.Reader
import Verif.Props.Sizes
import Verif.Props.Cat

/-!
# A reader behind a buffer (C149)
-/

namespace Verif
open Ucd Spec

/-- A `BufReader` with this capacity around a new reader. -/
def BufR.around (cap : Nat) (nel lsps : Bool) (src : List Event) : BufR := { cap, buf := [], input := .new nel lsps, src }

/-- C149: whatever the sizes of the calls, what they have delivered, with what is still in the buffer, is the bytes of what the reader delivers
for reads with buffers of the capacity, or of callers that have at least that.  For all sources, failing ones included. -/
theorem c149_bytes (cap : Nat) (nel lsps : Bool) (src : List Event) (ns : List Nat) :
    ∃ lens : List Nat, (∀ l ∈ lens, l = cap ∨ (cap ≤ l ∧ l ∈ ns)) ∧
      (BufR.around cap nel lsps src).bytes ucd15 ns ++ ((BufR.around cap nel lsps src).run ucd15 ns).buf = encode (output ucd15 nel lsps src lens) := by
  obtain ⟨lens, h1, -, h2, -⟩ := bufr_run (U := ucd15) ns (BufR.around cap nel lsps src)
  exact ⟨lens, h1, by simpa [BufR.around, output] using h2⟩

/-- C149: if a call with room for a byte gives none, without an error, then all that the source has to give has been delivered: the bytes are
those of a complete run of the reader, with whatever buffers it is made. -/
theorem c149_whole (cap : Nat) (nel lsps : Bool) (src : List Event) (hsrc : Ending src) (ns : List Nat) (n : Nat) (hn : 0 < n)
    (h : ((BufR.around cap nel lsps src).results ucd15 (ns ++ [n])).getLast? = some (.ok 0)) (lens : List Nat)
    (hl : Completes ucd15 nel lsps src lens) :
    (BufR.around cap nel lsps src).bytes ucd15 (ns ++ [n]) = encode (output ucd15 nel lsps src lens) := by
  obtain ⟨lens', -, -, h2, h3⟩ := bufr_run (U := ucd15) (ns ++ [n]) (BufR.around cap nel lsps src)
  obtain ⟨h4, r, h5, h6⟩ := h3 n (by simp) hn h
  rw [h4] at h2
  rw [c16_buffer_independent nel lsps src hsrc lens lens' hl ⟨r, 0, h5, h6⟩]
  simpa [BufR.around, output] using h2

/-- C149: with a capacity of at least 136 bytes no call is refused for its size, not even one for a single byte. -/
theorem c149_no_refusal (cap : Nat) (hc : 136 ≤ cap) (nel lsps : Bool) (src : List Event) (ns : List Nat) :
    StdRet.invalidInput ∉ (BufR.around cap nel lsps src).results ucd15 ns := by
  suffices H : ∀ x : BufR, 136 ≤ x.cap → StdRet.invalidInput ∉ x.results ucd15 ns from H _ hc
  induction ns with
  | nil => intro x _; simp [BufR.results]
  | cons n ns ih =>
    intro x hx
    rw [BufR.results, List.mem_cons, not_or]
    refine ⟨fun h => ?_, ih _ (by rw [bufr_cap]; exact hx)⟩
    rcases bufr_step (U := ucd15) x n with ⟨-, -, -, e⟩ | ⟨-, len, hl, -, -, -, -, -, e, -⟩
    · rw [e] at h; simp at h
    · have := read_invalid.1 (e h.symm)
      rw [show normalizationBufferSize = 136 from rfl] at this
      split at hl <;> omega

/-- C149: with a smaller one, every call that does not have room for 136 bytes is refused, from the first on. -/
theorem c149_refused (cap : Nat) (hc : cap < 136) (nel lsps : Bool) (src : List Event) (ns : List Nat) (hn : ∀ n ∈ ns, n < 136) :
    ∀ o ∈ (BufR.around cap nel lsps src).results ucd15 ns, o = .invalidInput := by
  suffices H : ∀ x : BufR, x.buf = [] → x.cap < 136 → ∀ o ∈ x.results ucd15 ns, o = .invalidInput from H _ rfl hc
  induction ns with
  | nil => intro x _ _; simp [BufR.results]
  | cons n ns ih =>
    intro x hb hx o ho
    have hn0 := hn n (by simp)
    have inv : ∀ len, len < 136 → readWithStatus ucd15 len x.input x.src = { ret := .invalidInput, out := [], input := x.input, src := x.src } := by
      intro len hlen
      rw [readWithStatus, if_pos (show len < normalizationBufferSize from hlen)]
    have e : (x.read ucd15 n).2.1 = .invalidInput ∧ (x.read ucd15 n).1 = x := by
      unfold BufR.read
      rw [if_neg (by simp [hb])]
      split
      · rw [inv n hn0]; exact ⟨rfl, rfl⟩
      · rw [inv _ hx]; exact ⟨rfl, rfl⟩
    rw [BufR.results] at ho
    rcases List.mem_cons.1 ho with rfl | ho
    · exact e.1
    · rw [e.2] at ho
      exact ih (fun m hm => hn m (by simp [hm])) x hb hx o ho

/-- Byte by byte, in the middle of a scalar too. -/
example : (BufR.around 136 false false (script [['a', '\r']] ['\n', 'e', '́'])).results ucd15 [1, 1, 1, 0, 1, 2, 200, 1] =
      [.interrupted, .ok 1, .ok 1, .ok 0, .ok 1, .ok 2, .ok 0, .ok 0] ∧
    (BufR.around 136 false false (script [['a', '\r']] ['\n', 'e', '́'])).bytes ucd15 [1, 1, 1, 0, 1, 2, 200, 1] = [0x61, 0x0a, 0xc3, 0xa9, 0x0a] := by
  decide +kernel

/-- C149: with a capacity of at least 136 bytes, a caller that repeats a call with room for at least a byte comes to the end, and has then
received all that the source has to give, with calls for single bytes too. -/
theorem c149_ends (cap : Nat) (hc : 136 ≤ cap) (nel lsps : Bool) (src : List Event) (hsrc : Ending src) (n : Nat) (hn : 0 < n) :
    ∃ m, ((BufR.around cap nel lsps src).results ucd15 (List.replicate m n)).getLast? = some (.ok 0) ∧
      ∀ lens, Completes ucd15 nel lsps src lens →
        (BufR.around cap nel lsps src).bytes ucd15 (List.replicate m n) = encode (output ucd15 nel lsps src lens) := by
  have hl : normalizationBufferSize ≤ (if cap ≤ n then n else cap) := by
    rw [show normalizationBufferSize = 136 from rfl]; split <;> omega
  obtain ⟨k, r, hr, t, ht⟩ := constant_reach nel lsps src _ hl
  have hnext := read_after_end textLaws15 hsrc hr ht hl
  have hrun : readMany ucd15 (List.replicate (k + 1) (if cap ≤ n then n else cap)) (.new nel lsps) src =
      readMany ucd15 (List.replicate k (if cap ≤ n then n else cap)) (.new nel lsps) src ++
        [readWithStatus ucd15 (if cap ≤ n then n else cap) r.input r.src] := by
    rw [List.replicate_succ', readMany_append, show finalState _ _ _ = (r.input, r.src) by simp [finalState, hr]]; rfl
  obtain ⟨m, hm⟩ := bufr_reach (U := ucd15) hn k (BufR.around cap nel lsps src) _
    (show (readMany ucd15 (List.replicate (k + 1) (if cap ≤ n then n else cap)) (.new nel lsps) src).getLast? = _ by
      rw [hrun, List.getLast?_append]; rfl) hnext
  refine ⟨m + 1, hm, fun lens hlens => ?_⟩
  rw [List.replicate_succ'] at hm ⊢
  exact c149_whole cap nel lsps src hsrc _ n hn hm lens hlens

/-- `script` sources come to an end: the hypothesis of `c149_ends`. -/
example : Ending (script [['a', '\r']] ['\n', 'e', '́']) := ending_script _ _

/-- C149: whatever has been read before and whatever the source does, the number that a successful call returns is that of the bytes which it
delivers, and they fit the caller's buffer; a call that fails delivers none; no call panics; and the buffer holds no more than its capacity. -/
theorem c149_count (cap : Nat) (nel lsps : Bool) (src : List Event) (ns : List Nat) (n : Nat) :
    let x := (BufR.around cap nel lsps src).run ucd15 ns
    let a := x.read ucd15 n
    (∀ k, a.2.1 = .ok k → a.2.2.length = k ∧ k ≤ n) ∧ ((∀ k, a.2.1 ≠ .ok k) → a.2.2 = []) ∧ a.2.1 ≠ .panic ∧ x.buf.length ≤ cap := by
  have h0 : (BufR.around cap nel lsps src).Sound ucd15 := ⟨⟨_, _, _, Rel.init nel lsps⟩, by simp [BufR.around]⟩
  have h := bufr_run_sound textLaws15 ns _ h0
  have hc : ∀ (ns : List Nat) (x : BufR), (x.run ucd15 ns).cap = x.cap := by
    intro ns
    induction ns with
    | nil => intro x; rfl
    | cons n ns ih => intro x; rw [BufR.run, ih, bufr_cap]
  obtain ⟨-, h1, h2, h3⟩ := bufr_sound textLaws15 _ n h
  exact ⟨h1, h2, h3, by have := h.2; rw [hc] at this; exact this⟩

theorem bufr_tame (x : BufR) (n : Nat) (hx : x.Sound ucd15) (hc : 136 ≤ x.cap) (hs : ∀ e ∈ x.src, e ≠ .err) :
    ((x.read ucd15 n).2.1 = .interrupted ∨ ∃ k, (x.read ucd15 n).2.1 = .ok k) ∧ ∀ e ∈ (x.read ucd15 n).1.src, e ≠ .err := by
  obtain ⟨⟨k0, emitted, es, hR⟩, -⟩ := hx
  have htame : Tame false x.src := fun e he => ⟨hs e he, by simp⟩
  have key : ∀ len, 136 ≤ len → (∃ k st, (readWithStatus ucd15 len x.input x.src).ret = .ok k st) ∧
      ∀ e ∈ (readWithStatus ucd15 len x.input x.src).src, e ≠ .err := by
    intro len hl
    obtain ⟨⟨st, h1, -⟩, h2, -⟩ := read_tame (U := ucd15) (quiet := false) (t := x.input) (show normalizationBufferSize ≤ len from hl) htame (by simp)
      (read_sound textLaws15 hR (src := x.src) len).2.2
    exact ⟨⟨_, st, h1⟩, fun e he => (h2 e he).1⟩
  unfold BufR.read
  split
  · exact ⟨Or.inr ⟨_, rfl⟩, hs⟩
  · split
    · rename_i hn
      obtain ⟨⟨k, st, h1⟩, h2⟩ := key n (by omega)
      refine ⟨?_, h2⟩
      simp only [h1, stdRet]
      split
      · exact Or.inl rfl
      · exact Or.inr ⟨_, rfl⟩
    · obtain ⟨⟨k, st, h1⟩, h2⟩ := key x.cap hc
      simp only [h1, stdRet]
      split
      · exact ⟨Or.inr ⟨_, rfl⟩, h2⟩
      · rename_i e
        refine ⟨?_, h2⟩
        split
        · exact Or.inl rfl
        · rename_i hz; exact absurd (if_neg hz) (e k)

/-- C149: on a source that does not fail no call fails, but for interruptions, which are to be tried again. -/
theorem c149_no_error (cap : Nat) (hc : 136 ≤ cap) (nel lsps : Bool) (src : List Event) (hsrc : ∀ e ∈ src, e ≠ .err) (ns : List Nat) :
    ∀ o ∈ (BufR.around cap nel lsps src).results ucd15 ns, o = .interrupted ∨ ∃ k, o = .ok k := by
  suffices H : ∀ x : BufR, x.Sound ucd15 → 136 ≤ x.cap → (∀ e ∈ x.src, e ≠ .err) → ∀ o ∈ x.results ucd15 ns, o = .interrupted ∨ ∃ k, o = .ok k from
    H _ ⟨⟨_, _, _, Rel.init nel lsps⟩, by simp [BufR.around]⟩ hc hsrc
  induction ns with
  | nil => intro x _ _ _ o ho; simp [BufR.results] at ho
  | cons n ns ih =>
    intro x h1 h2 h3 o ho
    obtain ⟨e1, e2⟩ := bufr_tame x n h1 h2 h3
    rw [BufR.results] at ho
    rcases List.mem_cons.1 ho with rfl | ho
    · exact e1
    · exact ih _ (bufr_sound textLaws15 x n h1).1 (by rw [bufr_cap]; exact h2) e2 o ho

end Verif
