import Verif.Lines
import Verif.Search
import Verif.Copy
import Verif.BufferedReader

/-!
# Lines from a reader behind a buffer

`BufReader<TextReader<_>>` as a source of `std::io::BufRead`.
-/

namespace Verif
open Ucd

variable {U : Ucd}

/-- What `BufReader::fill_buf` (standard library) makes of a read of a text reader (`TextReader::read`, `src/text_reader.rs:117-119`, by
`layered_io::default_read`). -/
def fillEvent (r : ReadResult) : BufEvent :=
  match stdRet r.ret with
  | .ok _ => .data (encode r.out)
  | .interrupted => .interrupted
  | _ => .err

/-- The first `k` times that the buffer of this capacity is filled.  Each time is one read of the reader. -/
def fills (U : Ucd) (cap k : Nat) (t : TextInput) (src : List Event) : List BufEvent := (readMany U (List.replicate k cap) t src).map fillEvent

/-- `std::io::Lines::next` (standard library). -/
def stdLinesNext (src : List BufEvent) : Next × List BufEvent :=
  let x := readLine [] src
  match x.ret with
  | .ok 0 => (.done, x.src)
  | .ok _ => (.item (chomp x.buf), x.src)
  | e => (.err e, x.src)

/-- The reads before the first that reports the end with nothing. -/
theorem first_end (len : Nat) : ∀ (K : Nat) (t : TextInput) (src : List Event), (∃ r ∈ readMany U (List.replicate K len) t src, r.ret = .ok 0 .end_) →
    ∃ j, (∀ r ∈ readMany U (List.replicate j len) t src, r.ret ≠ .ok 0 .end_) ∧
      ∃ r, readMany U (List.replicate (j + 1) len) t src = readMany U (List.replicate j len) t src ++ [r] ∧ r.ret = .ok 0 .end_ := by
  intro K
  induction K with
  | zero => intro t src h; simp [readMany] at h
  | succ K ih =>
    intro t src h
    by_cases h0 : (readWithStatus U len t src).ret = .ok 0 .end_
    · exact ⟨0, by simp [readMany], readWithStatus U len t src, by simp [readMany], h0⟩
    · rw [List.replicate_succ, readMany] at h
      obtain ⟨r, hr, he⟩ := h
      rcases List.mem_cons.1 hr with rfl | hr
      · exact absurd he h0
      · obtain ⟨j, h1, r', h2, h3⟩ := ih _ _ ⟨r, hr, he⟩
        refine ⟨j + 1, ?_, r', ?_, h3⟩
        · rw [List.replicate_succ, readMany]
          intro q hq
          rcases List.mem_cons.1 hq with rfl | hq
          · exact h0
          · exact h1 q hq
        · rw [List.replicate_succ, readMany, h2, List.replicate_succ, readMany]; rfl

theorem readMany_count {lens : List Nat} : ∀ {t : TextInput} {src : List Event} {r : ReadResult} {k : Nat} {st : Status},
    r ∈ readMany U lens t src → r.ret = .ok k st → k = (encode r.out).length := by
  induction lens with
  | nil => intro t src r k st h; simp [readMany] at h
  | cons n lens ih =>
    intro t src r k st h hr
    rw [readMany] at h
    rcases List.mem_cons.1 h with rfl | h
    · exact ret_count hr
    · exact ih h hr

/-- If all the calls succeed and none reports the end with nothing, the events are steady and have the bytes that are delivered. -/
theorem fills_steady {rs : List ReadResult} (h : ∀ r ∈ rs, ∃ st, r.ret = .ok (encode r.out).length st) (he : ∀ r ∈ rs, r.ret ≠ .ok 0 .end_) :
    Steady (rs.map fillEvent) ∧ bytesOf (rs.map fillEvent) = encode (delivered rs) := by
  induction rs with
  | nil => exact ⟨by simp [Steady], rfl⟩
  | cons r rs ih =>
    obtain ⟨i1, i2⟩ := ih (fun q hq => h q (by simp [hq])) (fun q hq => he q (by simp [hq]))
    obtain ⟨st, hst⟩ := h r (by simp)
    have hne := he r (by simp)
    have key : fillEvent r ≠ .err ∧ fillEvent r ≠ .data [] ∧ bytesOf [fillEvent r] = encode r.out := by
      unfold fillEvent
      rw [hst, stdRet]
      by_cases hz : (encode r.out).length = 0
      · have hnil := List.length_eq_zero_iff.1 hz
        have : st ≠ .end_ := fun hc => hne (by rw [hst, hz, hc])
        rw [if_pos ⟨hz, this⟩]
        exact ⟨by simp, by simp, by rw [hnil]; rfl⟩
      · rw [if_neg (fun hc => hz hc.1)]
        exact ⟨by simp, by intro hc; exact hz (by rw [BufEvent.data.inj hc]; rfl), by simp [bytesOf]⟩
    refine ⟨?_, ?_⟩
    · intro e hm
      rw [List.map_cons] at hm
      rcases List.mem_cons.1 hm with rfl | hm
      · exact ⟨key.1, key.2.1⟩
      · exact i1 e hm
    · have : bytesOf ((r :: rs).map fillEvent) = bytesOf [fillEvent r] ++ bytesOf (rs.map fillEvent) := by simp [bytesOf]
      rw [this, key.2.2, i2]
      simp [delivered, hst, Ret.isOk, encode_append]

end Verif
