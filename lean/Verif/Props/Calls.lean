import Verif.ReaderCount
import Verif.Props.Everyday

/-!
# How many calls it takes to read a stream (C126)
-/

namespace Verif
open Ucd Spec

theorem encode_le (s : List Char) : (encode s).length ≤ 4 * s.length := by
  induction s with
  | nil => simp [encode]
  | cons c s ih =>
    have h : (encode (c :: s)).length = (encode [c]).length + (encode s).length := by
      rw [← List.length_append, ← encode_append]; rfl
    have h4 : (encode [c]).length ≤ 4 := by
      simp only [encode, List.flatMap_cons, List.flatMap_nil, List.append_nil, encodeChar]
      (repeat' split) <;> simp
    rw [h, List.length_cons]
    omega

theorem delivered_le_written (rs : List ReadResult) : (delivered rs).length ≤ (written rs).length := by
  induction rs with
  | nil => simp [delivered]
  | cons r rs ih =>
    simp only [delivered, written, List.flatMap_cons, List.length_append] at ih ⊢
    have : (if r.ret.isOk then r.out else []).length ≤ r.out.length := by split <;> simp
    omega

/-- C126: as long as the end has not been reported, there have been at most as many calls as the source has reads, one more, and those
that have filled their buffer up to three bytes. -/
theorem c126_calls (nel lsps : Bool) (src : List Event) (L : Nat) (hL : normalizationBufferSize ≤ L) (lens : List Nat) (hl : ∀ l ∈ lens, L ≤ l)
    (h : ∀ r ∈ readMany ucd15 lens (.new nel lsps) src, ∀ n, r.ret ≠ .ok n .end_) :
    lens.length ≤ src.length + 1 + (encode (delivered (readMany ucd15 lens (.new nel lsps) src))).length / (L - 3) := by
  have hp := calls_paid textLaws15 (ctl_new (U := ucd15) nel lsps) L hL lens hl (.new nel lsps) src [] [] 1 (Rel.init nel lsps) (by simp)
    (fun r hr => by
      have := h r hr
      generalize r.ret = x at this
      cases x with
      | ok n st => cases st <;> first | rfl | exact absurd rfl (this n)
      | _ => rfl)
  have h0 : pendBit (.new nel lsps) = 0 := rfl
  have hD : 0 < L - 3 := by have : normalizationBufferSize = 136 := rfl; omega
  rw [h0, Nat.add_zero] at hp
  have : (L - 3) * (lens.length - (src.length + 1)) ≤ (encode (delivered (readMany ucd15 lens (.new nel lsps) src))).length := by
    rw [Nat.mul_sub]; omega
  have := (Nat.le_div_iff_mul_le hD).2 (by rw [Nat.mul_comm]; exact this)
  omega

/-- C126: so the end is reported by the time there have been more calls than that, counted in the scalars of the source. -/
theorem c126_in_time (nel lsps : Bool) (src : List Event) (L : Nat) (hL : normalizationBufferSize ≤ L) (lens : List Nat) (hl : ∀ l ∈ lens, L ≤ l)
    (hn : src.length + 1 + 120 * (contents src).length / (L - 3) < lens.length) :
    ∃ r ∈ readMany ucd15 lens (.new nel lsps) src, ∃ n, r.ret = .ok n .end_ := by
  apply Classical.byContradiction
  intro hc
  have h1 := c126_calls nel lsps src L hL lens hl (fun r hr n e => hc ⟨r, hr, n, e⟩)
  have h2 := c84_read_size nel lsps src lens
  have h3 := delivered_le_written (readMany ucd15 lens (.new nel lsps) src)
  have h4 := encode_le (delivered (readMany ucd15 lens (.new nel lsps) src))
  have h5 : (encode (delivered (readMany ucd15 lens (.new nel lsps) src))).length / (L - 3) ≤ 120 * (contents src).length / (L - 3) :=
    Nat.div_le_div_right (by omega)
  omega

/-- The number returned is the number of bytes written. -/
theorem ret_length (len : Nat) (t : TextInput) (src : List Event) (n : Nat) (st : Status)
    (h : (readWithStatus ucd15 len t src).ret = .ok n st) : n = (encode (readWithStatus ucd15 len t src).out).length := by
  revert h
  unfold readWithStatus
  split
  · simp
  · split
    · simp
    · intro h; simp at h; exact h.1.symm
    · split
      · intro h; simp at h; exact h.1.symm
      · split
        · simp
        · dsimp only
          split
          · simp
          · intro h; simp at h; exact h.1.symm
          · intro h; simp at h; exact h.1.symm

/-- C126: a call that succeeds and returns nothing has read the source, or has dropped a status it had kept back; it does the latter once. -/
theorem c126_empty_call (t : TextInput) (e : Event) (src : List Event) (len : Nat) (st : Status)
    (hr : (readWithStatus ucd15 len t (e :: src)).ret = .ok 0 st) :
    (readWithStatus ucd15 len t (e :: src)).src = src ∨
      (t.pending ≠ .active ∧ (readWithStatus ucd15 len t (e :: src)).input.pending = .active) := by
  have hl : normalizationBufferSize ≤ len := by
    apply Nat.le_of_not_lt
    intro h
    rw [readWithStatus, if_pos h] at hr
    simp at hr
  have h0 := ret_length _ _ _ _ _ hr
  have hN : normalizationBufferSize = 136 := rfl
  rcases read_kinds len t e src hl rfl (by rw [hr]; simp) with ⟨-, -, a3, -⟩ | ⟨-, a2, a3⟩ | ⟨a1, -⟩
  · omega
  · exact Or.inr ⟨a2, a3⟩
  · exact Or.inl a1

/-- The count of `c126_calls` is exact: 266 letters and a push in one read take four calls with buffers of 136 bytes before the one that
reports the end. -/
theorem c126_exact :
    (readMany ucd15 (List.replicate 5 136) (.new false false) [.data (List.replicate 266 'a') .push]).map (·.ret) =
      [.ok 0 .push, .ok 133 .active, .ok 133 .active, .ok 1 .active, .ok 0 .end_] ∧
    4 = [Event.data (List.replicate 266 'a') .push].length + 1 + (133 + 133 + 1) / (136 - 3) := by
  set_option maxRecDepth 1000000 in decide +kernel

example : (contents [.data (List.replicate 266 'a') .push]).length = 266 ∧
    [Event.data (List.replicate 266 'a') .push].length + 1 + 120 * 266 / (136 - 3) < (List.replicate 300 136).length := by decide +kernel

end Verif
