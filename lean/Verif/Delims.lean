import Verif.Ucd15

/-!
# ASCII delimiters

ASCII punctuation and digits that take part in no normalization step of Unicode 15.
-/

namespace Verif
open Ucd Tables

/-- Digits and ASCII punctuation, except `<`, `=`, `>` (which compose with a stroke), and `;` and the backquote (to which other scalars are
canonically equivalent). -/
def fieldN (n : Nat) : Bool :=
  (Nat.ble 0x21 n && Nat.ble n 0x3a) || (Nat.ble 0x3f n && Nat.ble n 0x40) || (Nat.ble 0x5b n && Nat.ble n 0x5f) || (Nat.ble 0x7b n && Nat.ble n 0x7e)

theorem field_decomp : decompTree.all (fun k v => !fieldN k && v.all (fun d => !fieldN d)) = true := by
  decide +kernel

theorem field_compose : composeTree.all (fun key r =>
    !fieldN (key / 0x200000) && !fieldN (key % 0x200000) && !fieldN r) = true := by decide +kernel

theorem field_cjk : cjkTree.all (fun k v => !fieldN k && v.all (fun d => !fieldN d)) = true := by
  decide +kernel

theorem field_ccc : cccTree.all (fun lo hi _ => rangeAll (fun n => !fieldN n) lo (hi + 1 - lo)) = true := by
  decide +kernel

theorem field_qc : qcTree.all (fun lo hi _ => rangeAll (fun n => !fieldN n) lo (hi + 1 - lo)) = true := by
  decide +kernel

theorem field_class : classTree.all (fun k _ => !fieldN k) = true := by decide +kernel

theorem field_jamo : (rangeAll (fun n => !fieldN n) 0x1100 256) = true := by decide +kernel

theorem field_syl : (rangeAll (fun n => !fieldN n) 0xac00 11172) = true := by decide +kernel

theorem inert_of_field {c : Char} (h : fieldN c.toNat = true) : ucd15.Inert c := by
  have hnot : ∀ {n : Nat}, (!fieldN n) = true → c.toNat ≠ n := fun hn he => by rw [← he, h] at hn; simp at hn
  have hrange : ∀ {lo k : Nat}, rangeAll (fun n => !fieldN n) lo k = true → ¬ (lo ≤ c.toNat ∧ c.toNat < lo + k) :=
    fun hr hc => hnot (rangeAll_mem hr hc.1 hc.2) rfl
  have hsyl : isSyl c.toNat = false := by
    cases hs : isSyl c.toNat
    · rfl
    · rw [isSyl_iff] at hs; exact absurd ⟨hs.1, by omega⟩ (hrange field_syl)
  have hjamo := hrange field_jamo
  have hccc : cccN c.toNat = 0 := by
    unfold cccN
    cases hf : cccTree.find c.toNat with
    | none => rfl
    | some v =>
      obtain ⟨lo, hi, h1, h2, h3⟩ := RTree.find_all field_ccc hf
      exact absurd ⟨h1, by omega⟩ (hrange h3)
  have hqc : qcN c.toNat = .yes := by
    unfold qcN
    cases hf : qcTree.find c.toNat with
    | none => rfl
    | some v =>
      obtain ⟨lo, hi, h1, h2, h3⟩ := RTree.find_all field_qc hf
      exact absurd ⟨h1, by omega⟩ (hrange h3)
  have hclass : classN c.toNat = [0, 0, 1] := by
    unfold classN
    cases hf : classTree.find c.toNat with
    | none => rw [hccc]; rfl
    | some v => exact absurd rfl (hnot (Tree.find_all field_class hf))
  have hcjk : cjkN c.toNat = [c.toNat] := by
    unfold cjkN
    cases hf : cjkTree.find c.toNat with
    | none => rfl
    | some v =>
      have := Tree.find_all field_cjk hf
      rw [Bool.and_eq_true] at this
      exact absurd rfl (hnot this.1)
  have hdec : decompN c.toNat = [c.toNat] := by
    rcases decompN_cases c.toNat with ⟨h', -⟩ | ⟨-, -, e⟩ | ⟨-, v, hf, -⟩
    · rw [hsyl] at h'; simp at h'
    · exact e
    · have := Tree.find_all field_decomp hf
      rw [Bool.and_eq_true] at this
      exact absurd rfl (hnot this.1)
  refine ⟨hccc, ?_, ?_, ?_, ?_, ?_, ?_, ?_, hqc, ?_, ?_⟩
  · simp [ucd15, hdec]
  · intro x
    cases hx : ucd15.compose c x with
    | none => rfl
    | some r =>
      exfalso
      have hb := validN_lt (validN_toNat x)
      rcases composeN_cases (by omega) (compose_toNat hx) with ⟨hk, -⟩ | ⟨hk, -⟩ | ⟨hf, -⟩
      · exact hjamo ⟨hk.1, by omega⟩
      · rw [hsyl] at hk; simp at hk
      · have := Tree.find_all field_compose hf
        rw [Bool.and_eq_true, Bool.and_eq_true, show (c.toNat * 0x200000 + x.toNat) / 0x200000 = c.toNat by omega] at this
        exact hnot this.1.1 rfl
  · intro x
    cases hx : ucd15.compose x c with
    | none => rfl
    | some r =>
      exfalso
      have hb := validN_lt (validN_toNat c)
      rcases composeN_cases (by omega) (compose_toNat hx) with ⟨-, hk, -⟩ | ⟨-, -, hk, -⟩ | ⟨hf, -⟩
      · exact hjamo ⟨by omega, by omega⟩
      · exact hjamo ⟨by omega, by omega⟩
      · have := Tree.find_all field_compose hf
        rw [Bool.and_eq_true, Bool.and_eq_true, show (x.toNat * 0x200000 + c.toNat) % 0x200000 = c.toNat by omega] at this
        exact hnot this.1.2 rfl
  · intro x hx
    have hm := mem_decomp hx
    rcases decompN_cases x.toNat with ⟨h', e⟩ | ⟨-, -, e⟩ | ⟨-, v, hf, e, -⟩
    · rw [e] at hm
      have := isJamo_iff.1 (hangul_mem h' hm)
      exact absurd ⟨this.1, by omega⟩ hjamo
    · rw [e] at hm
      exact (Char.toNat_inj.1 (by simpa using hm)).symm
    · have := Tree.find_all field_decomp hf
      rw [Bool.and_eq_true, List.all_eq_true] at this
      rw [e] at hm
      exact absurd rfl (hnot (this.2 _ hm))
  · simp [ucd15, leadN, hclass]
  · simp [ucd15, trailN, hclass]
  · simp [ucd15, dlenN, hclass]
  · simp [ucd15, hcjk]
  · intro x hx
    simp only [ucd15, List.mem_map] at hx
    obtain ⟨a, ha, hac⟩ := hx
    unfold cjkN at ha
    cases hf : cjkTree.find x.toNat with
    | none =>
      rw [hf] at ha
      simp at ha
      rw [← hac, ha]; simp
    | some v =>
      rw [hf] at ha
      have hv := Tree.find_all cjk_entries hf
      simp only [cjkEntry, Bool.and_eq_true, List.all_eq_true] at hv
      have hp := Tree.find_all field_cjk hf
      rw [Bool.and_eq_true, List.all_eq_true] at hp
      have ha : a ∈ v := ha
      exact absurd (by rw [← hac, toNat_ofNat (hv.1.2 a ha)]) (hnot (hp.2 a ha))

end Verif
