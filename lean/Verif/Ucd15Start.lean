import Verif.Ucd15Text

/-!
# Scalars that may not start a text stay that way
-/

namespace Verif
open Tables

/-- Normalization does not turn a scalar that may not start a text into one that may. -/
structure StartLaws (U : Ucd) : Prop where
  decomp : ∀ c d ds, U.decomp c = d :: ds → isStart U d = true → isStart U c = true
  compose : ∀ k b r, U.compose k b = some r → isStart U r = true → isStart U k = true
  cjk : ∀ c d ds, U.cjk c = d :: ds → isStart U d = true → isStart U c = true
  cjk_jamo : ∀ c d ds, U.cjk c = d :: ds → isJamoVT d = true → d = c

theorem start_decomp_conv : decompTree.all (fun k v => startN k || match v with | [] => false | d :: _ => !startN d) = true := by
  decide +kernel

theorem start_compose_conv : composeTree.all (fun key r => startN (key / 0x200000) || !startN r) = true := by decide +kernel

theorem start_cjk_conv : cjkTree.all (fun n v => startN n && match v with | [] => false | d :: _ => !isJamo d) = true := by decide +kernel

theorem startLaws15 : StartLaws ucd15 where
  decomp c d ds h hs := by
    rw [isStart15] at hs ⊢
    have hd := head_toNat h
    rcases decompN_cases c.toNat with ⟨h1, e⟩ | ⟨h1, -, e⟩ | ⟨h1, v, hf, e, -⟩
    · exact startTable_hangul (Or.inr h1)
    · rw [e] at hd
      injection hd with hd _
      rw [hd]; exact hs
    · have := Tree.find_all start_decomp_conv hf
      rw [← e, hd] at this
      simpa [hs] using this
  compose k b r h hs := by
    rw [isStart15] at hs ⊢
    have h := compose_toNat h
    have hb := validN_lt (validN_toNat b)
    rcases composeN_cases (by omega) h with ⟨h1, h2, h3⟩ | ⟨h1, h2, h3, h4⟩ | ⟨h1, -⟩
    · exact startTable_hangul (Or.inl (isJamo_iff.2 (by omega)))
    · exact startTable_hangul (Or.inr h1)
    · have := Tree.find_all start_compose_conv h1
      rw [show (k.toNat * 0x200000 + b.toNat) / 0x200000 = k.toNat by omega, hs] at this
      simpa using this
  cjk c d ds h hs := by
    rw [isStart15] at hs ⊢
    rcases cjk15_cases c with ⟨h1, h2⟩ | ⟨v, h1, h2, h3, -, -, d', r, h4, h5⟩
    · rw [h1] at h
      injection h with h _
      rw [h]; exact hs
    · have := Tree.find_all start_cjk_conv h1
      rw [Bool.and_eq_true] at this
      exact this.1
  cjk_jamo c d ds h hj := by
    rcases cjk15_cases c with ⟨h1, h2⟩ | ⟨v, h1, h2, h3, -, -, d', r, h4, h5⟩
    · rw [h1] at h
      injection h with h _
      exact h.symm
    · have := Tree.find_all start_cjk_conv h1
      rw [h4, Bool.and_eq_true] at this
      rw [h2, h4] at h
      simp only [List.map_cons, List.cons.injEq] at h
      exfalso
      have hd : d.toNat = d' := by rw [← h.1, toNat_ofNat (h3 d' (by rw [h4]; simp)).1]
      have hJ := this.2
      simp only [Bool.not_eq_true'] at hJ
      obtain ⟨r, hr1, hr2, hr3⟩ := inRanges_iff.1 hj
      rw [← hd] at hJ
      have : isJamo d.toNat = true := by
        rw [isJamo_iff]
        simp only [List.mem_cons, List.not_mem_nil, or_false] at hr1
        rcases hr1 with rfl | rfl <;> omega
      rw [this] at hJ; simp at hJ

end Verif
