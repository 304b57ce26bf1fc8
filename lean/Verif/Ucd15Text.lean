import Verif.CharChecks

/-!
# The text-level laws of the concrete tables
-/

namespace Verif
open Tables

theorem isStart15 (c : Char) : isStart ucd15 c = startN c.toNat := by
  rw [startN_eq]
  unfold isStart isStarter isNfStarter
  have : (ucd15.ccc c == 0) = Nat.beq (cccN c.toNat) 0 := by
    rw [Bool.eq_iff_iff, beq_iff_eq, beq_iff]; rfl
  rw [this]

theorem startTable_hangul {n : Nat} (h : isJamo n = true ∨ isSyl n = true) : startN n = true := by
  rw [isJamo_iff, isSyl_iff] at h
  have hccc : cccN n = 0 := ccc_low (by rw [isSyl_iff, isJamo_iff]; omega)
  have hr : ∀ r ∈ graphemeExtendNotCgj ++ emojiModifier ++ generalCategorySpacingMark, ¬ (r.1 ≤ n ∧ n ≤ r.2) := by
    intro r hr hc
    have := List.all_eq_true.1 start_jamo r hr
    simp only [Bool.and_eq_true, Bool.or_eq_true, blt_iff] at this
    omega
  have hn : inRanges (graphemeExtendNotCgj ++ emojiModifier ++ generalCategorySpacingMark) n = false := by
    apply Bool.eq_false_iff.2
    intro hc
    obtain ⟨r, h1, h2⟩ := inRanges_iff.1 hc
    exact hr r h1 h2
  rw [inRanges_append, inRanges_append, Bool.or_eq_false_iff, Bool.or_eq_false_iff] at hn
  have hb : ∀ m, m ≠ n → Nat.beq n m = false := fun m hm => Bool.eq_false_iff.2 fun hc => hm (beq_iff.1 hc).symm
  rw [startN_eq, hccc]
  unfold startTable isSpacingMarkPlus
  rw [hn.1.1, hn.1.2, hn.2, hb 0x200d (by omega), hb 0xe33 (by omega), hb 0xeb3 (by omega)]
  simp

theorem startTable_unassigned {c : Char} (h : assignedN c.toNat = false) : startN c.toNat = true := by
  have hp : plainN c.toNat = true := by unfold plainN; rw [h]; rfl
  have hi := inert_of_plain hp
  have hccc : cccN c.toNat = 0 := hi.ccc
  have hn : inRanges (graphemeExtendNotCgj ++ emojiModifier ++ generalCategorySpacingMark) c.toNat = false := by
    apply Bool.eq_false_iff.2
    intro hc
    obtain ⟨r, h1, h2, h3⟩ := inRanges_iff.1 hc
    have := rangeAll_mem (List.all_eq_true.1 start_unassigned r h1) h2 (by omega)
    rw [h] at this; simp at this
  have hb : ∀ m, assignedN m = true → Nat.beq c.toNat m = false := fun m hm =>
    Bool.eq_false_iff.2 fun hc => by rw [beq_iff.1 hc, hm] at h; simp at h
  rw [inRanges_append, inRanges_append, Bool.or_eq_false_iff, Bool.or_eq_false_iff] at hn
  rw [startN_eq, hccc]
  unfold startTable isSpacingMarkPlus
  rw [hn.1.1, hn.1.2, hn.2, hb 0x200d (by decide +kernel), hb 0xe33 (by decide +kernel), hb 0xeb3 (by decide +kernel)]
  simp

theorem okN_hangul {n : Nat} (h : isJamo n = true ∨ isSyl n = true) : okN n = true := by
  rw [isJamo_iff, isSyl_iff] at h
  apply okN_of
  · apply Bool.eq_false_iff.2
    intro hc
    obtain ⟨r, h1, h2, h3⟩ := inRanges_iff.1 hc
    have := List.all_eq_true.1 ok_syl r h1
    simp only [Bool.and_eq_true, Bool.or_eq_true, blt_iff] at this
    omega
  · omega

theorem cjk15_cases (c : Char) : (ucd15.cjk c = [c] ∧ cjkTree.find c.toNat = none) ∨
    ∃ v, cjkTree.find c.toNat = some v ∧ ucd15.cjk c = v.map Char.ofNat ∧ (∀ n ∈ v, validN n = true ∧ okN n = true) ∧
      isLegacy c = true ∧ ohmN c.toNat = false ∧ ∃ d r, v = d :: r ∧ startN d = true := by
  cases hf : cjkTree.find c.toNat with
  | none => left; refine ⟨?_, rfl⟩; simp [ucd15, cjkN, hf]
  | some v =>
    right
    have h1 := Tree.find_all cjk_entries hf
    have h2 := Tree.find_all ok_cjk hf
    have h3 := Tree.find_all cjk_legacy hf
    have h4 := Tree.find_all start_cjk hf
    simp only [cjkEntry, Bool.and_eq_true, List.all_eq_true, Bool.not_eq_true'] at h1 h2 h3
    refine ⟨v, rfl, by simp [ucd15, cjkN, hf], fun n hn => ⟨h1.1.2 n hn, h2 n hn⟩, h3.1, h3.2, ?_⟩
    cases v with
    | nil => simp at h4
    | cons d r => exact ⟨d, r, rfl, h4⟩

theorem ohm_of_legacy {c : Char} (h : isLegacy c = true) (hc : ucd15.cjk c = [c]) : ohmN c.toNat = true := by
  obtain ⟨r, h1, h2, h3⟩ := inRanges_iff.1 h
  have := rangeAll_mem (List.all_eq_true.1 legacy_cjk r h1) h2 (by omega)
  rw [Bool.or_eq_true] at this
  rcases this with h4 | h4
  · exact h4
  · exfalso
    rcases cjk15_cases c with ⟨-, h5⟩ | ⟨v, h5, h6, h7, -⟩
    · rw [h5] at h4; simp at h4
    · rw [h6] at hc
      cases v with
      | nil => simp at hc
      | cons a t =>
        simp only [List.map_cons, List.cons.injEq] at hc
        have ha := h7 a (by simp)
        have := legacy_not_ok h
        rw [okChar_iff, ← hc.1, toNat_ofNat ha.1, ha.2] at this
        simp at this

theorem ohm_qc : (QC.beq (qcN 0x2126) .no && QC.beq (qcN 0x212a) .no && QC.beq (qcN 0x212b) .no) = true := by decide +kernel

theorem ascii_assigned : rangeAll assignedN 0 0x80 = true := by decide +kernel

theorem ohmN_iff {n : Nat} : ohmN n = true ↔ n = 0x2126 ∨ n = 0x212a ∨ n = 0x212b := by
  simp only [ohmN, Bool.or_eq_true, beq_iff]; omega

theorem head_toNat {c d : Char} {ds : List Char} (h : ucd15.decomp c = d :: ds) : decompN c.toNat = d.toNat :: ds.map Char.toNat := by
  rw [← decomp_toNat, h]; rfl

theorem start_decomp15 {c d : Char} {ds : List Char} (hs : startN c.toNat = true) (h : ucd15.decomp c = d :: ds) :
    startN d.toNat = true := by
  have hd := head_toNat h
  rcases decompN_cases c.toNat with ⟨h1, e⟩ | ⟨h1, -, e⟩ | ⟨h1, v, hf, e, -⟩
  · exact startTable_hangul (Or.inl (hangul_mem h1 (by rw [← e, hd]; simp)))
  · rw [e] at hd
    injection hd with hd _
    rw [← hd]; exact hs
  · have := Tree.find_all start_decomp hf
    rw [← e, hd, hs] at this
    simpa using this

theorem end_tables : (consonantPrecedingRepha ++ consonantPrefixed ++ prependedConcatenationMark ++ [(0x200d, 0x200d)]).all
    (fun r => rangeAll assignedN r.1 (r.2 + 1 - r.1)) = true := by decide +kernel

theorem multi_assigned : replaceMulti.all (fun p => p.2.all fun n => assignedN n && !Nat.beq n 0x34f && validN n) = true := by
  decide +kernel

theorem repl_assigned15 (c d : Char) (h : d ∈ replace c) : d = c ∨ (ucd15.assigned d = true ∧ d ≠ CGJ) := by
  rcases replace_cases c with ⟨-, v, hv, e⟩ | ⟨-, e⟩ | ⟨-, e⟩
  · right
    rw [e] at h
    obtain ⟨n, hn, rfl⟩ := List.mem_map.1 h
    have := List.all_eq_true.1 (List.all_eq_true.1 multi_assigned _ hv) n hn
    simp only [Bool.and_eq_true, Bool.not_eq_true'] at this
    constructor
    · show assignedN (Char.ofNat n).toNat = true
      rw [toNat_ofNat this.2]; exact this.1.1
    · intro hc
      have h2 : (Char.ofNat n).toNat = CGJ.toNat := by rw [hc]
      rw [toNat_ofNat this.2, show CGJ.toNat = 0x34f by decide] at h2
      have h3 := this.1.2
      rw [h2] at h3
      simp at h3
  · right
    rw [e] at h
    have h : d = REPL := by simpa using h
    rw [h]
    constructor
    · show assignedN REPL.toNat = true
      decide +kernel
    · decide
  · left
    rw [e] at h
    simpa using h

theorem textLaws15 : TextLaws ucd15 where
  law := lawful15
  end_inert c h := by
    apply inert_of_plain
    unfold isEnd at h
    unfold plainN
    revert h
    generalize inRanges consonantPrecedingRepha c.toNat = b1
    generalize inRanges consonantPrefixed c.toNat = b2
    generalize inRanges prependedConcatenationMark c.toNat = b3
    generalize Nat.beq c.toNat 0x200d = b4
    cases b1 <;> cases b2 <;> cases b3 <;> cases b4 <;> simp
  unassigned_inert c h := by
    apply inert_of_plain
    have h : assignedN c.toNat = false := h
    unfold plainN; rw [h]; rfl
  ctl_inert c h := by
    apply inert_of_plain
    unfold plainN; rw [ble_iff.2 h]; simp
  wj_inert := inert_of_plain (by decide +kernel)
  ok_decomp c h d hd := by
    rw [okChar_iff]
    have hm := mem_decomp hd
    have hk : (okN c.toNat || ohmN c.toNat) = true := by
      rw [Bool.or_eq_true]
      rcases h with h | ⟨h, h'⟩
      · left; rw [← okChar_iff]; exact h
      · right; exact ohm_of_legacy h h'
    rcases decompN_cases c.toNat with ⟨h1, e⟩ | ⟨h1, hf, e⟩ | ⟨h1, v, hf, e, -⟩
    · rw [e] at hm; exact okN_hangul (Or.inl (hangul_mem h1 hm))
    · rw [e] at hm
      have hm : d.toNat = c.toNat := by simpa using hm
      rw [hm]
      rw [Bool.or_eq_true] at hk
      rcases hk with hk | hk
      · exact hk
      · exfalso
        have hq : qcN c.toNat = .no := by
          have := ohm_qc
          simp only [Bool.and_eq_true, qcbeq_iff] at this
          rcases ohmN_iff.1 hk with h | h | h <;> rw [h]
          · exact this.1.1
          · exact this.1.2
          · exact this.2
        exact lawful15.qc_self c (decomp_eq (by rw [e]; rfl)) hq
    · have := Tree.find_all ok_decomp hf
      rw [hk] at this
      rw [e] at hm
      exact List.all_eq_true.1 (by simpa using this) _ hm
  ok_compose k b r h := by
    rw [okChar_iff]
    have h := compose_toNat h
    have hb := validN_lt (validN_toNat b)
    rcases composeN_cases (by omega) h with ⟨h1, h2, h3⟩ | ⟨h1, h2, h3, h4⟩ | ⟨h1, -⟩
    · rw [h3]; exact okN_hangul (Or.inr (composeN_syl_lv h1 h2).1)
    · rw [h4]; exact okN_hangul (Or.inr (composeN_syl_lvt h1 h2 h3).1)
    · exact Tree.find_all ok_compose h1
  ok_cjk c h d hd := by
    rcases cjk15_cases c with ⟨h1, h2⟩ | ⟨v, h1, h2, h3, -⟩
    · rw [h1] at hd
      have hd : d = c := by simpa using hd
      rw [hd]
      rcases h with h | h
      · exact Or.inl h
      · exact Or.inr ⟨h, h1⟩
    · rw [h2] at hd
      obtain ⟨n, hn, rfl⟩ := List.mem_map.1 hd
      left
      rw [okChar_iff, toNat_ofNat (h3 n hn).1]; exact (h3 n hn).2
  cjk_ne c := by
    rcases cjk15_cases c with ⟨h1, h2⟩ | ⟨v, h1, h2, h3, -, -, d, r, h4, -⟩
    · rw [h1]; simp
    · rw [h2, h4]; simp
  legacy_no c h := by
    rcases cjk15_cases c with ⟨h1, h2⟩ | ⟨v, h1, -⟩
    · have hk := ohm_of_legacy h h1
      show qcN c.toNat = .no
      have := ohm_qc
      simp only [Bool.and_eq_true, qcbeq_iff] at this
      rcases ohmN_iff.1 hk with h | h | h <;> rw [h]
      · exact this.1.1
      · exact this.1.2
      · exact this.2
    · have := Tree.find_all cjk_entries h1
      simp only [cjkEntry, Bool.and_eq_true, qcbeq_iff] at this
      exact this.2
  start_decomp c hs d ds h := by
    rw [isStart15] at hs ⊢
    exact start_decomp15 hs h
  start_compose k b r h hs := by
    rw [isStart15] at hs ⊢
    have h := compose_toNat h
    have hb := validN_lt (validN_toNat b)
    rcases composeN_cases (by omega) h with ⟨h1, h2, h3⟩ | ⟨h1, h2, h3, h4⟩ | ⟨h1, -⟩
    · rw [h3]; exact startTable_hangul (Or.inr (composeN_syl_lv h1 h2).1)
    · rw [h4]; exact startTable_hangul (Or.inr (composeN_syl_lvt h1 h2 h3).1)
    · have := Tree.find_all start_compose h1
      rw [show (k.toNat * 0x200000 + b.toNat) / 0x200000 = k.toNat by omega, hs] at this
      simpa using this
  start_cjk c hs d ds h := by
    rw [isStart15] at hs ⊢
    rcases cjk15_cases c with ⟨h1, h2⟩ | ⟨v, h1, h2, h3, -, -, d', r, h4, h5⟩
    · rw [h1] at h
      injection h with h _
      rw [← h]; exact hs
    · rw [h2, h4] at h
      simp only [List.map_cons, List.cons.injEq] at h
      rw [← h.1, toNat_ofNat (h3 d' (by rw [h4]; simp)).1]; exact h5
  start_lead c hs := by
    rw [isStart15] at hs
    show leadN c.toNat = 0
    unfold leadN classN
    cases hf : classTree.find c.toNat with
    | none =>
      have hccc : cccN c.toNat = 0 := by
        unfold startN at hs
        rw [Bool.and_eq_true, Bool.or_eq_true, ble_iff, beq_iff] at hs
        rcases hs.1 with h | h
        · exact ccc_low (Or.inl h)
        · exact h
      rw [hccc]; rfl
    | some v =>
      have := Tree.find_all start_class hf
      rw [hs] at this
      simpa using this
  start_second c hs d ds h hc := by
    rw [isStart15] at hs
    obtain ⟨k, r, hc⟩ := hc
    have hc := compose_toNat hc
    have hb := validN_lt (validN_toNat d)
    have hd := start_decomp15 hs h
    have hh := head_toNat h
    have key : (0x1161 ≤ d.toNat ∧ d.toNat ≤ 0x1175) ∨ (0x11a8 ≤ d.toNat ∧ d.toNat ≤ 0x11c2) := by
      rcases composeN_cases (by omega) hc with ⟨-, h2, -⟩ | ⟨-, -, h3, -⟩ | ⟨h1, -⟩
      · exact Or.inl h2
      · exact Or.inr h3
      · have := Tree.find_all start_second h1
        rw [show (k.toNat * 0x200000 + d.toNat) % 0x200000 = d.toNat by omega, hd] at this
        simp at this
    have hcd : c.toNat = d.toNat := by
      rcases decompN_cases c.toNat with ⟨h1, e⟩ | ⟨h1, -, e⟩ | ⟨h1, v, hf, e, -⟩
      · exfalso
        obtain ⟨l, r, h2, -, h3, h4⟩ := syl_chain h1
        rw [e, h2] at hh
        injection hh with hh _
        omega
      · rw [e] at hh
        injection hh
      · exfalso
        have := Tree.find_all decomp_no_jamo hf
        have := List.all_eq_true.1 this d.toNat (by rw [← e, hh]; simp)
        rw [Bool.not_eq_true'] at this
        rw [isJamo_iff.2 (by omega)] at this; simp at this
    unfold isJamoVT
    rw [hcd, inRanges_iff]
    simp; omega
  start_unassigned c h := by
    rw [isStart15]; exact startTable_unassigned h
  start_ascii c h := by
    rw [isStart15, startN_eq, ble_iff.2 h]
    have := start_letters
    simp only [Bool.and_eq_true] at this
    simpa using rangeAll_mem this.1.1.1 (Nat.zero_le _) (by omega)
  start_cgj := by rw [isStart15]; decide +kernel
  assigned_ascii c h := rangeAll_mem ascii_assigned (Nat.zero_le _) (by omega)
  assigned_cgj := by show assignedN CGJ.toNat = true; decide +kernel
  dlen_pos c := by
    show dlenN c.toNat ≠ 0
    unfold dlenN classN
    cases hf : classTree.find c.toNat with
    | none => cases Nat.beq (cccN c.toNat) 0 <;> simp
    | some v =>
      have h := Tree.find_all class_entries hf
      unfold classEntry at h
      match v, h with
      | [l, t, d], h =>
        simp only [Bool.and_eq_true, blt_iff] at h
        simp; omega
      | [], h => simp at h
      | [_], h => simp at h
      | [_, _], h => simp at h
      | _ :: _ :: _ :: _ :: _, h => simp at h
  end_assigned c h := by
    have hr : inRanges (consonantPrecedingRepha ++ consonantPrefixed ++ prependedConcatenationMark ++ [(0x200d, 0x200d)]) c.toNat = true := by
      rw [inRanges_append, inRanges_append, inRanges_append]
      unfold isEnd at h
      revert h
      cases h4 : Nat.beq c.toNat 0x200d with
      | true =>
        intro _
        rw [beq_iff] at h4
        have : inRanges [(0x200d, 0x200d)] c.toNat = true := by rw [h4]; rfl
        rw [this]; simp
      | false =>
        generalize inRanges consonantPrecedingRepha c.toNat = b1
        generalize inRanges consonantPrefixed c.toNat = b2
        generalize inRanges prependedConcatenationMark c.toNat = b3
        cases b1 <;> cases b2 <;> cases b3 <;> simp
    obtain ⟨r, h1, h2, h3⟩ := inRanges_iff.1 hr
    exact rangeAll_mem (List.all_eq_true.1 end_tables r h1) h2 (by omega)
  repl_assigned := repl_assigned15

end Verif
