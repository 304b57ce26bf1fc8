import Verif.KeptTheory
import Verif.Props.Strings

/-!
# C102: which CJK compatibility ideographs a text contained (`docs/NFC.md:76-88`)
-/

namespace Verif
open Ucd Spec Tables

theorem variant_rejected : cjkTree.all (fun n v => !okN n && eqN (decompN n) (v.take 1)) = true := by decide +kernel

theorem compat_decomp {i : Char} (h : isCompat i = true) : okChar i = false ∧ ucd15.decomp i = (ucd15.cjk i).take 1 := by
  obtain ⟨r, h1, h2, h3⟩ := inRanges_iff.1 h
  obtain ⟨w, hw⟩ := Option.isSome_iff_exists.1 (rangeAll_mem (List.all_eq_true.1 compat_find r h1) h2 (by omega))
  have hv := Tree.find_all variant_rejected hw
  simp only [Bool.and_eq_true, Bool.not_eq_true', eqN_iff] at hv
  refine ⟨by rw [okChar_iff]; exact hv.1, ?_⟩
  show (decompN i.toNat).map Char.ofNat = ((cjkN i.toNat).map Char.ofNat).take 1
  simp [cjkN, hw, hv.2]

theorem compat_ok {i : Char} (h : isCompat i = true) : (∀ c ∈ ucd15.cjk i, okChar c = true) ∧ ∀ c ∈ (ucd15.cjk i).head?, isStart ucd15 c = true := by
  obtain ⟨r, h1, h2, h3⟩ := inRanges_iff.1 h
  obtain ⟨w, hw⟩ := Option.isSome_iff_exists.1 (rangeAll_mem (List.all_eq_true.1 compat_find r h1) h2 (by omega))
  have hv := Tree.find_all ok_cjk hw
  have hs := Tree.find_all start_cjk hw
  have hval := Tree.find_all cjk_entries hw
  simp only [cjkEntry, Bool.and_eq_true, List.all_eq_true] at hval
  have e : ucd15.cjk i = w.map Char.ofNat := by
    show (cjkN i.toNat).map Char.ofNat = _
    simp [cjkN, hw]
  rw [e]
  constructor
  · intro c hc
    obtain ⟨n, hn, rfl⟩ := List.mem_map.1 hc
    rw [okChar_iff, toNat_ofNat (hval.1.2 n hn)]
    exact List.all_eq_true.1 hv n hn
  · intro c hc
    cases w with
    | nil => simp at hc
    | cons d w =>
      simp only [List.map_cons, List.head?_cons, Option.mem_def, Option.some.injEq] at hc
      rw [← hc, isStart15, toNat_ofNat (hval.1.2 d (by simp))]
      exact hs

theorem selector_end {v : Char} (h : isSelector v = true) : isEnd v = true := by
  have : v.toNat = 0xfe00 ∨ v.toNat = 0xfe01 ∨ v.toNat = 0xfe02 := by
    simp only [isSelector, Bool.and_eq_true, Nat.ble_eq] at h
    omega
  unfold isEnd
  rcases this with e | e | e <;> rw [e] <;> decide

/-- C102: there are 1002 of these ideographs. -/
theorem c102_number : (compatRanges.map fun r => r.2 + 1 - r.1).sum = 1002 ∧ compatRanges.Pairwise (fun r r' => r.2 < r'.1) := by decide

/-- C102: the variant of an ideograph is its canonical equivalent and a selector, different ideographs have different variants, and
a variant is Basic Text. -/
theorem c102_variant (i : Char) (hi : isCompat i = true) :
    isSelector (variantOf i).2 = true ∧ ucd15.nfc [i] = [(variantOf i).1] ∧
    fromText (isBasicText ucd15) [(variantOf i).1, (variantOf i).2] = .ok [(variantOf i).1, (variantOf i).2] ∧
    ∀ j, isCompat j = true → variantOf j = variantOf i → j = i := by
  obtain ⟨b, v, h1, h2, h3, h4, h5, -, h6⟩ := compat_variant hi
  have hv : variantOf i = (b, v) := by simp [variantOf, h1]
  have hd := (compat_decomp hi).2
  rw [hv]
  refine ⟨h5, ?_, ?_, fun j hj hji => ?_⟩
  · have := nfc_divide h2 [] []
    rw [h1] at hd
    simp only [List.nil_append] at this
    have e : ucd15.nfd [i] = ucd15.nfd [b] := by simp [nfd, hd, h2.decomp]
    rw [nfc, e, ← nfc, this]
    simp [nfc, nfd, reorder, recomp]
  · obtain ⟨k1, k2⟩ := compat_ok hi
    have hn := normChain_nss textLaws15 ([] ++ i :: [])
    rw [compat_context hi, normChain_nil, List.nil_append, List.append_nil] at hn
    rw [h1] at k1 k2 hn
    exact fromText_ok (text_iff.2 ⟨k2, by simpa using selector_end h5, substr_iff.2 ⟨k1, hn⟩⟩)
  · obtain ⟨b', v', k1, -, -, -, -, -, k6⟩ := compat_variant hj
    have hv' : variantOf j = (b', v') := by simp [variantOf, k1]
    rw [hv', Prod.mk.injEq] at hji
    rw [hji.1, hji.2, h6] at k6
    exact (Option.some.inj k6).symm

/-- C102: the strict conversions reject a string with one of these ideographs. -/
theorem c102_rejected (s : List Char) (i : Char) (h : i ∈ s) (hi : isCompat i = true) :
    (∀ t, fromText (isBasicText ucd15) s ≠ .ok t) ∧ (∀ t, fromText (isBasicTextSubstr ucd15) s ≠ .ok t) ∧
    (∀ t, fromTextOwned ucd15 (isBasicText ucd15) s ≠ .ok t) ∧ ∀ t, fromTextOwned ucd15 (isBasicTextSubstr ucd15) s ≠ .ok t := by
  have hno := (compat_decomp hi).1
  have hs : isBasicTextSubstr ucd15 s ≠ true := fun hs => by
    have := (substr_iff.1 hs).1 i h; rw [hno] at this; simp at this
  refine ⟨fun t ht => hs (text_substr (fromText_ok_iff.1 ht).1), fun t ht => hs (fromText_ok_iff.1 ht).1, fun t ht => ?_, fun t ht => ?_⟩
  · have := ((owned_ok_iff isBasicText_nil).1 ht).1.1 i h; rw [hno] at this; simp at this
  · have := ((owned_ok_iff isBasicTextSubstr_nil).1 ht).1.1 i h; rw [hno] at this; simp at this

theorem clean_selectors {s t : List Char} (h : s.filter isSelector = t.filter isSelector) (ht : ∀ c ∈ t, isSelector c = false) : ∀ c ∈ s, isSelector c = false := by
  rw [show t.filter isSelector = [] from List.filter_eq_nil_iff.2 (fun c hc => by simp [ht c hc])] at h
  intro c hc
  simpa using List.filter_eq_nil_iff.1 h c hc

/-- C102: what a reader delivers has the variants of the ideographs in its source, all of them and in the same order, and no
others.  The source must not contain escape sequences, nor the selectors themselves. -/
theorem c102_reader_partial (nel lsps : Bool) (chunks : List (List Char)) (last : List Char) (lens : List Nat)
    (hb : BomSafe chunks last) (he : ESC ∉ chunks.flatten ++ last) (hs : ∀ c ∈ chunks.flatten ++ last, isSelector c = false)
    (hc : Completes ucd15 nel lsps (script chunks last) lens) (p : Char) :
    sequences isSelector p (output ucd15 nel lsps (script chunks last) lens) = ((chunks.flatten ++ last).filter isCompat).map variantOf := by
  obtain ⟨r, n, h1, h2⟩ := hc
  obtain ⟨-, -, -, segs, h3, h4, -⟩ := run_script textLaws15 hb h1 h2
  have he' : ESC ∉ dropBom (chunks.flatten ++ last) := fun h => he (mem_dropOne h)
  have hs' := clean_selectors ((filter_translate kept_selector ucd15 nel lsps he').trans (filter_dropBom kept_selector _)) hs
  rw [output, h4, (sequences_segs segs (h3 ▸ hs') p).2, ← h3, filter_translate kept_compat ucd15 nel lsps he', filter_dropBom kept_compat]

/-- C102: the same for the lossy conversion of strings. -/
theorem c102_lossy_partial (chunks : List (List Char)) (last : List Char) (lens : Nat → Nat) (t : List Char)
    (hb : SliceReads chunks last) (he : ESC ∉ chunks.flatten ++ last) (hs : ∀ c ∈ chunks.flatten ++ last, isSelector c = false)
    (hc : Converts chunks last lens t) (p : Char) : sequences isSelector p t = ((chunks.flatten ++ last).filter isCompat).map variantOf := by
  obtain ⟨m, text, h1, h2⟩ := read_of_converts hc
  obtain ⟨segs, h3, h4, -⟩ := lossy_run textLaws15 hb h1
  rw [h2] at h4
  injection h4 with h4
  have he' : ESC ∉ dropBom (chunks.flatten ++ last) := fun h => he (mem_dropOne h)
  have hs' := clean_selectors ((filter_lossyText kept_selector ucd15 he').trans (filter_dropBom kept_selector _)) hs
  have : ∀ p, sequences isSelector p (segs.flatMap (normChain ucd15)) = ((chunks.flatten ++ last).filter isCompat).map variantOf := fun p => by
    rw [(sequences_segs segs (h3 ▸ hs') p).2, h3, filter_lossyText kept_compat ucd15 he', filter_dropBom kept_compat]
  rw [h4]
  unfold bomPrefix
  split
  · rw [List.singleton_append, sequences, show isSelector WJ = false by decide, this]; simp
  · exact this p

theorem map_variant {s t : List Char} (h : (s.filter isCompat).map variantOf = (t.filter isCompat).map variantOf) :
    s.filter isCompat = t.filter isCompat := by
  have hs : ∀ c ∈ s.filter isCompat, isCompat c = true := fun c hc => (List.mem_filter.1 hc).2
  have ht : ∀ c ∈ t.filter isCompat, isCompat c = true := fun c hc => (List.mem_filter.1 hc).2
  revert hs ht h
  generalize s.filter isCompat = x
  generalize t.filter isCompat = y
  intro h hs ht
  induction x generalizing y with
  | nil => cases y <;> simp_all
  | cons a x ih =>
    cases y with
    | nil => simp at h
    | cons b y =>
      simp only [List.map_cons, List.cons.injEq] at h
      rw [(c102_variant b (ht b (by simp))).2.2.2 a (hs a (by simp)) h.1, ih y h.2 (fun c hc => hs c (by simp [hc])) (fun c hc => ht c (by simp [hc]))]

/-- C102: so sources with different ideographs never give the same text. -/
theorem c102_information_partial (nel lsps nel' lsps' : Bool) (chunks chunks' : List (List Char)) (last last' : List Char) (lens lens' : List Nat)
    (hb : BomSafe chunks last) (he : ESC ∉ chunks.flatten ++ last) (hs : ∀ c ∈ chunks.flatten ++ last, isSelector c = false)
    (hc : Completes ucd15 nel lsps (script chunks last) lens)
    (hb' : BomSafe chunks' last') (he' : ESC ∉ chunks'.flatten ++ last') (hs' : ∀ c ∈ chunks'.flatten ++ last', isSelector c = false)
    (hc' : Completes ucd15 nel' lsps' (script chunks' last') lens')
    (h : output ucd15 nel lsps (script chunks last) lens = output ucd15 nel' lsps' (script chunks' last') lens') :
    (chunks.flatten ++ last).filter isCompat = (chunks'.flatten ++ last').filter isCompat := by
  have h1 := c102_reader_partial nel lsps chunks last lens hb he hs hc 'a'
  rw [h, c102_reader_partial nel' lsps' chunks' last' lens' hb' he' hs' hc'] at h1
  exact map_variant h1.symm

/-- Plain NFC forgets which of them it was. -/
example : ucd15.nfc ['樂'] = ['樂'] ∧ ucd15.nfc ['樂'] = ['樂'] ∧ ucd15.nfc ['樂'] = ['樂'] := by decide +kernel

example : output ucd15 false false (script [['a', '樂', '́', '樂', '﨎']] ['樂']) [1000, 1000, 1000] =
    ['a', '樂', '︀', '́', '樂', '︁', '﨎', '樂', '︂', '\n'] := by decide +kernel

/-- C102: without the condition on the source it does not: the variation sequence of an ideograph comes out the same as the ideograph. -/
theorem c102_refuted_selector : output ucd15 false false (script [] ['樂']) [1000, 1000] = ['樂', '︀', '\n'] ∧
    output ucd15 false false (script [] ['樂', '︀']) [1000, 1000] = ['樂', '︀', '\n'] := by decide +kernel

/-- C102: nor inside an escape sequence, which is removed with the ideographs in it. -/
theorem c102_refuted_escape : output ucd15 false false (script [] ['\x1b', ']', '樂', '\x07', 'a']) [1000, 1000] = ['a', '\n'] ∧
    output ucd15 false false (script [] ['\x1b', ']', '樂', '\x07', 'a']) [1000, 1000] = ['a', '\n'] := by decide +kernel

example : BomSafe [['a', '\uf914', '́', '\uf95c', '﨎']] ['\uf9bf'] ∧ ESC ∉ [['a', '\uf914', '́', '\uf95c', '﨎']].flatten ++ ['\uf9bf'] ∧
    (∀ c ∈ [['a', '\uf914', '́', '\uf95c', '﨎']].flatten ++ ['\uf9bf'], isSelector c = false) ∧
    Completes ucd15 false false (script [['a', '\uf914', '́', '\uf95c', '﨎']] ['\uf9bf']) [1000, 1000, 1000] :=
  ⟨by unfold BomSafe; decide, by decide, by decide, completes_of (by decide +kernel)⟩

example : isCompat '\uf9bf' = true ∧ variantOf '\uf9bf' = ('樂', '︂') := by decide +kernel

end Verif
