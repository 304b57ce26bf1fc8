import Verif.NewerData
import Verif.Props.Tables

/-!
# C101: text and newer versions of Unicode

`U` is the Unicode data of one build of the library, `V` that of a newer one (`Extends U V`).
-/

namespace Verif
open Ucd Spec

/-- Every scalar that is new in `V` is in NFC by itself.  This holds for new scalars without a decomposition and for new
composites, but not for scalars with a singleton decomposition or excluded from composition. -/
def Spec.Harmless (U V : Ucd) : Prop := ∀ c, isAssigned U c = false → V.nfc [c] = [c]

/-- C101: for text of assigned scalars nothing changes: neither what is valid nor what it is converted to. -/
theorem c101_assigned (U V : Ucd) (hU : TextLaws U) (hV : TextLaws V) (h : Extends U V) (s : List Char)
    (hs : ∀ c ∈ s, isAssigned U c = true) :
    isBasicText V s = isBasicText U s ∧ isBasicTextSubstr V s = isBasicTextSubstr U s ∧ V.nfc s = U.nfc s := by
  have h1 : isBasicTextSubstr V s = isBasicTextSubstr U s := by
    unfold isBasicTextSubstr
    rw [Bool.eq_iff_iff.2 (nss_same hU hV.law h hs)]
  refine ⟨?_, h1, nfc_same hU h hs⟩
  rw [Bool.eq_iff_iff, text_iff, text_iff, h1]
  have : (∀ c ∈ s.head?, isStart V c = true) ↔ (∀ c ∈ s.head?, isStart U c = true) := by
    constructor <;> intro hh c hc
    · rw [← start_same h (hs c (List.mem_of_mem_head? hc))]; exact hh c hc
    · rw [start_same h (hs c (List.mem_of_mem_head? hc))]; exact hh c hc
  rw [this]

theorem isolated_head {U : Ucd} {s : List Char} (hi : Isolated U s) : ∀ c ∈ s.head?, isAssigned U c = true := by
  intro c hc
  cases s with
  | nil => simp at hc
  | cons d s =>
    simp at hc; subst hc
    cases ha : isAssigned U d with
    | true => rfl
    | false => have := (hi [] d s rfl ha).1; simp at this

/-- C101: text in which the unassigned scalars are isolated stays valid if and only if those that are new are in NFC by
themselves in the newer version. -/
theorem c101_isolated_iff (U V : Ucd) (hU : TextLaws U) (hV : TextLaws V) (h : Extends U V) (s : List Char)
    (hs : isBasicText U s = true) (hi : Isolated U s) :
    isBasicText V s = true ↔ ∀ c ∈ s, isAssigned U c = false → V.nfc [c] = [c] := by
  obtain ⟨h1, h2, h3⟩ := text_iff.1 hs
  obtain ⟨h4, h5⟩ := substr_iff.1 h3
  rw [← nss_newer hU hV.law h hi h5, text_iff, substr_iff]
  refine ⟨fun hv => hv.2.2.2, fun hv => ⟨fun c hc => ?_, h2, h4, hv⟩⟩
  rw [start_same h (isolated_head hi c hc)]
  exact h1 c hc

/-- C101 (what holds): if all new scalars are in NFC by themselves, every text with isolated unassigned scalars stays valid, and
the newer version's checked conversion leaves it alone. -/
theorem c101_isolated_stable_partial (U V : Ucd) (hU : TextLaws U) (hV : TextLaws V) (hS : StartLaws V) (h : Extends U V)
    (hh : Harmless U V) (s : List Char) (hs : isBasicText U s = true) (hi : Isolated U s) :
    isBasicText V s = true ∧ fromTextOwned V (isBasicText V) s = .ok s := by
  have hv := (c101_isolated_iff U V hU hV h s hs hi).2 fun c _ hc => hh c hc
  refine ⟨hv, ?_⟩
  rw [(fromTextOwned_eq hV hS (isBasicText V) s).1 (acceptable_of_valid hv)]
  have hi' : Isolated V s := by
    intro a c b hs hc
    refine hi a c b hs ?_
    cases ha : isAssigned U c with
    | false => rfl
    | true => rw [h.assigned c ha] at hc; simp at hc
  rw [normChain_isolated hV (substr_iff.1 (text_iff.1 hv).2.2).2 hi']

/-- C101: every text that a newer version calls valid is valid for the older one. -/
theorem c101_older_accepts (U V : Ucd) (hU : TextLaws U) (hV : TextLaws V) (h : Extends U V) (s : List Char)
    (hs : isBasicText V s = true) : isBasicText U s = true := by
  obtain ⟨h1, h2, h3⟩ := text_iff.1 hs
  obtain ⟨h4, h5⟩ := substr_iff.1 h3
  refine text_iff.2 ⟨fun c hc => ?_, h2, substr_iff.2 ⟨h4, nss_older hU hV.law h s h5⟩⟩
  cases ha : isAssigned U c with
  | true => rw [← start_same h ha]; exact h1 c hc
  | false => exact hU.start_unassigned c (unassigned_of ha)

theorem flatMap_isolate {U : Ucd} (hU : TextLaws U) {l : List (List Char)} (h : U.isNfcStreamSafe l.flatten = true) :
    l.flatten.Sublist (l.flatMap (normChain U)) ∧
    (l.flatMap (normChain U)).filter (· != CGJ) = l.flatten.filter (· != CGJ) := by
  induction l with
  | nil => exact ⟨List.Sublist.slnil, rfl⟩
  | cons x l ih =>
    rw [List.flatten_cons] at h
    obtain ⟨i1, i2⟩ := ih (nss_suffix hU.law h)
    rw [List.flatten_cons, List.flatMap_cons, normChain_of_nss hU (nss_prefix hU.law h), List.filter_append, List.filter_append, i2]
    exact ⟨(isolateGo_sublist x false false).append i1, by rw [show isolate U x = isolateGo U false false x from rfl, isolateGo_filter]⟩

/-- C101: an older version reads text of a newer version, in whatever pieces it comes, and only inserts U+34F: what it delivers
contains the text, and without the U+34F it is the text (with a final newline). -/
theorem c101_older_reads (U V : Ucd) (hU : TextLaws U) (hV : TextLaws V) (h : Extends U V) (s : List Char) (hs : isBasicText V s = true)
    (hnl : s = [] ∨ s.getLast? = some '\n') (nel lsps : Bool) (chunks : List (List Char)) (last : List Char)
    (hc : chunks.flatten ++ last = s) (lens : List Nat) (hr : Completes U nel lsps (script chunks last) lens) :
    s.Sublist (output U nel lsps (script chunks last) lens) ∧
    (output U nel lsps (script chunks last) lens).filter (· != CGJ) = s.filter (· != CGJ) := by
  have hu := c101_older_accepts U V hU hV h s hs
  have hsub := substr_iff.1 (text_iff.1 hu).2.2
  have hb : BomSafe chunks last := by
    right
    rw [hc]
    intro hb
    exact (ok_not_special (hsub.1 BOM (List.mem_of_mem_head? hb))).2.2.2.2.2.2 rfl
  obtain ⟨r, n, hr, hok⟩ := hr
  have h1 := (run_exact hU (ending_script chunks last) hr hok).1
  have h2 : (segments U nel lsps (script chunks last)).flatten = s := by
    rw [segments_total (script chunks last) hU (ending_script chunks last)]
    have := absorbAll_script hU hb nel lsps
    rw [this, hc, ok_dropBom hsub.1, translate_ok hu, if_pos hnl]
  unfold output
  rw [h1]
  have := flatMap_isolate hU (l := segments U nel lsps (script chunks last)) (by rw [h2]; exact hsub.2)
  rwa [h2] at this

/-- C101: likewise for the checked conversion into a `TextString`. -/
theorem c101_older_converts (U V : Ucd) (hU : TextLaws U) (hS : StartLaws U) (hV : TextLaws V) (h : Extends U V) (s : List Char)
    (hs : isBasicText V s = true) :
    ∃ t, fromTextOwned U (isBasicText U) s = .ok t ∧ s.Sublist t ∧ t.filter (· != CGJ) = s.filter (· != CGJ) := by
  have hu := c101_older_accepts U V hU hV h s hs
  have hsub := substr_iff.1 (text_iff.1 hu).2.2
  refine ⟨isolate U s, ?_, isolateGo_sublist s _ _, isolateGo_filter s _ _⟩
  rw [(fromTextOwned_eq hU hS (isBasicText U) s).1 (acceptable_of_valid hu), normChain_of_nss hU hsub.2]

/-- C101: so what the lossy conversion of this version makes of text without U+34F directly before an unassigned scalar stays valid. -/
theorem c101_lossy_stable_partial (V : Ucd) (hV : TextLaws V) (h : Extends ucd15 V) (hh : Harmless ucd15 V)
    (v : List Char) (hn : Clear ucd15 false false v) (chunks : List (List Char)) (last : List Char) (hs : chunks.flatten ++ last = v)
    (hb : SliceReads chunks last) (lens : Nat → Nat) (hl : ∀ i, 136 ≤ lens i) (t : List Char)
    (hc : Converts chunks last lens t) : isBasicText V t = true := by
  obtain ⟨t', h1, h2⟩ := c01_lossy_total_valid chunks last hb lens hl
  rw [h1.unique hc] at h2
  exact (c101_isolated_iff ucd15 V textLaws15 hV h t (fromText_ok_iff.1 h2).1 (c47_lossy_isolated_partial v hn chunks last hs hb lens t hc)).2 fun c _ ha => hh c ha

/-! ## Newer versions of the data in this model -/

/-- Unicode 16.0's U+105D2 and U+105C9, its composite with U+307. -/
def todhri : Ucd := addPair ucd15 (Char.ofNat 0x105d2) (Char.ofNat 0x307) (Char.ofNat 0x105c9)

theorem todhri_ok : PairOk ucd15 (Char.ofNat 0x105d2) (Char.ofNat 0x307) (Char.ofNat 0x105c9) where
  newb := by decide +kernel
  newr := by decide +kernel
  ne := by decide
  oldm := by decide +kernel
  okb := by decide +kernel
  okr := by decide +kernel
  okm := by decide +kernel
  mdecomp := by decide +kernel
  mmark := by decide +kernel
  mlead := by decide +kernel
  mdlen := by decide +kernel
  mused := ⟨'a', Char.ofNat 0x227, by decide +kernel⟩
  wj := by decide +kernel

theorem todhri_laws : TextLaws todhri := textLaws_pair textLaws15 todhri_ok

theorem todhri_start : StartLaws todhri := startLaws_pair textLaws15 startLaws15 todhri_ok

theorem todhri_newer : Extends ucd15 todhri := extends_pair (by decide +kernel) (by decide +kernel)

theorem todhri_harmless : Harmless ucd15 todhri := by
  intro c hc
  by_cases h1 : c = Char.ofNat 0x105d2
  · subst h1; decide +kernel
  · by_cases h2 : c = Char.ofNat 0x105c9
    · subst h2; decide +kernel
    · have hi : todhri.Inert c := inert_pair (textLaws15.unassigned_inert c (unassigned_of hc)) h1
        (by rintro rfl; exact absurd hc (by decide +kernel)) h2
      have := nfc_split hi [] []
      simpa [nfc, nfd, reorder, recomp] using this

/-- A new scalar U+FA6E equivalent to U+4E00. -/
def ideograph : Ucd := addSingleton ucd15 (Char.ofNat 0xfa6e) (Char.ofNat 0x4e00)

theorem ideograph_ok : SingletonOk ucd15 (Char.ofNat 0xfa6e) (Char.ofNat 0x4e00) where
  newc := by decide +kernel
  oldd := by decide +kernel
  okd := by decide +kernel
  ddecomp := by decide +kernel
  dccc := by decide +kernel
  dlead := by decide +kernel
  dtrail := by decide +kernel
  dend := by decide +kernel
  dctl := by decide
  dstart := by decide +kernel
  second := (lawful15.qc_yes (Char.ofNat 0x4e00) (by decide +kernel)).2 (Char.ofNat 0x4e00) [] (by decide +kernel)
  wj := by decide +kernel

theorem ideograph_laws : TextLaws ideograph := textLaws_singleton textLaws15 ideograph_ok

theorem ideograph_newer : Extends ucd15 ideograph := extends_singleton (by decide +kernel)

/-- C101 fails for text in which an unassigned scalar is not isolated, which the checks accept: when U+105D2 is assigned together
with its composite, the text is no longer normalized. -/
theorem c101_refuted_not_isolated : ∃ V, TextLaws V ∧ Extends ucd15 V ∧ Harmless ucd15 V ∧ ∃ s,
    fromText (isBasicText ucd15) s = .ok s ∧ fromText (isBasicText V) s ≠ .ok s := by
  refine ⟨todhri, todhri_laws, todhri_newer, todhri_harmless, [Char.ofNat 0x105d2, Char.ofNat 0x307], ?_⟩
  decide +kernel

/-- C101 fails for isolated text too when the new scalar gets a singleton decomposition. -/
theorem c101_refuted_singleton : ∃ V, TextLaws V ∧ Extends ucd15 V ∧ ∃ s, Isolated ucd15 s ∧
    fromText (isBasicText ucd15) s = .ok s ∧ fromText (isBasicText V) s ≠ .ok s := by
  refine ⟨ideograph, ideograph_laws, ideograph_newer, [CGJ, Char.ofNat 0xfa6e, CGJ], ?_, by decide +kernel⟩
  have := isolated_spec textLaws15 [Char.ofNat 0xfa6e]
  rwa [show Spec.isolate ucd15 [Char.ofNat 0xfa6e] = [CGJ, Char.ofNat 0xfa6e, CGJ] by decide +kernel] at this

/-- Isolated text with both new scalars: valid now and in the newer version, and left alone by it; and text of the newer version,
with the new composite, which this one reads with U+34F around it. -/
example : isBasicText ucd15 ['a', CGJ, Char.ofNat 0x105d2, CGJ, Char.ofNat 0x307, CGJ, Char.ofNat 0x105c9, CGJ] = true ∧
    fromTextOwned ucd15 (isBasicText ucd15) ['a', CGJ, Char.ofNat 0x105d2, CGJ, Char.ofNat 0x307, CGJ, Char.ofNat 0x105c9, CGJ] =
      .ok ['a', CGJ, Char.ofNat 0x105d2, CGJ, Char.ofNat 0x307, CGJ, Char.ofNat 0x105c9, CGJ] ∧
    fromTextOwned todhri (isBasicText todhri) ['a', CGJ, Char.ofNat 0x105d2, CGJ, Char.ofNat 0x307, CGJ, Char.ofNat 0x105c9, CGJ] =
      .ok ['a', CGJ, Char.ofNat 0x105d2, CGJ, Char.ofNat 0x307, CGJ, Char.ofNat 0x105c9, CGJ] ∧
    isBasicText todhri ['a', Char.ofNat 0x105c9, '\n'] = true ∧
    output ucd15 false false (script [] ['a', Char.ofNat 0x105c9, '\n']) [4096, 4096, 4096] = ['a', CGJ, Char.ofNat 0x105c9, CGJ, '\n'] := by
  decide +kernel

/-- Text of assigned scalars for which the newer version composes more than this one with other scalars. -/
example : (∀ c ∈ ['é', Char.ofNat 0x307], isAssigned ucd15 c = true) ∧ isBasicText todhri ['é', Char.ofNat 0x307] = true := by decide +kernel

end Verif
