import Verif.Ucd15Text
import Verif.ChainTheory
import Verif.Tables.Gcb
import Verif.Tables.Doc

/-!
# The tables of the code against the tables of the document

Each comparison is over the whole tables, lifted to every scalar by `rangesSub_sound`.
-/

namespace Verif
open Tables

/-! ## Start and end classes -/

theorem start_gcb1 : rangesSub notStartTree.toList (gcbExtend ++ gcbSpacingMark ++ [(0x200d, 0x200d)]) = true := by decide +kernel
theorem start_gcb2 : rangesSub (gcbExtend ++ gcbSpacingMark ++ [(0x200d, 0x200d)]) (notStartTree.toList ++ [(0x34f, 0x34f)]) = true := by
  decide +kernel
theorem start_cgj15 : (notStartTree.find 0x34f).isSome = false := by decide +kernel
theorem cgj_extend : inRanges gcbExtend 0x34f = true := by decide +kernel

theorem end_gcb1 : rangesSub (consonantPrecedingRepha ++ consonantPrefixed ++ prependedConcatenationMark) gcbPrepend = true := by
  decide +kernel
theorem end_gcb2 : rangesSub gcbPrepend (consonantPrecedingRepha ++ consonantPrefixed ++ prependedConcatenationMark ++ [(0x890, 0x891)]) = true := by
  decide +kernel

theorem startTree_iff (n : Nat) : (notStartTree.find n).isSome = true ↔
    n ≠ 0x34f ∧ (n = 0x200d ∨ inRanges gcbExtend n = true ∨ inRanges gcbSpacingMark n = true) := by
  have ho : notStartTree.ordered 0 0x110000 = true := by decide +kernel
  have hz : inRanges [(0x200d, 0x200d)] n = true ↔ n = 0x200d := by rw [inRanges_iff]; simp; omega
  have hg : inRanges [(0x34f, 0x34f)] n = true ↔ n = 0x34f := by rw [inRanges_iff]; simp; omega
  have h1 := rangesSub_sound start_gcb1 (n := n)
  have h2 := rangesSub_sound start_gcb2 (n := n)
  have h3 := start_cgj15
  rw [find_isSome_iff ho] at h3 ⊢
  simp only [inRanges_append, Bool.or_eq_true, hz, hg] at h1 h2
  constructor
  · intro h
    refine ⟨?_, by have := h1 h; grind⟩
    rintro rfl; rw [h] at h3; simp at h3
  · rintro ⟨hn, h⟩
    have := h2 (by grind)
    grind

theorem isEnd_iff (c : Char) (h1 : c.toNat ≠ 0x890) (h2 : c.toNat ≠ 0x891) :
    isEnd c = false ↔ c.toNat = 0x200d ∨ inRanges gcbPrepend c.toNat = true := by
  have e1 := rangesSub_sound end_gcb1 (n := c.toNat)
  have e2 := rangesSub_sound end_gcb2 (n := c.toNat)
  have e3 : inRanges [(0x890, 0x891)] c.toNat = false := by
    apply Bool.eq_false_iff.2
    intro h
    obtain ⟨r, hr, g1, g2⟩ := inRanges_iff.1 h
    simp at hr; subst hr; simp at g1 g2; omega
  simp only [inRanges_append, Bool.or_eq_true, e3] at e1 e2
  unfold isEnd
  have hz : Nat.beq c.toNat 0x200d = true ↔ c.toNat = 0x200d := beq_iff
  revert e1 e2 hz
  generalize inRanges consonantPrecedingRepha c.toNat = b1
  generalize inRanges consonantPrefixed c.toNat = b2
  generalize inRanges prependedConcatenationMark c.toNat = b3
  generalize Nat.beq c.toNat 0x200d = b4
  cases b1 <;> cases b2 <;> cases b3 <;> cases b4 <;> simp <;> grind

/-! ## The Sequence Table -/

/-- The scalars with a row of their own. -/
def docRanges : List (Nat × Nat) := docRows.map (·.1) ++ docCjk

theorem doc_check1 : rangesSub badRanges (docRanges ++ [(0xc, 0xd)]) = true := by decide +kernel
theorem doc_check2 : rangesSub docRanges (badRanges ++ [(0x1b, 0x1b)]) = true := by decide +kernel

theorem check_doc (c : Char) (h1 : c ≠ '\r') (h2 : c ≠ FF) (h3 : c ≠ ESC) : (checkChar c).isSome = inRanges docRanges c.toNat := by
  have n1 : c.toNat ≠ 0xd := fun h => h1 (Char.toNat_inj.1 h)
  have n2 : c.toNat ≠ 0xc := fun h => h2 (Char.toNat_inj.1 h)
  have n3 : c.toNat ≠ 0x1b := fun h => h3 (Char.toNat_inj.1 h)
  have e : (checkChar c).isSome = inRanges badRanges c.toNat := by
    have := checkChar_none_iff c
    cases hb : inRanges badRanges c.toNat with
    | false => rw [this.2 hb]; rfl
    | true =>
      cases hc : checkChar c with
      | none => rw [this.1 hc] at hb; simp at hb
      | some e => rfl
  rw [e, Bool.eq_iff_iff]
  have a1 : inRanges [(0xc, 0xd)] c.toNat = false := by
    apply Bool.eq_false_iff.2
    intro h
    obtain ⟨r, hr, g1, g2⟩ := inRanges_iff.1 h
    simp at hr; subst hr; simp at g1 g2; omega
  have a2 : inRanges [(0x1b, 0x1b)] c.toNat = false := by
    apply Bool.eq_false_iff.2
    intro h
    obtain ⟨r, hr, g1, g2⟩ := inRanges_iff.1 h
    simp at hr; subst hr; simp at g1 g2; omega
  constructor
  · intro h
    have := rangesSub_sound doc_check1 h
    rwa [inRanges_append, a1, Bool.or_false] at this
  · intro h
    have := rangesSub_sound doc_check2 h
    rwa [inRanges_append, a2, Bool.or_false] at this

/-- What the row for a code point says. -/
def docRowN (n : Nat) : Option (List Nat) := (docRows.find? fun r => Nat.ble r.1.1 n && Nat.ble n r.1.2).map (·.2)

/-- `replace` on code points. -/
def replaceN (n : Nat) : List Nat :=
  match replaceMulti.lookup n with
  | some l => l
  | none => bif inRanges replaceRepl n then [0xfffd] else [n]

theorem replace_map (c : Char) : replace c = (replaceN c.toNat).map Char.ofNat := by
  unfold replace replaceN
  cases replaceMulti.lookup c.toNat with
  | some l => rfl
  | none => cases inRanges replaceRepl c.toNat <;> simp

/-- Rows the code words differently. -/
def oddRow (n : Nat) : Bool := Nat.beq n 0xf77 || Nat.beq n 0xf79 || ohmN n || Nat.beq n 0xfb03

theorem rows_agree : docRows.all (fun r => rangeAll (fun n => oddRow n || Nat.beq n 0x1b ||
    match docRowN n with | some l => eqN (replaceN n) l | none => false) r.1.1 (r.1.2 + 1 - r.1.1)) = true := by decide +kernel

theorem row_mem {n : Nat} {l : List Nat} (h : docRowN n = some l) : ∃ r ∈ docRows, r.1.1 ≤ n ∧ n ≤ r.1.2 := by
  unfold docRowN at h
  rw [Option.map_eq_some_iff] at h
  obtain ⟨r, h1, h2⟩ := h
  have := List.find?_some h1
  simp only [Bool.and_eq_true, ble_iff] at this
  exact ⟨r, List.mem_of_find?_eq_some h1, this⟩

theorem row_replace {n : Nat} {l : List Nat} (h : docRowN n = some l) (ho : oddRow n = false) (he : n ≠ 0x1b) : replaceN n = l := by
  obtain ⟨r, h1, h2, h3⟩ := row_mem h
  have := rangeAll_mem (List.all_eq_true.1 rows_agree r h1) h2 (by omega)
  have hb : Nat.beq n 0x1b = false := by
    cases hb : Nat.beq n 0x1b with
    | false => rfl
    | true => exact absurd (beq_iff.1 hb) he
  rw [ho, hb, h] at this
  simp only [Bool.false_or] at this
  exact eqN_iff.1 this

theorem docRanges_iff (n : Nat) : inRanges docRanges n = true ↔ (docRowN n).isSome = true ∨ inRanges docCjk n = true := by
  unfold docRanges
  rw [inRanges_append, Bool.or_eq_true]
  constructor
  · rintro (h | h)
    · left
      obtain ⟨r, hr, h1, h2⟩ := inRanges_iff.1 h
      obtain ⟨q, hq, rfl⟩ := List.mem_map.1 hr
      unfold docRowN
      rw [Option.isSome_map, List.find?_isSome]
      exact ⟨q, hq, by simp only [Bool.and_eq_true, ble_iff]; exact ⟨h1, h2⟩⟩
    · exact Or.inr h
  · rintro (h | h)
    · left
      cases hd : docRowN n with
      | none => rw [hd] at h; simp at h
      | some l =>
        obtain ⟨r, h1, h2⟩ := row_mem hd
        exact inRanges_iff.2 ⟨r.1, List.mem_map.2 ⟨r, h1, rfl⟩, h2⟩
    · exact Or.inr h

/-! ## CJK compatibility ideographs -/

theorem cjk_doc : docCjk.all (fun r => rangeAll (fun n => (cjkTree.find n).isSome && eqN (replaceN n) [n] && assignedN n) r.1 (r.2 + 1 - r.1)) = true := by
  decide +kernel

theorem cjk_assigned : cjkTree.all (fun _ v => v.all fun n => assignedN n && !(cjkTree.find n).isSome) = true := by decide +kernel

theorem cjk_row {c : Char} (h : inRanges docCjk c.toNat = true) : replace c = [c] ∧ isAssigned ucd15 c = true ∧
    (∀ d ∈ ucd15.cjk c, isAssigned ucd15 d = true ∧ ucd15.cjk d = [d]) ∧ ucd15.cjk c ≠ [c] := by
  obtain ⟨r, hr, h1, h2⟩ := inRanges_iff.1 h
  have := rangeAll_mem (List.all_eq_true.1 cjk_doc r hr) h1 (by omega)
  simp only [Bool.and_eq_true] at this
  obtain ⟨⟨g1, g2⟩, g3⟩ := this
  refine ⟨?_, ?_, ?_⟩
  · rw [replace_map, eqN_iff.1 g2]; simp
  · have : ucd15.assigned c = true := g3
    simp [isAssigned, this]
  · rcases cjk15_cases c with ⟨-, h3⟩ | ⟨v, h3, h4, h5, h6, h7, -⟩
    · rw [h3] at g1; simp at g1
    · have h8 := Tree.find_all cjk_assigned h3
      simp only [List.all_eq_true, Bool.and_eq_true, Bool.not_eq_true'] at h8
      have key : ∀ d ∈ ucd15.cjk c, isAssigned ucd15 d = true ∧ ucd15.cjk d = [d] := by
        intro d hd
        rw [h4, List.mem_map] at hd
        obtain ⟨n, hn, rfl⟩ := hd
        obtain ⟨k1, k2⟩ := h8 n hn
        have hv := toNat_ofNat (h5 n hn).1
        refine ⟨?_, ?_⟩
        · have : ucd15.assigned (Char.ofNat n) = true := by show assignedN (Char.ofNat n).toNat = true; rw [hv, k1]
          simp [isAssigned, this]
        · rcases cjk15_cases (Char.ofNat n) with ⟨h, -⟩ | ⟨v', h, -⟩
          · exact h
          · rw [hv] at h; rw [h] at k2; simp at k2
      refine ⟨key, ?_⟩
      intro hc
      rw [hc] at key
      rcases cjk15_cases c with ⟨h9, h10⟩ | ⟨v', h9, h10, h11, h12, -⟩
      · rw [h10] at h3; simp at h3
      · -- the members are permitted, the scalar itself is not
        rw [hc] at h10
        cases v' with
        | nil => simp at h10
        | cons n v' =>
          simp only [List.map_cons, List.cons.injEq] at h10
          obtain ⟨k1, k2⟩ := h11 n (by simp)
          have := legacy_not_ok h12
          rw [okChar_iff, h10.1, toNat_ofNat k1, k2] at this
          simp at this

theorem cjkVariants_self {s : List Char} (h : ∀ d ∈ s, ucd15.cjk d = [d]) : ucd15.cjkVariants s = s := by
  unfold Ucd.cjkVariants
  induction s with
  | nil => rfl
  | cons c s ih => rw [List.flatMap_cons, h c (by simp), ih (fun d hd => h d (by simp [hd]))]; rfl

/-- Normalization turns a CJK compatibility ideograph into its standardized variant. -/
theorem normChain_cjk {c : Char} (h : inRanges docCjk c.toNat = true) : normChain ucd15 [c] = normChain ucd15 (ucd15.cjk c) := by
  obtain ⟨-, h2, h3, -⟩ := cjk_row h
  have iso : ∀ s : List Char, (∀ d ∈ s, isAssigned ucd15 d = true) → isolate ucd15 s = s := by
    intro s hs; exact (isolate_eq_iff textLaws15).2 (pre_of_all hs)
  unfold normChain
  rw [iso [c] (by simpa using h2), iso _ (fun d hd => (h3 d hd).1), cjkVariants_self (fun d hd => (h3 d hd).2)]
  rw [show ucd15.cjkVariants [c] = ucd15.cjk c by simp [Ucd.cjkVariants]]

end Verif
