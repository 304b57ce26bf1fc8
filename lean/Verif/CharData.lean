import Verif.TextLaws
import Verif.Ucd15
import Verif.Tables.Trees

/-!
# Per-scalar facts about `check`, `replace` and the start and end tables

Kernel-evaluated checks over complete tables, lifted to every scalar value.
-/

namespace Verif
open Tables

/-! ## Range lists -/

/-- `lo ..= hi` is covered by the ranges `B`. -/
def cover (B : List (Nat × Nat)) : Nat → Nat → Nat → Bool
  | 0, lo, hi => Nat.blt hi lo
  | f + 1, lo, hi =>
    bif Nat.blt hi lo then true
    else match B.find? (fun r => Nat.ble r.1 lo && Nat.ble lo r.2) with
      | none => false
      | some r => cover B f (r.2 + 1) hi

def rangesSub (A B : List (Nat × Nat)) : Bool := A.all fun r => cover B (B.length + 1) r.1 r.2

theorem inRanges_iff {B : List (Nat × Nat)} {n : Nat} : inRanges B n = true ↔ ∃ r ∈ B, r.1 ≤ n ∧ n ≤ r.2 := by
  simp [inRanges, List.any_eq_true]

theorem cover_sound {B : List (Nat × Nat)} {n : Nat} : ∀ {f lo hi : Nat}, cover B f lo hi = true → lo ≤ n → n ≤ hi →
    inRanges B n = true
  | 0, lo, hi, h, h1, h2 => by
    simp only [cover, blt_iff] at h; omega
  | f + 1, lo, hi, h, h1, h2 => by
    simp only [cover] at h
    cases hb : Nat.blt hi lo with
    | true => rw [blt_iff] at hb; omega
    | false =>
      rw [hb, cond_false] at h
      cases hf : B.find? (fun r => Nat.ble r.1 lo && Nat.ble lo r.2) with
      | none => rw [hf] at h; simp at h
      | some r =>
        rw [hf] at h
        have hr := List.find?_some hf
        simp only [Bool.and_eq_true, ble_iff] at hr
        by_cases hn : n ≤ r.2
        · exact inRanges_iff.2 ⟨r, List.mem_of_find?_eq_some hf, by omega, hn⟩
        · exact cover_sound h (by omega) h2

theorem rangesSub_sound {A B : List (Nat × Nat)} (h : rangesSub A B = true) {n : Nat} (hn : inRanges A n = true) :
    inRanges B n = true := by
  obtain ⟨r, hr, h1, h2⟩ := inRanges_iff.1 hn
  exact cover_sound (List.all_eq_true.1 h r hr) h1 h2

theorem inRanges_append {A B : List (Nat × Nat)} {n : Nat} : inRanges (A ++ B) n = (inRanges A n || inRanges B n) := by
  simp [inRanges, List.any_append]

theorem ordered_bounds {t : RTree} : ∀ {a b : Nat}, t.ordered a b = true → ∀ r ∈ t.toList, a ≤ r.1 ∧ r.2 < b := by
  induction t with
  | leaf => intro a b _ r hr; simp [RTree.toList] at hr
  | node l lo hi v r ihl ihr =>
    intro a b h q hq
    simp only [RTree.ordered, Bool.and_eq_true, ble_iff, blt_iff] at h
    obtain ⟨h1, h2, h3, h4, h5⟩ := h
    simp only [RTree.toList, List.mem_append, List.mem_cons] at hq
    rcases hq with hq | rfl | hq
    · have := ihl h4 q hq; omega
    · exact ⟨h1, h3⟩
    · have := ihr h5 q hq; omega

theorem find_isSome_iff {t : RTree} {n : Nat} : ∀ {a b : Nat}, t.ordered a b = true →
    (t.find n).isSome = inRanges t.toList n := by
  induction t with
  | leaf => intro a b _; rfl
  | node l lo hi v r ihl ihr =>
    intro a b h
    simp only [RTree.ordered, Bool.and_eq_true, ble_iff, blt_iff] at h
    obtain ⟨h1, h2, h3, h4, h5⟩ := h
    have bl := ordered_bounds h4
    have br := ordered_bounds h5
    rw [RTree.toList, inRanges_append]
    have hc : inRanges ((lo, hi) :: r.toList) n = ((Nat.ble lo n && Nat.ble n hi) || inRanges r.toList n) := by
      simp [inRanges]
    rw [hc, RTree.find]
    cases hlo : Nat.blt n lo with
    | true =>
      rw [blt_iff] at hlo
      have e1 : Nat.ble lo n = false := Bool.eq_false_iff.2 fun hc => by rw [ble_iff] at hc; omega
      have e2 : inRanges r.toList n = false := Bool.eq_false_iff.2 fun hc => by
        obtain ⟨q, hq, h6, h7⟩ := inRanges_iff.1 hc
        have := br q hq; omega
      rw [cond_true, ihl h4, e1, e2]; simp
    | false =>
      have hlo' : lo ≤ n := by
        by_cases h : n < lo
        · rw [blt_iff.2 h] at hlo; simp at hlo
        · omega
      have e1 : inRanges l.toList n = false := Bool.eq_false_iff.2 fun hc => by
        obtain ⟨q, hq, h6, h7⟩ := inRanges_iff.1 hc
        have := bl q hq; omega
      rw [cond_false, e1, ble_iff.2 hlo']
      cases hhi : Nat.ble n hi with
      | true => simp
      | false => rw [cond_false, ihr h5]; simp

/-! ## Permitted scalars -/

/-- The scalars `check_basic_text_char` rejects. -/
def badRanges : List (Nat × Nat) :=
  [(0, 8), (0xb, 0x1a), (0x1c, 0x1f), (0x7f, 0x9f)] ++ checkReplacement ++
  [(0xe0001, 0xe0001), (0xfff9, 0xfffb), (0x17b4, 0x17b4), (0x17b5, 0x17b5), (0x17d8, 0x17d8), (0x206a, 0x206f),
    (0x2028, 0x2028), (0x2029, 0x2029), (0x202a, 0x202e), (0x2066, 0x2069)] ++ checkNonchar ++
  [(0xfffc, 0xfffc), (0xfeff, 0xfeff)]

theorem checkChar_none_iff (c : Char) : checkChar c = none ↔ inRanges badRanges c.toNat = false := by
  have hctl : (isControl c && c != '\n' && c != '\t' && c != ESC) = inRanges [(0, 8), (0xb, 0x1a), (0x1c, 0x1f), (0x7f, 0x9f)] c.toNat := by
    rw [Bool.eq_iff_iff]
    have h1 : c = '\n' ↔ c.toNat = 10 := by rw [← Char.toNat_inj]; rfl
    have h2 : c = '\t' ↔ c.toNat = 9 := by rw [← Char.toNat_inj]; rfl
    have h3 : c = ESC ↔ c.toNat = 0x1b := by rw [← Char.toNat_inj]; rfl
    simp only [isControl, inRanges_iff, Bool.and_eq_true, bne_iff_ne, ne_eq, h1, h2, h3]
    simp
    omega
  have hls : c = LS ↔ c.toNat = 0x2028 := by rw [← Char.toNat_inj]; rfl
  have hps : c = PS ↔ c.toNat = 0x2029 := by rw [← Char.toNat_inj]; rfl
  have horc : c = ORC ↔ c.toNat = 0xfffc := by rw [← Char.toNat_inj]; rfl
  have hbom : c = BOM ↔ c.toNat = 0xfeff := by rw [← Char.toNat_inj]; rfl
  unfold checkChar badRanges
  simp only [hctl, hls, hps, horc, hbom, inRanges_append]
  generalize inRanges [(0, 8), (0xb, 0x1a), (0x1c, 0x1f), (0x7f, 0x9f)] c.toNat = b1
  generalize inRanges checkReplacement c.toNat = b2
  generalize inRanges checkNonchar c.toNat = b3
  generalize replace c = rc
  have e1 : inRanges [(0xfff9, 0xfffb)] c.toNat = decide (0xfff9 ≤ c.toNat ∧ c.toNat ≤ 0xfffb) := by
    rw [Bool.eq_iff_iff, inRanges_iff]; simp
  have e2 : inRanges [(0x206a, 0x206f)] c.toNat = decide (0x206a ≤ c.toNat ∧ c.toNat ≤ 0x206f) := by
    rw [Bool.eq_iff_iff, inRanges_iff]; simp
  have e3 : inRanges [(0x202a, 0x202e), (0x2066, 0x2069)] c.toNat =
      decide ((0x202a ≤ c.toNat ∧ c.toNat ≤ 0x202e) ∨ (0x2066 ≤ c.toNat ∧ c.toNat ≤ 0x2069)) := by
    rw [Bool.eq_iff_iff, inRanges_iff]; simp
  have e4 : inRanges [(0xe0001, 0xe0001), (0xfff9, 0xfffb), (0x17b4, 0x17b4), (0x17b5, 0x17b5), (0x17d8, 0x17d8), (0x206a, 0x206f),
      (0x2028, 0x2028), (0x2029, 0x2029), (0x202a, 0x202e), (0x2066, 0x2069)] c.toNat =
      decide (c.toNat = 0xe0001 ∨ (0xfff9 ≤ c.toNat ∧ c.toNat ≤ 0xfffb) ∨ c.toNat = 0x17b4 ∨ c.toNat = 0x17b5 ∨ c.toNat = 0x17d8 ∨
        (0x206a ≤ c.toNat ∧ c.toNat ≤ 0x206f) ∨ c.toNat = 0x2028 ∨ c.toNat = 0x2029 ∨ (0x202a ≤ c.toNat ∧ c.toNat ≤ 0x202e) ∨
        (0x2066 ≤ c.toNat ∧ c.toNat ≤ 0x2069)) := by
    rw [Bool.eq_iff_iff, inRanges_iff]; simp; omega
  have e5 : inRanges [(0xfffc, 0xfffc), (0xfeff, 0xfeff)] c.toNat = decide (c.toNat = 0xfffc ∨ c.toNat = 0xfeff) := by
    rw [Bool.eq_iff_iff, inRanges_iff]; simp; omega
  simp only [e1, e2, e3, e4, e5]
  generalize c.toNat = n
  cases b1 <;> cases b2 <;> cases b3 <;> simp only [Bool.true_or, Bool.or_true, Bool.false_or, Bool.or_false, if_true, if_false, decide_eq_true_eq,
    decide_eq_false_iff_not, Bool.true_eq_false, Bool.false_eq_true, reduceCtorEq, Bool.or_eq_false_iff] <;>
    repeat' split
  all_goals simp <;> omega

theorem bad_tree (n : Nat) : inRanges badRanges n = (badTree.find n).isSome := by
  have ho : badTree.ordered 0 0x110000 = true := by decide +kernel
  have h1 : rangesSub badRanges badTree.toList = true := by decide +kernel
  have h2 : rangesSub badTree.toList badRanges = true := by decide +kernel
  rw [find_isSome_iff ho, Bool.eq_iff_iff]
  exact ⟨rangesSub_sound h1, rangesSub_sound h2⟩

/-- Permitted, on code points. -/
def okN (n : Nat) : Bool := !(badTree.find n).isSome && !Nat.beq n 0x1b

theorem okN_eq (n : Nat) : okN n = (!inRanges badRanges n && !Nat.beq n 0x1b) := by
  rw [bad_tree]; rfl

theorem okChar_iff (c : Char) : okChar c = okN c.toNat := by
  rw [okN_eq]
  unfold okChar
  have h3 : (c != ESC) = !Nat.beq c.toNat 0x1b := by
    rw [Bool.eq_iff_iff, bne_iff_ne, Bool.not_eq_true', Bool.eq_false_iff, ne_eq, ne_eq, beq_iff]
    have : c = ESC ↔ c.toNat = 0x1b := by rw [← Char.toNat_inj]; rfl
    rw [this]
  rw [h3]
  congr 1
  rw [Bool.eq_iff_iff, Option.isNone_iff_eq_none, checkChar_none_iff]
  simp

/-- The scalars `replace` changes. -/
def changedRanges : List (Nat × Nat) := replaceMulti.map (fun r => (r.1, r.1)) ++ replaceRepl

theorem changed_bad : rangesSub changedRanges badRanges = true := by decide +kernel
theorem bad_changed : rangesSub badRanges (changedRanges ++ legacyRanges) = true := by decide +kernel
theorem legacy_bad : rangesSub legacyRanges badRanges = true := by decide +kernel
theorem legacy_unchanged : legacyRanges.all (fun r => changedRanges.all fun q => Nat.blt q.2 r.1 || Nat.blt r.2 q.1) = true := by
  decide +kernel
theorem multi_ok : replaceMulti.all (fun r => r.2.all (fun n => okN n && validN n) && !eqN r.2 [r.1] && !r.2.isEmpty) = true := by
  decide +kernel
theorem repl_not_changed : inRanges changedRanges 0xfffd = false := by decide +kernel
theorem repl_ok : okN 0xfffd = true := by decide +kernel

theorem lookup_mem {l : List (Nat × List Nat)} {n : Nat} {v : List Nat} (h : l.lookup n = some v) : (n, v) ∈ l := by
  induction l with
  | nil => simp at h
  | cons a r ih =>
    obtain ⟨k, w⟩ := a
    simp only [List.lookup_cons] at h
    cases hb : n == k with
    | true =>
      rw [hb] at h
      have h1 : n = k := by simpa using hb
      have h2 : w = v := by simpa using h
      rw [h1, h2]; simp
    | false => rw [hb] at h; exact List.mem_cons_of_mem _ (ih h)

theorem lookup_none {l : List (Nat × List Nat)} {n : Nat} (h : l.lookup n = none) : ∀ r ∈ l, r.1 ≠ n := by
  induction l with
  | nil => simp
  | cons a r ih =>
    obtain ⟨k, w⟩ := a
    simp only [List.lookup_cons] at h
    cases hb : n == k with
    | true => rw [hb] at h; simp at h
    | false =>
      rw [hb] at h
      intro x hx
      rcases List.mem_cons.1 hx with rfl | hx
      · intro hc; simp at hc; rw [hc] at hb; simp at hb
      · exact ih h x hx

/-- The three cases of `replace`. -/
theorem replace_cases (c : Char) :
    (inRanges changedRanges c.toNat = true ∧ ∃ v, (c.toNat, v) ∈ replaceMulti ∧ replace c = v.map Char.ofNat) ∨
    (inRanges changedRanges c.toNat = true ∧ replace c = [REPL]) ∨
    (inRanges changedRanges c.toNat = false ∧ replace c = [c]) := by
  unfold replace
  cases hl : replaceMulti.lookup c.toNat with
  | some v =>
    left
    have := lookup_mem hl
    refine ⟨?_, v, this, rfl⟩
    unfold changedRanges
    rw [inRanges_append, Bool.or_eq_true]
    left
    rw [inRanges_iff]
    exact ⟨(c.toNat, c.toNat), List.mem_map.2 ⟨_, this, rfl⟩, Nat.le_refl _, Nat.le_refl _⟩
  | none =>
    right
    have hn : inRanges (replaceMulti.map (fun r => (r.1, r.1))) c.toNat = false := by
      apply Bool.eq_false_iff.2
      intro hc
      obtain ⟨r, hr, h1, h2⟩ := inRanges_iff.1 hc
      obtain ⟨q, hq, rfl⟩ := List.mem_map.1 hr
      exact lookup_none hl q hq (by simp at h1 h2; omega)
    unfold changedRanges
    rw [inRanges_append, hn, Bool.false_or]
    cases h : inRanges replaceRepl c.toNat <;> simp

/-- `replace` leaves permitted scalars alone. -/
theorem replace_ok {c : Char} (h : checkChar c = none) : replace c = [c] := by
  rw [checkChar_none_iff] at h
  rcases replace_cases c with ⟨h1, -⟩ | ⟨h1, -⟩ | ⟨-, h2⟩
  · rw [rangesSub_sound changed_bad h1] at h; simp at h
  · rw [rangesSub_sound changed_bad h1] at h; simp at h
  · exact h2

theorem okN_of {n : Nat} (h : inRanges badRanges n = false) (h2 : n ≠ 0x1b) : okN n = true := by
  rw [okN_eq, h, Bool.not_false, Bool.true_and, Bool.not_eq_true']
  exact Bool.eq_false_iff.2 fun hc => h2 (beq_iff.1 hc)

/-- Everything `replace` produces is permitted or a legacy scalar. -/
theorem replace_mem {c d : Char} (hc : c ≠ ESC) (h : d ∈ replace c) : okChar d = true ∨ isLegacy d = true := by
  rcases replace_cases c with ⟨-, v, hv, e⟩ | ⟨-, e⟩ | ⟨h1, e⟩
  · rw [e] at h
    obtain ⟨n, hn, rfl⟩ := List.mem_map.1 h
    have := List.all_eq_true.1 multi_ok _ hv
    simp only [Bool.and_eq_true, List.all_eq_true] at this
    left
    rw [okChar_iff, toNat_ofNat (this.1.1 n hn).2]
    exact (this.1.1 n hn).1
  · rw [e] at h
    have : d = REPL := by simpa using h
    left; rw [this, okChar_iff]; exact repl_ok
  · rw [e] at h
    have : d = c := by simpa using h
    rw [this]
    cases hb : inRanges badRanges c.toNat with
    | false =>
      left; rw [okChar_iff]
      exact okN_of hb fun hn => hc (Char.toNat_inj.1 hn)
    | true =>
      right
      have := rangesSub_sound bad_changed hb
      rw [inRanges_append, h1, Bool.false_or] at this
      exact this

theorem replace_ne_nil (c : Char) : replace c ≠ [] := by
  rcases replace_cases c with ⟨-, v, hv, e⟩ | ⟨-, e⟩ | ⟨h1, e⟩
  · rw [e]
    have := List.all_eq_true.1 multi_ok _ hv
    simp only [Bool.and_eq_true, Bool.not_eq_true'] at this
    intro h0
    have : v = [] := by simpa using h0
    simp [this] at *
  · rw [e]; simp
  · rw [e]; simp

/-- `replace` changes exactly the rejected scalars that are not legacy scalars. -/
theorem replace_eq_self_iff (c : Char) : replace c = [c] ↔ checkChar c = none ∨ isLegacy c = true := by
  constructor
  · intro h
    rw [checkChar_none_iff]
    cases hb : inRanges badRanges c.toNat with
    | false => simp
    | true =>
      right
      have h1 := rangesSub_sound bad_changed hb
      rw [inRanges_append, Bool.or_eq_true] at h1
      rcases h1 with h1 | h1
      · exfalso
        rcases replace_cases c with ⟨-, v, hv, e⟩ | ⟨-, e⟩ | ⟨h2, -⟩
        · have := List.all_eq_true.1 multi_ok _ hv
          simp only [Bool.and_eq_true, Bool.not_eq_true', List.all_eq_true] at this
          rw [e] at h
          have hv2 : v = [c.toNat] := by
            cases v with
            | nil => simp at h
            | cons a r =>
              simp only [List.map_cons, List.cons.injEq, List.map_eq_nil_iff] at h
              have hva := (this.1.1 a (by simp)).2
              rw [h.2, ← h.1, toNat_ofNat hva]
          have h3 := this.1.2
          rw [eqN_iff.2 hv2] at h3
          simp at h3
        · rw [e] at h
          have : c = REPL := by simpa using h.symm
          rw [this] at h1
          have h4 := repl_not_changed
          rw [show (0xfffd : Nat) = REPL.toNat from rfl, h1] at h4; simp at h4
        · rw [h1] at h2; simp at h2
      · exact h1
  · rintro (h | h)
    · exact replace_ok h
    · rcases replace_cases c with ⟨h1, -⟩ | ⟨h1, -⟩ | ⟨-, h2⟩
      · exfalso
        obtain ⟨r, hr, h3, h4⟩ := inRanges_iff.1 h
        obtain ⟨q, hq, h5, h6⟩ := inRanges_iff.1 h1
        have := List.all_eq_true.1 (List.all_eq_true.1 legacy_unchanged r hr) q hq
        simp only [Bool.or_eq_true, blt_iff] at this
        omega
      · exfalso
        obtain ⟨r, hr, h3, h4⟩ := inRanges_iff.1 h
        obtain ⟨q, hq, h5, h6⟩ := inRanges_iff.1 h1
        have := List.all_eq_true.1 (List.all_eq_true.1 legacy_unchanged r hr) q hq
        simp only [Bool.or_eq_true, blt_iff] at this
        omega
      · exact h2

theorem legacy_not_ok {c : Char} (h : isLegacy c = true) : okChar c = false := by
  rw [okChar_iff, okN_eq, rangesSub_sound legacy_bad h]; rfl

/-! ## Start table -/

theorem startTable_tree (n : Nat) : startTable n = !(notStartTree.find n).isSome := by
  have ho : notStartTree.ordered 0 0x110000 = true := by decide +kernel
  have h1 : rangesSub (graphemeExtendNotCgj ++ emojiModifier ++ [(0x200d, 0x200d), (0xe33, 0xe33), (0xeb3, 0xeb3)])
      notStartTree.toList = true := by decide +kernel
  have h2 : rangesSub generalCategorySpacingMark (notStartTree.toList ++ spacingMarkExcept) = true := by decide +kernel
  have h3 : rangesSub notStartTree.toList (graphemeExtendNotCgj ++ emojiModifier ++
      [(0x200d, 0x200d), (0xe33, 0xe33), (0xeb3, 0xeb3)] ++ generalCategorySpacingMark) = true := by decide +kernel
  have h4 : notStartTree.toList.all (fun r => spacingMarkExcept.all fun q => Nat.blt q.2 r.1 || Nat.blt r.2 q.1) = true := by
    decide +kernel
  have hs : inRanges [(0x200d, 0x200d), (0xe33, 0xe33), (0xeb3, 0xeb3)] n =
      (Nat.beq n 0x200d || (Nat.beq n 0xe33 || Nat.beq n 0xeb3)) := by
    rw [Bool.eq_iff_iff, inRanges_iff]; simp; omega
  have h5 : inRanges notStartTree.toList n = true → inRanges spacingMarkExcept n = false := by
    intro h
    apply Bool.eq_false_iff.2
    intro hc
    obtain ⟨r, hr, h6, h7⟩ := inRanges_iff.1 h
    obtain ⟨q, hq, h8, h9⟩ := inRanges_iff.1 hc
    have := List.all_eq_true.1 (List.all_eq_true.1 h4 r hr) q hq
    simp only [Bool.or_eq_true, blt_iff] at this
    omega
  have h1 := rangesSub_sound h1 (n := n)
  have h2 := rangesSub_sound h2 (n := n)
  have h3 := rangesSub_sound h3 (n := n)
  rw [find_isSome_iff ho]
  simp only [inRanges_append, hs] at h1 h2 h3
  unfold startTable isSpacingMarkPlus
  revert h1 h2 h3 h5
  generalize inRanges notStartTree.toList n = t
  generalize inRanges graphemeExtendNotCgj n = b1
  generalize inRanges emojiModifier n = b2
  generalize inRanges generalCategorySpacingMark n = b3
  generalize inRanges spacingMarkExcept n = b4
  generalize Nat.beq n 0x200d = b5
  generalize Nat.beq n 0xe33 = b6
  generalize Nat.beq n 0xeb3 = b7
  cases t <;> cases b1 <;> cases b2 <;> cases b3 <;> cases b4 <;> cases b5 <;> cases b6 <;> cases b7 <;> simp

end Verif
