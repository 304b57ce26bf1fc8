import Verif.KeptTheory
import Verif.Color

/-!
# The ideographs in a text, as such or by their variation sequences

`docs/NFC.md:76-88`.  A text names a CJK compatibility ideograph by the scalar itself or by its variation sequence; the conversion
turns the first into the second.  Here: the list of the ideographs that a text names is unchanged by each step of the conversion.
-/

namespace Verif
open Ucd Spec Tables

/-- The parts of Unicode in which the bases lie. -/
def inBases (n : Nat) : Bool := (Nat.ble 0x3400 n && Nat.ble n 0x9fff) || (Nat.ble 0x20000 n && Nat.ble n 0x2f7ff)

theorem inverse_entries : cjkInverse.all (fun k n => inRanges compatRanges n && eqN (cjkN n) [k / 16, 0xfe00 + k % 16] && validN n &&
    inBases (k / 16) && assignedN (k / 16) && dividesN (k / 16)) = true := by decide +kernel

theorem decomp_bases : decompTree.all (fun k v => inRanges compatRanges k || v.all fun d => !inBases d) = true := by decide +kernel

theorem compose_bases : composeTree.all (fun _ r => !inBases r) = true := by decide +kernel

theorem decomp_no_compat : decompTree.all (fun _ v => v.all fun d => !inRanges compatRanges d) = true := by decide +kernel

theorem compose_no_compat : composeTree.all (fun _ r => !inRanges compatRanges r) = true := by decide +kernel

theorem compat_decomposes : compatRanges.all (fun r => rangeAll (fun n => (decompTree.find n).isSome) r.1 (r.2 + 1 - r.1)) = true := by decide +kernel

theorem not_compat_base {n : Nat} (h : inBases n = true) : inRanges compatRanges n = false := by
  cases hc : inRanges compatRanges n with
  | false => rfl
  | true =>
    exfalso
    obtain ⟨r, h1, h2, h3⟩ := inRanges_iff.1 hc
    simp only [inBases, Bool.or_eq_true, Bool.and_eq_true, Nat.ble_eq] at h
    simp only [compatRanges, List.mem_cons, List.not_mem_nil, or_false] at h1
    rcases h1 with rfl | rfl | rfl | rfl | rfl | rfl | rfl | rfl | rfl | rfl <;> simp at h2 h3 <;> omega

/-- What the inverse table says. -/
theorem unvariant_some {b v i : Char} (hv : isSelector v = true) (h : unvariant b v = some i) :
    isCompat i = true ∧ ucd15.cjk i = [b, v] ∧ inBases b.toNat = true ∧ isAssigned ucd15 b = true ∧ Divides ucd15 b := by
  unfold unvariant at h
  obtain ⟨n, h1, rfl⟩ := Option.map_eq_some_iff.1 h
  have ht := Tree.find_all inverse_entries h1
  have hs : 0xfe00 ≤ v.toNat ∧ v.toNat ≤ 0xfe02 := by simpa [isSelector] using hv
  have e1 : (b.toNat * 16 + (v.toNat - 0xfe00)) / 16 = b.toNat := by omega
  have e2 : 0xfe00 + (b.toNat * 16 + (v.toNat - 0xfe00)) % 16 = v.toNat := by omega
  simp only [Bool.and_eq_true, eqN_iff, e1, e2] at ht
  obtain ⟨⟨⟨⟨⟨h2, h3⟩, h4⟩, h5⟩, h6⟩, h7⟩ := ht
  have hn : (Char.ofNat n).toNat = n := toNat_ofNat h4
  refine ⟨by rw [isCompat, hn]; exact h2, ?_, h5, ?_, divides15 h7⟩
  · show (cjkN (Char.ofNat n).toNat).map Char.ofNat = _
    rw [hn, h3]; simp
  · simp only [isAssigned, Bool.or_eq_true]; exact Or.inl h6

/-- The inverse table is the inverse. -/
theorem unvariant_iff {b v i : Char} (hv : isSelector v = true) : unvariant b v = some i ↔ isCompat i = true ∧ variantOf i = (b, v) := by
  constructor
  · intro h
    obtain ⟨h1, h2, -⟩ := unvariant_some hv h
    exact ⟨h1, by simp [variantOf, h2]⟩
  · rintro ⟨h1, h2⟩
    obtain ⟨b', v', h3, -, -, -, -, -, h4⟩ := compat_variant h1
    have : variantOf i = (b', v') := by simp [variantOf, h3]
    rw [this, Prod.mk.injEq] at h2
    rw [← h2.1, ← h2.2]; exact h4

/-- The ideographs a text names: those in it, and those whose variation sequences are in it; `prev` stands before the text. -/
def Spec.named (prev : Char) : List Char → List Char
  | [] => []
  | c :: r => (if isCompat c then [c] else if isSelector c then (unvariant prev c).toList else []) ++ named c r

/-- Alike before a selector. -/
def SameBase (p q : Char) : Prop := ∀ v, isSelector v = true → unvariant p v = unvariant q v

theorem SameBase.rfl' {p : Char} : SameBase p p := fun _ _ => rfl

theorem SameBase.symm' {p q : Char} (h : SameBase p q) : SameBase q p := fun v hv => (h v hv).symm

theorem SameBase.trans' {p q r : Char} (h : SameBase p q) (h' : SameBase q r) : SameBase p r := fun v hv => (h v hv).trans (h' v hv)

theorem unvariant_none {p v : Char} (hv : isSelector v = true) (h : inBases p.toNat = false) : unvariant p v = none := by
  cases hu : unvariant p v with
  | none => rfl
  | some i => have := (unvariant_some hv hu).2.2.1; rw [h] at this; simp at this

theorem sameBase_of {p q : Char} (hp : inBases p.toNat = false) (hq : inBases q.toNat = false) : SameBase p q :=
  fun _ hv => by rw [unvariant_none hv hp, unvariant_none hv hq]

theorem selector_not_compat {c : Char} (h : isSelector c = true) : isCompat c = false ∧ inBases c.toNat = false := by
  have : c.toNat = 0xfe00 ∨ c.toNat = 0xfe01 ∨ c.toNat = 0xfe02 := by
    simp only [isSelector, Bool.and_eq_true, Nat.ble_eq] at h
    omega
  unfold isCompat
  rcases this with e | e | e <;> rw [e] <;> decide

theorem compat_not_base {c : Char} (h : isCompat c = true) : inBases c.toNat = false := by
  cases hb : inBases c.toNat with
  | false => rfl
  | true => have := not_compat_base hb; rw [isCompat, this] at h; simp at h

theorem named_same {p q : Char} (h : SameBase p q) (s : List Char) : named p s = named q s := by
  cases s with
  | nil => rfl
  | cons c s =>
    simp only [named]
    by_cases hs : isSelector c = true
    · rw [h c hs]
    · simp [hs]

theorem named_append (p : Char) (x y : List Char) : named p (x ++ y) = named p x ++ named (x.getLastD p) y := by
  induction x generalizing p with
  | nil => rfl
  | cons c x ih =>
    simp only [List.cons_append, named, ih, List.append_assoc]
    cases x with
    | nil => simp
    | cons d x => simp [List.getLastD]

theorem named_other {x : List Char} (h : ∀ c ∈ x, isSelector c = false ∧ isCompat c = false) (p : Char) : named p x = [] := by
  induction x generalizing p with
  | nil => rfl
  | cons c x ih =>
    simp only [named, (h c (by simp)).1, (h c (by simp)).2, ih fun d hd => h d (by simp [hd])]
    simp

/-! ## The chain -/

theorem base_source {b : Char} (hb : inBases b.toNat = true) : (∀ x, b ∈ ucd15.decomp x → x = b ∨ isCompat x = true) ∧
    ∀ k d, ucd15.compose k d ≠ some b := by
  have hr := hb
  simp only [inBases, Bool.or_eq_true, Bool.and_eq_true, Nat.ble_eq] at hr
  constructor
  · intro x hx
    have hm := mem_decomp hx
    rcases decompN_cases x.toNat with ⟨h', e⟩ | ⟨-, -, e⟩ | ⟨-, v, hf, e, -⟩
    · rw [e] at hm
      have := isJamo_iff.1 (hangul_mem h' hm)
      omega
    · rw [e] at hm
      exact Or.inl (Char.toNat_inj.1 (by simpa using hm)).symm
    · have := Tree.find_all decomp_bases hf
      rw [Bool.or_eq_true, List.all_eq_true] at this
      rcases this with h | h
      · exact Or.inr h
      · rw [e] at hm
        have := h _ hm
        rw [hb] at this; simp at this
  · intro k d hx
    have hd := validN_lt (validN_toNat d)
    rcases composeN_cases (by omega) (compose_toNat hx) with ⟨h1, h2, h3⟩ | ⟨h1, h2, h3, h4⟩ | ⟨hf, -⟩
    · omega
    · simp only [isSyl, Bool.and_eq_true, Nat.ble_eq] at h1
      omega
    · have := Tree.find_all compose_bases hf
      rw [hb] at this
      simp at this

theorem normChain_base {b : Char} (hb : inBases b.toNat = true) {x : List Char} (h : ∀ c ∈ x, isCompat c = false) (hm : b ∈ normChain ucd15 x) : b ∈ x := by
  obtain ⟨h1, h2⟩ := base_source hb
  have hne : b ≠ CGJ := by rintro rfl; exact absurd hb (by decide)
  rcases mem_nfc hm with ⟨d, hd, hm⟩ | ⟨k, e, hk⟩
  · have hx : ∀ d ∈ ucd15.cjkVariants (isolate ucd15 x), d = CGJ ∨ d ∈ x := by
      intro d hd
      obtain ⟨y, hy, hd⟩ := List.mem_flatMap.1 hd
      rcases mem_isolate_of hy with rfl | hy
      · rw [cjk_not_compat (by decide)] at hd
        exact Or.inl (by simpa using hd)
      · rw [cjk_not_compat (h y hy), List.mem_singleton] at hd
        exact Or.inr (hd ▸ hy)
    have hdx : d = CGJ ∨ d ∈ x := by
      rcases mem_streamSafe_of hd with hd | hd
      · exact Or.inl hd
      · exact hx d hd
    rcases h1 d hm with rfl | hc
    · exact hdx.resolve_left hne
    · rcases hdx with rfl | hd'
      · exact absurd hc (by decide)
      · rw [h d hd'] at hc; simp at hc
  · exact absurd hk (h2 k e)

/-- The ideographs themselves are gone after normalization. -/
theorem nfc_no_compat {s : List Char} : ∀ c ∈ ucd15.nfc s, isCompat c = false := by
  intro c hc
  cases hi : isCompat c with
  | false => rfl
  | true =>
    exfalso
    have hr : (0xf900 ≤ c.toNat ∧ c.toNat ≤ 0xfad9) ∨ (0x2f800 ≤ c.toNat ∧ c.toNat ≤ 0x2fa1d) := by
      obtain ⟨r, h1, h2, h3⟩ := inRanges_iff.1 hi
      simp only [compatRanges, List.mem_cons, List.not_mem_nil, or_false] at h1
      rcases h1 with rfl | rfl | rfl | rfl | rfl | rfl | rfl | rfl | rfl | rfl <;> simp at h2 h3 <;> omega
    rcases mem_nfc hc with ⟨d, -, hm⟩ | ⟨k, e, hk⟩
    · have hm := mem_decomp hm
      rcases decompN_cases d.toNat with ⟨h', e⟩ | ⟨-, hf, e⟩ | ⟨-, v, hf, e, -⟩
      · rw [e] at hm
        have := isJamo_iff.1 (hangul_mem h' hm)
        omega
      · rw [e, List.mem_singleton] at hm
        obtain ⟨r, h1, h2, h3⟩ := inRanges_iff.1 hi
        have := rangeAll_mem (List.all_eq_true.1 compat_decomposes r h1) h2 (by omega)
        rw [hm, hf] at this
        simp at this
      · rw [e] at hm
        have := List.all_eq_true.1 (Tree.find_all decomp_no_compat hf) _ hm
        rw [show inRanges compatRanges c.toNat = true from hi] at this
        simp at this
    · have hd := validN_lt (validN_toNat e)
      rcases composeN_cases (by omega) (compose_toNat hk) with ⟨h1, h2, h3⟩ | ⟨h1, h2, h3, h4⟩ | ⟨hf, -⟩
      · omega
      · simp only [isSyl, Bool.and_eq_true, Nat.ble_eq] at h1
        omega
      · have := Tree.find_all compose_no_compat hf
        rw [show inRanges compatRanges c.toNat = true from hi] at this
        simp at this

theorem last_split {b : Char} {s : List Char} (hm : b ∈ s) : ∃ x y, b ∉ y ∧ s = x ++ b :: y := by
  induction s with
  | nil => simp at hm
  | cons d s ih =>
    by_cases hs : b ∈ s
    · obtain ⟨x, y, hy, rfl⟩ := ih hs
      exact ⟨d :: x, y, hy, rfl⟩
    · have : b = d := by simpa [hs] using hm
      subst this
      exact ⟨[], s, hs, rfl⟩

theorem last_normChain_base {b : Char} (hb : inBases b.toNat = true) (ha : isAssigned ucd15 b = true) (hd : Divides ucd15 b)
    {s : List Char} (h : ∀ c ∈ s, isCompat c = false) : (normChain ucd15 s).getLast? = some b ↔ s.getLast? = some b := by
  have hne : b ≠ CGJ := by rintro rfl; exact absurd hb (by decide)
  have hc : ucd15.cjk b = [b] := cjk_not_compat (not_compat_base hb)
  constructor
  · intro hl
    obtain ⟨x, y, hy, rfl⟩ := last_split (normChain_base hb h (List.mem_of_getLast? hl))
    rw [normChain_divide1 ha hc hne hd] at hl
    by_cases hn : y = []
    · subst hn; simp
    · exfalso
      apply hy
      apply normChain_base hb fun c hc => h c (by simp [hc])
      rw [List.getLast?_append, List.getLast?_cons] at hl
      cases he : (normChain ucd15 y).getLast? with
      | none => simp at he; exact absurd he (normChain_ne_nil textLaws15 hn)
      | some e =>
        rw [he] at hl
        simp at hl
        subst hl
        exact List.mem_of_getLast? he
  · intro hl
    obtain ⟨x, rfl⟩ := List.getLast?_eq_some_iff.1 hl
    rw [normChain_divide1 ha hc hne hd]
    simp [normChain_nil]

theorem last_same {s : List Char} (h : ∀ c ∈ s, isCompat c = false) (p : Char) : SameBase ((normChain ucd15 s).getLastD p) (s.getLastD p) := by
  by_cases hn : s = []
  · subst hn; rw [normChain_nil]; exact .rfl'
  have hne := normChain_ne_nil textLaws15 hn
  intro v hv
  rw [List.getLastD_eq_getLast?, List.getLastD_eq_getLast?]
  obtain ⟨d, hd⟩ : ∃ d, (normChain ucd15 s).getLast? = some d := by
    cases he : (normChain ucd15 s).getLast? with
    | none => simp at he; exact absurd he hne
    | some e => exact ⟨e, rfl⟩
  obtain ⟨e, he⟩ : ∃ e, s.getLast? = some e := by
    cases he : s.getLast? with
    | none => simp at he; exact absurd he hn
    | some e => exact ⟨e, rfl⟩
  rw [hd, he]
  simp only [Option.getD_some]
  cases hu : unvariant d v with
  | some i =>
    obtain ⟨-, -, h1, h2, h3⟩ := unvariant_some hv hu
    rw [last_normChain_base h1 h2 h3 h, he] at hd
    rw [Option.some.inj hd, hu]
  | none =>
    cases hu' : unvariant e v with
    | none => rfl
    | some i =>
      obtain ⟨-, -, h1, h2, h3⟩ := unvariant_some hv hu'
      rw [← last_normChain_base h1 h2 h3 h, hd] at he
      rw [← Option.some.inj he, hu] at hu'
      simp at hu'

theorem selector_table : [0xfe00, 0xfe01, 0xfe02].all (fun n => assignedN n && dividesN n) = true := by decide +kernel

theorem selector_context {v : Char} (h : isSelector v = true) (x y : List Char) :
    normChain ucd15 (x ++ v :: y) = normChain ucd15 x ++ v :: normChain ucd15 y := by
  have e : v.toNat ∈ [0xfe00, 0xfe01, 0xfe02] := by
    simp only [isSelector, Bool.and_eq_true, Nat.ble_eq] at h
    simp only [List.mem_cons, List.not_mem_nil, or_false]
    omega
  have ht := List.all_eq_true.1 selector_table _ e
  rw [Bool.and_eq_true] at ht
  exact normChain_divide1 (by simp only [isAssigned, Bool.or_eq_true]; exact Or.inl ht.1) (cjk_not_compat (selector_not_compat h).1)
    (by rintro rfl; exact absurd h (by decide)) (divides15 ht.2) x y

theorem lastD_cons (a : Char) (l z : List Char) (d : Char) : (z ++ a :: l).getLastD d = l.getLastD a := by
  rw [List.getLastD_eq_getLast?, List.getLastD_eq_getLast?, List.getLast?_append, List.getLast?_cons]
  cases l.getLast? <;> simp

theorem named_compat {X Y y : List Char} {b v i p q : Char} (hp : ∀ c ∈ X, isSelector c = false ∧ isCompat c = false) (hi : isCompat i = true)
    (hb : isCompat b = false) (hb' : isSelector b = false) (hv : isSelector v = true) (hu : unvariant b v = some i)
    (h1 : named v Y = named i y) (h2 : SameBase (Y.getLastD v) (y.getLastD i)) :
    named p (X ++ b :: v :: Y) = [] ++ named q (i :: y) ∧ SameBase ((X ++ b :: v :: Y).getLastD p) (y.getLastD i) := by
  rw [named_append, named_other hp]
  refine ⟨by simp [named, hi, hb, hb', hv, (selector_not_compat hv).1, hu, h1], ?_⟩
  rw [show X ++ b :: v :: Y = (X ++ [b]) ++ v :: Y by simp, lastD_cons]
  exact h2

theorem named_selector {X Y y : List Char} {v p q : Char} (hp : ∀ c ∈ X, isSelector c = false ∧ isCompat c = false)
    (hv : isSelector v = true) (hq : unvariant (X.getLastD p) v = unvariant q v)
    (h1 : named v Y = named v y) (h2 : SameBase (Y.getLastD v) (y.getLastD v)) :
    named p (X ++ v :: Y) = [] ++ named q (v :: y) ∧ SameBase ((X ++ v :: Y).getLastD p) (y.getLastD v) := by
  rw [named_append, named_other hp, lastD_cons]
  exact ⟨by simp only [named, (selector_not_compat hv).1, hv, hq, h1], h2⟩

theorem named_normChain (n : Nat) : ∀ (s : List Char), s.length ≤ n → ∀ p q, SameBase p q →
    named p (normChain ucd15 s) = named q s ∧ SameBase ((normChain ucd15 s).getLastD p) (s.getLastD q) := by
  induction n with
  | zero =>
    intro s hl p q h
    rw [List.length_eq_zero_iff.1 (Nat.le_zero.1 hl), normChain_nil]
    exact ⟨rfl, h⟩
  | succ n ih =>
    intro s hl p q h
    have hlast : ∀ {x : List Char}, (∀ c ∈ x, isCompat c = false) → SameBase ((normChain ucd15 x).getLastD p) (x.getLastD q) := by
      intro x hx
      refine (last_same hx p).trans' ?_
      cases x with
      | nil => exact h
      | cons d x => simp [List.getLastD]; exact .rfl'
    rcases first_comp (fun c => isCompat c || isSelector c) s with hc | ⟨x, i, y, rfl, hx, hi⟩
    · have hc' : ∀ c ∈ s, isSelector c = false ∧ isCompat c = false := fun c h => by
        have := hc c h; simp only [Bool.or_eq_false_iff] at this; exact this.symm
      have hp : ∀ c ∈ normChain ucd15 s, isSelector c = false ∧ isCompat c = false := fun c hm =>
        ⟨normChain_plain hc' c hm, nfc_no_compat c hm⟩
      rw [named_other hc', named_other hp]
      exact ⟨rfl, hlast fun c h => (hc' c h).2⟩
    · have hx' : ∀ c ∈ x, isSelector c = false ∧ isCompat c = false := fun c h => by
        have := hx c h; simp only [Bool.or_eq_false_iff] at this; exact this.symm
      have hp : ∀ c ∈ normChain ucd15 x, isSelector c = false ∧ isCompat c = false := fun c hm =>
        ⟨normChain_plain hx' c hm, nfc_no_compat c hm⟩
      have hq := hlast fun c h => (hx' c h).2
      have hy : y.length ≤ n := by simp at hl; omega
      rw [lastD_cons, named_append q, named_other hx']
      cases hcc : isCompat i with
      | true =>
        obtain ⟨b, v, h1, h2, h3, h4, h5, -, h6⟩ := compat_variant hcc
        have hb := unvariant_some h5 h6
        obtain ⟨i1, i2⟩ := ih y hy v i (sameBase_of (selector_not_compat h5).2 (compat_not_base hcc))
        rw [compat_context hcc, h1, List.append_assoc]
        exact named_compat hp hcc (not_compat_base hb.2.2.1) h4 h5 h6 i1 i2
      | false =>
        have hs : isSelector i = true := by simpa [hcc] using hi
        obtain ⟨i1, i2⟩ := ih y hy i i .rfl'
        rw [selector_context hs]
        exact named_selector hp hs (hq i hs) i1 i2

/-- Over the segments of a reader. -/
theorem named_segs (l : List (List Char)) : ∀ p q, SameBase p q → named p (l.flatMap (normChain ucd15)) = named q l.flatten := by
  induction l with
  | nil => intro p q _; rfl
  | cons s l ih =>
    intro p q h
    obtain ⟨h1, h2⟩ := named_normChain _ s (Nat.le_refl _) p q h
    rw [List.flatMap_cons, List.flatten_cons, named_append, named_append, h1, ih _ _ h2]

/-! ## The translation -/

theorem multi_bases : replaceMulti.all (fun e => !inBases e.1 && !e.2.isEmpty && e.2.all fun d => validN d && !inBases d) = true := by decide +kernel

theorem repl_bases : replaceRepl.all (fun r => [(0x3400, 0x9fff), (0x20000, 0x2f7ff)].all fun r' => Nat.blt r.2 r'.1 || Nat.blt r'.2 r.1) = true := by
  decide +kernel

theorem replace_base (c : Char) : replace c ≠ [] ∧ (inBases c.toNat = true → replace c = [c]) ∧
    (inBases c.toNat = false → ∀ d ∈ replace c, inBases d.toNat = false) := by
  unfold replace
  cases hl : replaceMulti.lookup c.toNat with
  | some l =>
    have hm := List.all_eq_true.1 multi_bases _ (lookup_mem hl)
    simp only [Bool.and_eq_true, Bool.not_eq_true', List.all_eq_true, List.isEmpty_eq_false_iff] at hm
    refine ⟨by simpa using hm.1.2, fun h => by rw [hm.1.1] at h; simp at h, fun _ d hd => ?_⟩
    obtain ⟨n, hn, rfl⟩ := List.mem_map.1 hd
    rw [toNat_ofNat (hm.2 n hn).1]; exact (hm.2 n hn).2
  | none =>
    simp only
    split
    · rename_i hin
      refine ⟨by simp, fun h => ?_, fun _ d hd => by rw [List.mem_singleton.1 hd]; decide⟩
      exfalso
      obtain ⟨r, h1, h2, h3⟩ := inRanges_iff.1 hin
      have := List.all_eq_true.1 repl_bases r h1
      simp only [List.all_cons, List.all_nil, Bool.and_true, Bool.and_eq_true, Bool.or_eq_true, Nat.blt_eq] at this
      simp only [inBases, Bool.or_eq_true, Bool.and_eq_true, Nat.ble_eq] at h
      omega
    · exact ⟨by simp, fun _ => rfl, fun h d hd => by rw [List.mem_singleton.1 hd]; exact h⟩

/-- The replacement table keeps what matters here. -/
theorem named_replace (c : Char) (p : Char) : named p (replace c) = named p [c] ∧ SameBase ((replace c).getLastD p) c := by
  obtain ⟨h1, h2, h3⟩ := replace_base c
  have hs := kept_selector.repl c
  have hc := kept_compat.repl c
  constructor
  · by_cases hsc : isSelector c = true ∨ isCompat c = true
    · have hr : replace c = [c] := by
        unfold replace
        cases hl : replaceMulti.lookup c.toNat with
        | some l =>
          exfalso
          have hm := List.all_eq_true.1 multi_kept _ (lookup_mem hl)
          simp only [Bool.and_eq_true, Bool.not_eq_true', Bool.or_eq_false_iff] at hm
          rw [isSelector_ranges, isCompat, hm.1.1, hm.1.2] at hsc
          simp at hsc
        | none =>
          simp only
          split
          · rename_i hin
            have e : replace c = [REPL] := by unfold replace; rw [hl]; simp only; rw [if_pos hin]
            rw [e] at hs hc
            rw [List.filter_cons, show isSelector REPL = false by decide] at hs
            rw [List.filter_cons, show isCompat REPL = false by decide] at hc
            rcases hsc with h | h
            · rw [h] at hs; simp at hs
            · rw [h] at hc; simp at hc
          · rfl
      rw [hr]
    · simp only [not_or, Bool.not_eq_true] at hsc
      rw [named_other (x := [c]) (by simpa using hsc), named_other]
      intro d hd
      simp only [hsc.1, hsc.2, Bool.false_eq_true, if_false, List.filter_eq_nil_iff, Bool.not_eq_true] at hs hc
      exact ⟨hs d hd, hc d hd⟩
  · cases hb : inBases c.toNat with
    | true => rw [h2 hb]; exact .rfl'
    | false =>
      refine sameBase_of (h3 hb _ ?_) hb
      rw [List.getLastD_eq_getLast?, List.getLast?_eq_some_getLast h1]
      exact List.getLast_mem h1

/-- A text without the escape sequences in it. -/
def Spec.spoken (fin : Char → Bool) : List Char → List Char
  | [] => []
  | c :: r => if c = ESC then spoken fin (afterEsc fin (r.dropWhile (· = ESC))) else c :: spoken fin r
termination_by s => s.length
decreasing_by
  all_goals simp only [List.length_cons]
  · have h1 := afterEsc_le fin (r.dropWhile (· = ESC))
    have h2 := dropWhile_le (· = ESC) r
    omega
  · omega

theorem spoken_cons {fin : Char → Bool} {c : Char} {r : List Char} (h : c ≠ ESC) : spoken fin (c :: r) = c :: spoken fin r := by
  rw [spoken, if_neg h]

theorem spoken_nil {fin : Char → Bool} : spoken fin [] = [] := by rw [spoken]

theorem spoken_plain {fin : Char → Bool} {s : List Char} (h : ESC ∉ s) : spoken fin s = s := by
  induction s with
  | nil => exact spoken_nil
  | cons c s ih =>
    rw [spoken_cons (fun e => h (by simp [e])), ih fun e => h (by simp [e])]

theorem named_tokens {fin : Char → Bool} {nel lsps : Bool} : ∀ (n : Nat) (s : List Char), s.length ≤ n → ∀ p q, SameBase p q →
    named p ((tokens fin (single nel lsps) s).flatMap Tok.out) = named q (spoken fin s) := by
  intro n
  induction n with
  | zero =>
    intro s hs p q _
    have : s = [] := List.length_eq_zero_iff.1 (by omega)
    subst this; simp [tokens, named, spoken_nil]
  | succ n ih =>
    intro s hs p q h
    cases s with
    | nil => simp [tokens, named, spoken_nil]
    | cons c r =>
      simp only [List.length_cons] at hs
      have none_sel : ∀ {d : Char} (x : List Char), isSelector d = false → isCompat d = false → named q (d :: x) = named d x := by
        intro d x h1 h2; simp [named, h1, h2]
      rw [tokens]
      by_cases c1 : c = '\n'
      · rw [if_pos c1, List.flatMap_cons, c1, spoken_cons (by decide), none_sel _ (by decide) (by decide), ← ih r (by omega) _ _ .rfl']
        simp [Tok.out, named, show isSelector '\n' = false by decide, show isCompat '\n' = false by decide]
      rw [if_neg c1]
      by_cases c2 : c = '\r'
      · have hl := dropOne_le (· = '\n') r
        rw [if_pos c2, List.flatMap_cons, c2, spoken_cons (by decide), none_sel _ (by decide) (by decide)]
        have : named '\r' (spoken fin r) = named '\n' (spoken fin (dropOne (· = '\n') r)) := by
          cases r with
          | nil => simp [dropOne, spoken_nil, named]
          | cons d r =>
            simp only [dropOne]
            split
            · rename_i hd
              have hd : d = '\n' := by simpa using hd
              subst hd
              rw [spoken_cons (by decide)]
              simp [named, show isSelector '\n' = false by decide, show isCompat '\n' = false by decide]
            · exact named_same (sameBase_of (by decide) (by decide)) _
        rw [this, ← ih _ (by omega) _ _ .rfl']
        simp [Tok.out, named, show isSelector '\n' = false by decide, show isCompat '\n' = false by decide]
      rw [if_neg c2]
      by_cases c3 : c = FF
      · have hl := dropWhile_le (· = FF) r
        have hw : ∀ r : List Char, named FF (spoken fin r) = named FF (spoken fin (r.dropWhile (· = FF))) := by
          intro r
          induction r with
          | nil => rfl
          | cons d r ih' =>
            rw [List.dropWhile_cons]
            split
            · rename_i hd
              have hd : d = FF := by simpa using hd
              rw [← ih', hd, spoken_cons (by decide)]
              simp [named, show isSelector FF = false by decide, show isCompat FF = false by decide]
            · rfl
        rw [if_pos c3, c3, spoken_cons (by decide), none_sel _ (by decide) (by decide), hw r]
        simp only
        split
        · rename_i hh
          rw [ih _ (by omega) p p .rfl']
          revert hh
          generalize r.dropWhile (· = FF) = z
          intro hh
          cases z with
          | nil => simp [spoken_nil, named]
          | cons d z =>
            simp only [List.head?_cons, Option.some.injEq] at hh
            rcases hh with rfl | rfl <;> rw [spoken_cons (by decide)] <;> simp [named, show isSelector '\n' = false by decide, show isCompat '\n' = false by decide,
              show isSelector '\r' = false by decide, show isCompat '\r' = false by decide]
        · rw [List.flatMap_cons, named_append, show (Tok.out (.text [' '])).getLastD p = ' ' from rfl, ih _ (by omega) ' ' FF (sameBase_of (by decide) (by decide))]
          simp [Tok.out, named, show isSelector ' ' = false by decide, show isCompat ' ' = false by decide]
      rw [if_neg c3]
      by_cases c4 : c = ESC
      · have h1 := afterEsc_le fin (r.dropWhile (· = ESC))
        have h2 := dropWhile_le (· = ESC) r
        rw [if_pos c4, List.flatMap_cons, spoken, if_pos c4, ← ih _ (by omega) p q h]
        rfl
      rw [if_neg c4, spoken_cons c4, List.flatMap_cons, named_append]
      have hk : named p (Tok.out (single nel lsps c)) = named q [c] ∧ SameBase ((Tok.out (single nel lsps c)).getLastD p) c := by
        unfold single
        split
        · rename_i hc
          have : isSelector c = false ∧ isCompat c = false ∧ inBases c.toNat = false := by
            rcases hc with ⟨-, rfl⟩ | ⟨-, rfl | rfl⟩ <;> decide
          refine ⟨?_, sameBase_of (show inBases '\n'.toNat = false by decide) this.2.2⟩
          simp [Tok.out, named, this.1, this.2.1, show isSelector '\n' = false by decide, show isCompat '\n' = false by decide]
        · rw [← named_same h]; exact named_replace c p
      rw [hk.1, ih r (by omega) _ _ hk.2]
      simp [named]

theorem named_guards (U : Ucd) (s : List Char) : named '\n' (guardEnd (guardStart U s)) = named '\n' s := by
  have hp : ∀ p x, named p (CGJ :: x) = named CGJ x := fun p x => by
    simp [named, show isSelector CGJ = false by decide, show isCompat CGJ = false by decide]
  have h1 : named '\n' (guardStart U s) = named '\n' s := by
    unfold guardStart
    split
    · split
      · rfl
      · rw [hp]; exact named_same (sameBase_of (by decide) (by decide)) _
    · rfl
  rw [← h1]
  unfold guardEnd
  split
  · split
    · rfl
    · rw [named_append, hp]; simp [named]
  · rfl

/-- The translation names the ideographs outside the escape sequences. -/
theorem named_translate (U : Ucd) (nel lsps : Bool) (s : List Char) : named '\n' (translate U nel lsps s) = named '\n' (spoken finCan s) := by
  unfold translate
  simp only
  split
  · rw [named_guards, named_tokens _ s (Nat.le_refl _) _ _ .rfl']
  · rw [named_append, named_guards, named_tokens _ s (Nat.le_refl _) _ _ .rfl']
    simp [named, show isSelector '\n' = false by decide, show isCompat '\n' = false by decide]

theorem named_lossyText (U : Ucd) (s : List Char) : named '\n' (lossyText U s) = named '\n' (spoken finCan s) := by
  unfold lossyText
  split
  · exact named_translate U _ _ s
  · unfold body
    rw [named_guards, named_tokens _ s (Nat.le_refl _) _ _ .rfl']

theorem named_dropBom (fin : Char → Bool) (s : List Char) : named '\n' (spoken fin (dropBom s)) = named '\n' (spoken fin s) := by
  cases s with
  | nil => rfl
  | cons c s =>
    simp only [dropBom, dropOne]
    split
    · rename_i hc
      have hc : c = BOM := by simpa using hc
      subst hc
      rw [named_same (sameBase_of (by decide) (by decide) : SameBase '\n' BOM), spoken_cons (by decide)]
      simp [named, show isSelector BOM = false by decide, show isCompat BOM = false by decide]
    · rfl

end Verif
