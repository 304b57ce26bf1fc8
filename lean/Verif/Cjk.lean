import Verif.Ucd15Text
import Verif.IsolationTheory
import Verif.Tables.CjkInverse

/-!
# CJK compatibility ideographs

The conversion replaces each of them by a base ideograph and a variation selector.  Here: the pair is a place where the text can
be cut before normalizing, so it comes out as it is in every context, and the pairs of different ideographs differ.
-/

namespace Verif
open Ucd Tables

/-! ## Scalars at which a text can be cut -/

/-- Neither reordered nor composed, and not counted as a nonstarter. -/
structure Divides (U : Ucd) (b : Char) : Prop where
  ccc : U.ccc b = 0
  decomp : U.decomp b = [b]
  first : ∀ x, U.compose b x = none
  second : ∀ x, U.compose x b = none
  lead : U.lead b = 0
  trail : U.trail b = 0
  dlen : U.dlen b ≠ 0

variable {U : Ucd}

theorem nfc_divide {b : Char} (hb : Divides U b) (x y : List Char) : U.nfc (x ++ b :: y) = U.nfc x ++ b :: U.nfc y := by
  have : U.nfd (x ++ b :: y) = U.nfd x ++ b :: U.nfd y := by
    unfold nfd
    rw [List.flatMap_append, List.flatMap_cons, hb.decomp, List.singleton_append, reorder_append, reorder_cons_starter hb.ccc]
    intro z hz
    simp only [List.head?_cons, Option.mem_def, Option.some.injEq] at hz
    rw [← hz]; exact hb.ccc
  unfold nfc
  rw [this, recomp_split hb.ccc hb.first hb.second (by simp) (by simp)]

theorem streamSafe_divide (hU : U.Lawful) {b : Char} (hb : Divides U b) {x y : List Char} : ∀ {n : Nat}, n ≤ maxNonstarters →
    U.streamSafe n (x ++ b :: y) = U.streamSafe n x ++ b :: U.streamSafe 0 y := by
  have hn : ∀ n, U.nxt n b = 0 := by
    intro n
    have := hb.dlen
    simp only [nxt, hb.lead, hb.trail]
    rw [if_neg (fun h => this h.symm)]
  induction x with
  | nil =>
    intro n hn'
    simp only [List.nil_append, streamSafe, hb.lead, hn]
    rw [if_neg (by omega)]
  | cons c x ih =>
    intro n hn'
    have hl := hU.lead_le c
    have ht := hU.trail_le c
    simp only [List.cons_append, streamSafe]
    split
    · rw [ih (nxt_le _ _ (by omega) ht)]; simp
    · rw [ih (nxt_le _ _ (by omega) ht)]; simp

theorem isolate_divide {i : Char} (ha : isAssigned U i = true) (hi : i ≠ CGJ) {x y : List Char} : ∀ {need hv : Bool},
    isolateGo U need hv (x ++ i :: y) = isolateGo U need hv x ++ i :: isolateGo U false false y := by
  have hi : (i == CGJ) = false := by simpa using hi
  induction x with
  | nil =>
    intro need hv
    cases need <;> simp [isolateGo, ha, hi, bne]
  | cons c x ih =>
    intro need hv
    simp only [List.cons_append, isolateGo]
    split <;> simp [ih]

/-- A scalar that the conversion replaces by two that divide comes out as these two, whatever is around it. -/
theorem normChain_divide (hU : TextLaws U) {i b v : Char} (ha : isAssigned U i = true) (hi : i ≠ CGJ) (hc : U.cjk i = [b, v])
    (hb : Divides U b) (hv : Divides U v) (x y : List Char) :
    normChain U (x ++ i :: y) = normChain U x ++ U.cjk i ++ normChain U y := by
  unfold normChain isolate
  rw [isolate_divide ha hi, hc]
  have : U.cjkVariants (isolateGo U false false x ++ i :: isolateGo U false false y) =
      U.cjkVariants (isolateGo U false false x) ++ b :: ([] ++ v :: U.cjkVariants (isolateGo U false false y)) := by
    simp [cjkVariants, hc]
  rw [this, streamSafe_divide hU.law hb (by simp), nfc_divide hb, streamSafe_divide hU.law hv (by simp), nfc_divide hv]
  simp [streamSafe, nfc, nfd, reorder, recomp]

/-! ## The table -/

/-- The parts of Unicode in which the bases and the selectors lie. -/
def cjkPart (n : Nat) : Bool :=
  (Nat.ble 0x3400 n && Nat.ble n 0x9fff) || (Nat.ble 0x20000 n && Nat.ble n 0x2f7ff) || (Nat.ble 0xfe00 n && Nat.ble n 0xfe02)

theorem compose_cjkPart : composeTree.all (fun key r => !cjkPart (key / 0x200000) && !(Nat.ble 0xfe00 r && Nat.ble r 0xfe02)) = true := by decide +kernel

theorem decomp_cjkPart : decompTree.all (fun k v => !(Nat.ble 0xfe00 k && Nat.ble k 0xfe02) && v.all fun d => !(Nat.ble 0xfe00 d && Nat.ble d 0xfe02)) = true := by
  decide +kernel

/-- A scalar in the parts above that is its own decomposition and a starter like any other. -/
def dividesN (n : Nat) : Bool :=
  cjkPart n && Nat.beq (cccN n) 0 && decompN n == [n] && QC.beq (qcN n) .yes && classN n == [0, 0, 1]

/-- Every ideograph has a base and a selector, which divide; the base is no selector; and the inverse table has the ideograph. -/
def variantEntry (n : Nat) (v : List Nat) : Bool :=
  match v with
  | [b, w] => dividesN b && dividesN w && (Nat.ble 0xfe00 w && Nat.ble w 0xfe02) && !(Nat.ble 0xfe00 b && Nat.ble b 0xfe02) &&
      cjkInverse.find (b * 16 + (w - 0xfe00)) == some n && assignedN n
  | _ => false

theorem variant_entries : cjkTree.all variantEntry = true := by decide +kernel

theorem divides15 {c : Char} (h : dividesN c.toNat = true) : Divides ucd15 c := by
  simp only [dividesN, Bool.and_eq_true, beq_iff_eq, qcbeq_iff] at h
  obtain ⟨⟨⟨⟨h1, h2⟩, h3⟩, h4⟩, h5⟩ := h
  have hd : ucd15.decomp c = [c] := by
    show (decompN c.toNat).map Char.ofNat = [c]
    rw [h3]; simp
  refine ⟨Nat.eq_of_beq_eq_true h2, hd, fun x => ?_, (lawful15.qc_yes c h4).2 c [] hd, ?_, ?_, ?_⟩
  · cases hx : ucd15.compose c x with
    | none => rfl
    | some r =>
      exfalso
      have hb := validN_lt (validN_toNat x)
      have hrange : (0x3400 ≤ c.toNat ∧ c.toNat ≤ 0x9fff) ∨ (0x20000 ≤ c.toNat ∧ c.toNat ≤ 0x2f7ff) ∨ (0xfe00 ≤ c.toNat ∧ c.toNat ≤ 0xfe02) := by
        simp only [cjkPart, Bool.or_eq_true, Bool.and_eq_true, Nat.ble_eq] at h1
        omega
      rcases composeN_cases (by omega) (compose_toNat hx) with ⟨hk, -⟩ | ⟨hk, -⟩ | ⟨hf, -⟩
      · omega
      · simp only [isSyl, Bool.and_eq_true, Nat.ble_eq] at hk
        omega
      · have := Tree.find_all compose_cjkPart hf
        rw [Bool.and_eq_true, show (c.toNat * 0x200000 + x.toNat) / 0x200000 = c.toNat by omega, h1] at this
        simp at this
  · show leadN c.toNat = 0; simp [leadN, h5]
  · show trailN c.toNat = 0; simp [trailN, h5]
  · show dlenN c.toNat ≠ 0; simp [dlenN, h5]

/-! ## The ideographs and their variants -/

namespace Spec

/-- The CJK compatibility ideographs with a standardized variant: all of the two blocks but the twelve that are unified ideographs. -/
def compatRanges : List (Nat × Nat) :=
  [(0xf900, 0xfa0d), (0xfa10, 0xfa10), (0xfa12, 0xfa12), (0xfa15, 0xfa1e), (0xfa20, 0xfa20), (0xfa22, 0xfa22), (0xfa25, 0xfa26),
    (0xfa2a, 0xfa6d), (0xfa70, 0xfad9), (0x2f800, 0x2fa1d)]

def isCompat (c : Char) : Bool := inRanges compatRanges c.toNat

/-- U+FE00, U+FE01 and U+FE02, the variation selectors of these ideographs. -/
def isSelector (c : Char) : Bool := Nat.ble 0xfe00 c.toNat && Nat.ble c.toNat 0xfe02

end Spec
open Spec

theorem compat_find : compatRanges.all (fun r => rangeAll (fun n => (cjkTree.find n).isSome) r.1 (r.2 + 1 - r.1)) = true := by decide +kernel

theorem find_compat : cjkTree.all (fun n _ => inRanges compatRanges n) = true := by decide +kernel

/-- The ideograph with this variant. -/
def unvariant (b v : Char) : Option Char := (cjkInverse.find (b.toNat * 16 + (v.toNat - 0xfe00))).map Char.ofNat

theorem compat_variant {i : Char} (h : isCompat i = true) : ∃ b v, ucd15.cjk i = [b, v] ∧ Divides ucd15 b ∧ Divides ucd15 v ∧
    isSelector b = false ∧ isSelector v = true ∧ isAssigned ucd15 i = true ∧ unvariant b v = some i := by
  obtain ⟨r, h1, h2, h3⟩ := inRanges_iff.1 h
  have := rangeAll_mem (List.all_eq_true.1 compat_find r h1) h2 (by omega)
  obtain ⟨w, hw⟩ := Option.isSome_iff_exists.1 this
  have hv := Tree.find_all variant_entries hw
  have hval := Tree.find_all cjk_entries hw
  unfold variantEntry at hv
  split at hv
  · rename_i b v
    simp only [Bool.and_eq_true, beq_iff_eq, Bool.not_eq_true'] at hv
    obtain ⟨⟨⟨⟨⟨h4, h5⟩, h6⟩, h7⟩, h8⟩, h9⟩ := hv
    simp only [cjkEntry, Bool.and_eq_true, List.all_cons, List.all_nil] at hval
    have eb : (Char.ofNat b).toNat = b := toNat_ofNat hval.1.2.1
    have ev : (Char.ofNat v).toNat = v := toNat_ofNat hval.1.2.2.1
    refine ⟨Char.ofNat b, Char.ofNat v, ?_, divides15 (by rw [eb]; exact h4), divides15 (by rw [ev]; exact h5), ?_, ?_, ?_, ?_⟩
    · show (cjkN i.toNat).map Char.ofNat = _
      simp [cjkN, hw]
    · simp only [isSelector, eb]; exact h7
    · simp only [isSelector, ev, Bool.and_eq_true]; exact h6
    · simp only [isAssigned, Bool.or_eq_true]; exact Or.inl h9
    · simp only [unvariant, eb, ev, h8, Option.map_some]
      simp
  · simp at hv

theorem cjk_not_compat {c : Char} (h : isCompat c = false) : ucd15.cjk c = [c] := by
  show (cjkN c.toNat).map Char.ofNat = _
  cases hf : cjkTree.find c.toNat with
  | none => simp [cjkN, hf]
  | some v => have := Tree.find_all find_compat hf; rw [isCompat, this] at h; simp at h

/-! ## Reading the variants back -/

/-- The selectors in a text, each with what stands before it; `sel` tells the selectors, `prev` stands before the text. -/
def Spec.sequences (sel : Char → Bool) (prev : Char) : List Char → List (Char × Char)
  | [] => []
  | c :: r => (if sel c then [(prev, c)] else []) ++ sequences sel c r

/-- The base and the selector of the variant of an ideograph. -/
def variantOf (i : Char) : Char × Char := ((ucd15.cjk i).headD i, (ucd15.cjk i).getLastD i)

section
variable {sel comp : Char → Bool} {g : Char → Char × Char}

theorem sequences_prev {r : List Char} (h : ∀ c ∈ r.head?, sel c = false) (p q : Char) : sequences sel p r = sequences sel q r := by
  cases r with
  | nil => rfl
  | cons c r => simp [sequences, h c (by simp)]

theorem sequences_plain {x r : List Char} (hx : ∀ c ∈ x, sel c = false) (h : ∀ c ∈ r.head?, sel c = false) (p : Char) :
    sequences sel p (x ++ r) = sequences sel p r := by
  induction x generalizing p with
  | nil => rfl
  | cons c x ih =>
    simp only [List.cons_append, sequences, hx c (by simp)]
    rw [ih fun d hd => hx d (by simp [hd])]
    exact sequences_prev h _ _

theorem first_comp (comp : Char → Bool) (s : List Char) : (∀ c ∈ s, comp c = false) ∨
    ∃ x i y, s = x ++ i :: y ∧ (∀ c ∈ x, comp c = false) ∧ comp i = true := by
  induction s with
  | nil => simp
  | cons c s ih =>
    cases hc : comp c with
    | true => exact Or.inr ⟨[], c, s, rfl, by simp, hc⟩
    | false =>
      rcases ih with ih | ⟨x, i, y, h1, h2, h3⟩
      · exact Or.inl (by simpa [hc] using ih)
      · exact Or.inr ⟨c :: x, i, y, by simp [h1], by simpa [hc] using h2, h3⟩

/-- The ideographs of a text can be read from what it is converted to. -/
theorem sequences_chain {N V : List Char → List Char} (hnil : N [] = [])
    (hplain : ∀ x, (∀ c ∈ x, sel c = false ∧ comp c = false) → ∀ c ∈ N x, sel c = false)
    (hctx : ∀ x i y, comp i = true → N (x ++ i :: y) = N x ++ V [i] ++ N y)
    (hvar : ∀ i, comp i = true → ∃ b v, V [i] = [b, v] ∧ sel b = false ∧ sel v = true ∧ g i = (b, v)) : ∀ (n : Nat) (s : List Char), s.length ≤ n → (∀ c ∈ s, sel c = false) →
    (∀ c ∈ (N s).head?, sel c = false) ∧ ∀ (p : Char) (r : List Char), (∀ c ∈ r.head?, sel c = false) →
      sequences sel p (N s ++ r) = (s.filter comp).map g ++ sequences sel p r := by
  intro n
  induction n with
  | zero =>
    intro s hl _
    rw [List.length_eq_zero_iff.1 (Nat.le_zero.1 hl)]
    rw [hnil]
    exact ⟨by simp, fun p r _ => by simp⟩
  | succ n ih =>
    intro s hl hs
    rcases first_comp comp s with hc | ⟨x, i, y, rfl, hx, hi⟩
    · have hp := hplain _ fun c h => ⟨hs c h, hc c h⟩
      refine ⟨fun c h => hp c (List.mem_of_mem_head? h), fun p r hr => ?_⟩
      rw [sequences_plain hp hr, List.filter_eq_nil_iff.2 (by simpa using hc), List.map_nil, List.nil_append]
    · have hp := hplain _ fun c h => ⟨hs c (by simp [h]), hx c h⟩
      obtain ⟨i1, i2⟩ := ih y (by simp at hl; omega) fun c h => hs c (by simp [h])
      obtain ⟨b, v, h1, h2, h3, h4⟩ := hvar i hi
      rw [hctx _ _ _ hi, h1]
      have hhead : ∀ z : List Char, ∀ c ∈ (N x ++ b :: z).head?, sel c = false := by
        intro z c hc
        cases hq : N x with
        | nil => rw [hq] at hc; simp at hc; rw [← hc]; exact h2
        | cons d q => rw [hq] at hc; simp at hc; exact hp c (by rw [hq, ← hc]; simp)
      refine ⟨by simpa using hhead (v :: N y), fun p r hr => ?_⟩
      have hh : ∀ c ∈ (N y ++ r).head?, sel c = false := by
        intro c hc
        cases hq : N y with
        | nil => rw [hq] at hc; exact hr c (by simpa using hc)
        | cons d q => rw [hq] at hc; simp at hc; exact i1 c (by rw [hq, ← hc]; simp)
      rw [show N x ++ [b, v] ++ N y ++ r = N x ++ (b :: v :: (N y ++ r)) by simp,
        sequences_plain hp (by simp [h2])]
      simp only [sequences, h2, h3]
      have hfx : x.filter comp = [] := List.filter_eq_nil_iff.2 (by simpa using hx)
      rw [i2 v r hr, List.filter_append, hfx, List.filter_cons, hi]
      simp only [List.map_cons, h4, List.nil_append, if_true, Bool.false_eq_true, if_false]
      rw [sequences_prev hr v p]
      simp

end

theorem selector_divides {c : Char} (h : isSelector c = true) : (∀ x, c ∈ ucd15.decomp x → x = c) ∧ ∀ k b, ucd15.compose k b ≠ some c := by
  constructor
  · intro x hx
    have hm := mem_decomp hx
    rcases decompN_cases x.toNat with ⟨h', e⟩ | ⟨-, -, e⟩ | ⟨-, v, hf, e, -⟩
    · rw [e] at hm
      have := isJamo_iff.1 (hangul_mem h' hm)
      simp only [isSelector, Bool.and_eq_true, Nat.ble_eq] at h
      omega
    · rw [e] at hm
      exact (Char.toNat_inj.1 (by simpa using hm)).symm
    · have := Tree.find_all decomp_cjkPart hf
      rw [Bool.and_eq_true, List.all_eq_true] at this
      rw [e] at hm
      have := this.2 _ hm
      rw [show (Nat.ble 0xfe00 c.toNat && Nat.ble c.toNat 0xfe02) = true from h] at this
      simp at this
  · intro k b hx
    have hb := validN_lt (validN_toNat b)
    have hs := h
    simp only [isSelector, Bool.and_eq_true, Nat.ble_eq] at h
    rcases composeN_cases (by omega) (compose_toNat hx) with ⟨h1, h2, h3⟩ | ⟨h1, h2, h3, h4⟩ | ⟨hf, -⟩
    · omega
    · simp only [isSyl, Bool.and_eq_true, Nat.ble_eq] at h1
      omega
    · have := Tree.find_all compose_cjkPart hf
      rw [Bool.and_eq_true, show (Nat.ble 0xfe00 c.toNat && Nat.ble c.toNat 0xfe02) = true from hs] at this
      simp at this

theorem mem_streamSafe_of {c : Char} {s : List Char} : ∀ {n : Nat}, c ∈ U.streamSafe n s → c = CGJ ∨ c ∈ s := by
  induction s with
  | nil => intro n h; simp [streamSafe] at h
  | cons d s ih =>
    intro n h
    simp only [streamSafe] at h
    split at h
    · simp only [List.mem_cons] at h ⊢
      rcases h with h | h | h
      · exact Or.inl h
      · exact Or.inr (Or.inl h)
      · rcases ih h with h | h <;> simp [h]
    · simp only [List.mem_cons] at h ⊢
      rcases h with h | h
      · exact Or.inr (Or.inl h)
      · rcases ih h with h | h <;> simp [h]

theorem mem_isolate_of {c : Char} {s : List Char} : ∀ {need hv : Bool}, c ∈ isolateGo U need hv s → c = CGJ ∨ c ∈ s := by
  induction s with
  | nil => intro need hv h; cases need <;> simp [isolateGo] at h; exact Or.inl h
  | cons d s ih =>
    intro need hv h
    simp only [isolateGo] at h
    split at h
    · simp only [List.mem_cons] at h ⊢
      rcases h with h | h | h
      · exact Or.inl h
      · exact Or.inr (Or.inl h)
      · rcases ih h with h | h <;> simp [h]
    · simp only [List.mem_cons] at h ⊢
      rcases h with h | h
      · exact Or.inr (Or.inl h)
      · rcases ih h with h | h <;> simp [h]

theorem normChain_plain {x : List Char} (h : ∀ c ∈ x, isSelector c = false ∧ isCompat c = false) :
    ∀ c ∈ normChain ucd15 x, isSelector c = false := by
  intro c hc
  cases hs : isSelector c with
  | false => rfl
  | true =>
    exfalso
    have hne : c ≠ CGJ := by rintro rfl; exact absurd hs (by decide)
    obtain ⟨h1, h2⟩ := selector_divides hs
    rcases mem_nfc hc with ⟨d, hd, hm⟩ | ⟨k, b, hk⟩
    · rw [h1 d hm] at hd
      rcases mem_streamSafe_of hd with hd | hd
      · exact hne hd
      · obtain ⟨y, hy, hm⟩ := List.mem_flatMap.1 hd
        rcases mem_isolate_of hy with rfl | hy
        · rw [cjk_not_compat (by decide)] at hm
          exact hne (by simpa using hm)
        · rw [cjk_not_compat (h y hy).2] at hm
          rw [List.mem_singleton] at hm
          subst hm
          rw [(h c hy).1] at hs; simp at hs
    · exact h2 k b hk

theorem compat_context {i : Char} (h : isCompat i = true) (x y : List Char) :
    normChain ucd15 (x ++ i :: y) = normChain ucd15 x ++ ucd15.cjk i ++ normChain ucd15 y := by
  obtain ⟨b, v, h1, h2, h3, -, -, h4, -⟩ := compat_variant h
  exact normChain_divide textLaws15 h4 (by rintro rfl; exact absurd h (by decide)) h1 h2 h3 x y

theorem sequences_normChain (n : Nat) (s : List Char) (hl : s.length ≤ n) (hs : ∀ c ∈ s, isSelector c = false) :
    (∀ c ∈ (normChain ucd15 s).head?, isSelector c = false) ∧ ∀ (p : Char) (r : List Char), (∀ c ∈ r.head?, isSelector c = false) →
      sequences isSelector p (normChain ucd15 s ++ r) = (s.filter isCompat).map variantOf ++ sequences isSelector p r :=
  sequences_chain (V := fun l => l.flatMap ucd15.cjk) normChain_nil (fun _ h => normChain_plain h)
    (fun x i y h => by rw [compat_context h]; simp)
    (fun i h => by obtain ⟨b, v, h1, -, -, h2, h3, -, h4⟩ := compat_variant h; exact ⟨b, v, by simp [h1], h2, h3, by simp [variantOf, h1]⟩) n s hl hs

theorem sequences_segs (l : List (List Char)) (h : ∀ c ∈ l.flatten, isSelector c = false) (p : Char) :
    (∀ c ∈ (l.flatMap (normChain ucd15)).head?, isSelector c = false) ∧ sequences isSelector p (l.flatMap (normChain ucd15)) = (l.flatten.filter isCompat).map variantOf := by
  induction l with
  | nil => exact ⟨by simp, rfl⟩
  | cons s l ih =>
    obtain ⟨i1, i2⟩ := ih fun c hc => h c (by simp only [List.flatten_cons, List.mem_append]; exact Or.inr hc)
    obtain ⟨h1, h2⟩ := sequences_normChain _ s (Nat.le_refl _) fun c hc => h c (by simp [hc])
    rw [List.flatMap_cons, List.flatten_cons, List.filter_append, List.map_append, h2 p _ i1, i2]
    refine ⟨fun c hc => ?_, rfl⟩
    cases hq : normChain ucd15 s with
    | nil => rw [hq] at hc; exact i1 c (by simpa using hc)
    | cons d q => rw [hq] at hc; simp at hc; exact h1 c (by rw [hq, ← hc]; simp)

end Verif
