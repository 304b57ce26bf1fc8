import Verif.Stability
import Verif.Cjk
import Verif.SpecLaws
import Verif.StringTheory
import Verif.StreamForm
import Verif.NfcSpec
import Verif.SpecString

/-!
# Canonically equivalent sources

Helpers for C106: the steps of the stream conversion before normalization respect canonical equivalence, except on the CJK compatibility
ideographs and U+2329, U+232A.
-/

namespace Verif
open Ucd Spec Tables
variable {U : Ucd}

/-! ## Canonical equivalence step by step -/

theorem exchange_append {l l' : List Char} (h : Exchange U l l') (r : List Char) : Exchange U (l ++ r) (l' ++ r) := by
  induction h with
  | refl l => exact .refl _
  | step a b hr _ ih =>
    simp only [List.append_assoc, List.cons_append] at ih ⊢
    exact .step a (b ++ r) hr ih

theorem nfd_congr {a a' b b' : List Char} (ha : U.nfd a = U.nfd a') (hb : U.nfd b = U.nfd b') : U.nfd (a ++ b) = U.nfd (a' ++ b') := by
  have h : ∀ x y : List Char, U.nfd (x ++ y) = U.reorder (U.nfd x ++ U.nfd y) := by
    intro x y
    unfold nfd
    rw [List.flatMap_append, reorder_exchange (exchange_append (exchange_reorder (x.flatMap U.decomp)) _)]
    apply reorder_prefix
    exact reorder_exchange (exchange_reorder _)
  rw [h, h, ha, hb]

theorem nfd_self {l : List Char} (h : ∀ c ∈ l, U.decomp c = [c]) : l.flatMap U.decomp = l := by
  induction l with
  | nil => rfl
  | cons c l ih => rw [List.flatMap_cons, h c (by simp), ih fun d hd => h d (by simp [hd])]; rfl

theorem nfd_decomp (hL : U.Lawful) (c : Char) : U.nfd (U.decomp c) = U.nfd [c] := by
  unfold nfd
  rw [nfd_self (hL.decomp_idem c)]
  simp

theorem nfd_swap {x y : Char} (hx : U.decomp x = [x]) (hy : U.decomp y = [y]) (hr : Reorderable U x y) (a b : List Char) :
    U.nfd (a ++ x :: y :: b) = U.nfd (a ++ y :: x :: b) := by
  unfold nfd
  simp only [List.flatMap_append, List.flatMap_cons, hx, hy, List.singleton_append]
  exact reorder_swap hr _ _

/-- From a string to its canonical decomposition by decompositions of single scalars and exchanges. -/
theorem nfd_steps {R : List Char → List Char → Prop} (hr : ∀ l, R l l) (ht : ∀ {a b c}, R a b → R b c → R a c) {G : Char → Prop}
    (hi : ∀ c, ∀ d ∈ U.decomp c, U.decomp d = [d]) (hG : ∀ c, G c → ∀ d ∈ U.decomp c, G d)
    (hD : ∀ p c q, (∀ x ∈ p, G x) → G c → (∀ x ∈ q, G x) → U.decomp c ≠ [c] → R (p ++ c :: q) (p ++ (U.decomp c ++ q)))
    (hX : ∀ a x y b, (∀ z ∈ a, G z) → G x → G y → (∀ z ∈ b, G z) → U.decomp x = [x] → U.decomp y = [y] → Reorderable U x y →
      R (a ++ x :: y :: b) (a ++ y :: x :: b)) {s : List Char} (hs : ∀ c ∈ s, G c) : R s (U.nfd s) := by
  have h1 : ∀ (q p : List Char), (∀ x ∈ p, G x) → (∀ x ∈ q, G x) → R (p ++ q) (p ++ q.flatMap U.decomp) := by
    intro q
    induction q with
    | nil => intro p _ _; exact hr _
    | cons c q ih =>
      intro p hp hq
      have hc := hq c (by simp)
      have hq' : ∀ x ∈ q, G x := fun x hx => hq x (by simp [hx])
      rw [List.flatMap_cons]
      by_cases hd : U.decomp c = [c]
      · have := ih (p ++ [c]) (fun x hx => by simp only [List.mem_append, List.mem_singleton] at hx; grind) hq'
        rw [hd]
        simpa using this
      · have h := ih (p ++ U.decomp c) (by
          intro x hx
          rcases List.mem_append.1 hx with hx | hx
          · exact hp x hx
          · exact hG c hc x hx) hq'
        rw [List.append_assoc, List.append_assoc] at h
        exact ht (hD p c q hp hc hq' hd) h
  have h2 : ∀ {l l' : List Char}, Exchange U l l' → (∀ c ∈ l, G c ∧ U.decomp c = [c]) → R l l' := by
    intro l l' h
    induction h with
    | refl l => intro _; exact hr _
    | @step x y l a b hxy _ ih =>
      intro hl
      have hx := hl x (by simp)
      have hy := hl y (by simp)
      refine ht (hX a x y b (fun z hz => (hl z (by simp [hz])).1) hx.1 hy.1 (fun z hz => (hl z (by simp [hz])).1) hx.2 hy.2 hxy) (ih ?_)
      intro c hc
      apply hl c
      simp only [List.mem_append, List.mem_cons] at hc ⊢
      grind
  have h3 := h1 s [] (by simp) hs
  refine ht h3 (h2 (exchange_reorder _) ?_)
  intro c hc
  obtain ⟨x, hx, hc⟩ := List.mem_flatMap.1 hc
  exact ⟨hG x (hs x hx) c hc, hi x c hc⟩

/-! ## Isolation and normalization -/

/-- Isolation respects equivalence. -/
theorem isolate_nfd (hU : TextLaws U) (s : List Char) : U.nfd (isolate U s) = U.nfd (isolate U (U.nfd s)) := by
  have key : ∀ {b : Char} {y : List Char}, isAssigned U b = true → b ≠ CGJ → ∀ x, isolate U (x ++ b :: y) = isolate U x ++ b :: isolate U y :=
    fun ha hb x => isolate_split ha hb x _
  have hasg : ∀ c, U.decomp c ≠ [c] → isAssigned U c = true := by
    intro c hc
    cases h : U.assigned c with
    | true => simp [isAssigned, h]
    | false => exact absurd (hU.unassigned_inert c h).decomp hc
  have hblock : ∀ (ds q x : List Char), (∀ d ∈ ds, isAssigned U d = true ∧ d ≠ CGJ) → ds ≠ [] → isolate U (x ++ (ds ++ q)) = isolate U x ++ (ds ++ isolate U q) := by
    intro ds
    induction ds with
    | nil => intro _ _ _ h; exact absurd rfl h
    | cons d ds ih =>
      intro q x h _
      rw [List.cons_append, key (h d (by simp)).1 (h d (by simp)).2]
      by_cases hd : ds = []
      · subst hd; rfl
      · have := ih q [] (fun e he => h e (by simp [he])) hd
        rw [List.nil_append] at this
        rw [this]; rfl
  apply nfd_steps (R := fun a b => U.nfd (isolate U a) = U.nfd (isolate U b)) (G := fun _ => True) (fun _ => rfl) (fun h h' => h.trans h')
    hU.law.decomp_idem (fun _ _ _ _ => trivial)
  · intro p c q _ _ _ hd
    have hc := hasg c hd
    have hn : c ≠ CGJ := by
      rintro rfl
      exact hd hU.law.inert_cgj.decomp
    have hcg : ∀ d ∈ U.decomp c, isAssigned U d = true ∧ d ≠ CGJ := by
      intro d hx
      refine ⟨decomp_assigned hU hc hx, ?_⟩
      rintro rfl
      exact hn (hU.law.inert_cgj.only c hx)
    rw [key hc hn, hblock _ _ _ hcg (hU.law.decomp_ne c)]
    exact nfd_congr rfl (by rw [show ∀ l, c :: l = [c] ++ l from fun _ => rfl]; exact nfd_congr (nfd_decomp hU.law c).symm rfl)
  · intro a x y b _ _ _ _ hx hy hr
    have hca : ∀ z, U.ccc z > 0 → isAssigned U z = true ∧ z ≠ CGJ := by
      intro z hz
      refine ⟨?_, ?_⟩
      · cases h : U.assigned z with
        | true => simp [isAssigned, h]
        | false => have := (hU.unassigned_inert z h).ccc; omega
      · rintro rfl
        have := hU.law.inert_cgj.ccc; omega
    have h1 := hca x (Nat.lt_trans hr.2 hr.1)
    have h2 := hca y hr.2
    rw [key h1.1 h1.2, key h2.1 h2.2]
    have e1 := key (b := y) (y := b) h2.1 h2.2 []
    have e2 := key (b := x) (y := b) h1.1 h1.2 []
    rw [List.nil_append] at e1 e2
    rw [e1, e2]
    exact nfd_swap hx hy hr _ _
  · intros; trivial

theorem chk_isolateGo (hU : TextLaws U) {s : List Char} : ∀ {n : Nat} {need hv : Bool}, n ≤ maxNonstarters → (U.chk n s).isSome → (U.chk n (isolateGo U need hv s)).isSome := by
  have hcgj : ∀ n, n ≤ maxNonstarters → ∀ r, U.chk n (CGJ :: r) = U.chk 0 r := by
    intro n hn r
    have h1 : U.lead CGJ = 0 := hU.start_lead _ hU.start_cgj
    have h2 := hU.dlen_pos CGJ
    have h3 : U.trail CGJ = 0 := hU.law.inert_cgj.trail
    simp only [chk, nxt, h1]
    rw [if_neg (by omega), if_neg (by omega), h3]
  induction s with
  | nil =>
    intro n need hv hn h
    simp only [isolateGo]
    split
    · rw [hcgj n hn]; rfl
    · rfl
  | cons c s ih =>
    intro n need hv hn h
    have h0 : (U.chk 0 (c :: s)).isSome := chk_mono (Nat.zero_le n) h
    have step : ∀ m, m ≤ maxNonstarters → (U.chk m (c :: s)).isSome → ∀ need hv, (U.chk m (c :: isolateGo U need hv s)).isSome := by
      intro m hm hs need hv
      simp only [chk] at hs ⊢
      split at hs
      · simp at hs
      · rename_i hle
        rw [if_neg hle]
        refine ih ?_ hs
        unfold nxt
        split
        · omega
        · exact hU.law.trail_le c
    simp only [isolateGo]
    split
    · rw [hcgj n hn]; exact step 0 (by decide) h0 _ _
    · exact step n hn h _ _

/-! ## The items of a text -/

/-- A scalar that does not take part in the newline, form feed and escape rows. -/
def Single (c : Char) : Prop := c ≠ '\n' ∧ c ≠ '\r' ∧ c ≠ FF ∧ c ≠ ESC

theorem tokens_single {fin : Char → Bool} {one : Char → Tok} {c : Char} (h : Single c) (r : List Char) :
    tokens fin one (c :: r) = one c :: tokens fin one r := by
  rw [tokens, if_neg h.1, if_neg h.2.1, if_neg h.2.2.1, if_neg h.2.2.2]

theorem all_of_dropWhile {p : Char → Bool} : ∀ {l : List Char}, l.dropWhile p = [] → ∀ x ∈ l, p x = true
  | [], _ => fun _ h => by cases h
  | y :: l, h => by
    rw [List.dropWhile_cons] at h
    by_cases hy : p y = true
    · rw [if_pos hy] at h
      intro x hx
      rcases List.mem_cons.1 hx with e | e
      · subst e; exact hy
      · exact all_of_dropWhile h x e
    · rw [if_neg hy] at h; cases h

/-- The items before and after such a scalar do not depend on each other. -/
theorem tokens_cut {fin : Char → Bool} {one : Char → Tok} {c : Char} (hc : Single c) (q : List Char) : ∀ (n : Nat) (p : List Char), p.length ≤ n → ESC ∉ p →
    tokens fin one (p ++ c :: q) = tokens fin one p ++ one c :: tokens fin one q := by
  intro n
  induction n with
  | zero =>
    intro p hp _
    have : p = [] := List.length_eq_zero_iff.1 (by omega)
    subst this
    simp [tokens_single hc, tokens]
  | succ n ih =>
    intro p hp he
    cases p with
    | nil => simp [tokens_single hc, tokens]
    | cons d r =>
      simp only [List.length_cons] at hp
      have her : ESC ∉ r := fun h => he (by simp [h])
      rw [List.cons_append, tokens, tokens.eq_2]
      by_cases h1 : d = '\n'
      · rw [if_pos h1, if_pos h1, ih r (by omega) her]; rfl
      rw [if_neg h1, if_neg h1]
      by_cases h2 : d = '\r'
      · rw [if_pos h2, if_pos h2]
        cases r with
        | nil =>
          have : dropOne (· = '\n') ([] ++ c :: q) = c :: q := by simp [dropOne, hc.1]
          rw [this, tokens_single hc]
          simp [dropOne, tokens]
        | cons x r =>
          simp only [List.length_cons] at hp
          by_cases hd : x = '\n'
          · simp only [List.cons_append, dropOne, hd, decide_true, if_true]
            rw [ih r (by omega) (fun h => her (by simp [h]))]
          · simp only [List.cons_append, dropOne, hd, decide_false, Bool.false_eq_true, if_false]
            rw [← List.cons_append, ih (x :: r) (by simp; omega) her]
      rw [if_neg h2, if_neg h2]
      by_cases h3 : d = FF
      · rw [if_pos h3, if_pos h3]
        have hl := dropWhile_le (· = FF) r
        simp only
        by_cases hne : r.dropWhile (· = FF) = []
        · have : (r ++ c :: q).dropWhile (· = FF) = c :: q := by
            have hall : ∀ x ∈ r, decide (x = FF) = true := by
              exact all_of_dropWhile hne
            rw [List.dropWhile_append_of_pos hall, List.dropWhile_cons_of_neg (by simpa using hc.2.2.1)]
          rw [this, hne]
          have e1 : ¬ ((c :: q).head? = some '\n' ∨ (c :: q).head? = some '\r') := by
            simp [hc.1, hc.2.1]
          rw [if_neg e1, tokens_single hc]
          simp [tokens]
        · rw [dropWhile_append_ne hne, head?_append_ne hne, ih _ (by omega) (fun h => her (mem_dropWhile h))]
          split <;> rfl
      rw [if_neg h3, if_neg h3]
      have h4 : d ≠ ESC := fun hc => he (by simp [hc])
      rw [if_neg h4, if_neg h4, ih r (by omega) her]; rfl

theorem tokens_block {fin : Char → Bool} {one : Char → Tok} {ds : List Char} (h : ∀ d ∈ ds, Single d) (hne : ds ≠ []) {p q : List Char} (hp : ESC ∉ p) :
    tokens fin one (p ++ (ds ++ q)) = tokens fin one p ++ (ds.map one ++ tokens fin one q) := by
  have hrun : ∀ (ds : List Char), (∀ d ∈ ds, Single d) → tokens fin one (ds ++ q) = ds.map one ++ tokens fin one q := by
    intro ds
    induction ds with
    | nil => intro _; rfl
    | cons d ds ih =>
      intro h
      rw [List.cons_append, tokens_single (h d (by simp)), ih fun e he => h e (by simp [he])]; rfl
  cases ds with
  | nil => exact absurd rfl hne
  | cons d ds =>
    rw [List.cons_append, tokens_cut (h d (by simp)) _ _ p (Nat.le_refl _) hp, hrun ds fun e he => h e (by simp [he])]
    rfl

/-- Items whose texts are equivalent, and which end with a newline or not alike. -/
def TokEq (U : Ucd) (a b : List Tok) : Prop :=
  U.nfd (a.flatMap Tok.out) = U.nfd (b.flatMap Tok.out) ∧ (a = [] ↔ b = []) ∧ (a.getLast? = some .nl ↔ b.getLast? = some .nl)

theorem TokEq.refl (a : List Tok) : TokEq U a a := ⟨rfl, Iff.rfl, Iff.rfl⟩
theorem TokEq.trans {a b c : List Tok} (h : TokEq U a b) (h' : TokEq U b c) : TokEq U a c :=
  ⟨h.1.trans h'.1, h.2.1.trans h'.2.1, h.2.2.trans h'.2.2⟩
theorem TokEq.symm {a b : List Tok} (h : TokEq U a b) : TokEq U b a := ⟨h.1.symm, h.2.1.symm, h.2.2.symm⟩

theorem TokEq.append {a a' b b' : List Tok} (h : TokEq U a a') (h' : TokEq U b b') : TokEq U (a ++ b) (a' ++ b') := by
  refine ⟨?_, ?_, ?_⟩
  · rw [List.flatMap_append, List.flatMap_append]; exact nfd_congr h.1 h'.1
  · simp only [List.append_eq_nil_iff, h.2.1, h'.2.1]
  · rw [List.getLast?_append, List.getLast?_append]
    by_cases hb : b = []
    · have := h'.2.1.1 hb
      subst hb this
      simpa using h.2.2
    · have hb' : b' ≠ [] := fun e => hb (h'.2.1.2 e)
      obtain ⟨x, hx⟩ : ∃ x, b.getLast? = some x := ⟨_, List.getLast?_eq_some_getLast hb⟩
      obtain ⟨y, hy⟩ : ∃ y, b'.getLast? = some y := ⟨_, List.getLast?_eq_some_getLast hb'⟩
      have := h'.2.2
      rw [hx, hy] at this ⊢
      simpa using this

/-! ## Scalars whose translation respects equivalence -/

/-- A scalar other than ESC, the CJK compatibility ideographs and the deprecated angle brackets U+2329, U+232A. -/
def Spec.Faithful (c : Char) : Prop := c ≠ ESC ∧ isCompat c = false ∧ c ≠ '\u2329' ∧ c ≠ '\u232a'

instance (c : Char) : Decidable (Spec.Faithful c) := by unfold Spec.Faithful; infer_instance

theorem changed_decomp : changedRanges.all (fun r => rangeAll (fun n => Nat.beq n 0x2329 || Nat.beq n 0x232a || eqN (decompN n) [n]) r.1 (r.2 + 1 - r.1)) = true := by
  decide +kernel

theorem repl_ccc : replaceRepl.all (fun r => rangeAll (fun n => Nat.beq (cccN n) 0) r.1 (r.2 + 1 - r.1)) = true := by decide +kernel

theorem multi_ccc : replaceMulti.all (fun r => Nat.beq (cccN r.1) 0 || r.2.all fun d => validN d && Nat.beq (cccN d) (cccN r.1) && eqN (decompN d) [d]) = true := by
  decide +kernel

/-- A scalar with a decomposition is left alone. -/
theorem faithful_decomp {c : Char} (h : Faithful c) (hd : ucd15.decomp c ≠ [c]) : replace c = [c] := by
  have key : inRanges changedRanges c.toNat = false := by
    apply Bool.eq_false_iff.2
    intro hc
    obtain ⟨r, hr, h1, h2⟩ := inRanges_iff.1 hc
    have := rangeAll_mem (List.all_eq_true.1 changed_decomp r hr) h1 (by omega)
    simp only [Bool.or_eq_true, beq_iff, eqN_iff] at this
    rcases this with (e | e) | e
    · exact h.2.2.1 (Char.toNat_inj.1 e)
    · exact h.2.2.2 (Char.toNat_inj.1 e)
    · apply hd
      show (decompN c.toNat).map Char.ofNat = [c]
      rw [e]; simp
  rcases replace_cases c with ⟨h1, -⟩ | ⟨h1, -⟩ | ⟨-, h2⟩
  · rw [h1] at key; cases key
  · rw [h1] at key; cases key
  · exact h2

/-- A nonstarter is left alone or replaced by nonstarters of its class. -/
theorem replace_ccc {c : Char} (h : ucd15.ccc c ≠ 0) : replace c = [c] ∨ ∀ d ∈ replace c, ucd15.ccc d = ucd15.ccc c ∧ ucd15.decomp d = [d] := by
  unfold replace
  cases hl : replaceMulti.lookup c.toNat with
  | some v =>
    right
    have hm := List.all_eq_true.1 multi_ccc _ (lookup_mem hl)
    simp only [Bool.or_eq_true, beq_iff, List.all_eq_true, Bool.and_eq_true, eqN_iff] at hm
    rcases hm with h0 | hm
    · exact absurd h0 h
    · intro d hd
      obtain ⟨n, hn, rfl⟩ := List.mem_map.1 hd
      obtain ⟨⟨hv, h1⟩, h2⟩ := hm n hn
      constructor
      · show cccN (Char.ofNat n).toNat = _
        rw [toNat_ofNat hv]; exact h1
      · show (decompN (Char.ofNat n).toNat).map Char.ofNat = _
        rw [toNat_ofNat hv, h2]; rfl
  | none =>
    left
    cases hr : inRanges replaceRepl c.toNat with
    | false => simp
    | true =>
      obtain ⟨r, hr, h1, h2⟩ := inRanges_iff.1 hr
      have := rangeAll_mem (List.all_eq_true.1 repl_ccc r hr) h1 (by omega)
      exact absurd (beq_iff.1 this) h

/-- The pieces of a decomposition are permitted. -/
theorem faithful_pieces {c : Char} (h : Faithful c) (hd : ucd15.decomp c ≠ [c]) {d : Char} (hm : d ∈ ucd15.decomp c) : okChar d = true ∧ d ≠ '\n' := by
  refine ⟨?_, ?_⟩
  · apply textLaws15.ok_decomp c ?_ d hm
    rcases (replace_eq_self_iff c).1 (faithful_decomp h hd) with e | e
    · exact Or.inl (okChar_check.2 ⟨e, h.1⟩)
    · exact Or.inr ⟨e, cjk_not_compat h.2.1⟩
  · rintro rfl
    have := (inert_lf textLaws15).only c hm
    subst this
    exact hd (inert_lf textLaws15).decomp

theorem faithful_ok {c : Char} (h : okChar c = true) : Faithful c := by
  refine ⟨(ok_not_special h).2.2.1, ?_, ?_, ?_⟩
  · cases hc : isCompat c with
    | false => rfl
    | true =>
      obtain ⟨b, v, e, -⟩ := compat_variant hc
      rcases cjk15_cases c with ⟨h1, -⟩ | ⟨v, -, -, -, h1, -⟩
      · rw [e] at h1; simp at h1
      · rw [legacy_not_ok h1] at h; cases h
  · rintro rfl
    have : okChar '〈' = false := by decide +kernel
    rw [this] at h; cases h
  · rintro rfl
    have : okChar '〉' = false := by decide +kernel
    rw [this] at h; cases h

theorem faithful_nfd (c : Char) (h : Faithful c) : ∀ d ∈ ucd15.decomp c, Faithful d := by
  intro d hd
  by_cases e : ucd15.decomp c = [c]
  · rw [e] at hd; simp at hd; subst hd; exact h
  · exact faithful_ok (faithful_pieces h e hd).1

theorem single_pieces {c : Char} (h : Faithful c) (hd : ucd15.decomp c ≠ [c]) {d : Char} (hm : d ∈ ucd15.decomp c) : Single d := by
  obtain ⟨h1, h2⟩ := faithful_pieces h hd hm
  have := ok_not_special h1
  exact ⟨h2, this.1, this.2.1, this.2.2.1⟩

theorem decomp_special {c : Char} (hd : ucd15.decomp c ≠ [c]) : Single c ∧ c ≠ NEL ∧ c ≠ LS ∧ c ≠ PS ∧ c ≠ BOM := by
  refine ⟨⟨?_, ?_, ?_, ?_⟩, ?_, ?_, ?_, ?_⟩ <;> (rintro rfl; apply hd; decide +kernel)

theorem ccc_special {c : Char} (hd : ucd15.ccc c ≠ 0) : Single c ∧ c ≠ NEL ∧ c ≠ LS ∧ c ≠ PS ∧ c ≠ BOM := by
  refine ⟨⟨?_, ?_, ?_, ?_⟩, ?_, ?_, ?_, ?_⟩ <;> (rintro rfl; apply hd; decide +kernel)

theorem single_text {nel lsps : Bool} {c : Char} (h : c ≠ NEL ∧ c ≠ LS ∧ c ≠ PS) : single nel lsps c = .text (replace c) := by
  unfold single
  rw [if_neg (by grind)]

/-- Two runs of nonstarters of different classes change places. -/
theorem nfd_cross {X Y : List Char} (hx : ∀ u ∈ X, ∀ v ∈ Y, Reorderable ucd15 u v) (dx : ∀ u ∈ X, ucd15.decomp u = [u])
    (dy : ∀ v ∈ Y, ucd15.decomp v = [v]) : ucd15.nfd (X ++ Y) = ucd15.nfd (Y ++ X) := by
  unfold nfd
  rw [List.flatMap_append, List.flatMap_append, nfd_self dx, nfd_self dy]
  have h1 : ∀ (x : Char) (Y r : List Char), (∀ v ∈ Y, Reorderable ucd15 x v) → Exchange ucd15 (x :: (Y ++ r)) (Y ++ x :: r) := by
    intro x Y
    induction Y with
    | nil => intro r _; exact .refl _
    | cons y Y ih =>
      intro r h
      exact .step [] (Y ++ r) (h y (by simp)) (exchange_cons (ih r fun v hv => h v (by simp [hv])))
  clear dx dy
  have h2 : ∀ (X : List Char), (∀ u ∈ X, ∀ v ∈ Y, Reorderable ucd15 u v) → Exchange ucd15 (X ++ Y) (Y ++ X) := by
    intro X
    induction X with
    | nil => intro _; simpa using Exchange.refl Y
    | cons x X ih =>
      intro h
      refine exchange_trans (exchange_cons (ih fun u hu => h u (by simp [hu]))) ?_
      exact h1 x Y X (h x (by simp))
  exact reorder_exchange (h2 X hx)

/-- The items of an equivalent text. -/
theorem tokens_nfd {nel lsps : Bool} {s : List Char} (hs : ∀ c ∈ s, Faithful c) :
    TokEq ucd15 (tokens finCan (single nel lsps) s) (tokens finCan (single nel lsps) (ucd15.nfd s)) := by
  refine nfd_steps (R := fun a b => TokEq ucd15 (tokens finCan (single nel lsps) a) (tokens finCan (single nel lsps) b)) (G := Faithful)
    (fun l => TokEq.refl _) (fun h h' => h.trans h') lawful15.decomp_idem faithful_nfd ?_ ?_ hs
  · intro p c q hp hc hq hd
    have hesc : ESC ∉ p := fun h => (hp _ h).1 rfl
    obtain ⟨h1, h2, h3, h4, -⟩ := decomp_special hd
    rw [tokens_cut h1 _ _ p (Nat.le_refl _) hesc, tokens_block (fun d => single_pieces hc hd) (lawful15.decomp_ne c) hesc,
      single_text ⟨h2, h3, h4⟩, faithful_decomp hc hd]
    have hmap : (ucd15.decomp c).map (single nel lsps) = (ucd15.decomp c).map fun d => Tok.text [d] := by
      apply List.map_congr_left
      intro d hm
      exact single_ok (faithful_pieces hc hd hm).1
    rw [hmap]
    refine (TokEq.refl _).append (TokEq.append (a := [.text [c]]) ⟨?_, ?_, ?_⟩ (TokEq.refl _))
    · have : ∀ l : List Char, (l.map fun d => Tok.text [d]).flatMap Tok.out = l := by
        intro l
        induction l with
        | nil => rfl
        | cons d l ih => simp only [List.map_cons, List.flatMap_cons, ih, Tok.out]; rfl
      rw [this, nfd_decomp lawful15]; rfl
    · simp [lawful15.decomp_ne c]
    · simp [List.getLast?_map]
  · intro a x y b ha hx hy hb dx dy hr
    have hesc : ESC ∉ a := fun h => (ha _ h).1 rfl
    have hx0 : ucd15.ccc x ≠ 0 := by have := hr.1; omega
    have hy0 : ucd15.ccc y ≠ 0 := by have := hr.2; omega
    obtain ⟨sx, x2, x3, x4, -⟩ := ccc_special hx0
    obtain ⟨sy, y2, y3, y4, -⟩ := ccc_special hy0
    rw [tokens_cut sx _ _ a (Nat.le_refl _) hesc, tokens_cut sy _ _ a (Nat.le_refl _) hesc, tokens_single sx, tokens_single sy,
      single_text ⟨x2, x3, x4⟩, single_text ⟨y2, y3, y4⟩]
    have cls : ∀ {z : Char}, ucd15.ccc z ≠ 0 → ucd15.decomp z = [z] → ∀ d ∈ replace z, ucd15.ccc d = ucd15.ccc z ∧ ucd15.decomp d = [d] := by
      intro z hz dz
      rcases replace_ccc hz with e | e
      · rw [e]; intro d hd; simp at hd; subst hd; exact ⟨rfl, dz⟩
      · exact e
    refine (TokEq.refl _).append (TokEq.append (a := [.text (replace x), .text (replace y)]) (a' := [.text (replace y), .text (replace x)]) ⟨?_, ?_, ?_⟩ (TokEq.refl _))
    · simp only [List.flatMap_cons, List.flatMap_nil, List.append_nil, Tok.out]
      refine nfd_cross ?_ (fun u hu => (cls hx0 dx u hu).2) (fun v hv => (cls hy0 dy v hv).2)
      intro u hu v hv
      unfold Reorderable
      rw [(cls hx0 dx u hu).1, (cls hy0 dy v hv).1]
      exact hr
    · simp
    · simp

/-- A byte order mark at the start stays there. -/
theorem bom_nfd {s : List Char} (hs : ∀ c ∈ s, Faithful c) : s.head? = some BOM ↔ (ucd15.nfd s).head? = some BOM := by
  refine nfd_steps (R := fun a b => a.head? = some BOM ↔ b.head? = some BOM) (G := Faithful)
    (fun l => Iff.rfl) (fun h h' => h.trans h') lawful15.decomp_idem faithful_nfd ?_ ?_ hs
  · intro p c q hp hc hq hd
    cases p with
    | cons x p => simp
    | nil =>
      have h1 := (decomp_special hd).2.2.2.2
      have hne := lawful15.decomp_ne c
      cases hds : ucd15.decomp c with
      | nil => exact absurd hds hne
      | cons d ds =>
        have h2 := (ok_not_special (faithful_pieces hc hd (d := d) (by rw [hds]; simp)).1).2.2.2.2.2.2
        simp [h1, h2]
  · intro a x y b ha hx hy hb dx dy hr
    cases a with
    | cons z a => simp
    | nil =>
      have h1 := (ccc_special (c := x) (by have := hr.1; omega)).2.2.2.2
      have h2 := (ccc_special (c := y) (by have := hr.2; omega)).2.2.2.2
      simp [h1, h2]

theorem dropBom_nfd {s : List Char} (hs : ∀ c ∈ s, Faithful c) : dropBom (ucd15.nfd s) = ucd15.nfd (dropBom s) := by
  have hne : ∀ l : List Char, l.head? ≠ some BOM → dropBom l = l := by
    intro l hl
    unfold dropBom
    cases l with
    | nil => rfl
    | cons c l => simp only [dropOne]; rw [if_neg (by simpa using hl)]
  by_cases h : s.head? = some BOM
  · cases s with
    | nil => simp at h
    | cons c r =>
      simp at h; subst h
      have hd : ucd15.decomp BOM = [BOM] := by decide +kernel
      have hc : ucd15.ccc BOM = 0 := by decide +kernel
      have : ucd15.nfd (BOM :: r) = BOM :: ucd15.nfd r := by
        unfold nfd
        rw [List.flatMap_cons, hd, List.singleton_append, reorder_cons_starter hc]
      rw [this]
      simp [dropBom, dropOne]
  · rw [hne _ h, hne _ fun e => h ((bom_nfd hs).2 e)]

/-! ## Normalization -/

/-- The normalization chain respects equivalence on text in Stream-Safe form without compatibility ideographs. -/
theorem normChain_equiv {x x' : List Char} (h : ucd15.nfd x = ucd15.nfd x') (hs : (ucd15.chk 0 x).isSome) (hc : ∀ c ∈ x, isCompat c = false)
    (hc' : ∀ c ∈ x', isCompat c = false) : normChain ucd15 x = normChain ucd15 x' := by
  have key : ∀ {x : List Char}, (ucd15.chk 0 x).isSome → (∀ c ∈ x, isCompat c = false) → normChain ucd15 x = composeAll ucd15 (ucd15.nfd (isolate ucd15 x)) := by
    intro x hs hc
    have h1 : ucd15.cjkVariants (isolate ucd15 x) = isolate ucd15 x := by
      have : ∀ c ∈ isolate ucd15 x, ucd15.cjk c = [c] := by
        intro c hm
        rcases mem_isolateGo hm with h | h
        · exact cjk_not_compat (hc c h)
        · subst h; exact lawful15.inert_cgj.cjk
      unfold cjkVariants
      generalize isolate ucd15 x = l at this
      induction l with
      | nil => rfl
      | cons c l ih => rw [List.flatMap_cons, this c (by simp), ih fun d hd => this d (by simp [hd])]; rfl
    have hi : (ucd15.chk 0 (isolate ucd15 x)).isSome := chk_isolateGo textLaws15 (by decide) hs
    unfold normChain
    rw [h1, streamSafe_of_chk hi, nfc_spec lawful15]
  have hs' : (ucd15.chk 0 x').isSome := by rw [← chk_nfd lawful15, ← h, chk_nfd lawful15]; exact hs
  rw [key hs hc, key hs' hc', isolate_nfd textLaws15 x, isolate_nfd textLaws15 x', h]

theorem ok_not_compat {c : Char} (h : okChar c = true) : isCompat c = false := (faithful_ok h).2.1

theorem body_not_compat {nel lsps : Bool} {s : List Char} (hs : ∀ c ∈ s, Faithful c) {x : Char}
    (h : x ∈ (tokens finCan (single nel lsps) s).flatMap Tok.out) : isCompat x = false := by
  rcases mem_body h with e | e | ⟨c, hc, he, hx⟩
  · subst e; decide
  · subst e; decide
  · rcases replace_cases c with ⟨-, v, hv, e⟩ | ⟨-, e⟩ | ⟨-, e⟩
    · rw [e] at hx
      obtain ⟨n, hn, rfl⟩ := List.mem_map.1 hx
      have := List.all_eq_true.1 multi_ok _ hv
      simp only [Bool.and_eq_true, List.all_eq_true] at this
      apply ok_not_compat
      rw [okChar_iff, toNat_ofNat (this.1.1 n hn).2]
      exact (this.1.1 n hn).1
    · rw [e] at hx; simp at hx; subst hx; decide
    · rw [e] at hx; simp at hx; subst hx; exact (hs _ hc).2.1

theorem guardStart_if (x : List Char) : guardStart ucd15 x = if (∀ c ∈ x.head?, isStart ucd15 c = true) then x else CGJ :: x := by
  cases x with
  | nil => simp [guardStart]
  | cons c x => simp [guardStart]

theorem guardEnd_if (x : List Char) : guardEnd x = if (∀ c ∈ x.getLast?, isEnd c = true) then x else x ++ [CGJ] := by
  unfold guardEnd
  cases h : x.getLast? with
  | none => simp
  | some c => simp

theorem chk_cgj_cons (r : List Char) : ucd15.chk 0 (CGJ :: r) = ucd15.chk 0 r := by
  have h1 : ucd15.lead CGJ = 0 := textLaws15.start_lead _ textLaws15.start_cgj
  have h2 := textLaws15.dlen_pos CGJ
  have h3 : ucd15.trail CGJ = 0 := lawful15.inert_cgj.trail
  simp only [chk, nxt, h1]
  rw [if_neg (by omega), if_neg (by omega), h3]

/-- The guards around equivalent texts. -/
theorem guards_equiv {x x' : List Char} (h1 : ucd15.nfd x = ucd15.nfd x') (b1 : ∀ c ∈ x, isCompat c = false) (b2 : ∀ c ∈ x', isCompat c = false)
    (hge : (ucd15.chk 0 (guardEnd (guardStart ucd15 x))).isSome) :
    ucd15.nfd (guardEnd (guardStart ucd15 x)) = ucd15.nfd (guardEnd (guardStart ucd15 x')) ∧
    (∀ c ∈ guardEnd (guardStart ucd15 x), isCompat c = false) ∧ ∀ c ∈ guardEnd (guardStart ucd15 x'), isCompat c = false := by
  have hcgj : isCompat CGJ = false := by decide
  have hgs : (ucd15.chk 0 (guardStart ucd15 x)).isSome := by
    rw [guardEnd_if] at hge
    split at hge
    · exact hge
    · exact chk_prefix hge
  have hx : (ucd15.chk 0 x).isSome := by
    rw [guardStart_if] at hgs
    split at hgs
    · exact hgs
    · rw [chk_cgj_cons] at hgs; exact hgs
  have n1 := normChain_equiv h1 hx b1 b2
  have hhead : (∀ c ∈ x.head?, isStart ucd15 c = true) ↔ ∀ c ∈ x'.head?, isStart ucd15 c = true :=
    ⟨fun h => head_normChain_conv textLaws15 startLaws15 (by rw [← n1]; exact head_normChain textLaws15 h),
     fun h => head_normChain_conv textLaws15 startLaws15 (by rw [n1]; exact head_normChain textLaws15 h)⟩
  have g1 : ucd15.nfd (guardStart ucd15 x) = ucd15.nfd (guardStart ucd15 x') ∧ (∀ c ∈ guardStart ucd15 x, isCompat c = false) ∧
      ∀ c ∈ guardStart ucd15 x', isCompat c = false := by
    rw [guardStart_if, guardStart_if]
    by_cases hh : ∀ c ∈ x.head?, isStart ucd15 c = true
    · rw [if_pos hh, if_pos (hhead.1 hh)]
      exact ⟨h1, b1, b2⟩
    · rw [if_neg hh, if_neg fun h => hh (hhead.2 h)]
      refine ⟨nfd_congr (a := [CGJ]) (a' := [CGJ]) rfl h1, ?_, ?_⟩ <;>
      · intro c hc
        rcases List.mem_cons.1 hc with e | e
        · subst e; exact hcgj
        · first | exact b1 c e | exact b2 c e
  obtain ⟨g1, c1, c2⟩ := g1
  have n2 := normChain_equiv g1 hgs c1 c2
  have hlast : (∀ c ∈ (guardStart ucd15 x).getLast?, isEnd c = true) ↔ ∀ c ∈ (guardStart ucd15 x').getLast?, isEnd c = true := by
    rw [← last_normChain_end_iff textLaws15, n2, last_normChain_end_iff textLaws15]
  rw [guardEnd_if, guardEnd_if]
  by_cases hh : ∀ c ∈ (guardStart ucd15 x).getLast?, isEnd c = true
  · rw [if_pos hh, if_pos (hlast.1 hh)]
    exact ⟨g1, c1, c2⟩
  · rw [if_neg hh, if_neg fun h => hh (hlast.2 h)]
    refine ⟨nfd_congr g1 rfl, ?_, ?_⟩ <;>
    · intro c hc
      rcases List.mem_append.1 hc with e | e
      · first | exact c1 c e | exact c2 c e
      · simp at e; subst e; exact hcgj

theorem faithful_dropBom {s : List Char} (hs : ∀ c ∈ s, Faithful c) : ∀ c ∈ dropBom s, Faithful c := fun c hc => hs c (mem_dropOne hc)

/-- The items of equivalent contents. -/
theorem tokens_equiv {nel lsps : Bool} {s s' : List Char} (h : ucd15.nfd s = ucd15.nfd s') (hs : ∀ c ∈ s, Faithful c) (hs' : ∀ c ∈ s', Faithful c) :
    TokEq ucd15 (tokens finCan (single nel lsps) (dropBom s)) (tokens finCan (single nel lsps) (dropBom s')) := by
  have e : ucd15.nfd (dropBom s) = ucd15.nfd (dropBom s') := by rw [← dropBom_nfd hs, ← dropBom_nfd hs', h]
  refine (tokens_nfd (faithful_dropBom hs)).trans ?_
  rw [e]
  exact (tokens_nfd (faithful_dropBom hs')).symm

/-- The text of an equivalent content. -/
theorem form_equiv {nel lsps : Bool} {s s' : List Char} (h : ucd15.nfd s = ucd15.nfd s') (hs : ∀ c ∈ s, Faithful c) (hs' : ∀ c ∈ s', Faithful c)
    (hsafe : (ucd15.chk 0 (form ucd15 nel lsps s)).isSome) :
    normChain ucd15 (form ucd15 nel lsps s) = normChain ucd15 (form ucd15 nel lsps s') := by
  obtain ⟨h1, h2, h3⟩ := tokens_equiv (nel := nel) (lsps := lsps) h hs hs'
  have b1 := fun x => body_not_compat (nel := nel) (lsps := lsps) (x := x) (faithful_dropBom hs)
  have b2 := fun x => body_not_compat (nel := nel) (lsps := lsps) (x := x) (faithful_dropBom hs')
  have hnl : isCompat '\n' = false := by decide
  unfold form translate at hsafe ⊢
  simp only at hsafe ⊢
  have hge : (ucd15.chk 0 (guardEnd (guardStart ucd15 ((tokens finCan (single nel lsps) (dropBom s)).flatMap Tok.out)))).isSome := by
    split at hsafe
    · exact hsafe
    · exact chk_prefix hsafe
  obtain ⟨g2, d1, d2⟩ := guards_equiv h1 b1 b2 hge
  by_cases hn : tokens finCan (single nel lsps) (dropBom s) = [] ∨ (tokens finCan (single nel lsps) (dropBom s)).getLast? = some .nl
  · rw [if_pos hn, if_pos (hn.imp h2.1 h3.1)]
    exact normChain_equiv g2 hge d1 d2
  · rw [if_neg hn] at hsafe ⊢
    rw [if_neg fun h => hn (h.imp h2.2 h3.2)]
    refine normChain_equiv (nfd_congr g2 rfl) hsafe ?_ ?_ <;>
    · intro c hc
      rcases List.mem_append.1 hc with e | e
      · first | exact d1 c e | exact d2 c e
      · simp at e; subst e; exact hnl

/-! ## The string conversion -/

theorem body_equiv {s s' : List Char} (h : ucd15.nfd s = ucd15.nfd s') (hs : ∀ c ∈ s, Faithful c) (hs' : ∀ c ∈ s', Faithful c)
    (hge : (ucd15.chk 0 (body ucd15 (dropBom s))).isSome) :
    normChain ucd15 (body ucd15 (dropBom s)) = normChain ucd15 (body ucd15 (dropBom s')) := by
  obtain ⟨h1, -, -⟩ := tokens_equiv (nel := false) (lsps := false) h hs hs'
  obtain ⟨g2, d1, d2⟩ := guards_equiv h1 (fun x => body_not_compat (faithful_dropBom hs)) (fun x => body_not_compat (faithful_dropBom hs')) hge
  exact normChain_equiv g2 hge d1 d2

theorem form_body (s : List Char) : ∃ r, form ucd15 false false s = body ucd15 (dropBom s) ++ r := by
  unfold form translate body
  simp only
  split
  · exact ⟨[], by simp⟩
  · exact ⟨_, rfl⟩

theorem bomPrefix_equiv {s s' : List Char} (h : ucd15.nfd s = ucd15.nfd s') (hs : ∀ c ∈ s, Faithful c) (hs' : ∀ c ∈ s', Faithful c) :
    bomPrefix s = bomPrefix s' := by
  unfold bomPrefix
  have := bom_nfd hs
  rw [h, ← bom_nfd hs'] at this
  simp only [this]

/-! ## U+034F before unassigned scalars -/

theorem noCgjUn_cut {c : Char} (ha : isAssigned U c = true) (hc : c ≠ CGJ) (p q : List Char) :
    NoCgjUn U (p ++ c :: q) ↔ NoCgjUn U p ∧ NoCgjUn U q := by
  constructor
  · intro h
    refine ⟨?_, ?_⟩
    · intro a d b e
      exact h a d (b ++ c :: q) (by rw [e]; simp)
    · intro a d b e
      exact h (p ++ c :: a) d b (by rw [e]; simp)
  · rintro ⟨h1, h2⟩ a d b e
    rcases List.append_eq_append_iff.1 e with ⟨m, e1, e2⟩ | ⟨m, e1, e2⟩
    · cases m with
      | nil => simp at e2; exact absurd e2.1 hc
      | cons x m =>
        rw [List.cons_append, List.cons.injEq] at e2
        exact h2 m d b e2.2
    · cases m with
      | nil => simp at e2; exact absurd e2.1.symm hc
      | cons x m =>
        rw [List.cons_append, List.cons.injEq] at e2
        cases m with
        | nil =>
          simp only [List.nil_append, List.cons.injEq] at e2
          rw [e2.2.1]; exact ha
        | cons y m =>
          rw [List.cons_append, List.cons.injEq] at e2
          refine h1 a d m ?_
          rw [e1, ← e2.1, ← e2.2.1]

theorem noCgjUn_block {ds : List Char} (h : ∀ d ∈ ds, isAssigned U d = true ∧ d ≠ CGJ) (hne : ds ≠ []) (p q : List Char) :
    NoCgjUn U (p ++ (ds ++ q)) ↔ NoCgjUn U p ∧ NoCgjUn U q := by
  induction ds generalizing p with
  | nil => exact absurd rfl hne
  | cons d ds ih =>
    have hd := h d (by simp)
    rw [List.cons_append, noCgjUn_cut hd.1 hd.2]
    cases ds with
    | nil => rfl
    | cons e ds =>
      have := ih (fun x hx => h x (by simp [hx])) (by simp) []
      rw [List.nil_append] at this
      rw [this]
      have : NoCgjUn U [] := fun a c b e => by simp at e
      simp [this]

theorem noCgjUn_nfd {s : List Char} (hs : ∀ c ∈ s, Faithful c) : NoCgjUn ucd15 s ↔ NoCgjUn ucd15 (ucd15.nfd s) := by
  have hasg : ∀ c, ¬ ucd15.Inert c → isAssigned ucd15 c = true := by
    intro c hi
    cases ha : isAssigned ucd15 c with
    | true => rfl
    | false => exact absurd (inert_of_not_assigned textLaws15 ha) hi
  refine nfd_steps (R := fun a b => NoCgjUn ucd15 a ↔ NoCgjUn ucd15 b) (G := Faithful)
    (fun l => Iff.rfl) (fun h h' => h.trans h') lawful15.decomp_idem faithful_nfd ?_ ?_ hs
  · intro p c q hp hc hq hd
    have h1 : isAssigned ucd15 c = true := hasg c fun hi => hd hi.decomp
    have h2 : c ≠ CGJ := by rintro rfl; exact hd lawful15.inert_cgj.decomp
    rw [noCgjUn_cut h1 h2, noCgjUn_block ?_ (lawful15.decomp_ne c)]
    intro d hm
    refine ⟨decomp_assigned textLaws15 h1 hm, ?_⟩
    rintro rfl
    exact h2 (lawful15.inert_cgj.only c hm)
  · intro a x y b ha hx hy hb dx dy hr
    have h1 : ∀ z, ucd15.ccc z ≠ 0 → isAssigned ucd15 z = true ∧ z ≠ CGJ := by
      intro z hz
      refine ⟨hasg z fun hi => hz hi.ccc, ?_⟩
      rintro rfl
      exact hz lawful15.inert_cgj.ccc
    have hx1 := h1 x (by have := hr.1; omega)
    have hy1 := h1 y (by have := hr.2; omega)
    have e1 := noCgjUn_block (U := ucd15) (ds := [x, y]) (by simp [hx1, hy1]) (by simp) a b
    have e2 := noCgjUn_block (U := ucd15) (ds := [y, x]) (by simp [hx1, hy1]) (by simp) a b
    simp only [List.cons_append, List.nil_append] at e1 e2
    rw [e1, e2]

/-- The composed form has only such scalars too. -/
theorem faithful_nfc {s : List Char} (hs : ∀ c ∈ s, Faithful c) : ∀ c ∈ ucd15.nfc s, Faithful c := by
  intro c hc
  rcases mem_nfc hc with ⟨d, hd, h⟩ | ⟨k, b, h⟩
  · exact faithful_nfd d (hs d hd) c h
  · exact faithful_ok (textLaws15.ok_compose k b c h)

end Verif
