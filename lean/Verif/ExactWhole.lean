import Verif.ExactCut
import Verif.IsolationTheory

/-!
# Where isolating as the code does makes a difference

Even in one piece, the code leaves out the U+034F after an unassigned scalar that already has one before it (`isolate_unassigned.rs:38-58`).  This shows
exactly for which strings the result is not the one of `Spec.normalize`.
-/

namespace Verif
open Ucd Spec
variable {U : Ucd}

/-- Every unassigned scalar with a U+034F directly before it has another unassigned scalar or a U+034F directly behind it. -/
def Spec.Balanced (U : Ucd) (s : List Char) : Prop :=
  ∀ a u b, s = a ++ CGJ :: u :: b → isAssigned U u = false → ∃ v r, b = v :: r ∧ (v = CGJ ∨ isAssigned U v = false)

/-- `Balanced` as a computation; the flag says whether a U+034F comes before. -/
def balGo (U : Ucd) : Bool → List Char → Bool
  | _, [] => true
  | h, c :: cs => (!(h && !isAssigned U c) || cs.head?.any fun v => v == CGJ || !isAssigned U v) && balGo U (c == CGJ) cs

theorem balGo_iff (s : List Char) : ∀ h, balGo U h s = true ↔
    (∀ a u b, s = a ++ CGJ :: u :: b → isAssigned U u = false → ∃ v r, b = v :: r ∧ (v = CGJ ∨ isAssigned U v = false)) ∧
    (h = true → ∀ u b, s = u :: b → isAssigned U u = false → ∃ v r, b = v :: r ∧ (v = CGJ ∨ isAssigned U v = false)) := by
  induction s with
  | nil => intro h; simp [balGo]
  | cons c s ih =>
    intro h
    simp only [balGo, Bool.and_eq_true, ih]
    constructor
    · rintro ⟨h1, h2, h3⟩
      refine ⟨?_, ?_⟩
      · intro a u b e hu
        cases a with
        | nil => simp only [List.nil_append, List.cons.injEq] at e; exact h3 (by simp [e.1]) u b e.2 hu
        | cons x a => simp only [List.cons_append, List.cons.injEq] at e; exact h2 a u b e.2 hu
      · rintro rfl u b e hu
        simp only [List.cons.injEq] at e
        obtain ⟨rfl, rfl⟩ := e
        cases s with
        | nil => simp [hu] at h1
        | cons v r => exact ⟨v, r, rfl, by simpa [hu] using h1⟩
    · rintro ⟨h1, h2⟩
      refine ⟨?_, ?_, ?_⟩
      · cases h with
        | false => simp
        | true =>
          cases hu : isAssigned U c with
          | true => simp
          | false =>
            obtain ⟨v, r, rfl, hv⟩ := h2 rfl c s rfl hu
            simpa using hv
      · intro a u b e hu; exact h1 (c :: a) u b (by simp [e]) hu
      · intro hc u b e hu; exact h1 [] u b (by simp at hc; simp [hc, e]) hu

theorem balanced_iff {s : List Char} : Balanced U s ↔ balGo U false s = true := by
  rw [balGo_iff]; simp [Balanced]

instance (s : List Char) : Decidable (Balanced U s) := decidable_of_iff _ balanced_iff.symm

/-- `Spec.isolate` with one look at each scalar. -/
def specGo (U : Ucd) : Bool → Bool → List Char → List Char
  | need, _, [] => if need then [CGJ] else []
  | need, have_, c :: cs =>
    if (need && c != CGJ) || (!isAssigned U c && !have_) then CGJ :: c :: specGo U (!isAssigned U c) false cs
    else c :: specGo U (!isAssigned U c) (c == CGJ) cs

theorem head_isolateBefore (hU : TextLaws U) {u : Char} (hu : isAssigned U u = false) (r : List Char) :
    ((isolateBefore U (some u) r).head? == some CGJ) = r.head?.any (fun v => v == CGJ || !isAssigned U v) := by
  have hC : isAssigned U CGJ = true := by simp [isAssigned, hU.assigned_cgj]
  have hn : u ≠ CGJ := fun e => by rw [e, hC] at hu; simp at hu
  cases r with
  | nil => simp [isolateBefore]
  | cons v r =>
    cases hv : isAssigned U v <;> simp [isolateBefore, hv, hn]

theorem specGo_eq (hU : TextLaws U) (s : List Char) :
    (∀ p : Option Char, (∀ c ∈ p, isAssigned U c = true) → specGo U false (p == some CGJ) s = isolateAfter U (isolateBefore U p s)) ∧
    (∀ u, isAssigned U u = false → u :: specGo U true false s = isolateAfter U (u :: isolateBefore U (some u) s)) := by
  have hC : isAssigned U CGJ = true := by simp [isAssigned, hU.assigned_cgj]
  induction s with
  | nil => exact ⟨fun p _ => by simp [specGo, isolateBefore, isolateAfter], fun u hu => by simp [specGo, isolateBefore, isolateAfter, hu]⟩
  | cons c s ih =>
    refine ⟨fun p hp => ?_, fun u hu => ?_⟩
    · cases hc : isAssigned U c with
      | true =>
        have := ih.1 (some c) (by simpa using hc)
        simp only [specGo, isolateBefore, hc, Bool.false_and, Bool.not_true, Bool.or_self, Bool.false_eq_true, if_false, isolateAfter]
        rw [← this]; congr 2
      | false =>
        have := ih.2 c hc
        have hcc : (c == CGJ) = false := by simp; rintro rfl; rw [hC] at hc; simp at hc
        by_cases hpc : p = some CGJ
        · subst hpc
          simp [specGo, isolateBefore, hc, hcc, this]
        · have h2 : (p == some CGJ) = false := by simpa using hpc
          simp only [specGo, isolateBefore, hc, h2, bne, Bool.not_false, Bool.and_self, Bool.false_and, Bool.or_true, if_true]
          rw [isolateAfter, ← this]; simp [hC]
    · have hn : (u == CGJ) = false := by simp; rintro rfl; rw [hC] at hu; simp at hu
      cases hc : isAssigned U c with
      | true =>
        have := ih.1 (some c) (by simpa using hc)
        by_cases hcc : c = CGJ
        · subst hcc
          simp [specGo, isolateBefore, isolateAfter, hu, hc]
          simpa using this
        · simp [specGo, isolateBefore, isolateAfter, hu, hc, hcc]
          have hcc' : (c == CGJ) = false := by simpa using hcc
          rw [← this]; simp [hcc']
      | false =>
        have := ih.2 c hc
        have hcc : c ≠ CGJ := by rintro rfl; rw [hC] at hc; simp at hc
        have hu' : u ≠ CGJ := by simpa using hn
        simp only [specGo, isolateBefore, hc, isolateAfter, hu, bne, Bool.not_false, Bool.and_self, Bool.true_and, Bool.or_true, if_true]
        simp [hu', isolateAfter, hC] at this ⊢
        simpa using this

theorem spec_isolate_go (hU : TextLaws U) (s : List Char) : Spec.isolate U s = specGo U false false s := by
  have := (specGo_eq hU s).1 none (by simp)
  rw [Spec.isolate, ← this]; rfl

theorem isolate_balanced (hU : TextLaws U) (s : List Char) : ∀ need hv : Bool, balGo U hv s = true → isolateGo U need hv s = specGo U need hv s := by
  have hC : isAssigned U CGJ = true := by simp [isAssigned, hU.assigned_cgj]
  induction s with
  | nil => intros; rfl
  | cons c s ih =>
    intro need hv hb
    simp only [balGo, Bool.and_eq_true] at hb
    simp only [isolateGo, specGo]
    split
    case isTrue h =>
      have hcc : (c == CGJ) = false := by
        simp; rintro rfl; simp [hC] at h
      rw [hcc] at hb
      rw [ih _ _ hb.2]
    case isFalse h =>
      congr 1
      cases hc : isAssigned U c with
      | true => exact ih _ _ hb.2
      | false =>
        have hcc : (c == CGJ) = false := by simp; rintro rfl; rw [hC] at hc; simp at hc
        simp only [hc, Bool.not_false, Bool.true_and, Bool.or_eq_true, Bool.not_eq_true', not_or, Bool.not_eq_false] at h
        rw [hcc] at hb ⊢
        have h1 := hb.1
        rw [h.2, hc] at h1
        simp at h1
        rw [ih _ _ hb.2]
        cases s with
        | nil => simp at h1
        | cons v r =>
          simp at h1
          rcases h1 with rfl | h1
          · simp [specGo, hC]
          · simp [specGo, h1]

theorem norm3_inert_cons (hU : TextLaws U) {c : Char} (hc : Inert U c) (y : List Char) : norm3 U (c :: y) = c :: norm3 U y := by
  have := norm3_split hU hc [] y
  rwa [List.nil_append, norm3_nil, List.nil_append] at this

theorem specGo_true (hU : TextLaws U) (s : List Char) : specGo U true false s =
    if s.head?.any (fun v => v == CGJ || !isAssigned U v) then specGo U false false s else CGJ :: specGo U false false s := by
  have hC : isAssigned U CGJ = true := by simp [isAssigned, hU.assigned_cgj]
  cases s with
  | nil => simp [specGo]
  | cons v r =>
    by_cases hc : v = CGJ
    · subst hc; simp [specGo, hC]
    · have hc' : (v == CGJ) = false := by simpa using hc
      cases hv : isAssigned U v <;> simp [specGo, hv, hc, hc']

theorem isolate_unbalanced (hU : TextLaws U) (s : List Char) : ∀ (X : List Char) (need hv : Bool), (need = true → hv = false) → balGo U hv s = false →
    (norm3 U (X ++ isolateGo U need hv s)).length < (norm3 U (X ++ specGo U need hv s)).length := by
  have hC : isAssigned U CGJ = true := by simp [isAssigned, hU.assigned_cgj]
  induction s with
  | nil => intro X need hv _ hb; simp [balGo] at hb
  | cons c s ih =>
    intro X need hv hnh hb
    simp only [balGo] at hb
    simp only [isolateGo, specGo]
    split
    case isTrue h =>
      have hcc : (c == CGJ) = false := by
        simp; rintro rfl; simp [hC] at h
      have hl : (!(hv && !isAssigned U c)) = true := by
        cases hv with
        | false => simp
        | true =>
          cases need with
          | false => simp at h
          | true => simp at hnh
      rw [hl, hcc] at hb
      have := ih (X ++ [CGJ, c]) (!isAssigned U c) false (by simp) (by simpa using hb)
      simpa using this
    case isFalse h =>
      cases hc : isAssigned U c with
      | true =>
        rw [hc] at hb
        have := ih (X ++ [c]) false (c == CGJ) (by simp) (by simpa using hb)
        simpa using this
      | false =>
        have hcc : (c == CGJ) = false := by simp; rintro rfl; rw [hC] at hc; simp at hc
        rw [hc, hcc] at hb
        simp only [hc, Bool.not_false, Bool.true_and, Bool.or_eq_true, Bool.not_eq_true', not_or, Bool.not_eq_false] at h
        rw [h.2] at hb
        rw [hcc, Bool.not_false, specGo_true hU, norm3_split hU (inert_of_not_assigned hU hc), norm3_split hU (inert_of_not_assigned hU hc)]
        simp only [List.length_append, List.length_cons]
        split
        case isTrue h1 =>
          rw [h1] at hb
          have := ih [] false false (by simp) (by simpa using hb)
          simp only [List.nil_append] at this
          omega
        case isFalse h1 =>
          rw [norm3_inert_cons hU hU.law.inert_cgj]
          cases hb2 : balGo U false s with
          | true => rw [isolate_balanced hU s _ _ hb2]; simp
          | false =>
            have := ih [] false false (by simp) hb2
            simp only [List.nil_append] at this
            simp only [List.length_cons]
            omega

/-- The code's normalization is the specification's exactly for `Balanced` strings. -/
theorem normChain_iff (hU : TextLaws U) (s : List Char) : normChain U s = normalize U s ↔ Balanced U s := by
  have hN : normalize U s = norm3 U (specGo U false false s) := by
    rw [← spec_isolate_go hU]; rfl
  rw [balanced_iff, hN, normChain_eq, isolate]
  cases hb : balGo U false s with
  | true => simp [isolate_balanced hU s _ _ hb]
  | false =>
    have := isolate_unbalanced hU s [] false false (by simp) hb
    simp only [List.nil_append] at this
    constructor
    · intro e; rw [e] at this; omega
    · simp

theorem NoCgjUn.balanced {s : List Char} (h : NoCgjUn U s) : Balanced U s := by
  intro a u b e hu
  have := h a u b e
  rw [hu] at this; simp at this

theorem head_normChain_ne_cgj (hU : TextLaws U) {v : Char} {r : List Char} (hv : isAssigned U v = true) (hc : v ≠ CGJ) :
    (normChain U (v :: r)).head? ≠ some CGJ := by
  have hi := hU.law.inert_cgj
  have := head_norm_of (P := fun c => c ≠ CGJ) (Q := fun c => c ≠ CGJ) hU (c0 := v) (s := r)
    (by rw [hv]; simp) (fun _ => hc)
    (fun c d ds h e hd => h (hi.cjk_only c (by rw [e, hd]; simp)))
    (fun c d ds h e hd => h (hi.only c (by rw [e, hd]; simp)))
    (fun k b r h _ e => by
      subst e
      have := hU.law.compose_decomp _ _ _ h
      rw [hi.decomp] at this
      have hl := congrArg List.length this
      have := List.length_pos_iff.2 (hU.law.decomp_ne k)
      simp only [List.length_append, List.length_cons, List.length_nil] at hl
      omega)
    (fun c d ds _ _ _ e he hc => he (by rw [hc]; exact hi.ccc))
  intro h
  exact this CGJ h rfl

/-- Everything unassigned is isolated in the code's normalization exactly for `Balanced` strings. -/
theorem isolated_normChain_iff (hU : TextLaws U) (s : List Char) : Isolated U (normChain U s) ↔ Balanced U s := by
  constructor
  · intro h a u b e hu
    subst e
    obtain ⟨X, hX⟩ := isolateGo_behind hU a false false
    have e : normChain U (a ++ CGJ :: u :: b) = norm3 U X ++ CGJ :: u :: normChain U b := by
      rw [normChain_eq, isolate, hX, norm3_split hU hU.law.inert_cgj, isolateGo]
      have hcc : (u == CGJ) = false := by
        simp; rintro rfl; simp [isAssigned, hU.assigned_cgj] at hu
      simp only [Bool.false_and, Bool.not_true, Bool.and_false, Bool.or_self, Bool.false_eq_true, if_false, hcc]
      rw [norm3_inert_cons hU (inert_of_not_assigned hU hu), normChain_eq, isolate]
    have h2 := (h (norm3 U X ++ [CGJ]) u (normChain U b) (by rw [e]; simp) hu).2
    cases b with
    | nil => rw [normChain_nil] at h2; simp at h2
    | cons v r =>
      refine ⟨v, r, rfl, ?_⟩
      cases hv : isAssigned U v with
      | false => exact Or.inr rfl
      | true =>
        refine Or.inl (Classical.byContradiction fun hc => ?_)
        exact head_normChain_ne_cgj hU hv hc h2
  · intro h
    rw [(normChain_iff hU s).2 h]
    exact isolated_normalize hU s

/-- What the code's isolation leaves alone: strings in which every unassigned scalar has a U+034F directly before it. -/
theorem isolateGo_fix (hU : TextLaws U) (s : List Char) : ∀ hv : Bool, isolateGo U false hv s = s ↔
    ∀ a u b, s = a ++ u :: b → isAssigned U u = false → if a = [] then hv = true else a.getLast? = some CGJ := by
  have hC : isAssigned U CGJ = true := by simp [isAssigned, hU.assigned_cgj]
  induction s with
  | nil => intro hv; simp [isolateGo]
  | cons c s ih =>
    intro hv
    have hlen : ∀ need, (isolateGo U need false s).length ≥ s.length := fun need => (isolateGo_sublist s _ _).length_le
    simp only [isolateGo, Bool.false_and, Bool.false_or, Bool.and_eq_true, Bool.not_eq_true']
    split
    case isTrue h =>
      constructor
      · intro e
        have := congrArg List.length e
        have := hlen (!isAssigned U c)
        simp only [List.length_cons] at *
        omega
      · intro e
        have := e [] c s rfl h.1
        rw [if_pos rfl, h.2] at this; simp at this
    case isFalse h =>
      simp only [List.cons.injEq, true_and]
      rw [ih]
      constructor
      · intro h1 a u b e hu
        cases a with
        | nil =>
          simp only [List.nil_append, List.cons.injEq] at e
          rw [if_pos rfl]
          rw [← e.1] at hu
          simpa [hu] using h
        | cons x a =>
          simp only [List.cons_append, List.cons.injEq] at e
          rw [if_neg (by simp)]
          have := h1 a u b e.2 hu
          cases a with
          | nil => rw [if_pos rfl] at this; simp at this; simp [← e.1, this]
          | cons y a => rw [if_neg (by simp)] at this; rw [List.getLast?_cons_cons]; exact this
      · intro h1 a u b e hu
        have := h1 (c :: a) u b (by simp [e]) hu
        rw [if_neg (by simp)] at this
        split
        case isTrue ha => subst ha; simpa using this
        case isFalse ha =>
          cases a with
          | nil => simp at ha
          | cons y a => rwa [List.getLast?_cons_cons] at this

theorem isolate_fix (hU : TextLaws U) (s : List Char) : isolate U s = s ↔
    ∀ a u b, s = a ++ u :: b → isAssigned U u = false → a.getLast? = some CGJ := by
  rw [isolate, isolateGo_fix hU]
  constructor
  · intro h a u b e hu
    have := h a u b e hu
    split at this
    · simp at this
    · exact this
  · intro h a u b e hu
    have := h a u b e hu
    split
    · rename_i ha; subst ha; simp at this
    · exact this

end Verif
