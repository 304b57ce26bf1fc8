import Verif.ChainTheory
import Verif.ReaderOutput
import Verif.Spec

/-!
# Isolation of unassigned scalars
-/

namespace Verif
open Ucd
variable {U : Ucd}

/-- Every unassigned scalar is directly preceded by CGJ (or `prev` is) and directly followed by CGJ. -/
def Isolated (U : Ucd) (s : List Char) : Prop :=
  ∀ a c b, s = a ++ c :: b → isAssigned U c = false → a.getLast? = some CGJ ∧ b.head? = some CGJ

theorem isolated_of_assigned {s : List Char} (h : ∀ c ∈ s, isAssigned U c = true) : Isolated U s := by
  intro a c b hs hc
  rw [h c (by rw [hs]; simp)] at hc; simp at hc

theorem Isolated.tail {x s : List Char} (h : Isolated U (x ++ CGJ :: s)) : Isolated U (CGJ :: s) := by
  intro a c b hs hc
  obtain ⟨h1, h2⟩ := h (x ++ a) c b (by rw [hs]; simp) hc
  refine ⟨?_, h2⟩
  cases a with
  | nil =>
    simp only [List.nil_append, List.cons.injEq] at hs
    obtain ⟨rfl, -⟩ := hs
    -- c is CGJ: its predecessor is wherever `h` says; but CGJ is assigned only by law, so use the shape of `h1`
    rw [List.append_nil] at h1
    exfalso
    -- then the CGJ itself would be unassigned and would have to be followed by CGJs for ever
    exact absurd hc (by
      intro hc
      have key : ∀ n (y s : List Char), s.length = n → Isolated U (y ++ CGJ :: s) → False := by
        intro n
        induction n with
        | zero =>
          intro y s hl hi
          have := List.length_eq_zero_iff.1 hl
          subst this
          have := (hi y CGJ [] rfl hc).2
          simp at this
        | succ n ih =>
          intro y s hl hi
          cases s with
          | nil => simp at hl
          | cons d s =>
            have := (hi y CGJ (d :: s) rfl hc).2
            simp only [List.head?_cons, Option.some.injEq] at this
            subst this
            exact ih (y ++ [CGJ]) s (by simpa using hl) (by simpa using hi)
      exact key _ x s rfl h)
  | cons d a =>
    rw [List.getLast?_append] at h1
    cases hq : (d :: a).getLast? with
    | none => simp at hq
    | some e => rw [hq] at h1; exact h1

/-- Normalization keeps isolated scalars isolated. -/
theorem isolated_norm3 (hU : TextLaws U) : ∀ (n : Nat) (s : List Char), s.length ≤ n → Isolated U s → Isolated U (norm3 U s) := by
  have hC : isAssigned U CGJ = true := by simp [isAssigned, hU.assigned_cgj]
  intro n
  induction n with
  | zero =>
    intro s hs _
    have := List.length_eq_zero_iff.1 (show s.length = 0 by omega)
    subst this
    exact isolated_of_assigned (by simp [norm3_nil])
  | succ n ih =>
    intro s hs h
    by_cases hall : ∀ c ∈ s, isAssigned U c = true
    · apply isolated_of_assigned
      intro c hc
      cases ha : isAssigned U c with
      | true => rfl
      | false =>
        have := hall c (mem_norm3_inert hU (inert_of_not_assigned hU ha) (by rintro rfl; rw [hC] at ha; simp at ha) hc)
        rw [ha] at this; simp at this
    · -- the first unassigned scalar
      obtain ⟨x, c, y, rfl, hx, hc⟩ : ∃ x c y, s = x ++ c :: y ∧ (∀ d ∈ x, isAssigned U d = true) ∧ isAssigned U c = false := by
        clear hs h ih
        induction s with
        | nil => exact absurd (by simp) hall
        | cons d s ih =>
          by_cases hd : isAssigned U d = true
          · have : ¬ ∀ c ∈ s, isAssigned U c = true := by
              intro hh; apply hall; intro c hc
              simp only [List.mem_cons] at hc
              rcases hc with rfl | hc
              · exact hd
              · exact hh c hc
            obtain ⟨x, c, y, rfl, h1, h2⟩ := ih this
            refine ⟨d :: x, c, y, rfl, ?_, h2⟩
            intro e he
            simp only [List.mem_cons] at he
            rcases he with rfl | he
            · exact hd
            · exact h1 e he
          · exact ⟨[], d, s, rfl, by simp, by simpa using hd⟩
      obtain ⟨h1, h2⟩ := h x c y rfl hc
      obtain ⟨x', rfl⟩ : ∃ x', x = x' ++ [CGJ] := by
        rcases List.eq_nil_or_concat x with rfl | ⟨x', e, rfl⟩
        · simp at h1
        · rw [List.concat_eq_append] at *
          simp at h1; exact ⟨x', by rw [h1]⟩
      obtain ⟨y', rfl⟩ : ∃ y', y = CGJ :: y' := by
        cases y with
        | nil => simp at h2
        | cons e y => simp at h2; exact ⟨y, by rw [h2]⟩
      have ht : Isolated U (CGJ :: y') := by
        have : x' ++ [CGJ] ++ c :: CGJ :: y' = (x' ++ [CGJ] ++ [c]) ++ CGJ :: y' := by simp
        rw [this] at h
        exact h.tail
      have hi := ih (CGJ :: y') (by simp at hs ⊢; omega) ht
      have hx' : ∀ d ∈ norm3 U (x' ++ [CGJ]), isAssigned U d = true := by
        intro d hd
        cases ha : isAssigned U d with
        | true => rfl
        | false =>
          have := hx d (mem_norm3_inert hU (inert_of_not_assigned hU ha) (by rintro rfl; rw [hC] at ha; simp at ha) hd)
          rw [ha] at this; simp at this
      rw [norm3_split hU (inert_of_not_assigned hU hc)]
      have e1 : norm3 U (x' ++ [CGJ]) = norm3 U x' ++ [CGJ] := by
        rw [norm3_split hU hU.law.inert_cgj]; rfl
      have e2 : norm3 U (CGJ :: y') = CGJ :: norm3 U y' := by
        rw [show CGJ :: y' = [] ++ CGJ :: y' from rfl, norm3_split hU hU.law.inert_cgj]; rfl
      intro a d b hab hd
      rcases List.append_eq_append_iff.1 hab with ⟨z, rfl, hz⟩ | ⟨z, hz1, hz⟩
      · cases z with
        | nil =>
          simp only [List.nil_append, List.cons.injEq] at hz
          obtain ⟨rfl, rfl⟩ := hz
          rw [List.append_nil, e1, e2]; simp
        | cons w z =>
          simp only [List.cons_append, List.cons.injEq] at hz
          obtain ⟨rfl, hz⟩ := hz
          obtain ⟨g1, g2⟩ := hi z d b hz hd
          refine ⟨?_, g2⟩
          rw [List.getLast?_append, List.getLast?_cons]
          cases hq : z.getLast? with
          | none => rw [hq] at g1; simp at g1
          | some w => rw [hq] at g1; simpa using g1
      · cases z with
        | nil =>
          simp only [List.nil_append, List.cons.injEq] at hz
          obtain ⟨rfl, rfl⟩ := hz
          rw [List.append_nil] at hz1
          rw [← hz1, e1, e2]; simp
        | cons w z =>
          simp only [List.cons_append, List.cons.injEq] at hz
          obtain ⟨rfl, -⟩ := hz
          rw [hx' d (by rw [hz1]; simp)] at hd; simp at hd

/-- Isolation isolates, unless the text has a CGJ directly before an unassigned scalar. -/
theorem isolated_isolateGo (hC : isAssigned U CGJ = true) {s : List Char} : ∀ {need hv : Bool}, (hv = true → ∀ c ∈ s.head?, isAssigned U c = true) →
    NoCgjUn U s → (∀ a c b, isolateGo U need hv s = a ++ c :: b → isAssigned U c = false → a.getLast? = some CGJ ∧ b.head? = some CGJ) ∧
      (need = true → (isolateGo U need hv s).head? = some CGJ) := by
  induction s with
  | nil =>
    intro need hv _ _
    refine ⟨?_, by rintro rfl; simp [isolateGo]⟩
    intro a c b h hc
    cases need
    · simp [isolateGo] at h
    · simp only [isolateGo, if_true] at h
      have hm : c ∈ [CGJ] := by rw [h]; simp
      simp only [List.mem_singleton] at hm
      rw [hm, hC] at hc; simp at hc
  | cons d s ih =>
    intro need hv hh hn
    have hn' : NoCgjUn U s := NoCgjUn.suffix (x := [d]) hn
    have hcg : d = CGJ → ∀ c ∈ s.head?, isAssigned U c = true := by
      rintro rfl c hc
      cases s with
      | nil => simp at hc
      | cons e s => simp at hc; subst hc; exact hn [] e s rfl
    have put : ∀ (t : List Char) (e : Char) , (∀ a c b, t = a ++ c :: b → isAssigned U c = false → a.getLast? = some CGJ ∧ b.head? = some CGJ) →
        isAssigned U e = true → ∀ a c b, e :: t = a ++ c :: b → isAssigned U c = false → a.getLast? = some CGJ ∧ b.head? = some CGJ := by
      intro t e ht he a c b hab hc
      cases a with
      | nil => simp at hab; rw [← hab.1, he] at hc; simp at hc
      | cons x a =>
        simp only [List.cons_append, List.cons.injEq] at hab
        obtain ⟨rfl, hab⟩ := hab
        obtain ⟨g1, g2⟩ := ht a c b hab hc
        refine ⟨?_, g2⟩
        rw [List.getLast?_cons, g1]; rfl
    simp only [isolateGo]
    split
    · rename_i hcond
      refine ⟨?_, fun _ => rfl⟩
      obtain ⟨g1, g2⟩ := ih (need := !isAssigned U d) (hv := false) (by simp) hn'
      cases had : isAssigned U d with
      | true => rw [had] at g1; exact put _ _ (put _ _ g1 had) hC
      | false =>
        rw [had] at g1 g2
        intro a c b hab hc
        cases a with
        | nil => simp at hab; rw [← hab.1, hC] at hc; simp at hc
        | cons x a =>
          simp only [List.cons_append, List.cons.injEq] at hab
          obtain ⟨rfl, hab⟩ := hab
          cases a with
          | nil =>
            simp only [List.nil_append, List.cons.injEq] at hab
            obtain ⟨rfl, rfl⟩ := hab
            exact ⟨rfl, g2 rfl⟩
          | cons y a =>
            simp only [List.cons_append, List.cons.injEq] at hab
            obtain ⟨rfl, hab⟩ := hab
            obtain ⟨k1, k2⟩ := g1 a c b hab hc
            refine ⟨?_, k2⟩
            rw [List.getLast?_cons, List.getLast?_cons, k1]; rfl
    · rename_i hcond
      simp only [Bool.or_eq_true, Bool.and_eq_true, bne_iff_ne, not_or] at hcond
      have had : isAssigned U d = true := by
        cases ha : isAssigned U d with
        | true => rfl
        | false =>
          have : hv = true := by
            cases hv
            · simp [ha] at hcond
            · rfl
          rw [hh this d rfl] at ha; simp at ha
      obtain ⟨g1, -⟩ := ih (need := false) (hv := d == CGJ) (fun h => hcg (by simpa using h)) hn'
      refine ⟨put _ _ g1 had, ?_⟩
      rintro rfl
      have : d = CGJ := by simpa using hcond.1
      rw [this]; rfl

theorem isolated_normChain (hU : TextLaws U) {s : List Char} (h : NoCgjUn U s) : Isolated U (normChain U s) := by
  have hC : isAssigned U CGJ = true := by simp [isAssigned, hU.assigned_cgj]
  refine isolated_norm3 hU _ _ (Nat.le_refl _) ?_
  exact (isolated_isolateGo hC (need := false) (hv := false) (by simp) h).1

/-- The scalars other than CGJ are left as they are. -/
theorem isolateGo_filter (s : List Char) : ∀ need hv : Bool, (isolateGo U need hv s).filter (· != CGJ) = s.filter (· != CGJ) := by
  induction s with
  | nil => intro need hv; cases need <;> simp [isolateGo]
  | cons c s ih =>
    intro need hv
    simp only [isolateGo]
    split
    · rw [List.filter_cons_of_neg (by simp), List.filter_cons, List.filter_cons, ih]
    · rw [List.filter_cons, List.filter_cons, ih]

theorem isolateGo_sublist (s : List Char) : ∀ need hv : Bool, s.Sublist (isolateGo U need hv s) := by
  induction s with
  | nil => intro need hv; simp
  | cons c s ih =>
    intro need hv
    simp only [isolateGo]
    split
    · exact (List.Sublist.cons_cons c (ih _ _)).cons _
    · exact List.Sublist.cons_cons c (ih _ _)

/-- Putting CGJs into stream-safe NFC text leaves it stream-safe NFC. -/
theorem nss_isolateGo (hU : TextLaws U) {s : List Char} : ∀ {p : List Char} {need hv : Bool}, U.isNfcStreamSafe (p ++ s) = true →
    U.isNfcStreamSafe (p ++ isolateGo U need hv s) = true := by
  induction s with
  | nil =>
    intro p need hv h
    cases need
    · simpa [isolateGo] using h
    · simp only [isolateGo, if_true]
      rw [nss_inert_concat hU.law hU.law.inert_cgj]
      simpa using h
  | cons c s ih =>
    intro p need hv h
    simp only [isolateGo]
    split
    · rw [nss_inert hU.law hU.law.inert_cgj]
      exact ⟨nss_prefix hU.law h, ih (p := [c]) (nss_suffix hU.law h)⟩
    · have := ih (p := p ++ [c]) (need := !isAssigned U c) (hv := false) (by simpa using h)
      have h2 := fun n v => ih (p := p ++ [c]) (need := n) (hv := v) (by simpa using h)
      simpa using h2 _ _

/-- On text that is already stream-safe NFC, the whole chain only inserts CGJs. -/
theorem normChain_of_nss (hU : TextLaws U) {s : List Char} (h : U.isNfcStreamSafe s = true) : normChain U s = isolate U s :=
  norm3_of_nss hU (nss_isolateGo hU (p := []) h)

/-! ## The documented isolation isolates everything -/

/-- Every unassigned scalar is preceded by CGJ; `prev` is the scalar before the text. -/
def PreOk (U : Ucd) : Option Char → List Char → Prop
  | _, [] => True
  | prev, c :: s => (isAssigned U c = true ∨ prev = some CGJ) ∧ PreOk U (some c) s

/-- And followed. -/
def IsoOk (U : Ucd) : Option Char → List Char → Prop
  | _, [] => True
  | prev, c :: s => (isAssigned U c = true ∨ (prev = some CGJ ∧ s.head? = some CGJ)) ∧ IsoOk U (some c) s

theorem isolated_of_isoOk {s : List Char} : ∀ {prev : Option Char}, IsoOk U prev s →
    ∀ a c b, s = a ++ c :: b → isAssigned U c = false → (a.getLast?.or prev) = some CGJ ∧ b.head? = some CGJ := by
  induction s with
  | nil => intro prev _ a c b h; simp at h
  | cons d s ih =>
    intro prev h a c b hs hc
    obtain ⟨h1, h2⟩ := h
    cases a with
    | nil =>
      simp only [List.nil_append, List.cons.injEq] at hs
      obtain ⟨rfl, rfl⟩ := hs
      rcases h1 with h1 | h1
      · rw [hc] at h1; simp at h1
      · simpa using h1
    | cons x a =>
      simp only [List.cons_append, List.cons.injEq] at hs
      obtain ⟨rfl, hs⟩ := hs
      obtain ⟨g1, g2⟩ := ih h2 a c b hs hc
      refine ⟨?_, g2⟩
      rw [List.getLast?_cons]
      cases hq : a.getLast? with
      | none => rw [hq] at g1; simpa using g1
      | some w => rw [hq] at g1; simpa using g1

theorem preOk_mono {s : List Char} {prev : Option Char} (h : PreOk U prev s) : PreOk U (some CGJ) s := by
  cases s with
  | nil => trivial
  | cons c s => exact ⟨Or.inr rfl, h.2⟩

theorem preOk_isolateBefore (hC : isAssigned U CGJ = true) (s : List Char) : ∀ prev : Option Char, PreOk U prev (Spec.isolateBefore U prev s) := by
  induction s with
  | nil => intro prev; trivial
  | cons c s ih =>
    intro prev
    simp only [Spec.isolateBefore]
    split
    · exact ⟨Or.inl hC, Or.inr rfl, ih _⟩
    · rename_i h
      refine ⟨?_, ih _⟩
      cases ha : isAssigned U c with
      | true => exact Or.inl rfl
      | false => right; simpa [ha] using h

theorem isolateAfter_head (s : List Char) : (Spec.isolateAfter U s).head? = s.head? := by
  cases s with
  | nil => rfl
  | cons c s => simp only [Spec.isolateAfter]; split <;> rfl

theorem isoOk_isolateAfter (hC : isAssigned U CGJ = true) {s : List Char} : ∀ {prev : Option Char}, PreOk U prev s → IsoOk U prev (Spec.isolateAfter U s) := by
  induction s with
  | nil => intro prev _; trivial
  | cons c s ih =>
    intro prev h
    simp only [Spec.isolateAfter]
    split
    · rename_i hc
      refine ⟨?_, Or.inl hC, ih (preOk_mono h.2)⟩
      rcases h.1 with h1 | h1
      · exact Or.inl h1
      · exact Or.inr ⟨h1, rfl⟩
    · rename_i hc
      refine ⟨?_, ih h.2⟩
      rw [isolateAfter_head]
      cases ha : isAssigned U c with
      | true => exact Or.inl rfl
      | false =>
        right
        refine ⟨h.1.resolve_left (by simp [ha]), by simpa [ha] using hc⟩

/-- The documented isolation isolates every unassigned scalar of every text. -/
theorem isolated_spec (hU : TextLaws U) (s : List Char) : Isolated U (Spec.isolate U s) := by
  have hC : isAssigned U CGJ = true := by simp [isAssigned, hU.assigned_cgj]
  intro a c b h hc
  simpa using isolated_of_isoOk (isoOk_isolateAfter hC (preOk_isolateBefore hC s none)) a c b h hc

theorem isolated_normalize (hU : TextLaws U) (s : List Char) : Isolated U (Spec.normalize U s) :=
  isolated_norm3 hU _ _ (Nat.le_refl _) (isolated_spec hU s)

theorem Isolated.cons {c : Char} (hc : isAssigned U c = true) {s : List Char} (h : Isolated U s) : Isolated U (c :: s) := by
  intro a d b hs hd
  cases a with
  | nil => simp at hs; rw [← hs.1, hc] at hd; simp at hd
  | cons x a =>
    simp only [List.cons_append, List.cons.injEq] at hs
    obtain ⟨rfl, hs⟩ := hs
    obtain ⟨g1, g2⟩ := h a d b hs hd
    refine ⟨?_, g2⟩
    rw [List.getLast?_cons, g1]; rfl

/-- Isolating what is isolated changes nothing. -/
theorem isolateGo_isolated {s : List Char} : ∀ {hv : Bool}, (∀ a c b, s = a ++ c :: b → isAssigned U c = false →
    (a = [] ∧ hv = true) ∨ a.getLast? = some CGJ) → isolateGo U false hv s = s := by
  induction s with
  | nil => intro hv _; rfl
  | cons c s ih =>
    intro hv h
    have hc : isAssigned U c = true ∨ hv = true := by
      cases ha : isAssigned U c with
      | true => exact Or.inl rfl
      | false => rcases h [] c s rfl ha with h | h <;> simp_all
    simp only [isolateGo]
    rw [if_neg (by rcases hc with hc | hc <;> simp [hc]), ih]
    intro a d b hs hd
    rcases h (c :: a) d b (by rw [hs]; rfl) hd with h | h
    · simp at h
    · rw [List.getLast?_cons] at h
      cases hq : a.getLast? with
      | none =>
        rw [hq] at h
        left
        exact ⟨List.getLast?_eq_none_iff.1 hq, by simpa using h⟩
      | some w => rw [hq] at h; right; simpa using h

theorem isolate_isolated {s : List Char} (h : Isolated U s) : Verif.isolate U s = s :=
  isolateGo_isolated fun a c b hs hc => Or.inr (h a c b hs hc).1

/-- Basic Text as the document defines it is what the checker accepts, with isolated unassigned scalars; the chain leaves it
alone. -/
theorem normChain_isolated (hU : TextLaws U) {s : List Char} (h : U.isNfcStreamSafe s = true) (hi : Isolated U s) : normChain U s = s := by
  rw [normChain_of_nss hU h, isolate_isolated hi]

end Verif
