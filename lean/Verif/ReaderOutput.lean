import Verif.ReaderRuns

/-!
# What a sequence of reads delivers
-/

namespace Verif
open Ucd
variable {U : Ucd}

theorem isolateGo_cgj (x : List Char) : ∀ {need hv : Bool}, ∃ y, isolateGo U need hv (x ++ [CGJ]) = y ++ [CGJ] ∨
    isAssigned U CGJ = false := by
  cases hC : isAssigned U CGJ with
  | false => intro need hv; exact ⟨[], Or.inr rfl⟩
  | true =>
    induction x with
    | nil =>
      intro need hv
      refine ⟨[], Or.inl ?_⟩
      simp [isolateGo, hC]
    | cons c x ih =>
      intro need hv
      simp only [List.cons_append, isolateGo]
      split
      · obtain ⟨y, hy⟩ := ih (need := !isAssigned U c) (hv := false)
        simp only [Bool.true_eq_false, or_false] at hy
        exact ⟨CGJ :: c :: y, Or.inl (by rw [hy]; rfl)⟩
      · obtain ⟨y, hy⟩ := ih (need := false) (hv := c == CGJ)
        simp only [Bool.true_eq_false, or_false] at hy
        exact ⟨c :: y, Or.inl (by rw [hy]; rfl)⟩

/-- A segment is still one after normalization, with the same last scalar. -/
theorem normChain_concat (hU : TextLaws U) {b : Char} (hb : isBoundary b = true) (x : List Char) :
    ∃ y, normChain U (x ++ [b]) = y ++ [b] := by
  rcases isBoundary_iff.1 hb with rfl | rfl
  · exact ⟨_, normChain_split hU hU.law.inert_nl (boundary_assigned hU hb) (by decide) x []⟩
  · obtain ⟨y, hy⟩ := isolateGo_cgj (U := U) x (need := false) (hv := false)
    rcases hy with hy | hy
    · refine ⟨norm3 U y, ?_⟩
      rw [normChain_eq, isolate, hy, norm3_split hU hU.law.inert_cgj]; rfl
    · simp [isAssigned, hU.assigned_cgj] at hy

theorem nss_segs (hU : TextLaws U) {segs : List (List Char)} (h : ∀ s ∈ segs, IsSeg s) :
    U.isNfcStreamSafe (segs.flatMap (normChain U)) = true := by
  induction segs with
  | nil => exact nss_nil
  | cons s segs ih =>
    obtain ⟨x, b, rfl, hb⟩ := h s (by simp)
    obtain ⟨y, hy⟩ := normChain_concat hU hb x
    have h1 := normChain_nss hU (x ++ [b])
    rw [List.flatMap_cons]
    rw [hy] at h1 ⊢
    rw [List.append_assoc, List.singleton_append]
    rw [nss_inert hU.law (boundary_inert hU hb)]
    exact ⟨(nss_inert_concat hU.law (boundary_inert hU hb)).1 h1, ih fun s hs => h s (by simp [hs])⟩

theorem head?_append_ne {a b : List Char} (h : a ≠ []) : (a ++ b).head? = a.head? := by
  cases a with
  | nil => exact absurd rfl h
  | cons c a => rfl

theorem head_segs (hU : TextLaws U) {segs : List (List Char)} (h : ∀ s ∈ segs, IsSeg s) {r : List Char}
    (hT : ∀ c ∈ (segs.flatten ++ r).head?, isStart U c = true) : ∀ c ∈ (segs.flatMap (normChain U)).head?, isStart U c = true := by
  cases segs with
  | nil => simp
  | cons s segs =>
    have hne := (h s (by simp)).ne_nil
    have hne' := normChain_ne_nil hU hne
    intro c hc
    apply head_normChain hU (s := s) _ c
    · rw [List.flatMap_cons, head?_append_ne hne'] at hc
      exact hc
    · intro d hd
      apply hT d
      rw [List.flatten_cons, List.append_assoc, head?_append_ne hne]
      exact hd

theorem ok_segs (hU : TextLaws U) {segs : List (List Char)} (h : ∀ c ∈ segs.flatten, Fine c) :
    ∀ c ∈ segs.flatMap (normChain U), okChar c = true := by
  intro c hc
  obtain ⟨s, hs, hc⟩ := List.mem_flatMap.1 hc
  exact ok_normChain hU (fun d hd => h d (List.mem_flatten.2 ⟨s, hs, hd⟩)) c hc

/-- What has been delivered at any moment. -/
theorem Inv.valid (hU : TextLaws U) {t : TextInput} {emitted T : List Char} {k : Ctl} (h : Inv U t emitted T) (hc : CtlInv U k T) :
    isBasicTextSubstr U emitted = true ∧ ∀ c ∈ emitted.head?, isStart U c = true := by
  obtain ⟨⟨segs, h1, h2, h3⟩, -, -⟩ := h
  have hn := nss_segs hU h3
  rw [← h2, List.append_assoc] at hn
  refine ⟨substr_iff.2 ⟨?_, nss_prefix hU.law hn⟩, ?_⟩
  · intro c hcm
    apply ok_segs hU (segs := segs)
    · intro d hd; exact hc.fine d (by rw [h1]; simp [hd])
    · rw [← h2]; simp [hcm]
  · intro c hcm
    apply head_segs hU h3 (r := t.queue.drop t.quick) (by rw [← h1]; exact hc.head) c
    rw [← h2]
    cases emitted with
    | nil => simp at hcm
    | cons e em => simpa using hcm

/-- What has been delivered at the end. -/
theorem Inv.at_end {t : TextInput} {emitted T : List Char} (h : Inv U t emitted T) (hi : Idle t)
    (hT : T = [] ∨ T.getLast? = some '\n') :
    t.queue = [] ∧ ∃ segs : List (List Char), T = segs.flatten ∧ emitted = segs.flatMap (normChain U) ∧ ∀ s ∈ segs, IsSeg s := by
  obtain ⟨⟨segs, h1, h2, h3⟩, -, -⟩ := h
  rw [hi.quick] at h1 h2
  rw [hi.iter] at h2
  simp only [List.drop_zero, List.take_zero, List.append_nil] at h1 h2
  have hq : t.queue = [] := by
    rcases hT with hT | hT
    · rw [h1] at hT; exact (List.append_eq_nil_iff.1 hT).2
    · rcases List.eq_nil_or_concat t.queue with hq | ⟨q, c, hq⟩
      · exact hq
      · rw [h1, hq, List.concat_eq_append, ← List.append_assoc] at hT
        simp only [List.getLast?_append, List.getLast?_singleton, Option.some_or, Option.some.injEq] at hT
        have := hi.queue c (by simp [hq])
        rw [hT] at this
        simp [isBoundary] at this
  rw [hq, List.append_nil] at h1
  exact ⟨hq, segs, h1, h2, h3⟩

theorem last_segs (hU : TextLaws U) {segs : List (List Char)} (h : ∀ s ∈ segs, IsSeg s) :
    (segs.flatMap (normChain U)).getLast? = segs.flatten.getLast? := by
  rcases List.eq_nil_or_concat segs with rfl | ⟨segs, s, rfl⟩
  · rfl
  · rw [List.concat_eq_append] at h ⊢
    obtain ⟨x, b, rfl, hb⟩ := h s (by simp)
    obtain ⟨y, hy⟩ := normChain_concat hU hb x
    simp [List.getLast?_append, hy]

/-- The chain over a whole text is the chain over its segments, unless a segment ends with CGJ and the
next one begins with an unassigned scalar. -/
theorem normChain_append_seg (hU : TextLaws U) {x y : List Char} {b : Char} (hb : isBoundary b = true)
    (hy : b = CGJ → ∀ c ∈ y.head?, isAssigned U c = true) :
    normChain U ((x ++ [b]) ++ y) = normChain U (x ++ [b]) ++ normChain U y := by
  have ha := boundary_assigned hU hb
  have hiso : isolate U ((x ++ [b]) ++ y) = isolate U (x ++ [b]) ++ isolate U y := by
    unfold isolate
    rw [List.append_assoc, List.singleton_append, isolateGo_append ha]
    congr 1
    rcases isBoundary_iff.1 hb with rfl | rfl
    · rfl
    · cases y with
      | nil => rfl
      | cons c y =>
        have := hy rfl c (by simp)
        simp [isolateGo, this]
  rw [normChain_eq, normChain_eq, normChain_eq, hiso]
  obtain ⟨z, hz⟩ : ∃ z, isolate U (x ++ [b]) = z ++ [b] := by
    rcases isBoundary_iff.1 hb with rfl | rfl
    · exact ⟨isolate U x, isolate_split ha (by decide) x []⟩
    · obtain ⟨z, hz⟩ := isolateGo_cgj (U := U) x (need := false) (hv := false)
      rcases hz with hz | hz
      · exact ⟨z, hz⟩
      · rw [ha] at hz; simp at hz
  rw [hz, List.append_assoc, List.singleton_append, norm3_split hU (boundary_inert hU hb),
    norm3_split hU (boundary_inert hU hb) z [], norm3_nil]
  simp

/-- No CGJ is directly followed by an unassigned scalar. -/
def NoCgjUn (U : Ucd) (s : List Char) : Prop := ∀ a c b, s = a ++ CGJ :: c :: b → isAssigned U c = true

theorem NoCgjUn.suffix {x y : List Char} (h : NoCgjUn U (x ++ y)) : NoCgjUn U y := by
  intro a c b hy
  exact h (x ++ a) c b (by rw [hy, List.append_assoc])

theorem normChain_segs (hU : TextLaws U) {segs : List (List Char)} (h : ∀ s ∈ segs, IsSeg s) (hn : NoCgjUn U segs.flatten) :
    segs.flatMap (normChain U) = normChain U segs.flatten := by
  induction segs with
  | nil => rfl
  | cons s segs ih =>
    obtain ⟨x, b, rfl, hb⟩ := h s (by simp)
    rw [List.flatten_cons] at hn ⊢
    rw [List.flatMap_cons, normChain_append_seg hU hb, ih (fun s hs => h s (by simp [hs])) hn.suffix]
    rintro rfl c hc
    cases hs : segs.flatten with
    | nil => rw [hs] at hc; simp at hc
    | cons d l =>
      rw [hs] at hc
      simp only [List.head?_cons, Option.mem_def, Option.some.injEq] at hc
      subst hc
      exact hn x d l (by rw [hs]; simp)

end Verif
