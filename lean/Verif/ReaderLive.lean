import Verif.ReaderSpec

/-!
# Reading always gets to the end
-/

namespace Verif
open Ucd
variable {U : Ucd}

/-- Absorbing the end of the stream completes the text. -/
theorem absorb_settled (hU : TextLaws U) {kt : Ctl × List Char} (h : CtlInv U kt.1 kt.2) (s : List Char) :
    Settled (absorb U kt s .end_) := by
  obtain ⟨h1, -, h3⟩ := ctl_absorb hU h s .end_
  exact ⟨h3 rfl, h1.nl (h3 rfl)⟩

theorem settled_eof (hU : TextLaws U) {k0 : Ctl} {es es' : List Event} (hc : CtlInv U (absorbAll U (k0, []) es).1 (absorbAll U (k0, []) es).2)
    (h : Settled (absorbAll U (k0, []) es)) (he : es' = [] ∨ es' = [eof]) : Settled (absorbAll U (k0, []) (es ++ es')) := by
  rcases he with rfl | rfl
  · simpa using h
  · rw [absorbAll_append]
    exact absorb_settled hU hc []

def pendBit (t : TextInput) : Nat := if t.pending = .active then 0 else 1

/-- Reading on with buffers that are big enough reports the end sooner or later. -/
theorem reach (hU : TextLaws U) {k0 : Ctl} (hk : CtlInv U k0 []) (lens : Nat → Nat) (hl : ∀ i, normalizationBufferSize ≤ lens i)
    (t : TextInput) (src : List Event) (emitted : List Char) (es : List Event) (u : Nat) (i : Nat)
    (h : Rel U k0 t emitted es) (hu : u = 0 → src = [] ∧ Settled (absorbAll U (k0, []) es)) :
    ∃ n r, (readMany U ((List.range' i n).map lens) t src).getLast? = some r ∧ ∃ k, r.ret = .ok k .end_ := by
  generalize hr : readWithStatus U (lens i) t src = r
  have hcut : (∃ k, r.ret = .ok k .end_) → ∃ n r, (readMany U ((List.range' i n).map lens) t src).getLast? = some r ∧ ∃ k, r.ret = .ok k .end_ := by
    intro hk
    exact ⟨1, r, by simp [readMany, hr], hk⟩
  have hgo : (∃ n r', (readMany U ((List.range' (i + 1) n).map lens) r.input r.src).getLast? = some r' ∧ ∃ k, r'.ret = .ok k .end_) →
      ∃ n r, (readMany U ((List.range' i n).map lens) t src).getLast? = some r ∧ ∃ k, r.ret = .ok k .end_ := by
    rintro ⟨n, r', h1, h2⟩
    refine ⟨n + 1, r', ?_, h2⟩
    rw [List.range'_succ, List.map_cons, readMany]
    simp only [hr]
    rw [List.getLast?_cons, h1]
    rfl
  obtain ⟨-, h2⟩ := read_rel hU h hr
  obtain ⟨es', c1, c2, -, -, c5, c6, c7⟩ := h2 (hl i)
  have hctl := ctl_absorbAll hU es (k0, []) hk
  by_cases hend : ∃ k, r.ret = .ok k .end_
  · exact hcut hend
  · have hcase : (es' = [] ∧ r.src = src) ∨ (src.length = r.src.length + 1) ∨ (src = [] ∧ r.src = [] ∧ es' = [eof]) := by
      revert c1
      generalize r.src = rs
      intro c1
      cases c1
      · exact Or.inl ⟨rfl, rfl⟩
      · exact Or.inr (Or.inl rfl)
      · exact Or.inr (Or.inr ⟨rfl, rfl, rfl⟩)
    rcases hcase with ⟨he, hsrc⟩ | hlen | ⟨h1, h2, he⟩
    · have hlen : r.src.length = src.length := by rw [hsrc]
      have hu' : u = 0 → r.src = [] ∧ Settled (absorbAll U (k0, []) (es ++ es')) := by rw [hsrc, he, List.append_nil]; exact hu
      rcases c6 he with ⟨p1, p2⟩ | ⟨p1, p2⟩
      · have hd1 : pendBit r.input < pendBit t := by simp [pendBit, p1, p2]
        exact hgo (reach hU hk lens hl r.input r.src _ _ u (i + 1) c2 hu')
      · have hd1 : pendBit r.input = pendBit t := by simp [pendBit, p1]
        exact hgo (reach hU hk lens hl r.input r.src _ _ u (i + 1) c2 hu')
    · have hu0 : u ≠ 0 := fun h => by have := (hu h).1; rw [this] at hlen; simp at hlen
      exact hgo (reach hU hk lens hl r.input r.src _ _ 1 (i + 1) c2 (by simp))
    · have hlen : r.src.length = src.length := by rw [h1, h2]
      by_cases hu0 : u = 0
      · exact absurd (c7 he (hu hu0).2) hend
      · exact hgo (reach hU hk lens hl r.input r.src _ _ 0 (i + 1) c2
          (fun _ => ⟨h2, by rw [he, absorbAll_append]; exact absorb_settled hU hctl []⟩))
termination_by (src.length + u, pendBit t, remaining U t)
decreasing_by
  · rw [hlen]; exact Prod.Lex.right _ (Prod.Lex.left _ _ hd1)
  · rw [hlen, hd1]; exact Prod.Lex.right _ (Prod.Lex.right _ p2)
  · apply Prod.Lex.left; omega
  · apply Prod.Lex.left; omega

end Verif
