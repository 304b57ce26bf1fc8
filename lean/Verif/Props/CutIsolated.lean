import Verif.CutIsolated
import Verif.Props.CutAdds

/-!
# Isolation, however the content is cut (C47)
-/

namespace Verif
open Ucd Spec

/-- Every unassigned scalar behind a U+34F has another U+34F or another unassigned scalar directly behind it, or else one of the reads but the last leaves off
behind this U+34F and before the next U+34F or newline. -/
def Spec.IsolatedByReads (U : Ucd) (nel lsps : Bool) (chunks : List (List Char)) (last : List Char) : Prop :=
  ∀ a u b, translate U nel lsps (dropBom (chunks.flatten ++ last)) = a ++ CGJ :: u :: b → isAssigned U u = false →
    Opens U b ∨ ∃ i w, i < chunks.length ∧ settled U nel lsps (dropBom (chunks.take (i + 1)).flatten) = a ++ CGJ :: w ∧ ∀ c ∈ w, c ≠ CGJ ∧ c ≠ '\n'

variable {U : Ucd}

theorem reads_isolated (hU : TextLaws U) (nel lsps : Bool) {chunks : List (List Char)} {last : List Char} (hb : BomSafe chunks last)
    {lens : List Nat} (hc : Completes U nel lsps (script chunks last) lens) :
    Isolated U (output U nel lsps (script chunks last) lens) ↔ IsolatedByReads U nel lsps chunks last := by
  obtain ⟨r, n, h1, h2⟩ := hc
  have ho := (run_exact hU (ending_script chunks last) h1 h2).1
  unfold IsolatedByReads
  generalize hT : translate U nel lsps (dropBom (chunks.flatten ++ last)) = T
  have hseg : segments U nel lsps (script chunks last) = (cutAll ([], []) (outs U ((TextInput.new nel lsps).ctl, []) (script chunks last))).1 := by
    unfold segments
    rw [segAll_outs _ _ _ (by
      intro e he
      simp only [script, List.mem_append, List.mem_map, List.mem_singleton] at he
      rcases he with ⟨c, -, rfl⟩ | rfl <;> simp)]
  have hfl : (outs U ((TextInput.new nel lsps).ctl, []) (script chunks last)).flatten = T := by
    have := outs_flatten (U := U) (script chunks last) ((TextInput.new nel lsps).ctl, [])
    rw [absorbAll_script hU hb, hT, List.nil_append] at this
    exact this
  have hpart : ∀ i, i < chunks.length → ((outs U ((TextInput.new nel lsps).ctl, []) (script chunks last)).take (i + 1)).flatten =
      settled U nel lsps (dropBom (chunks.take (i + 1)).flatten) := by
    intro i hi
    rw [← absorbAll_part hU nel lsps hb, outs_take]
    have := outs_flatten (U := U) ((script chunks last).take (i + 1)) ((TextInput.new nel lsps).ctl, [])
    rw [List.nil_append] at this
    rw [this]
    unfold script
    rw [List.take_append_of_le_length (by simp; omega), List.map_take]
  have hlen : (outs U ((TextInput.new nel lsps).ctl, []) (script chunks last)).length = chunks.length + 1 := by
    rw [outs_length]; simp [script]
  rw [output, ho, hseg]
  generalize outs U ((TextInput.new nel lsps).ctl, []) (script chunks last) = cs at *
  rw [cutAll_isolated hU cs ([], []) (by simp) (by simp)]
  have hend := translate_last hU nel lsps (chunks.flatten ++ last)
  rw [hT] at hend
  constructor
  · rintro ⟨-, h⟩ a u b e hu
    rcases h a u b (by rw [List.nil_append, hfl]; exact e) hu with ho | ⟨i, w, g1, g2, g3⟩
    · exact Or.inl ho
    · right
      by_cases hi : i < chunks.length
      · exact ⟨i, w, hi, by rw [← hpart i hi]; simpa using g2, fun c hc => boundary_iff.1 (g3 c hc)⟩
      · exfalso
        rw [List.nil_append, List.take_of_length_le (by omega), hfl] at g2
        have e' := e
        rw [g2] at e'
        simp only [List.append_cancel_left_eq, List.cons.injEq, true_and] at e'
        rcases hend with h0 | h0
        · rw [e] at h0; simp at h0
        · rw [g2, e', show a ++ CGJ :: u :: b = (a ++ [CGJ]) ++ (u :: b) by simp, List.getLast?_append] at h0
          have hm : (u :: b).getLast? = some '\n' := by
            cases hx : (u :: b).getLast? with
            | none => simp at hx
            | some d => rw [hx] at h0; exact h0
          have := g3 '\n' (by rw [e']; exact List.mem_of_getLast? hm)
          simp [isBoundary] at this
  · intro h
    refine ⟨isolated_of_assigned (by simp), ?_⟩
    intro a u b e hu
    rw [List.nil_append, hfl] at e
    rcases h a u b e hu with ho | ⟨i, w, g1, g2, g3⟩
    · exact Or.inl ho
    · exact Or.inr ⟨i, w, by omega, by rw [List.nil_append, hpart i g1]; exact g2, fun c hc => boundary_iff.2 (g3 c hc)⟩

/-- C47, exactly, for a reader: in what it delivers every unassigned scalar stands between two U+34F exactly if the content, as it is read, is
`IsolatedByReads`. -/
theorem c47_reader_iff (nel lsps : Bool) (chunks : List (List Char)) (last : List Char) (hb : BomSafe chunks last)
    (lens : List Nat) (h : Completes ucd15 nel lsps (script chunks last) lens) :
    Isolated ucd15 (output ucd15 nel lsps (script chunks last) lens) ↔ IsolatedByReads ucd15 nel lsps chunks last :=
  reads_isolated textLaws15 nel lsps hb h

theorem isolated_nl (hU : TextLaws U) {x : List Char} : Isolated U (x ++ ['\n']) ↔ Isolated U x := by
  have hn := nl_assigned hU
  by_cases hx : ∀ c ∈ x.getLast?, isAssigned U c = true
  · rw [isolated_append hx (by simp [hn])]
    exact ⟨fun h => h.1, fun h => ⟨h, isolated_of_assigned (by simp [hn])⟩⟩
  · obtain ⟨y, u, rfl, hu⟩ : ∃ y u, x = y ++ [u] ∧ isAssigned U u = false := by
      rcases List.eq_nil_or_concat x with rfl | ⟨y, u, rfl⟩
      · simp at hx
      · exact ⟨y, u, by simp, by simpa using hx⟩
    constructor
    · intro h
      have := (h y u ['\n'] (by simp) hu).2
      simp [CGJ] at this
    · intro h
      have := (h y u [] rfl hu).2
      simp at this

theorem isolated_behind {d : Char} (hd : isAssigned U d = true) (hc : d ≠ CGJ) {x : List Char} : Isolated U (d :: x) ↔ Isolated U x := by
  refine ⟨fun h => ?_, Isolated.cons hd⟩
  intro a u b e hu
  obtain ⟨h1, h2⟩ := h (d :: a) u b (by rw [e]; rfl) hu
  refine ⟨?_, h2⟩
  cases a with
  | nil => simp at h1; exact absurd h1 hc
  | cons y a => rwa [List.getLast?_cons_cons] at h1

/-- C47, exactly, for the lossy conversion, however it is handed the string. -/
theorem c47_lossy_iff (chunks : List (List Char)) (last : List Char) (hb : SliceReads chunks last) (lens : Nat → Nat) (t : List Char)
    (h : Converts chunks last lens t) : Isolated ucd15 t ↔ IsolatedByReads ucd15 false false chunks last := by
  obtain ⟨l, x, c, rfl, e⟩ := lossy_output chunks last hb lens t h
  rw [← c47_reader_iff false false chunks last hb.bomSafe l c, e]
  have h1 : Isolated ucd15 (x ++ if Closed (dropBom (chunks.flatten ++ last)) then [] else ['\n']) ↔ Isolated ucd15 x := by
    split
    · rw [List.append_nil]
    · exact isolated_nl textLaws15
  rw [h1, bomPrefix]
  split
  · exact isolated_behind (by decide +kernel) (by decide)
  · rfl

/-- C47, exactly, for the checked conversion: in the result every unassigned scalar stands between two U+34F exactly if each that has a U+34F directly before
it has another U+34F or another unassigned scalar directly behind it. -/
theorem c47_checked_iff (s t : List Char) (h : fromTextOwned ucd15 (isBasicText ucd15) s = .ok t) : Isolated ucd15 t ↔
    ∀ a u b, s = a ++ CGJ :: u :: b → isAssigned ucd15 u = false → Opens ucd15 b :=
  c89_isolates s t h

/-- The content "U+34F U+378 a" with U+378 unassigned, in one read and cut behind the U+34F: the read that leaves off there makes the U+378 isolated. -/
example : ¬ IsolatedByReads ucd15 false false [] [CGJ, '͸', 'a'] ∧ IsolatedByReads ucd15 false false [[CGJ]] ['͸', 'a'] ∧
    output ucd15 false false (script [] [CGJ, '͸', 'a']) [136] = [CGJ, '͸', 'a', '\n'] ∧
    output ucd15 false false (script [[CGJ]] ['͸', 'a']) [136, 136] = [CGJ, CGJ, '͸', CGJ, 'a', '\n'] := by
  have e1 : output ucd15 false false (script [] [CGJ, '͸', 'a']) [136] = [CGJ, '͸', 'a', '\n'] := by decide +kernel
  have e2 : output ucd15 false false (script [[CGJ]] ['͸', 'a']) [136, 136] = [CGJ, CGJ, '͸', CGJ, 'a', '\n'] := by decide +kernel
  refine ⟨?_, ?_, e1, e2⟩
  · rw [← c47_reader_iff false false [] _ (Or.inl (by decide)) [136] (completes_of (by decide +kernel)), e1]
    intro h
    have := (h [CGJ] '͸' ['a', '\n'] rfl (by decide +kernel)).2
    exact absurd this (by decide)
  · rw [← c47_reader_iff false false [[CGJ]] _ (Or.inl (by decide)) [136, 136] (completes_of (by decide +kernel)), e2]
    intro a u b e hu
    have := isolated_of_isoOk (U := ucd15) (prev := none) (s := [CGJ, CGJ, '͸', CGJ, 'a', '\n']) (by
      refine ⟨Or.inl (by decide +kernel), Or.inl (by decide +kernel), Or.inr ⟨rfl, rfl⟩, Or.inl (by decide +kernel), Or.inl (by decide +kernel),
        Or.inl (by decide +kernel), trivial⟩) a u b e hu
    simpa using this

end Verif
