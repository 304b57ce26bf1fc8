import Verif.Equivalence
import Verif.DocEscape
import Verif.LossyWhole

/-!
# Fields

Strings made of fields with a delimiter between them, as the lossy conversion takes them.
-/

namespace Verif
open Ucd Spec

variable {U : Ucd}

/-- The text that the Sequence Table makes of a string without escape sequences, nothing put at its ends. -/
def inside (s : List Char) : List Char := (tokens finCan (single false false) s).flatMap Tok.out

/-- Scalars that can stand between fields: no composition goes across them. -/
structure Delim (U : Ucd) (d : Char) : Prop where
  ok : okChar d = true
  line : d ≠ '\n'
  joiner : d ≠ CGJ
  assigned : isAssigned U d = true
  inert : U.Inert d
  start : isStart U d = true
  stop : isEnd d = true

theorem Delim.single {d : Char} (h : Delim U d) : Single d := by
  have := ok_not_special h.ok
  exact ⟨h.line, by simp [this], by simp [this], by simp [this]⟩

theorem inside_cut {d : Char} (h : Delim U d) {a : List Char} (ha : ESC ∉ a) (b : List Char) : inside (a ++ d :: b) = inside a ++ d :: inside b := by
  unfold inside
  rw [tokens_cut h.single b _ a (Nat.le_refl _) ha, single_ok h.ok]
  simp [Tok.out]

/-- What is put before a text. -/
def lead0 (U : Ucd) (s : List Char) : List Char := if ∀ c ∈ s.head?, isStart U c = true then [] else [CGJ]
/-- What is put behind a text. -/
def tail0 (s : List Char) : List Char := if ∀ c ∈ s.getLast?, isEnd c = true then [] else [CGJ]

theorem guardStart_lead (s : List Char) : guardStart U s = lead0 U s ++ s := by
  cases s with
  | nil => simp [guardStart, lead0]
  | cons c s => by_cases h : isStart U c = true <;> simp [guardStart, lead0, h]

theorem guardEnd_tail (s : List Char) : guardEnd s = s ++ tail0 s := by
  rw [guardEnd_eq]
  unfold tail0 endGuard
  cases h : s.getLast? with
  | none => simp
  | some c => by_cases hc : isEnd c = true <;> simp [hc]

theorem tail_lead (s : List Char) : tail0 (lead0 U s ++ s) = tail0 s := by
  cases s with
  | nil => simp [lead0]
  | cons c s =>
    unfold tail0
    rw [List.getLast?_append, List.getLast?_cons]
    simp

/-- What is put at the ends stays there. -/
theorem normChain_ends (hU : TextLaws U) (s : List Char) : normChain U (guardEnd (guardStart U s)) = lead0 U s ++ normChain U s ++ tail0 s := by
  have hg : normChain U [CGJ] = [CGJ] := by
    have := normChain_of_assigned hU (s := [CGJ]) ?_ ?_
    · exact this
    · exact (nss_inert (x := []) hU.law hU.law.inert_cgj).2 ⟨nss_nil, nss_nil⟩
    · intro c hc; rw [List.mem_singleton.1 hc]; simp [isAssigned, hU.assigned_cgj]
  have hlead : ∀ t, normChain U (lead0 U t ++ t) = lead0 U t ++ normChain U t := by
    intro t
    unfold lead0
    split
    · rfl
    · rename_i h
      have := normChain_append_seg hU (x := []) (y := t) (b := CGJ) (by decide) (fun _ c hc => by
        cases e : isAssigned U c
        · exfalso
          apply h
          intro c' hc'
          obtain rfl : c = c' := Option.some.inj (hc.symm.trans hc')
          apply hU.start_unassigned
          simp only [isAssigned, Bool.or_eq_false_iff] at e
          exact e.1
        · rfl)
      rw [List.nil_append, hg] at this
      exact this
  rw [guardEnd_tail, guardStart_lead, tail_lead]
  rw [← hlead]
  by_cases h : ∀ c ∈ s.getLast?, isEnd c = true
  · rw [tail0, if_pos h, List.append_nil, List.append_nil]
  · rcases List.eq_nil_or_concat s with rfl | ⟨x, e, rfl⟩
    · simp at h
    · rw [List.concat_eq_append] at *
      rw [List.getLast?_concat] at h
      have he : isEnd e = false := by simpa using h
      have hne : e ≠ CGJ := by rintro rfl; exact absurd he (by decide)
      have ht : tail0 (x ++ [e]) = [CGJ] := by simp [tail0, he]
      have ha := isAssigned_of (hU.end_assigned e he)
      rw [ht, ← List.append_assoc, List.append_assoc _ [e] [CGJ]]
      show normChain U ((lead0 U (x ++ [e]) ++ x) ++ e :: [CGJ]) = _
      rw [normChain_split hU (hU.end_inert e he) ha hne, hg, normChain_split hU (hU.end_inert e he) ha hne, normChain_nil]
      simp

/-- The ends of a text of two fields are the ends of its fields. -/
theorem ends_cut {d : Char} (h : Delim U d) (A B : List Char) : lead0 U (A ++ d :: B) = lead0 U A ∧ tail0 (A ++ d :: B) = tail0 B := by
  constructor
  · cases A with
    | nil => simp [lead0, h.start]
    | cons a A => simp [lead0]
  · cases B with
    | nil => simp [tail0, h.stop]
    | cons b B => simp [tail0, List.getLast?_cons]

end Verif
