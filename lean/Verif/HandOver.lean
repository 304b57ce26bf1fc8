import Verif.Duplexer
import Verif.IntoInner
import Verif.CutAdds
import Verif.CountTheory
import Verif.HeadTheory

/-!
# Taking the stream of a duplexer back, and reading on
-/

namespace Verif
open Ucd Spec
variable {U : Ucd}

/-- What becomes of the inner stream of a duplexer: what has been written to it and what is still to be read from it. -/
structure DTaken where
  /-- the stream that is returned -/
  back : Option (Sink × List Event)
  /-- the stream that is dropped with the duplexer -/
  lost : Option (Sink × List Event)
  /-- dropping the duplexer panics -/
  panics : Bool
  deriving DecidableEq, Repr

/-- `TextDuplexer::close_into_inner` (`src/text_duplexer.rs:155-158`, `src/text_output.rs:160-167`) with the drop of the rest
(`565-573`).  The input half is dropped as it is; only `TextOutput` has a `Drop`. -/
def Duplexer.takeClosed (d : Duplexer) : DTaken :=
  match checkNl d.output with
  | (w, .ok) => { back := some (w.sink, d.src), lost := none, panics := dropPanics w }
  | (w, _) => { back := none, lost := some (w.sink, d.src), panics := dropPanics w }

/-- `TextDuplexer::abandon_into_inner` (`src/text_duplexer.rs:161-164`, `src/text_output.rs:169-177`) with the drop of the rest.  Unlike
`abandon` it does not go to the input half. -/
def Duplexer.takeAbandoned (d : Duplexer) : DTaken :=
  { back := some (d.output.reset.sink, d.src), lost := none, panics := dropPanics d.output.reset }

/-! ## Reading on -/

theorem guardEnd_cons {c : Char} {x : List Char} (hx : x ≠ []) : guardEnd (c :: x) = c :: guardEnd x := by
  cases x with
  | nil => exact absurd rfl hx
  | cons d x =>
    have : (c :: d :: x).getLast? = (d :: x).getLast? := rfl
    unfold guardEnd
    rw [this]
    split
    · split
      · rfl
      · rfl
    · rfl

/-- Behind a newline the text is that of a new reader without its guard at the start. -/
theorem translate_behind (hU : TextLaws U) (nel lsps : Bool) (b : List Char) :
    ∃ W, translate U nel lsps ('\n' :: b) = '\n' :: W ∧ translate U nel lsps b = guardStart U W := by
  have hnl : isStart U '\n' = true := hU.start_ascii '\n' (by decide)
  have hlast : ((Tok.nl :: tokens finCan (single nel lsps) b) = [] ∨ (Tok.nl :: tokens finCan (single nel lsps) b).getLast? = some .nl) ↔
      (tokens finCan (single nel lsps) b = [] ∨ (tokens finCan (single nel lsps) b).getLast? = some .nl) := by
    cases tokens finCan (single nel lsps) b with
    | nil => simp
    | cons t ts => simp [List.getLast?_cons_cons]
  unfold translate
  simp only
  rw [tokens_nl, List.flatMap_cons]
  simp only [hlast]
  generalize (tokens finCan (single nel lsps) b).flatMap Tok.out = X
  have h1 : guardEnd (guardStart U (Tok.out .nl ++ X)) = '\n' :: guardEnd X := by
    have : Tok.out .nl ++ X = '\n' :: X := rfl
    rw [this]
    simp only [guardStart, hnl, if_true]
    cases X with
    | nil => decide
    | cons c X => exact guardEnd_cons (by simp)
  have h2 : ∀ y : List Char, (X = [] → ∀ c ∈ y.head?, isStart U c = true) →
      guardEnd (guardStart U X) ++ y = guardStart U (guardEnd X ++ y) := by
    intro y hy
    cases X with
    | nil =>
      cases y with
      | nil => rfl
      | cons c y =>
        have := hy rfl c (by simp)
        show c :: y = guardStart U (c :: y)
        simp [guardStart, this]
    | cons c X =>
      have hg : ∃ Z, guardEnd (c :: X) = c :: Z := by
        unfold guardEnd
        split
        · split <;> exact ⟨_, rfl⟩
        · exact ⟨_, rfl⟩
      obtain ⟨Z, hZ⟩ := hg
      by_cases hc : isStart U c = true
      · simp [guardStart, hc, hZ]
      · simp only [guardStart, hc]
        rw [if_neg (by simp), guardEnd_cons (by simp), hZ]
        simp [hc]
  rw [h1]
  by_cases hq : tokens finCan (single nel lsps) b = [] ∨ (tokens finCan (single nel lsps) b).getLast? = some .nl
  · rw [if_pos hq, if_pos hq]
    refine ⟨_, rfl, ?_⟩
    have := h2 [] (by simp)
    simpa using this
  · rw [if_neg hq, if_neg hq]
    exact ⟨_, rfl, h2 ['\n'] (by intro _ c hc; simp at hc; rw [← hc]; exact hnl)⟩

theorem normChain_guardStart (hU : TextLaws U) (hS : StartLaws U) (W : List Char) : normChain U (guardStart U W) = guardStart U (normChain U W) := by
  cases W with
  | nil => simp [guardStart, normChain_nil]
  | cons c W =>
    cases hx : normChain U (c :: W) with
    | nil => exact absurd hx (normChain_ne_nil hU (by simp))
    | cons d Y =>
      by_cases hc : isStart U c = true
      · have := head_normChain hU (s := c :: W) (by intro e he; simp at he; rw [← he]; exact hc) d (by rw [hx]; rfl)
        simp [guardStart, hc, this, hx]
      · have hd : ¬ isStart U d = true := by
          intro hd
          exact hc (head_normChain_conv hU hS (s := c :: W) (by intro e he; rw [hx] at he; simp at he; rw [← he]; exact hd) c (by simp))
        simp only [guardStart, hc, hd]
        rw [if_neg (by simp), if_neg (by simp)]
        have ha : isAssigned U c = true := by
          cases h : isAssigned U c with
          | true => rfl
          | false =>
            simp only [isAssigned, Bool.or_eq_false_iff] at h
            exact absurd (hU.start_unassigned c h.1) hc
        have := normChain_fine hU [] (b := CGJ) (by decide) (z := c :: W) (fun _ => by intro e he; simp at he; rw [← he]; exact ha)
        rw [List.nil_append, List.nil_append] at this
        rw [this, normChain_cgj hU, hx]; rfl

end Verif
