import Verif.LineCut
import Verif.Props.Lossless

/-!
# Lines are converted independently, however the content is cut (C73)
-/

namespace Verif
open Ucd Spec

theorem Ending.before {evs src : List Event} (he : ∀ e ∈ evs, ∃ s st, e = .data s st ∧ st ≠ .end_) (h : Ending src) : Ending (evs ++ src) := by
  obtain ⟨as, last, rfl, ha⟩ := h
  refine ⟨evs ++ as, last, by simp, fun e hm => ?_⟩
  rcases List.mem_append.1 hm with hm | hm
  · exact he e hm
  · exact ha e hm

theorem Ending.other {s s' : List Char} {st : Status} {more : List Event} (h : Ending (.data s st :: more)) : Ending (.data s' st :: more) := by
  obtain ⟨as, last, e, ha⟩ := h
  cases as with
  | nil =>
    simp only [List.nil_append, List.cons.injEq, Event.data.injEq] at e
    obtain ⟨⟨-, rfl⟩, rfl⟩ := e
    exact ⟨[], s', rfl, by simp⟩
  | cons a as =>
    simp only [List.cons_append, List.cons.injEq] at e
    obtain ⟨rfl, rfl⟩ := e
    obtain ⟨s1, st1, e1, e2⟩ := ha (.data s st) (by simp)
    simp only [Event.data.injEq] at e1
    refine ⟨.data s' st :: as, last, rfl, fun e hm => ?_⟩
    rcases List.mem_cons.1 hm with rfl | hm
    · exact ⟨s', st, rfl, by rw [e1.2]; exact e2⟩
    · exact ha e (by simp [hm])

/-- C73 for every source, with pushes too, however the lines are cut into reads: `x` is the part of a line that comes in the read which
ends it, `y` and `more` are what follows.  What is delivered is what the source delivers that ends with the line, and then what the source
delivers that begins with the newline at its end. -/
theorem c73_lines_cut (nel lsps : Bool) (evs : List Event) (x y : List Char) (st : Status) (more : List Event)
    (hev : ∀ e ∈ evs, ∃ s st, e = .data s st ∧ st ≠ .end_) (hm : Ending (.data (x ++ '\n' :: y) st :: more))
    (he : ESC ∉ contents evs) (hx : ESC ∉ x) (lens lens1 lens2 : List Nat)
    (h : Completes ucd15 nel lsps (evs ++ .data (x ++ '\n' :: y) st :: more) lens)
    (h1 : Completes ucd15 nel lsps (evs ++ [.data (x ++ ['\n']) .end_]) lens1)
    (h2 : Completes ucd15 nel lsps (.data ('\n' :: y) st :: more) lens2) :
    ∃ Y, output ucd15 nel lsps (evs ++ .data (x ++ '\n' :: y) st :: more) lens =
        output ucd15 nel lsps (evs ++ [.data (x ++ ['\n']) .end_]) lens1 ++ Y ∧
      output ucd15 nel lsps (.data ('\n' :: y) st :: more) lens2 = '\n' :: Y := by
  obtain ⟨r, n, hr, hok⟩ := h
  obtain ⟨r1, n1, hr1, hok1⟩ := h1
  obtain ⟨r2, n2, hr2, hok2⟩ := h2
  have e := (run_exact textLaws15 (hm.before hev) hr hok).1
  have e1 := (run_exact textLaws15 (Ending.before hev (src := [.data (x ++ ['\n']) .end_]) ⟨[], _, rfl, by simp⟩) hr1 hok1).1
  have e2 := (run_exact textLaws15 (hm.other (s' := '\n' :: y)) hr2 hok2).1
  obtain ⟨P, w, g1, g⟩ := segments_newline (U := ucd15) (nel := nel) (lsps := lsps) he hx
  obtain ⟨v, W, g2, g3⟩ := g y st more
  have hs := fun x y => normChain_split textLaws15 (inert_lf textLaws15) (nl_assigned textLaws15) (by decide) x y
  unfold output
  rw [e, e1, e2, g1, g2, g3]
  refine ⟨normChain ucd15 v ++ W.flatMap (normChain ucd15), ?_, ?_⟩
  · simp only [List.flatMap_append, List.flatMap_cons, List.flatMap_nil, List.append_nil]
    rw [hs w v, hs w []]
    simp [normChain_nil]
  · simp only [List.flatMap_append, List.flatMap_cons, List.flatMap_nil, List.append_nil]
    have := hs [] v
    rw [List.nil_append] at this
    rw [this]
    simp [normChain_nil]

example : output ucd15 false false [.data ['a', '͸'] .active, .data ['͏', '͸', '\r'] .push, .data ['\n', 'e'] .active, .data ['́'] .end_]
      [136, 136, 136, 136, 136] =
    output ucd15 false false [.data ['a', '͸'] .active, .data ['͏', '͸', '\r'] .push, .data ['\n'] .end_] [136, 136, 136] ++ ['é', '\n'] ∧
    output ucd15 false false [.data ['\n', 'e'] .active, .data ['́'] .end_] [136, 136] = ['\n', 'é', '\n'] := by decide +kernel

example : Completes ucd15 false false [.data ['a', '\r'] .active, .data ['\n', 'e'] .active, .data ['́'] .end_] [136, 136, 136] ∧
    Completes ucd15 false false [.data ['a', '\r'] .active, .data ['\n'] .end_] [136, 136] ∧
    Completes ucd15 false false [.data ['\n', 'e'] .active, .data ['́'] .end_] [136, 136] ∧
    Ending [.data ([] ++ '\n' :: ['e']) .active, .data ['́'] .end_] :=
  ⟨completes_of (by decide +kernel), completes_of (by decide +kernel), completes_of (by decide +kernel),
    [.data ['\n', 'e'] .active], ['́'], rfl, fun e he => ⟨_, _, List.mem_singleton.1 he, by simp⟩⟩

end Verif
