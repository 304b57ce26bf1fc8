import Verif.LayeredReader
import Verif.Props.CutAdds
import Verif.Props.Image

/-!
# Property C115: a reader on a reader
-/

namespace Verif
open Ucd Spec

theorem event_active {rs : List ReadResult} (h : ∀ x ∈ rs, ∃ n, x.ret = .ok n .active) :
    rs.map ReadResult.event = (rs.map (·.out)).map fun c => .data c .active := by
  rw [List.map_map]
  apply List.map_congr_left
  intro x hx
  obtain ⟨n, e⟩ := h x hx
  simp [ReadResult.event, e]

/-- Reading from a reader is reading from a source: on a source that does not fail or report pushes, the inner reader hands over its text in some
reads and then reports the end. -/
theorem inner_script (nel lsps : Bool) (src : List Event) (hs : Tame true src) :
    ∃ n chunks last, innerReads ucd15 nel lsps src n = script chunks last ∧ Completes ucd15 nel lsps src (List.replicate n 4096) := by
  obtain ⟨n0, h0⟩ := c15_reader_reaches_end nel lsps src (fun _ => 4096) (fun _ => by decide)
  have e0 : (List.range n0).map (fun _ => 4096) = List.replicate n0 4096 := by
    rw [List.map_const', List.length_range]
  rw [e0] at h0
  obtain ⟨n, h1, h2⟩ := exists_least (p := fun n => Completes ucd15 nel lsps src (List.replicate n 4096)) n0 h0
  obtain ⟨r, m, hr, hok⟩ := h1
  obtain ⟨rs, e⟩ := List.getLast?_eq_some_iff.1 hr
  have hnp : ∀ r ∈ readMany ucd15 (List.replicate n 4096) (.new nel lsps) src, r.ret ≠ .panic := by
    obtain ⟨_, _, _, _, j4⟩ := run_rel textLaws15 (List.replicate n 4096) (.new nel lsps) src [] [] (Rel.init (U := ucd15) nel lsps)
    exact j4
  have hall := readMany_tame (quiet := true) (U := ucd15) (len := 4096) (by decide) n (.new nel lsps) src hs (by simp [TextInput.new]) hnp
  rw [e] at hall
  have hlen : rs.length + 1 = n := by
    have := congrArg List.length e
    rw [readMany_length, List.length_replicate] at this
    simpa using this.symm
  have hact : ∀ x ∈ rs, ∃ n, x.ret = .ok n .active := by
    intro x hx
    obtain ⟨st, q1, q2⟩ := hall x (by simp [hx])
    cases st with
    | active => exact ⟨_, q1⟩
    | push => exact absurd rfl (q2 rfl)
    | end_ =>
      obtain ⟨a, b, rfl⟩ := List.append_of_mem hx
      refine absurd ⟨x, _, ?_, q1⟩ (h2 (a.length + 1) (by simp at hlen; omega))
      have e3 : List.replicate n 4096 = List.replicate (a.length + 1) 4096 ++ List.replicate (n - (a.length + 1)) 4096 := by
        rw [List.replicate_append_replicate]; congr 1; simp at hlen; omega
      rw [e3, readMany_append] at e
      have e4 : readMany ucd15 (List.replicate (a.length + 1) 4096) (.new nel lsps) src = a ++ [x] := by
        have hL : (a ++ x :: b) ++ [r] = (a ++ [x]) ++ (b ++ [r]) := by simp
        rw [hL] at e
        exact (List.append_inj e (by rw [readMany_length]; simp)).1
      rw [e4]; simp
  refine ⟨n, rs.map (·.out), r.out, ?_, r, m, hr, hok⟩
  rw [innerReads, e, List.map_append, event_active hact, script]
  simp [ReadResult.event, hok]

theorem inner_text {nel lsps : Bool} {src : List Event} {n : Nat} {chunks : List (List Char)} {last : List Char}
    (h : innerReads ucd15 nel lsps src n = script chunks last) :
    chunks.flatten ++ last = output ucd15 nel lsps src (List.replicate n 4096) ∧ Completes ucd15 nel lsps src (List.replicate n 4096) := by
  have key : ∀ (rs : List ReadResult) (chunks : List (List Char)) (last : List Char), rs.map ReadResult.event = script chunks last →
      chunks.flatten ++ last = delivered rs ∧ ∃ r n, rs.getLast? = some r ∧ r.ret = .ok n .end_ := by
    intro rs
    induction rs with
    | nil => intro chunks last h; simp [script] at h
    | cons r rs ih =>
      intro chunks last h
      have he : ∀ s st, r.event = .data s st → r.out = s ∧ ∃ n, r.ret = .ok n st := by
        intro s st h
        unfold ReadResult.event at h
        split at h
        · rename_i n st' h'
          injection h with h1 h2
          exact ⟨h1, n, by rw [h', h2]⟩
        · simp at h
      cases chunks with
      | nil =>
        simp only [List.map_cons, script, List.map_nil, List.nil_append, List.cons.injEq, List.map_eq_nil_iff] at h
        obtain ⟨h1, rfl⟩ := h
        obtain ⟨q1, n, q2⟩ := he _ _ h1
        exact ⟨by simp [delivered, q1, q2, Ret.isOk], r, n, rfl, q2⟩
      | cons c chunks =>
        simp only [List.map_cons, script, List.cons_append, List.cons.injEq] at h
        obtain ⟨h1, h2⟩ := h
        obtain ⟨q1, n, q2⟩ := he _ _ h1
        obtain ⟨k1, r', n', k2, k3⟩ := ih chunks last h2
        refine ⟨?_, r', n', ?_, k3⟩
        · rw [List.flatten_cons, List.append_assoc, k1]
          simp [delivered, q1, q2, Ret.isOk]
        · cases rs with
          | nil => simp at k2
          | cons x rs => simpa using k2
  exact key _ _ _ h

/-- C115: a reader on a reader (each in any mode) reaches the end, and delivers what the inner reader delivers, with nothing but U+34F inserted. -/
theorem c115_only_inserts (nel lsps nel' lsps' : Bool) (src : List Event) (hs : Tame true src) :
    ∃ n chunks last, innerReads ucd15 nel lsps src n = script chunks last ∧ Completes ucd15 nel lsps src (List.replicate n 4096) ∧
      ∀ lens, Completes ucd15 nel' lsps' (innerReads ucd15 nel lsps src n) lens →
        Adds (output ucd15 nel lsps src (List.replicate n 4096)) (output ucd15 nel' lsps' (innerReads ucd15 nel lsps src n) lens) := by
  obtain ⟨n, chunks, last, h1, h2⟩ := inner_script nel lsps src hs
  refine ⟨n, chunks, last, h1, h2, fun lens hc => ?_⟩
  have hne : ∀ e ∈ src, e ≠ .err := fun e he => (hs e he).1
  obtain ⟨⟨hv, -⟩, hnl⟩ := (c113_read_iff nel lsps _).1 ⟨src, _, hne, h2, rfl⟩
  rw [h1] at hc ⊢
  have := c110_valid_only_inserts nel' lsps' chunks last _ (inner_text h1).1 hv lens hc
  rwa [if_pos hnl] at this

/-- C115: it is the same text exactly if the inner reader does not end a read, except the last, between a U+34F before an unassigned scalar and the
next U+34F or newline. -/
theorem c115_same_iff (nel lsps nel' lsps' : Bool) (src : List Event) (hs : Tame true src) (n : Nat) (chunks : List (List Char)) (last : List Char)
    (h : innerReads ucd15 nel lsps src n = script chunks last) (lens : List Nat)
    (hc : Completes ucd15 nel' lsps' (innerReads ucd15 nel lsps src n) lens) :
    output ucd15 nel' lsps' (innerReads ucd15 nel lsps src n) lens = output ucd15 nel lsps src (List.replicate n 4096) ↔
      ∀ i, i < chunks.length → ¬ EndsInside ucd15 (output ucd15 nel lsps src (List.replicate n 4096)) (chunks.take (i + 1)).flatten := by
  obtain ⟨e, h2⟩ := inner_text h
  have hne : ∀ e ∈ src, e ≠ .err := fun e he => (hs e he).1
  obtain ⟨⟨hv, hp⟩, hnl⟩ := (c113_read_iff nel lsps _).1 ⟨src, _, hne, h2, rfl⟩
  rw [h] at hc ⊢
  rw [c107_unchanged_iff nel' lsps' chunks last _ e hv hnl lens hc]
  exact ⟨fun h => h.2, fun h => ⟨hp, h⟩⟩

/-- C115: so it is the same text if all scalars that come out are assigned. -/
theorem c115_assigned (nel lsps nel' lsps' : Bool) (src : List Event) (hs : Tame true src) (n : Nat) (chunks : List (List Char)) (last : List Char)
    (h : innerReads ucd15 nel lsps src n = script chunks last) (lens : List Nat)
    (hc : Completes ucd15 nel' lsps' (innerReads ucd15 nel lsps src n) lens)
    (ha : ∀ c ∈ output ucd15 nel lsps src (List.replicate n 4096), isAssigned ucd15 c = true) :
    output ucd15 nel' lsps' (innerReads ucd15 nel lsps src n) lens = output ucd15 nel lsps src (List.replicate n 4096) := by
  refine (c115_same_iff nel lsps nel' lsps' src hs n chunks last h lens hc).2 ?_
  rintro i - ⟨a, w, u, r, -, e, hu, -⟩
  rw [ha u (by rw [e]; simp)] at hu
  simp at hu

/-- The hypotheses hold for a source that is not normalized. -/
example : Tame true (script [['e']] ['́', '\r']) ∧ innerReads ucd15 true false (script [['e']] ['́', '\r']) 2 = script [[]] ['é', '\n'] ∧
    Completes ucd15 false false (innerReads ucd15 true false (script [['e']] ['́', '\r']) 2) [136, 136] := by
  refine ⟨?_, by decide +kernel, completes_of (by decide +kernel)⟩
  intro e he
  simp [script] at he
  rcases he with rfl | rfl <;> simp

/-- It can happen: here the inner reader fills its buffer just after a U+34F. -/
def brimful : List Char := List.replicate 1022 '😀' ++ ['a', 'a', 'a', '͸', '\n']

set_option maxRecDepth 1000000 in
theorem brimful_reads : innerReads ucd15 false false (script [] brimful) 3 =
    script [List.replicate 1022 '😀' ++ ['a', 'a', 'a', '͏'], ['͸', '͏', '\n']] [] := by decide +kernel

theorem brimful_inside (x : List Char) : EndsInside ucd15 ([x ++ ['a', 'a', 'a', '͏'], ['͸', '͏', '\n']].flatten ++ [])
    ([x ++ ['a', 'a', 'a', '͏'], ['͸', '͏', '\n']].take (0 + 1)).flatten :=
  ⟨x ++ ['a', 'a', 'a'], [], '͸', ['͏', '\n'], by simp [CGJ], by simp [CGJ], by decide +kernel, by simp⟩

/-- C115: that two readers are as one is not true in general. -/
theorem c115_refuted_cut (lens : List Nat) (hc : Completes ucd15 false false (innerReads ucd15 false false (script [] brimful) 3) lens) :
    output ucd15 false false (innerReads ucd15 false false (script [] brimful) 3) lens ≠
      output ucd15 false false (script [] brimful) (List.replicate 3 4096) := by
  have hs : Tame true (script [] brimful) := by
    intro e he
    simp [script] at he
    subst he
    simp
  intro h
  refine (c115_same_iff false false false false _ hs 3 _ _ brimful_reads lens hc).1 h 0 (Nat.zero_lt_succ _) ?_
  rw [← (inner_text brimful_reads).1]
  exact brimful_inside _

end Verif
