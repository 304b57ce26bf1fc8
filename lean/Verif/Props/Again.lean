import Verif.Again
import Verif.Props.Reader
import Verif.Props.Push

/-!
# C134: reading on after the end
-/

namespace Verif
open Ucd Spec

/-- Documents: each is delivered in pieces, the last of them with the end. -/
def Spec.Documents (ds : List (List Event)) : Prop := ∀ d ∈ ds, ∃ evs last, d = evs ++ [.data last .end_] ∧ ∀ e ∈ evs, ∃ s st, e = .data s st ∧ st ≠ .end_

/-- C134: whatever has been read, when the end has been reported all later calls, on whatever comes then, return what those of a new
reader return whose source first brings nothing. -/
theorem c134_again (nel lsps : Bool) (src : List Event) (lens : List Nat) (r : ReadResult) (n : Nat)
    (hr : (readMany ucd15 lens (.new nel lsps) src).getLast? = some r) (hok : r.ret = .ok n .end_) (rest : List Event) (lens' : List Nat) :
    (readMany ucd15 (136 :: lens') (.new nel lsps) (.data [] .active :: rest)) =
      { ret := .ok 0 .active, out := [], input := r.input, src := rest } :: readMany ucd15 lens' r.input rest := by
  rw [end_state textLaws15 hr hok, readMany, read_nothing (U := ucd15) (Nat.le_refl 136)]

/-- C134: so the text is that of what came before the end and then that of what comes after it. -/
theorem c134_text (nel lsps : Bool) (src : List Event) (lens : List Nat) (r : ReadResult) (n : Nat)
    (hr : (readMany ucd15 lens (.new nel lsps) src).getLast? = some r) (hok : r.ret = .ok n .end_) (lens' : List Nat) :
    output ucd15 nel lsps src (lens ++ lens') =
      output ucd15 nel lsps src lens ++ output ucd15 nel lsps (.data [] .active :: r.src) (136 :: lens') := by
  have hf : finalState (.new nel lsps) src (readMany ucd15 lens (.new nel lsps) src) = (r.input, r.src) := by unfold finalState; rw [hr]
  unfold output
  rw [c134_again nel lsps src lens r n hr hok, readMany_append, hf]
  simp [delivered, Ret.isOk]

theorem documents_cons {d : List Event} (h : Ending d) : Ending (.data [] .active :: d) := by
  obtain ⟨evs, last, rfl, he⟩ := h
  refine ⟨.data [] .active :: evs, last, rfl, fun e hm => ?_⟩
  rcases List.mem_cons.1 hm with rfl | hm
  · exact ⟨[], .active, rfl, by simp⟩
  · exact he e hm

theorem text_all (nel lsps : Bool) : ∀ (ds : List (List Event)), Spec.Documents ds → ∀ d, Spec.Documents [d] →
    segments ucd15 nel lsps (d ++ ds.flatten) = segments ucd15 nel lsps d ++ ds.flatMap fun x => segments ucd15 nel lsps (.data [] .active :: x)
  | [], _, d, _ => by simp
  | x :: ds, h, d, hd => by
    have hx : Spec.Documents [x] := fun y hy => h y (by simp at hy; simp [hy])
    have hx' : Spec.Documents [.data [] .active :: x] := by
      intro y hy
      simp only [List.mem_singleton] at hy
      subst hy
      exact documents_cons (hx x (by simp))
    rw [segments_then textLaws15 nel lsps (hd d (by simp)), List.flatten_cons, ← List.cons_append,
      text_all nel lsps ds (fun y hy => h y (by simp [hy])) _ hx', List.flatMap_cons]

/-- C134: a source of several documents, each followed by an end, is delivered as the documents one after the other, whether or not
the ends between them are seen. -/
theorem c134_documents (nel lsps : Bool) (d : List Event) (ds : List (List Event)) (hd : Spec.Documents (d :: ds)) (lens : List Nat) (r : ReadResult)
    (n : Nat) (hr : (readMany ucd15 lens (.new nel lsps) (d ++ ds.flatten)).getLast? = some r) (hok : r.ret = .ok n .end_) (hs : r.src = [])
    (one : List Event → List Nat) (h0 : Completes ucd15 nel lsps d (one d))
    (h1 : ∀ x ∈ ds, Completes ucd15 nel lsps (.data [] .active :: x) (one x)) :
    output ucd15 nel lsps (d ++ ds.flatten) lens =
      output ucd15 nel lsps d (one d) ++ ds.flatMap fun x => output ucd15 nel lsps (.data [] .active :: x) (one x) := by
  have hd0 : Spec.Documents [d] := fun y hy => hd y (by simp at hy; simp [hy])
  have hds : Spec.Documents ds := fun y hy => hd y (by simp [hy])
  have hend : ∃ evs s, d ++ ds.flatten = evs ++ [.data s .end_] := by
    rcases List.eq_nil_or_concat ds with rfl | ⟨ds', x, rfl⟩
    · obtain ⟨evs, last, rfl, -⟩ := hd0 d (by simp)
      exact ⟨evs, last, by simp⟩
    · rw [List.concat_eq_append] at hds ⊢
      obtain ⟨evs, last, rfl, -⟩ := hds x (by simp)
      exact ⟨d ++ ds'.flatten ++ evs, last, by simp⟩
  have herr : ∀ e ∈ d ++ ds.flatten, e ≠ .err := by
    have key : ∀ y ∈ d :: ds, ∀ e ∈ y, e ≠ .err := fun y hy => Ending.no_err (hd y hy)
    intro e he
    rcases List.mem_append.1 he with he | he
    · exact key d (by simp) e he
    · obtain ⟨y, hy, he⟩ := List.mem_flatten.1 he
      exact key y (by simp [hy]) e he
  have hone : ∀ (x : List Event), Spec.Documents [x] → ∀ l, Completes ucd15 nel lsps x l →
      output ucd15 nel lsps x l = (segments ucd15 nel lsps x).flatMap (normChain ucd15) := by
    rintro x hx l ⟨r, n, a1, a2⟩
    exact (run_exact textLaws15 (hx x (by simp)) a1 a2).1
  rw [hone d hd0 _ h0, output, run_whole textLaws15 hend herr hr hok hs, text_all nel lsps ds hds d hd0, List.flatMap_append, List.flatMap_assoc]
  congr 1
  have : ∀ x ∈ ds, (segments ucd15 nel lsps (.data [] .active :: x)).flatMap (normChain ucd15) = output ucd15 nel lsps (.data [] .active :: x) (one x) := by
    intro x hx
    refine (hone _ ?_ _ (h1 x hx)).symm
    intro y hy
    simp only [List.mem_singleton] at hy
    subst hy
    exact documents_cons (hds x hx)
  rw [List.flatMap_def, List.flatMap_def, List.map_congr_left this]
/-- C134: all of it will be read, with the end reported behind the last document. -/
theorem c134_reached (nel lsps : Bool) (src : List Event) (lens : Nat → Nat) (hl : ∀ i, normalizationBufferSize ≤ lens i) :
    ∃ n r k, (readMany ucd15 ((List.range n).map lens) (.new nel lsps) src).getLast? = some r ∧ r.ret = .ok k .end_ ∧ r.src = [] := by
  obtain ⟨n, r, h1, ⟨k, h2⟩, h3⟩ := reach_whole textLaws15 (ctl_new (U := ucd15) nel lsps) lens hl _ (.new nel lsps) src [] [] 0
    (Rel.init nel lsps) (Nat.le_refl _)
  exact ⟨n, r, k, by rw [List.range_eq_range']; exact h1, h2, h3⟩

/-- C134: if a later document does not begin with U+FEFF, it is delivered as it would be alone. -/
theorem c134_alone (nel lsps : Bool) (d : List Event) (hd : Spec.Documents [d]) (hb : ∀ s st e, d = .data s st :: e → s.head? ≠ some BOM)
    (lens lens' : List Nat) (h : Completes ucd15 nel lsps (.data [] .active :: d) lens) (h' : Completes ucd15 nel lsps d lens') :
    output ucd15 nel lsps (.data [] .active :: d) lens = output ucd15 nel lsps d lens' := by
  obtain ⟨r, n, h1, h2⟩ := h
  obtain ⟨r', n', h1', h2'⟩ := h'
  have hd' := hd d (by simp)
  rw [output, output, (run_exact textLaws15 (documents_cons hd') h1 h2).1, (run_exact textLaws15 hd' h1' h2').1]
  have : segments ucd15 nel lsps (.data [] .active :: d) = segments ucd15 nel lsps d := by
    cases d with
    | nil => obtain ⟨evs, last, e, -⟩ := hd'; simp at e
    | cons e d =>
      cases e with
      | err => exact absurd rfl (Ending.no_err hd' .err (by simp))
      | data s st =>
        have hs := hb s st d rfl
        have hp : processRaw ucd15 (resumed nel lsps).ctl s = processRaw ucd15 (TextInput.new nel lsps).ctl s := by
          unfold processRaw
          have : ((TextInput.new nel lsps).ctl.atStart && s.head? == some BOM) = false := by simp [hs]
          rw [this]
          rfl
        have ha : absorb ucd15 ((resumed nel lsps).ctl, []) s st = absorb ucd15 ((TextInput.new nel lsps).ctl, []) s st := by
          unfold absorb
          simp only
          rw [hp]
        show (segAll ucd15 (absorb ucd15 ((resumed nel lsps).ctl, []) s st) (cut _ (_ ++ (absorb ucd15 ((resumed nel lsps).ctl, []) s st).2.drop 0)) d).1 = _
        rw [ha]
        rfl
  rw [this]

/-- C134: a byte order mark there is U+2060 in the text. -/
theorem c134_refuted_bom : output ucd15 false false [.data [BOM, 'a'] .end_, .data [BOM, 'b'] .end_] [136, 136] = ['a', '\n', WJ, 'b', '\n'] := by
  decide +kernel

/-- C134: the end of a document is reported by the read that takes it exactly if that leaves room for a scalar. -/
theorem c134_reported_iff (t : TextInput) (s : List Char) (rest : List Event) (len n : Nat) (st : Status)
    (htaken : (readWithStatus ucd15 len t (.data s .end_ :: rest)).src = rest)
    (hok : (readWithStatus ucd15 len t (.data s .end_ :: rest)).ret = .ok n st) : st = .end_ ↔ n + 4 ≤ len := by
  rw [c26_reported_iff t s .end_ rest len n st htaken hok]
  split <;> simp [*]

set_option maxRecDepth 100000 in
/-- C134 fails: otherwise it is never reported, and the next read waits for what comes after the end. -/
theorem c134_refuted_missed :
    (readMany ucd15 [136, 136, 136] (.new false false) [.data (List.replicate 132 'a') .end_, .data ['b', '\n'] .active]).map (fun r => (r.ret, r.out.length)) =
      [(.ok 133 .active, 133), (.ok 0 .active, 0), (.ok 2 .active, 2)] := by
  decide +kernel

example : ∃ r, (readMany ucd15 [136] (.new false false) [.data ['a'] .end_, .data ['b'] .end_]).getLast? = some r ∧ r.ret = .ok 2 .end_ ∧
    (readMany ucd15 [136] r.input r.src).map (fun r => (r.ret, r.out)) = [(.ok 2 .end_, ['b', '\n'])] := ⟨_, rfl, by decide +kernel, by decide +kernel⟩

end Verif
