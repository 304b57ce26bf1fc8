import Verif.Buffered

/-!
# A writer behind the standard library's `LineWriter`
-/

namespace Verif
open Ucd

variable {U : Ucd}

/-- The bytes up to the last newline, with it, and those after it (`memrchr` and `split_at`, standard library). -/
def cutNl : Bytes → Bytes × Bytes
  | [] => ([], [])
  | c :: r =>
    if (cutNl r).1 ≠ [] then (c :: (cutNl r).1, (cutNl r).2)
    else if c = 10 then ([c], r)
    else ([], c :: r)

/-- `LineWriter::write_all` (standard library, `LineWriterShim::write_all`), where `LineWriter<W>` is a `BufWriter<W>`: what has a newline is
written up to the last one, after what is in the buffer, and the rest is put into the buffer. -/
def BufW.lineWrite (U : Ucd) (x : BufW) (b : Bytes) : Option (BufW × Out) :=
  if 10 ∈ b then
    match if x.buf = [] then (Verif.writeAll U x.w (cutNl b).1).map fun r => ({ x with w := r.1 }, r.2)
      else match x.writeAll U (cutNl b).1 with
        | some (x, .ok) => x.flushBuf U
        | r => r with
    | some (x, .ok) => x.writeAll U (cutNl b).2
    | r => r
  else
    match if x.buf.getLast? = some 10 then x.flushBuf U else some (x, .ok) with
    | some (x, .ok) => x.writeAll U b
    | r => r

/-- Writes one after the other, and a flush at the end, up to the first failure; the inner writer and the result. -/
def BufW.lineSession (U : Ucd) (x : BufW) : List Bytes → Option (Writer × Out)
  | [] => (x.flush U).map fun r => (r.1.w, r.2)
  | b :: bs =>
    match x.lineWrite U b with
    | some (x, .ok) => BufW.lineSession U x bs
    | r => r.map fun r => (r.1.w, r.2)

theorem cutNl_spec (b : Bytes) : (cutNl b).1 ++ (cutNl b).2 = b ∧ 10 ∉ (cutNl b).2 ∧ ((cutNl b).1 = [] ∨ (cutNl b).1.getLast? = some 10) ∧
    ((cutNl b).1 = [] ↔ 10 ∉ b) := by
  induction b with
  | nil => simp [cutNl]
  | cons c r ih =>
    obtain ⟨h1, h2, h3, h4⟩ := ih
    rw [cutNl]
    by_cases hr : (cutNl r).1 = []
    · have hn := h4.1 hr
      rw [if_neg (by simp [hr])]
      by_cases hc : c = 10
      · subst hc; rw [if_pos rfl]; simp [hn]
      · rw [if_neg hc]
        have hc' : ¬ (10 : UInt8) = c := fun h => hc h.symm
        simp [hn, hc']
    · rw [if_pos hr]
      have hm : 10 ∈ r := Classical.byContradiction fun h => hr (h4.2 h)
      refine ⟨by simp [h1], h2, Or.inr ?_, by simp [hm]⟩
      have := h3.resolve_left hr
      rw [List.getLast?_cons, this]; rfl

/-- What follows the last newline of bytes written before and after. -/
theorem cutNl_app {a b : Bytes} : (cutNl (a ++ b)).2 = if 10 ∈ b then (cutNl b).2 else (cutNl a).2 ++ b := by
  induction a with
  | nil =>
    split
    · rfl
    · rename_i h
      obtain ⟨h1, -, -, h4⟩ := cutNl_spec b
      rw [h4.2 h] at h1
      simpa [cutNl] using h1
  | cons c a ih =>
    rw [List.cons_append, cutNl]
    by_cases hb : 10 ∈ b
    · rw [if_pos hb] at ih ⊢
      have : (cutNl (a ++ b)).1 ≠ [] := fun h => (cutNl_spec (a ++ b)).2.2.2.1 h (by simp [hb])
      rw [if_pos this, ih]
    · rw [if_neg hb] at ih ⊢
      rw [cutNl]
      by_cases ha : 10 ∈ a
      · have e1 : (cutNl (a ++ b)).1 ≠ [] := fun h => (cutNl_spec (a ++ b)).2.2.2.1 h (by simp [ha])
        have e2 : (cutNl a).1 ≠ [] := fun h => (cutNl_spec a).2.2.2.1 h ha
        rw [if_pos e1, if_pos e2, ih]
      · have e1 : (cutNl (a ++ b)).1 = [] := (cutNl_spec (a ++ b)).2.2.2.2 (by simp [ha, hb])
        have e2 : (cutNl a).1 = [] := (cutNl_spec a).2.2.2.2 ha
        simp only [e1, e2, ne_eq, not_true_eq_false, if_false]
        split <;> simp

/-- Each write fits into the buffer together with the part of a line that is before it. -/
def Fits (cap : Nat) (p : Bytes) (bs : List Bytes) : Prop := ∀ a b c, bs = a ++ b :: c → (cutNl (p ++ a.flatten)).2.length + b.length < cap

/-- Then the session is writing to the writer directly, in pieces that end where lines end. -/
theorem line_session (bs : List Bytes) : ∀ x : BufW, 10 ∉ x.buf → Fits x.cap x.buf bs →
    ∃ (gs : List Bytes) (last : Bytes), gs.flatten ++ last = x.buf ++ bs.flatten ∧ (∀ g ∈ gs, g.getLast? = some 10) ∧ 10 ∉ last ∧
      x.lineSession U bs = direct U x.w (gs ++ [last]) := by
  induction bs with
  | nil => intro x hx _; exact ⟨[], x.buf, by simp, by simp, hx, by simp [BufW.lineSession, flush_eq]⟩
  | cons b bs ih =>
    intro x hx hf
    have hcut : (cutNl x.buf).2 = x.buf := by
      obtain ⟨h1, -, -, h4⟩ := cutNl_spec x.buf
      rw [h4.2 hx] at h1
      exact h1
    have hb : x.buf.length + b.length < x.cap := by have := hf [] b bs rfl; simpa [hcut] using this
    rw [BufW.lineSession]
    unfold BufW.lineWrite
    by_cases hm : 10 ∈ b
    · obtain ⟨c1, c2, c3, c4⟩ := cutNl_spec b
      have hne : (cutNl b).1 ≠ [] := fun h => c4.1 h hm
      have hlen : (cutNl b).1.length + (cutNl b).2.length = b.length := by rw [← List.length_append, c1]
      have hfirst : (if x.buf = [] then (Verif.writeAll U x.w (cutNl b).1).map fun r => ({ x with w := r.1 }, r.2)
          else match x.writeAll U (cutNl b).1 with
            | some (x, .ok) => x.flushBuf U
            | r => r) = (Verif.writeAll U x.w (x.buf ++ (cutNl b).1)).map fun r => ({ x with buf := [], w := r.1 }, r.2) := by
        obtain ⟨cap, buf, w⟩ := x
        simp only at *
        split
        · rename_i h; subst h; rfl
        · rw [BufW.writeAll, if_pos (by simp only; omega)]
          rfl
      rw [if_pos hm, hfirst]
      have hlast : (x.buf ++ (cutNl b).1).getLast? = some 10 := by rw [List.getLast?_append, c3.resolve_left hne]; rfl
      cases h : Verif.writeAll U x.w (x.buf ++ (cutNl b).1) with
      | none =>
        obtain ⟨d1, d2, d3, -⟩ := cutNl_spec ((cutNl b).2 ++ bs.flatten)
        refine ⟨(x.buf ++ (cutNl b).1) :: (if (cutNl ((cutNl b).2 ++ bs.flatten)).1 = [] then [] else [(cutNl ((cutNl b).2 ++ bs.flatten)).1]),
          (cutNl ((cutNl b).2 ++ bs.flatten)).2, ?_, ?_, d2, by simp [direct_cons, h]⟩
        · have : (if (cutNl ((cutNl b).2 ++ bs.flatten)).1 = [] then [] else [(cutNl ((cutNl b).2 ++ bs.flatten)).1]).flatten =
              (cutNl ((cutNl b).2 ++ bs.flatten)).1 := by split <;> simp_all
          rw [List.flatten_cons, this, List.append_assoc, d1, List.append_assoc, ← List.append_assoc _ _ bs.flatten, c1]; rfl
        · intro g hg
          rcases List.mem_cons.1 hg with rfl | hg
          · exact hlast
          · split at hg
            · simp at hg
            · rename_i h0; simp only [List.mem_singleton] at hg; subst hg; exact d3.resolve_left h0
      | some r =>
        obtain ⟨w', o⟩ := r
        by_cases ho : o = .ok
        · subst ho
          simp only [Option.map_some]
          rw [BufW.writeAll, if_pos (by simp only [List.length_nil]; omega)]
          simp only [List.nil_append]
          obtain ⟨gs, last, e1, e2, e3, e4⟩ := ih { x with buf := (cutNl b).2, w := w' } c2 (by
            intro a b' c hbs
            have := hf (b :: a) b' c (by rw [hbs]; rfl)
            rw [List.flatten_cons] at this
            have ee : (cutNl (x.buf ++ (b ++ a.flatten))).2 = (cutNl ((cutNl b).2 ++ a.flatten)).2 := by
              rw [cutNl_app, cutNl_app]
              by_cases h' : 10 ∈ a.flatten
              · rw [if_pos (by simp [h']), if_pos h', cutNl_app, if_pos h']
              · rw [if_pos (by simp [hm]), if_neg h', cutNl_app, if_neg h']
                congr 1
                obtain ⟨f1, -, -, f4⟩ := cutNl_spec (cutNl b).2
                rw [f4.2 c2] at f1
                exact f1.symm
            rw [ee] at this
            exact this)
          refine ⟨(x.buf ++ (cutNl b).1) :: gs, last, ?_, ?_, e3, ?_⟩
          · simp only at e1
            rw [List.flatten_cons, List.append_assoc, e1, List.append_assoc, ← List.append_assoc _ _ bs.flatten, c1]; rfl
          · intro g hg
            rcases List.mem_cons.1 hg with rfl | hg
            · exact hlast
            · exact e2 g hg
          · rw [e4, List.cons_append, direct_cons, h]
        · obtain ⟨d1, d2, d3, -⟩ := cutNl_spec ((cutNl b).2 ++ bs.flatten)
          refine ⟨(x.buf ++ (cutNl b).1) :: (if (cutNl ((cutNl b).2 ++ bs.flatten)).1 = [] then [] else [(cutNl ((cutNl b).2 ++ bs.flatten)).1]),
            (cutNl ((cutNl b).2 ++ bs.flatten)).2, ?_, ?_, d2, by cases o <;> simp_all [direct_cons]⟩
          · have : (if (cutNl ((cutNl b).2 ++ bs.flatten)).1 = [] then [] else [(cutNl ((cutNl b).2 ++ bs.flatten)).1]).flatten =
                (cutNl ((cutNl b).2 ++ bs.flatten)).1 := by split <;> simp_all
            rw [List.flatten_cons, this, List.append_assoc, d1, List.append_assoc, ← List.append_assoc _ _ bs.flatten, c1]; rfl
          · intro g hg
            rcases List.mem_cons.1 hg with rfl | hg
            · exact hlast
            · split at hg
              · simp at hg
              · rename_i h0; simp only [List.mem_singleton] at hg; subst hg; exact d3.resolve_left h0
    · rw [if_neg hm, if_neg (fun h => hx (List.mem_of_getLast? h))]
      simp only
      rw [BufW.writeAll, if_pos (by omega)]
      obtain ⟨gs, last, e1, e2, e3, e4⟩ := ih { x with buf := x.buf ++ b } (by simp [hx, hm]) (by
        intro a b' c hbs
        have := hf (b :: a) b' c (by rw [hbs]; rfl)
        simpa using this)
      exact ⟨gs, last, by simpa using e1, e2, e3, e4⟩

end Verif
