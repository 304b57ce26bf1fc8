import Verif.ExactWhole
import Verif.WriteMany

/-!
# Writing whole lines and closing

Helpers for C105: what a writer sends for a text written in lines and then closed, and how U+A → U+D U+A commutes with normalization.
-/

namespace Verif
open Ucd Spec
variable {U : Ucd}

theorem toCrlf_nl (y : List Char) : toCrlf ('\n' :: y) = '\r' :: '\n' :: toCrlf y := rfl

theorem toCrlf_other {c : Char} (h : c ≠ '\n') (y : List Char) : toCrlf (c :: y) = c :: toCrlf y := by
  simp [toCrlf, h]

/-- Normalization commutes with U+A → U+D U+A. -/
theorem normChain_toCrlf (hU : TextLaws U) : ∀ (n : Nat) (s : List Char), s.length ≤ n → normChain U (toCrlf s) = toCrlf (normChain U s) := by
  have hnn : ∀ x, '\n' ∉ x → '\n' ∉ normChain U x := fun x hx hm => hx (mem_normChain_inert hU (inert_lf hU) (by decide) hm)
  have hcr : isAssigned U '\r' = true := by simp [isAssigned, hU.assigned_ascii '\r' (by decide)]
  intro n
  induction n with
  | zero =>
    intro s hs
    have : s = [] := List.length_eq_zero_iff.1 (Nat.le_zero.1 hs)
    subst this; rfl
  | succ n ih =>
    intro s hs
    by_cases hm : '\n' ∈ s
    · obtain ⟨x, y, rfl, hx⟩ := List.append_of_mem hm |>.elim fun _ _ => List.eq_append_cons_of_mem hm
      have hy : y.length ≤ n := by simp at hs; omega
      rw [toCrlf_append, toCrlf_nl, toCrlf_id hx, normChain_split hU (inert_cr hU) hcr (by decide) x,
        show '\n' :: toCrlf y = [] ++ '\n' :: toCrlf y from rfl, normChain_split hU (inert_lf hU) (nl_assigned hU) (by decide),
        ih y hy, normChain_split hU (inert_lf hU) (nl_assigned hU) (by decide) x, toCrlf_append, toCrlf_nl, toCrlf_id (hnn x hx), normChain_nil]
      rfl
    · rw [toCrlf_id hm, toCrlf_id (hnn s hm)]

theorem normChain_enc (hU : TextLaws U) (crlf : Bool) (s : List Char) : normChain U (enc crlf s) = enc crlf (normChain U s) := by
  unfold enc
  split
  · exact normChain_toCrlf hU _ s (Nat.le_refl _)
  · rfl

theorem head_toCrlf_any (hU : TextLaws U) (s : List Char) :
    ((toCrlf s).head?.any fun v => v == CGJ || !isAssigned U v) = s.head?.any fun v => v == CGJ || !isAssigned U v := by
  cases s with
  | nil => rfl
  | cons c s =>
    by_cases hc : c = '\n'
    · subst hc
      rw [toCrlf_nl]
      have h1 : isAssigned U '\r' = true := by simp [isAssigned, hU.assigned_ascii '\r' (by decide)]
      have h2 := nl_assigned hU
      simp [h1, h2]; decide
    · rw [toCrlf_other hc]; rfl

theorem balGo_toCrlf (hU : TextLaws U) (s : List Char) : ∀ h, balGo U h (toCrlf s) = balGo U h s := by
  induction s with
  | nil => intro h; rfl
  | cons c s ih =>
    intro h
    by_cases hc : c = '\n'
    · subst hc
      have h1 : isAssigned U '\r' = true := by simp [isAssigned, hU.assigned_ascii '\r' (by decide)]
      have h2 := nl_assigned hU
      rw [toCrlf_nl]
      simp only [balGo, ih, h1, h2]
      simp
    · rw [toCrlf_other hc]
      simp only [balGo, ih, head_toCrlf_any hU]

theorem balanced_enc (hU : TextLaws U) (crlf : Bool) (s : List Char) : Balanced U (enc crlf s) ↔ Balanced U s := by
  unfold enc
  split
  · rw [balanced_iff, balanced_iff, balGo_toCrlf hU]
  · rfl

/-- Closing between lines. -/
theorem close_idle {w : Writer} (hw : WIdle w) : (close w).2 = .ok ∧ (close w).1.sink.sent = w.sink.sent := by
  obtain ⟨b, cr, e, a, st, sq, ⟨se, de, sc⟩⟩ := w
  obtain ⟨h1, h2, h3, h4, h5⟩ := hw
  simp only at h1 h2 h3 h4 h5
  subst h1 h2 h3 h4 h5
  simp [close, checkNl, Sink.close, Sink.flush]

/-- Whole lines, and then close. -/
theorem lines_close (hU : TextLaws U) : ∀ {ps : List (List Char)} {w : Writer}, WIdle w → (∀ p ∈ ps, p.getLast? = some '\n') →
    ((∀ o ∈ results U w (ps.map .str ++ [.close]), o = .ok) ↔
      (∀ c ∈ ps.flatten, okChar c = true) ∧ (w.expectStarter = true → ∀ c ∈ (normChain U ps.flatten).head?, isStart U c = true)) ∧
    ((∀ o ∈ results U w (ps.map .str ++ [.close]), o = .ok) →
      (run U w (ps.map .str ++ [.close])).sink.sent = w.sink.sent ++ enc w.crlf (normChain U ps.flatten)) := by
  intro ps
  induction ps with
  | nil =>
    intro w hw _
    have h := close_idle hw
    have he : enc w.crlf (normChain U []) = [] := by unfold enc; split <;> rfl
    refine ⟨?_, ?_⟩
    · simp [results, step, h.1, normChain_nil]
    · intro _
      simp [run, step, h.2, he]
  | cons p ps ih =>
    intro w hw hl
    have hp := hl p (by simp)
    rcases writeStr_lines hU hw hp with ⟨w', hw', he, h, hg, e⟩ | ⟨h, hg⟩
    · obtain ⟨i1, i2⟩ := ih hw' fun q hq => hl q (by simp [hq])
      have hstep : step U w (.str p) = (w', .ok) := h
      simp only [List.map_cons, List.cons_append, results, hstep, List.mem_cons, forall_eq_or_imp, true_and, run, List.flatten_cons]
      refine ⟨?_, ?_⟩
      · rw [i1, he, head_lines hU hp]
        simp only [Bool.false_eq_true, false_implies, and_true, List.mem_append]
        constructor
        · intro hc
          exact ⟨fun c hx => hx.elim (hg.1 c) (hc c), fun hx c hc => hg.2 hx c hc⟩
        · exact fun hx c hc => hx.1 c (Or.inr hc)
      · intro ho
        have := i2 ho
        rw [this, normChain_lines hU hp, e]
        simp only
        unfold enc
        split <;> simp [toCrlf_append]
    · have hn : ¬ ∀ o ∈ results U w ((p :: ps).map .str ++ [.close]), o = .ok := by
        intro ho
        have := ho (step U w (.str p)).2 (by simp [results])
        rw [show step U w (.str p) = writeStr U w p from rfl, h] at this
        cases this
      refine ⟨⟨fun ho => absurd ho hn, fun hx => absurd ?_ hg⟩, fun ho => absurd ho hn⟩
      rw [List.flatten_cons, head_lines hU hp] at hx
      exact ⟨fun c hc => hx.1 c (by simp [hc]), fun h1 c hc => hx.2 h1 c hc⟩

/-- Text that is not a line cannot be closed. -/
theorem open_close (hU : TextLaws U) {w : Writer} (hw : WIdle w) {s : List Char} (hs : s ≠ []) (hl : s.getLast? ≠ some '\n') :
    ¬ ∀ o ∈ results U w [.str s, .close], o = .ok := by
  intro ho
  by_cases hg : Good U w.expectStarter (.str s)
  · have h := step_good hU (op := .str s) rfl hw.state hw.buffer hw.dead hw.script hg
    have hst : groundNext U .newline (.str s) ≠ .newline := by
      show groundFrom .newline (normChain U s) ≠ .newline
      unfold groundFrom
      rw [if_neg (normChain_ne_nil hU hs)]
      intro h
      rcases groundAfter_newline h with h | h
      · exact normChain_ne_nil hU hs h
      · exact hl ((last_normChain_nl hU).1 h)
    have := ho (step U (step U w (.str s)).1 .close).2 (by simp [results])
    rw [h] at this
    simp [step, close, checkNl, hst] at this
  · have h := (step_bad hU (op := .str s) rfl hw.state hw.ansi hw.buffer hg).1
    have := ho (step U w (.str s)).2 (by simp [results])
    rw [h] at this
    cases this

end Verif
