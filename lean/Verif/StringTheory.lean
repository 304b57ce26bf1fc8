import Verif.SliceTheory
import Verif.WriterFacts
import Verif.WriterReader
import Verif.LossyTheory

/-!
# Checked conversion and the operations on strings
-/

namespace Verif
open Ucd Spec
variable {U : Ucd}

/-! ## Checked conversion -/

/-- What the owned conversion accepts. -/
def Acceptable (U : Ucd) (s : List Char) : Prop :=
  (∀ c ∈ s, okChar c = true) ∧ (∀ c ∈ s.head?, isStart U c = true) ∧ ∀ c ∈ s.getLast?, isEnd c = true

/-- What the owned conversion returns for anything else. -/
def failAt (valid : List Char → Bool) (s : List Char) : Res Nat (List Char) :=
  match validUpTo valid s with | some n => .err n | none => .panic

theorem failAt_spec {valid : List Char → Bool} (h0 : valid [] = true) (s : List Char) : ∃ n, failAt valid s = .err n ∧ validUpTo valid s = some n := by
  obtain ⟨n, hn⟩ := validUpTo_ne_none h0 s
  exact ⟨n, by simp [failAt, hn], hn⟩

theorem last_normChain_end_iff (hU : TextLaws U) {s : List Char} :
    (∀ c ∈ (normChain U s).getLast?, isEnd c = true) ↔ ∀ c ∈ s.getLast?, isEnd c = true := by
  constructor
  · intro h c hc
    cases hx : isEnd c with
    | true => rfl
    | false =>
      have hne : c ≠ CGJ := by rintro rfl; rw [end_cgj] at hx; simp at hx
      have := (last_normChain_inert hU (hU.end_inert c hx) (isAssigned_of (hU.end_assigned c hx)) hne (s := s)).2 hc
      rw [h c this] at hx; simp at hx
  · exact last_normChain hU

theorem groundAfter_end_iff {T : List Char} : groundAfter T = .zwjOrPrepend ↔ ¬ ∀ c ∈ T.getLast?, isEnd c = true := by
  unfold groundAfter
  cases T.getLast? with
  | none => simp
  | some c =>
    simp only [Option.mem_def, Option.some.injEq, forall_eq']
    by_cases h : c = '\n'
    · subst h; simp [end_nl]
    · rw [if_neg h]
      unfold groundOf
      cases isEnd c <;> simp

theorem fromTextOwned_eq (hU : TextLaws U) (hS : StartLaws U) (valid : List Char → Bool) (s : List Char) :
    (Acceptable U s → fromTextOwned U valid s = .ok (normChain U s)) ∧
    (¬ Acceptable U s → fromTextOwned U valid s = failAt valid s) := by
  generalize hw : Writer.new { sent := [], dead := false, script := [] } = w
  have hg : w.state = .ground .newline := by rw [← hw]; rfl
  have hb : w.buffer = [] := by rw [← hw]; rfl
  have hd : w.sink.dead = false := by rw [← hw]; rfl
  have hsc : w.sink.script = [] := by rw [← hw]; rfl
  have hse : w.sink.sent = [] := by rw [← hw]; rfl
  have hcr : w.crlf = false := by rw [← hw]; rfl
  have han : w.ansi = false := by rw [← hw]; rfl
  have hes : w.expectStarter = true := by rw [← hw]; rfl
  have hgood : Good U w.expectStarter (.str s) ↔ (∀ c ∈ s, okChar c = true) ∧ ∀ c ∈ s.head?, isStart U c = true := by
    rw [hes]
    constructor
    · rintro ⟨h1, h2⟩
      exact ⟨h1, head_normChain_conv hU hS (h2 rfl)⟩
    · rintro ⟨h1, h2⟩
      exact ⟨h1, fun _ => head_normChain hU h2⟩
  have hf : fromTextOwned U valid s = match step U w (.str s) with
      | (w, .ok) => (match flush w with
        | (w, .ok) => .ok w.sink.sent
        | (_, .err) => failAt valid s
        | (_, .panic) => .panic)
      | (_, .err) => failAt valid s
      | (_, .panic) => .panic := by
    rw [← hw]; rfl
  by_cases h : Good U w.expectStarter (.str s)
  · rw [hf, step_good hU rfl hg hb hd hsc h]
    simp only
    have hgn : groundNext U .newline (.str s) = groundAfter (normChain U s) := by
      show groundFrom .newline (normChain U s) = _
      unfold groundFrom
      split
      · rename_i he; rw [he]; rfl
      · rfl
    rw [hgn]
    have hlast := hgood.1 h
    by_cases he : ∀ c ∈ s.getLast?, isEnd c = true
    · refine ⟨fun _ => ?_, fun hn => absurd ⟨hlast.1, hlast.2, he⟩ hn⟩
      have hnz : groundAfter (normChain U s) ≠ .zwjOrPrepend := by
        rw [Ne, groundAfter_end_iff]
        exact fun hh => hh ((last_normChain_end_iff hU).2 he)
      rcases flush_cases { w with state := .ground (groundAfter (normChain U s)), sink := { w.sink with sent := w.sink.sent ++ enc w.crlf (said U (.str s)) } , expectStarter := false } with ⟨-, h⟩ | ⟨-, h⟩ | ⟨-, h⟩
      · injection h with h; exact absurd h hnz
      · rcases h with h | h <;> cases h
      · rw [h]
        simp [Sink.flush, hd, hsc, hse, hcr, enc, said]
    · refine ⟨fun hn => absurd hn.2.2 he, fun _ => ?_⟩
      have hz : groundAfter (normChain U s) = .zwjOrPrepend := by
        rw [groundAfter_end_iff]
        exact fun hh => he ((last_normChain_end_iff hU).1 hh)
      rw [hz]
      rfl
  · have hbad := (step_bad hU rfl hg han hb h).1
    refine ⟨fun hn => absurd (hgood.2 ⟨hn.1, hn.2.1⟩) h, fun _ => ?_⟩
    rw [hf]
    generalize step U w (.str s) = r at hbad
    obtain ⟨w', o⟩ := r
    simp only at hbad
    subst hbad
    rfl

theorem acceptable_of_valid {s : List Char} (h : isBasicText U s = true) : Acceptable U s := by
  obtain ⟨h1, h2, h3⟩ := text_iff.1 h
  exact ⟨(substr_iff.1 h3).1, h1, h2⟩

theorem isBasicText_nil : isBasicText U [] = true := text_iff.2 ⟨by simp, by simp, substr_iff.2 ⟨by simp, nss_nil⟩⟩

theorem isBasicTextSubstr_nil : isBasicTextSubstr U [] = true := substr_iff.2 ⟨by simp, nss_nil⟩

theorem normChain_valid (hU : TextLaws U) {s : List Char} (h : Acceptable U s) : isBasicText U (normChain U s) = true := by
  refine text_iff.2 ⟨head_normChain hU h.2.1, last_normChain hU h.2.2, substr_iff.2 ⟨?_, normChain_nss hU s⟩⟩
  exact ok_normChain hU (fun c hc => Or.inl (h.1 c hc))

/-! ## Infixes -/

theorem substr_infix (hU : TextLaws U) {p m q : List Char} (h : isBasicTextSubstr U (p ++ m ++ q) = true) : isBasicTextSubstr U m = true :=
  substr_suffix hU (substr_prefix hU h)

theorem text_substr {s : List Char} (h : isBasicText U s = true) : isBasicTextSubstr U s = true := (text_iff.1 h).2.2

/-! ## Appending -/

theorem mem_getLast?_append {a b : List Char} {c : Char} (h : c ∈ (a ++ b).getLast?) : c ∈ a.getLast? ∨ c ∈ b.getLast? := by
  rw [List.getLast?_append] at h
  cases hb : b.getLast? with
  | none => rw [hb] at h; exact Or.inl h
  | some x => rw [hb] at h; exact Or.inr h

theorem mem_head?_append {a b : List Char} {c : Char} (h : c ∈ (a ++ b).head?) : c ∈ a.head? ∨ c ∈ b.head? := by
  rw [List.head?_append] at h
  cases ha : a.head? with
  | none => rw [ha] at h; exact Or.inr h
  | some x => rw [ha] at h; exact Or.inl h

theorem substr_append (hU : TextLaws U) {a b : List Char} (ha : isBasicTextSubstr U a = true) (hb : isBasicTextSubstr U b = true)
    (hh : ∀ c ∈ b.head?, isStart U c = true ∧ isJamoVT c = false) : isBasicTextSubstr U (a ++ b) = true := by
  obtain ⟨a1, a2⟩ := substr_iff.1 ha
  obtain ⟨b1, b2⟩ := substr_iff.1 hb
  refine substr_iff.2 ⟨?_, nss_apart hU a2 b2 (fun c hc => apart_of_start hU (hh c hc).1 (hh c hc).2)⟩
  intro c hc
  simp only [List.mem_append] at hc
  rcases hc with hc | hc
  · exact a1 c hc
  · exact b1 c hc

theorem pushText_cases (a s : List Char) :
    (∃ a' r, a = a' ++ [CGJ] ∧ s = CGJ :: r ∧ pushText a s = a' ++ CGJ :: r) ∨
    (¬ (a.getLast? = some CGJ ∧ s.head? = some CGJ) ∧ pushText a s = a ++ s) := by
  cases s with
  | nil => right; simp [pushText]
  | cons c r =>
    unfold pushText
    simp only
    split
    · rename_i h
      left
      rcases List.eq_nil_or_concat a with rfl | ⟨a', d, rfl⟩
      · simp at h
      · rw [List.concat_eq_append] at h ⊢
        simp only [List.getLast?_append, List.getLast?_singleton, Option.some_or, Option.some.injEq] at h
        obtain ⟨rfl, rfl⟩ := h
        exact ⟨a', r, rfl, rfl, by simp⟩
    · rename_i h
      right
      refine ⟨?_, rfl⟩
      rintro ⟨h1, h2⟩
      simp at h2
      exact h ⟨h2, h1⟩

theorem pushText_valid (hU : TextLaws U) {a s : List Char} (ha : isBasicText U a = true) (hs : isBasicText U s = true)
    (hj : ∀ c ∈ s.head?, isJamoVT c = false) : isBasicText U (pushText a s) = true := by
  obtain ⟨a1, a2, a3⟩ := text_iff.1 ha
  obtain ⟨s1, s2, s3⟩ := text_iff.1 hs
  rcases pushText_cases a s with ⟨a', r, rfl, rfl, h⟩ | ⟨-, h⟩
  · rw [h]
    obtain ⟨a4, a5⟩ := substr_iff.1 a3
    obtain ⟨s4, s5⟩ := substr_iff.1 s3
    refine text_iff.2 ⟨?_, ?_, substr_iff.2 ⟨?_, ?_⟩⟩
    · intro c hc
      apply a1
      cases a' with
      | nil => simpa using hc
      | cons x a' => simpa using hc
    · intro c hc
      apply s2
      rw [List.getLast?_append] at hc
      rw [List.getLast?_cons] at hc ⊢
      simpa using hc
    · intro c hc
      simp only [List.mem_append, List.mem_cons] at hc
      rcases hc with hc | hc | hc
      · exact a4 c (by simp [hc])
      · exact s4 c (by simp [hc])
      · exact s4 c (by simp [hc])
    · exact (nss_inert hU.law hU.law.inert_cgj).2 ⟨nss_prefix hU.law a5, (nss_inert (x := []) hU.law hU.law.inert_cgj).1 s5 |>.2⟩
  · rw [h]
    refine text_iff.2 ⟨?_, ?_, substr_append hU a3 s3 (fun c hc => ⟨s1 c hc, hj c hc⟩)⟩
    · intro c hc
      rcases mem_head?_append hc with hc | hc
      · exact a1 c hc
      · exact s1 c hc
    · intro c hc
      rcases mem_getLast?_append hc with hc | hc
      · exact a2 c hc
      · exact s2 c hc

theorem extendText_valid (hU : TextLaws U) {l : List (List Char)} : ∀ {a : List Char}, isBasicText U a = true → (∀ s ∈ l, isBasicText U s = true) →
    (∀ s ∈ l, ∀ c ∈ s.head?, isJamoVT c = false) → isBasicText U (extendText a l) = true := by
  induction l with
  | nil => intro a ha _ _; exact ha
  | cons s l ih =>
    intro a ha hl hj
    exact ih (pushText_valid hU ha (hl s (by simp)) (hj s (by simp))) (fun s hs => hl s (by simp [hs])) (fun s hs => hj s (by simp [hs]))

theorem repeatText_succ (s : List Char) (n : Nat) : repeatText s (n + 1) = s ++ repeatText s n := by
  simp [repeatText, List.replicate_succ]

theorem repeat_head {s : List Char} {n : Nat} {c : Char} (h : c ∈ (repeatText s n).head?) : c ∈ s.head? := by
  induction n with
  | zero => simp [repeatText] at h
  | succ n ih =>
    rw [repeatText_succ] at h
    rcases mem_head?_append h with h | h
    · exact h
    · exact ih h

theorem repeat_last {s : List Char} {n : Nat} {c : Char} (h : c ∈ (repeatText s n).getLast?) : c ∈ s.getLast? := by
  induction n with
  | zero => simp [repeatText] at h
  | succ n ih =>
    rw [repeatText_succ] at h
    rcases mem_getLast?_append h with h | h
    · exact h
    · exact ih h

theorem repeat_substr (hU : TextLaws U) {s : List Char} (h : isBasicTextSubstr U s = true) (hh : ∀ c ∈ s.head?, isStart U c = true ∧ isJamoVT c = false)
    (n : Nat) : isBasicTextSubstr U (repeatText s n) = true := by
  induction n with
  | zero => exact isBasicTextSubstr_nil
  | succ n ih =>
    rw [repeatText_succ]
    exact substr_append hU h ih (fun c hc => hh c (repeat_head hc))

theorem repeat_valid (hU : TextLaws U) {s : List Char} (h : isBasicText U s = true) (hh : ∀ c ∈ s.head?, isJamoVT c = false)
    (n : Nat) : isBasicText U (repeatText s n) = true := by
  obtain ⟨h1, h2, h3⟩ := text_iff.1 h
  exact text_iff.2 ⟨fun c hc => h1 c (repeat_head hc), fun c hc => h2 c (repeat_last hc),
    repeat_substr hU h3 (fun c hc => ⟨h1 c hc, hh c hc⟩) n⟩

/-! ## Trimming -/

theorem dropWhile_spec (p : Char → Bool) (s : List Char) : ∃ w, s = w ++ s.dropWhile p ∧ (∀ c ∈ w, p c = true) ∧
    ∀ c ∈ (s.dropWhile p).head?, p c = false := by
  induction s with
  | nil => exact ⟨[], by simp⟩
  | cons c s ih =>
    rw [List.dropWhile_cons]
    split
    · rename_i h
      obtain ⟨w, h1, h2, h3⟩ := ih
      refine ⟨c :: w, by rw [List.cons_append, ← h1], ?_, h3⟩
      intro d hd
      simp only [List.mem_cons] at hd
      rcases hd with rfl | hd
      · exact h
      · exact h2 d hd
    · rename_i h
      exact ⟨[], by simp, by simp, by simpa using h⟩

theorem trimStart_spec (s : List Char) : ∃ w, s = w ++ trimStart s ∧ (∀ c ∈ w, isWhite c = true) ∧
    ∀ c ∈ (trimStart s).head?, isWhite c = false := dropWhile_spec isWhite s

theorem trimEnd_spec (s : List Char) : ∃ w, s = trimEnd s ++ w ∧ (∀ c ∈ w, isWhite c = true) ∧
    ∀ c ∈ (trimEnd s).getLast?, isWhite c = false := by
  obtain ⟨w, h1, h2, h3⟩ := dropWhile_spec isWhite s.reverse
  refine ⟨w.reverse, ?_, by simpa using h2, ?_⟩
  · have := congrArg List.reverse h1
    simpa [trimEnd] using this
  · intro c hc
    apply h3
    rw [trimEnd, List.getLast?_reverse] at hc
    exact hc

theorem trim_spec (s : List Char) : ∃ w w', s = w ++ trim s ++ w' ∧ (∀ c ∈ w ++ w', isWhite c = true) ∧
    (∀ c ∈ (trim s).head?, isWhite c = false) ∧ ∀ c ∈ (trim s).getLast?, isWhite c = false := by
  obtain ⟨w, h1, h2, h3⟩ := trimStart_spec s
  obtain ⟨w', g1, g2, g3⟩ := trimEnd_spec (trimStart s)
  refine ⟨w, w', ?_, ?_, ?_, g3⟩
  · rw [List.append_assoc]
    exact h1.trans (by rw [trim, ← g1])
  · intro c hc
    simp only [List.mem_append] at hc
    rcases hc with hc | hc
    · exact h2 c hc
    · exact g2 c hc
  · intro c hc
    apply h3
    rw [g1, List.head?_append]
    rw [trim] at hc
    cases hq : (trimEnd (trimStart s)).head? with
    | none => rw [hq] at hc; simp at hc
    | some x => rw [hq] at hc; exact hc

end Verif
