import Verif.StringTheory

/-!
# When two texts may be joined

The exact condition for the concatenation of two texts to be in stream-safe NFC.
-/

namespace Verif
open Ucd

variable {U : Ucd}

/-- Normalization combines `x` with the scalar `c` right after it. -/
def Joins (U : Ucd) (x c : Char) : Prop := ∃ d ds r, U.decomp c = d :: ds ∧ U.compose x d = some r

theorem lc_append_iff (hU : U.Lawful) {c : Char} {b : List Char} (hb : Lc U none none (c :: b)) (hc : U.ccc c = 0) {a : List Char} :
    ∀ {st : Option Char} {last : Option Nat}, Lc U st last a → (Lc U st last (a ++ c :: b) ↔
      (a = [] → ∀ x, st = some x → last = none → ¬ Joins U x c) ∧ ∀ x ∈ a.getLast?, ¬ Joins U x c) := by
  have hnone : ∀ x, (∀ d ds, U.decomp c = d :: ds → U.compose x d = none) ↔ ¬ Joins U x c := by
    intro x
    constructor
    · rintro h ⟨d, ds, r, h1, h2⟩
      rw [h d ds h1] at h2; simp at h2
    · intro h d ds hd
      cases hx : U.compose x d with
      | none => rfl
      | some r => exact absurd ⟨d, ds, r, hd, hx⟩ h
  have hmark : ∀ x, U.ccc x ≠ 0 → ¬ Joins U x c := by
    rintro x hx ⟨d, ds, r, -, h⟩
    exact hx (hU.compose_ccc _ _ _ h).1
  induction a with
  | nil =>
    intro st last _
    simp only [Lc, hc, if_true] at hb
    simp only [List.nil_append, Lc, hc, if_true, true_implies, List.getLast?_nil, Option.mem_def, reduceCtorEq, false_implies, implies_true,
      and_true]
    constructor
    · rintro ⟨-, h, -⟩ x h1 h2
      exact (hnone x).1 (h x h1 h2)
    · intro h
      exact ⟨hb.1, fun x h1 h2 => (hnone x).2 (h x h1 h2), hb.2.2⟩
  | cons y a ih =>
    intro st last h
    simp only [List.cons_append, Lc] at h ⊢
    have hl : ∀ P : Char → Prop, (∀ x ∈ (y :: a).getLast?, P x) ↔ (a = [] → P y) ∧ ∀ x ∈ a.getLast?, P x := by
      intro P
      cases a with
      | nil => simp
      | cons z a => simp [List.getLast?_cons_cons]
    rw [hl]
    by_cases hy : U.ccc y = 0
    · rw [if_pos hy] at h ⊢
      rw [ih h.2.2]
      constructor
      · rintro ⟨-, -, h1, h2⟩
        exact ⟨by simp, fun ha => h1 ha y rfl rfl, h2⟩
      · rintro ⟨-, h1, h2⟩
        exact ⟨h.1, h.2.1, fun ha x hx _ => by cases hx; exact h1 ha, h2⟩
    · rw [if_neg hy] at h ⊢
      rw [ih h.2.2.2]
      constructor
      · rintro ⟨-, -, -, h1, h2⟩
        exact ⟨by simp, fun _ => hmark y hy, h2⟩
      · rintro ⟨-, h1, h2⟩
        exact ⟨h.1, h.2.1, h.2.2.1, fun _ x _ hx => by simp at hx, h2⟩

/-- Two substrings, the second beginning like a text, make a substring exactly if they do not join. -/
theorem substr_append_iff (hU : TextLaws U) {a b : List Char} (ha : isBasicTextSubstr U a = true) (hb : isBasicTextSubstr U b = true)
    (hh : ∀ c ∈ b.head?, isStart U c = true) :
    isBasicTextSubstr U (a ++ b) = true ↔ ∀ x ∈ a.getLast?, ∀ c ∈ b.head?, ¬ Joins U x c := by
  obtain ⟨a1, a2⟩ := substr_iff.1 ha
  obtain ⟨b1, b2⟩ := substr_iff.1 hb
  cases b with
  | nil => simpa using ha
  | cons c b =>
    have hs := hh c (by simp)
    rw [nss_iff hU.law] at a2 b2
    have h1 := lc_append_iff hU.law b2.2 (start_ccc hU hs) a2.2
    have h2 := chk_concat hU.law (a := a) (b := c :: b) (n := 0) (fun d hd => by
      simp only [List.head?_cons, Option.mem_def, Option.some.injEq] at hd
      subst hd
      exact ⟨hU.start_lead _ hs, hU.dlen_pos _⟩) (Nat.zero_le _) a2.1 b2.1
    rw [substr_iff, nss_iff hU.law, h1]
    constructor
    · rintro ⟨-, -, -, h3⟩ x hx d hd
      simp only [List.head?_cons, Option.mem_def, Option.some.injEq] at hd
      subst hd
      exact h3 x hx
    · intro h
      refine ⟨?_, h2, ?_, fun x hx => h x hx c (by simp)⟩
      · intro d hd
        simp only [List.mem_append] at hd
        rcases hd with hd | hd
        · exact a1 d hd
        · exact b1 d hd
      · intro _ x hx; simp at hx

theorem inert_not_joins {x : Char} (hx : U.Inert x) {c : Char} : ¬ Joins U x c := by
  rintro ⟨d, ds, r, h1, h2⟩
  rw [hx.first] at h2; simp at h2

/-- Texts of which the first ends with a newline can always be joined. -/
theorem text_append_newline (hU : TextLaws U) {a b : List Char} (ha : isBasicText U a = true) (hb : isBasicText U b = true)
    (hn : a = [] ∨ a.getLast? = some '\n') : isBasicText U (a ++ b) = true := by
  obtain ⟨a1, a2, a3⟩ := text_iff.1 ha
  obtain ⟨b1, b2, b3⟩ := text_iff.1 hb
  refine text_iff.2 ⟨?_, ?_, (substr_append_iff hU a3 b3 b1).2 ?_⟩
  · intro c hc
    rcases mem_head?_append hc with hc | hc
    · exact a1 c hc
    · exact b1 c hc
  · intro c hc
    rcases mem_getLast?_append hc with hc | hc
    · exact a2 c hc
    · exact b2 c hc
  · intro x hx c hc
    rcases hn with rfl | hn
    · simp at hx
    · rw [hn] at hx
      cases hx
      exact inert_not_joins hU.law.inert_nl

/-! ## Repeating -/

theorem repeat_last_eq {s : List Char} {n : Nat} : (repeatText s (n + 1)).getLast? = s.getLast? := by
  induction n with
  | zero => simp [repeatText]
  | succ n ih =>
    rw [repeatText_succ, List.getLast?_append, ih]
    cases s.getLast? <;> rfl

theorem repeat_head_eq {s : List Char} {n : Nat} : (repeatText s (n + 1)).head? = s.head? := by
  rw [repeatText_succ]
  cases s with
  | nil =>
    induction n with
    | zero => rfl
    | succ n ih => rw [repeatText_succ]; exact ih
  | cons c s => rfl

theorem repeat_iff (hU : TextLaws U) {s : List Char} (h : isBasicText U s = true) (n : Nat) :
    isBasicText U (repeatText s (n + 2)) = true ↔ ∀ x ∈ s.getLast?, ∀ c ∈ s.head?, ¬ Joins U x c := by
  obtain ⟨h1, h2, h3⟩ := text_iff.1 h
  have key : ∀ n, (∀ x ∈ s.getLast?, ∀ c ∈ s.head?, ¬ Joins U x c) → isBasicTextSubstr U (repeatText s (n + 1)) = true := by
    intro n hj
    induction n with
    | zero => simpa [repeatText] using h3
    | succ n ih =>
      rw [repeatText_succ, substr_append_iff hU h3 ih (by rw [repeat_head_eq]; exact h1), repeat_head_eq]
      exact hj
  constructor
  · intro hr
    obtain ⟨-, -, r3⟩ := text_iff.1 hr
    have h4 : isBasicTextSubstr U (s ++ s) = true := by
      rw [show n + 2 = (n + 1) + 1 from rfl, repeatText_succ, repeatText_succ, ← List.append_assoc] at r3
      obtain ⟨r4, r5⟩ := substr_iff.1 r3
      exact substr_iff.2 ⟨fun c hc => r4 c (by rw [List.mem_append]; exact Or.inl hc), nss_prefix hU.law r5⟩
    exact (substr_append_iff hU h3 h3 h1).1 h4
  · intro hj
    exact text_iff.2 ⟨fun c hc => h1 c (repeat_head hc), fun c hc => h2 c (repeat_last hc), key (n + 1) hj⟩

end Verif
