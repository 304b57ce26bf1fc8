import Verif.Cjk
import Verif.CountTheory
import Verif.LossyTheory

/-!
# Scalars that the translation keeps
-/

namespace Verif
open Spec Tables

/-- The scalars with `q` are kept by the replacement table and take no part in the other rules. -/
structure Kept (q : Char → Bool) : Prop where
  nl : q '\n' = false
  cr : q '\r' = false
  ff : q FF = false
  sp : q ' ' = false
  cgj : q CGJ = false
  wj : q WJ = false
  bom : q BOM = false
  nel : q NEL = false
  ls : q LS = false
  ps : q PS = false
  repl : ∀ c, (replace c).filter q = if q c then [c] else []

theorem filter_dropWhile {q p : Char → Bool} (h : ∀ c, p c = true → q c = false) (s : List Char) : (s.dropWhile p).filter q = s.filter q := by
  induction s with
  | nil => rfl
  | cons c s ih =>
    rw [List.dropWhile_cons]
    split
    · rename_i hc
      rw [ih, List.filter_cons, h c hc]; simp
    · rfl

theorem filter_dropOne {q p : Char → Bool} (h : ∀ c, p c = true → q c = false) (s : List Char) : (dropOne p s).filter q = s.filter q := by
  cases s with
  | nil => rfl
  | cons c s =>
    simp only [dropOne]
    split
    · rename_i hc
      rw [List.filter_cons, h c hc]; simp
    · rfl

theorem filter_tokens {q : Char → Bool} (hq : Kept q) {fin : Char → Bool} {nel lsps : Bool} : ∀ (n : Nat) (s : List Char), s.length ≤ n → ESC ∉ s →
    ((tokens fin (single nel lsps) s).flatMap Tok.out).filter q = s.filter q := by
  intro n
  induction n with
  | zero =>
    intro s hs _
    have : s = [] := List.length_eq_zero_iff.1 (by omega)
    subst this; simp [tokens]
  | succ n ih =>
    intro s hs he
    cases s with
    | nil => simp [tokens]
    | cons c r =>
      simp only [List.length_cons] at hs
      have her : ESC ∉ r := fun h => he (by simp [h])
      rw [tokens]
      by_cases c1 : c = '\n'
      · rw [if_pos c1, List.flatMap_cons, List.filter_append, ih r (by omega) her, c1]
        simp [Tok.out, hq.nl]
      rw [if_neg c1]
      by_cases c2 : c = '\r'
      · have hl := dropOne_le (· = '\n') r
        rw [if_pos c2, List.flatMap_cons, List.filter_append, ih _ (by omega) (fun h => her (mem_dropOne h)), c2, filter_dropOne]
        · simp [Tok.out, hq.nl, hq.cr]
        · intro c hc; simp at hc; rw [hc]; exact hq.nl
      rw [if_neg c2]
      by_cases c3 : c = FF
      · have hl := dropWhile_le (· = FF) r
        have hw : (r.dropWhile (· = FF)).filter q = r.filter q := by
          apply filter_dropWhile
          intro c hc; simp at hc; rw [hc]; exact hq.ff
        rw [if_pos c3, c3, List.filter_cons, hq.ff]
        simp only
        split
        · rw [ih _ (by omega) (fun h => her (mem_dropWhile h)), hw]; simp
        · rw [List.flatMap_cons, List.filter_append, ih _ (by omega) (fun h => her (mem_dropWhile h)), hw]
          simp [Tok.out, hq.sp]
      rw [if_neg c3]
      have c4 : c ≠ ESC := fun h => he (by simp [h])
      rw [if_neg c4, List.flatMap_cons, List.filter_append, ih r (by omega) her]
      have : (Tok.out (single nel lsps c)).filter q = if q c then [c] else [] := by
        unfold single
        split
        · rename_i hc
          have : q c = false := by
            rcases hc with ⟨-, rfl⟩ | ⟨-, rfl | rfl⟩
            · exact hq.nel
            · exact hq.ls
            · exact hq.ps
          simp [Tok.out, hq.nl, this]
        · exact hq.repl c
      rw [this, List.filter_cons]
      split <;> simp

theorem filter_guards {q : Char → Bool} (hq : Kept q) (U : Ucd) (s : List Char) : (guardEnd (guardStart U s)).filter q = s.filter q := by
  have h1 : (guardStart U s).filter q = s.filter q := by
    unfold guardStart
    split
    · split
      · rfl
      · rw [List.filter_cons, hq.cgj]; simp
    · rfl
  rw [← h1]
  unfold guardEnd
  split
  · split
    · rfl
    · rw [List.filter_append]; simp [hq.cgj]
  · rfl

/-- The translation of text without escape sequences keeps these scalars. -/
theorem filter_translate {q : Char → Bool} (hq : Kept q) (U : Ucd) (nel lsps : Bool) {s : List Char} (he : ESC ∉ s) :
    (translate U nel lsps s).filter q = s.filter q := by
  unfold translate
  simp only
  split
  · rw [filter_guards hq, filter_tokens hq _ s (Nat.le_refl _) he]
  · rw [List.filter_append, filter_guards hq, filter_tokens hq _ s (Nat.le_refl _) he]; simp [hq.nl]

theorem filter_lossyText {q : Char → Bool} (hq : Kept q) (U : Ucd) {s : List Char} (he : ESC ∉ s) :
    (lossyText U s).filter q = s.filter q := by
  unfold lossyText
  split
  · exact filter_translate hq U _ _ he
  · unfold body
    rw [filter_guards hq, filter_tokens hq _ s (Nat.le_refl _) he]

theorem filter_dropBom {q : Char → Bool} (hq : Kept q) (s : List Char) : (dropBom s).filter q = s.filter q :=
  filter_dropOne (fun c hc => by simp at hc; rw [hc]; exact hq.bom) s

theorem multi_kept : replaceMulti.all (fun e => !(inRanges compatRanges e.1 || inRanges [(0xfe00, 0xfe02)] e.1) &&
    e.2.all fun d => validN d && !(inRanges compatRanges d || inRanges [(0xfe00, 0xfe02)] d)) = true := by decide +kernel

theorem repl_kept : replaceRepl.all (fun r => (compatRanges ++ [(0xfe00, 0xfe02)]).all fun r' => Nat.blt r.2 r'.1 || Nat.blt r'.2 r.1) = true := by
  decide +kernel

theorem isSelector_ranges (c : Char) : isSelector c = inRanges [(0xfe00, 0xfe02)] c.toNat := by
  rw [Bool.eq_iff_iff, inRanges_iff]
  simp [isSelector]

theorem replace_kept {q : Char → Bool} {B : List (Nat × Nat)} (hq : ∀ c, q c = inRanges B c.toNat)
    (hB : ∀ n, inRanges B n = true → (inRanges compatRanges n || inRanges [(0xfe00, 0xfe02)] n) = true) (hr : q REPL = false) (c : Char) :
    (replace c).filter q = if q c then [c] else [] := by
  unfold replace
  cases hl : replaceMulti.lookup c.toNat with
  | some l =>
    have hm := List.all_eq_true.1 multi_kept _ (lookup_mem hl)
    simp only [Bool.and_eq_true, Bool.not_eq_true', List.all_eq_true] at hm
    have hc : q c = false := by
      cases hc : q c with
      | false => rfl
      | true => rw [hq] at hc; have := hB _ hc; rw [hm.1] at this; simp at this
    simp only [hc, Bool.false_eq_true, if_false, List.filter_eq_nil_iff, List.mem_map]
    rintro d ⟨n, hn, rfl⟩ hd
    rw [hq, toNat_ofNat (hm.2 n hn).1] at hd
    have := hB _ hd
    rw [(hm.2 n hn).2] at this
    simp at this
  | none =>
    simp only
    split
    · rename_i hin
      have hc : q c = false := by
        cases hc : q c with
        | false => rfl
        | true =>
          exfalso
          rw [hq] at hc
          have := hB _ hc
          obtain ⟨r, h1, h2, h3⟩ := inRanges_iff.1 hin
          have h4 := List.all_eq_true.1 (List.all_eq_true.1 repl_kept r h1)
          have : ∃ r' ∈ compatRanges ++ [(0xfe00, 0xfe02)], r'.1 ≤ c.toNat ∧ c.toNat ≤ r'.2 := by
            rw [Bool.or_eq_true, inRanges_iff, inRanges_iff] at this
            rcases this with ⟨r', h, h'⟩ | ⟨r', h, h'⟩
            · exact ⟨r', List.mem_append_left _ h, h'⟩
            · exact ⟨r', List.mem_append_right _ h, h'⟩
          obtain ⟨r', h5, h6, h7⟩ := this
          have := h4 r' h5
          simp only [Bool.or_eq_true, Nat.blt_eq] at this
          omega
      simp [hc, hr]
    · rw [List.filter_cons]; simp

theorem kept_compat : Kept isCompat := by
  refine ⟨?_, ?_, ?_, ?_, ?_, ?_, ?_, ?_, ?_, ?_, replace_kept (B := compatRanges) (fun _ => rfl) (fun n h => by simp [h]) (by decide)⟩ <;> decide

theorem kept_selector : Kept isSelector := by
  refine ⟨?_, ?_, ?_, ?_, ?_, ?_, ?_, ?_, ?_, ?_, replace_kept (B := [(0xfe00, 0xfe02)]) isSelector_ranges (fun n h => by simp [h]) (by decide)⟩ <;> decide

end Verif
