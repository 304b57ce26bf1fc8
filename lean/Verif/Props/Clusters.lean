import Verif.ClusterSpec
import Verif.Props.Tables
import Verif.Props.Join

/-!
# Grapheme clusters (C80)
-/

namespace Verif
open Ucd Spec Tables

/-- What may start Basic Text does not go on with a grapheme cluster as a mark does, unless it is U+034F. -/
theorem start_gcb {c : Char} (h : isStart ucd15 c = true) (hc : c ≠ CGJ) : isGcbExtend c = false ∧ c ≠ ZWJ ∧ isSpacingMark c = false := by
  have := (not_congr (c56_start c)).1 (by rw [h]; simp)
  refine ⟨?_, ?_, ?_⟩
  · cases hx : isGcbExtend c with
    | false => rfl
    | true => exact absurd (Or.inr ⟨hc, Or.inr (Or.inr hx)⟩) this
  · intro hx; exact this (Or.inr ⟨hc, Or.inl hx⟩)
  · cases hx : isSpacingMark c with
    | false => rfl
    | true => exact absurd (Or.inr ⟨hc, Or.inr (Or.inl hx)⟩) this

theorem end_gcb {x : Char} (h : isEnd x = true) : x ≠ ZWJ ∧ (isPrepend x = true → x = '࢐' ∨ x = '࢑') := by
  by_cases h1 : x = '࢐'
  · subst h1; exact ⟨by decide, fun _ => Or.inl rfl⟩
  · by_cases h2 : x = '࢑'
    · subst h2; exact ⟨by decide, fun _ => Or.inr rfl⟩
    · have := (not_congr (c56_end_partial x h1 h2)).1 (by rw [h]; simp)
      exact ⟨fun hz => this (Or.inl hz), fun hp => absurd (Or.inr hp) this⟩

/-- The ways in which the text `a` and a text beginning with `c` may make one grapheme cluster at their junction. -/
def Spec.Sticks (a : List Char) (c : Char) : Prop :=
  ∃ x ∈ a.getLast?, isGcbControl x = false ∧ isGcbControl c = false ∧
    (hangulPair x c = true ∨ c = CGJ ∨ x = '࢐' ∨ x = '࢑' ∨ (isRI c = true ∧ (a.reverse.takeWhile isRI).length % 2 = 1))

/-- C80, exactly: between two texts there is a grapheme cluster boundary, unless the second begins with U+034F, the first ends with
U+0890 or U+0891, their scalars belong to a Hangul syllable, or to a pair of regional indicators. -/
theorem c80_junction_iff (a b : List Char) (c : Char) (ha : isBasicText ucd15 a = true) (hb : isBasicText ucd15 (c :: b) = true) :
    boundary a (c :: b) = false ↔ Sticks a c := by
  obtain ⟨a1, a2, a3⟩ := text_iff.1 ha
  have hs := (text_iff.1 hb).1 c (by simp)
  simp only [boundary, Bool.not_eq_false']
  rcases List.eq_nil_or_concat a with rfl | ⟨p, x, rfl⟩
  · simp [clusterGoesOn, Sticks]
  · rw [List.concat_eq_append] at *
    have he := end_gcb (a2 x (by simp))
    have hcr : x ≠ '\r' := by
      rintro rfl
      exact absurd ((substr_iff.1 a3).1 '\r' (by simp)) (by decide)
    have hem : emojiZwj ((p ++ [x]).reverse) = false := by
      simp [emojiZwj, he.1]
    have hrev : (p ++ [x]).reverse = x :: p.reverse := by simp
    unfold Sticks
    simp only [List.getLast?_append, List.getLast?_singleton, Option.some_or, Option.mem_def, Option.some.injEq, exists_eq_left']
    rw [hrev] at hem ⊢
    simp only [clusterGoesOn, hem, Bool.false_and, Bool.or_false]
    rw [if_neg (by simp [hcr])]
    by_cases hctl : (isGcbControl x || isGcbControl c) = true
    · rw [if_pos hctl]
      simp only [Bool.or_eq_true] at hctl
      constructor
      · simp
      · rintro ⟨h1, h2, -⟩
        rw [h1, h2] at hctl
        simp at hctl
    · rw [if_neg hctl]
      simp only [Bool.or_eq_true, not_or, Bool.not_eq_true] at hctl
      by_cases hg : c = CGJ
      · subst hg
        have h1 : isGcbExtend CGJ = true := by decide +kernel
        simp [h1, hctl.1, hctl.2]
      · obtain ⟨h1, h2, h3⟩ := start_gcb hs hg
        have hp : isPrepend x = true ↔ x = '࢐' ∨ x = '࢑' := by
          refine ⟨he.2, ?_⟩
          rintro (rfl | rfl) <;> decide +kernel
        simp only [h1, h2, h3, hg, hctl, Bool.or_false, Bool.or_eq_true, Bool.and_eq_true, beq_iff_eq, false_or, true_and, or_false, hp]
        grind

/-- Scalars within the second text see the same context with or without the first. -/
theorem goesOn_append {a q : List Char} {c0 c : Char} (h0 : isStart ucd15 c0 = true) (hg : c0 ≠ CGJ)
    (hri : isRI c0 = true → ∀ x ∈ a.getLast?, isRI x = false) :
    clusterGoesOn ((a ++ c0 :: q).reverse) c = clusterGoesOn ((c0 :: q).reverse) c := by
  obtain ⟨h1, h2, h3⟩ := start_gcb h0 hg
  have hrev : (a ++ c0 :: q).reverse = (c0 :: q).reverse ++ a.reverse := by simp
  rw [hrev]
  have hne : (c0 :: q).reverse ≠ [] := by simp
  -- the emoji rule
  have hem : emojiZwj ((c0 :: q).reverse ++ a.reverse) = emojiZwj ((c0 :: q).reverse) := by
    rcases List.eq_nil_or_concat q with rfl | ⟨r, z, rfl⟩
    · simp [emojiZwj, h2]
    · rw [List.concat_eq_append]
      simp only [List.reverse_cons, List.reverse_append, List.reverse_nil, List.nil_append, List.append_assoc, List.cons_append, emojiZwj]
      congr 1
      have : ∀ (l m : List Char), ((l ++ c0 :: m).dropWhile isGcbExtend).head? = ((l ++ [c0]).dropWhile isGcbExtend).head? := by
        intro l m
        induction l with
        | nil => simp [h1]
        | cons y l ih =>
          simp only [List.cons_append, List.dropWhile_cons]
          split
          · exact ih
          · rfl
      rw [this]
  -- regional indicators
  have hrl : (((c0 :: q).reverse ++ a.reverse).takeWhile isRI).length = ((c0 :: q).reverse.takeWhile isRI).length := by
    have key : ∀ l : List Char, ((l ++ [c0] ++ a.reverse).takeWhile isRI).length = ((l ++ [c0]).takeWhile isRI).length := by
      intro l
      induction l with
      | nil =>
        simp only [List.nil_append, List.singleton_append, List.takeWhile_cons]
        cases hr : isRI c0 with
        | false => simp
        | true =>
          have := hri hr
          rcases List.eq_nil_or_concat a with rfl | ⟨p, x, rfl⟩
          · simp
          · rw [List.concat_eq_append] at *
            have hx := this x (by simp)
            simp [hx]
      | cons y l ih =>
        simp only [List.cons_append, List.takeWhile_cons]
        split
        · simpa using ih
        · rfl
    have := key q.reverse
    simpa using this
  generalize hP : (c0 :: q).reverse = P at *
  cases P with
  | nil => exact absurd rfl hne
  | cons x P =>
    simp only [List.cons_append] at hem hrl ⊢
    simp only [clusterGoesOn, hem, hrl]

theorem clustersFrom_junction {b : List Char} : ∀ (a pre cur : List Char), (∀ c ∈ b.head?, clusterGoesOn (a.reverse ++ pre) c = false) →
    clustersFrom pre cur (a ++ b) = clustersFrom pre cur a ++ clustersFrom (a.reverse ++ pre) [] b := by
  intro a
  induction a with
  | nil =>
    intro pre cur h
    cases b with
    | nil => simp [clustersFrom]
    | cons c b =>
      have := h c (by simp)
      simp only [List.reverse_nil, List.nil_append] at this ⊢
      simp [clustersFrom, this]
  | cons x a ih =>
    intro pre cur h
    simp only [List.reverse_cons, List.append_assoc, List.singleton_append] at h
    simp only [List.cons_append, clustersFrom, List.reverse_cons, List.append_assoc]
    split
    · rw [ih _ _ h]; simp
    · rw [ih _ _ h]; simp

theorem clustersFrom_context {a : List Char} {c0 : Char} (h0 : isStart ucd15 c0 = true) (hg : c0 ≠ CGJ)
    (hri : isRI c0 = true → ∀ x ∈ a.getLast?, isRI x = false) : ∀ (q p cur : List Char),
    clustersFrom ((a ++ c0 :: p).reverse) cur q = clustersFrom ((c0 :: p).reverse) cur q := by
  intro q
  induction q with
  | nil => intro p cur; rfl
  | cons c q ih =>
    intro p cur
    have e1 : ∀ cur, clustersFrom (c :: (a ++ c0 :: p).reverse) cur q = clustersFrom (c :: (c0 :: p).reverse) cur q := by
      intro cur
      have := ih (p ++ [c]) cur
      simpa using this
    simp only [clustersFrom, goesOn_append h0 hg hri, e1]

/-- C80: the grapheme clusters of two texts one after the other are those of the one and those of the other, if the second does not
begin with U+034F, the first does not end with U+0890 or U+0891, and they do not make a Hangul syllable or a pair of regional
indicators. -/
theorem c80_clusters_partial (a b : List Char) (ha : isBasicText ucd15 a = true) (hb : isBasicText ucd15 b = true)
    (h : ∀ x ∈ a.getLast?, ∀ c ∈ b.head?, c ≠ CGJ ∧ x ≠ '࢐' ∧ x ≠ '࢑' ∧ hangulPair x c = false ∧ (isRI c = true → isRI x = false)) :
    clusters (a ++ b) = clusters a ++ clusters b := by
  cases b with
  | nil => simp [clusters, clustersFrom]
  | cons c b =>
    by_cases ha0 : a = []
    · subst ha0; simp [clusters, clustersFrom]
    · obtain ⟨x, hx⟩ : ∃ x, a.getLast? = some x := by
        rcases List.eq_nil_or_concat a with rfl | ⟨p, x, rfl⟩
        · exact absurd rfl ha0
        · exact ⟨x, by simp⟩
      obtain ⟨h1, h2, h3, h4, h5⟩ := h x hx c (by simp)
      have hj : clusterGoesOn a.reverse c = false := by
        have := (not_congr (c80_junction_iff a b c ha hb)).2 (by
          rintro ⟨y, hy, -, -, h6⟩
          rw [hx] at hy
          cases hy
          rcases h6 with h6 | h6 | h6 | h6 | ⟨h6, h7⟩
          · rw [h4] at h6; simp at h6
          · exact h1 h6
          · exact h2 h6
          · exact h3 h6
          · have hr := h5 h6
            rcases List.eq_nil_or_concat a with rfl | ⟨p, z, rfl⟩
            · simp at hx
            · rw [List.concat_eq_append] at *
              simp at hx
              subst hx
              simp [hr] at h7)
        simpa [boundary] using this
      unfold clusters
      rw [clustersFrom_junction a [] [] (by simpa using hj)]
      congr 1
      have hs := (text_iff.1 hb).1 c (by simp)
      have hn : clusterGoesOn [] c = false := rfl
      simp only [List.append_nil, clustersFrom, hj, hn, Bool.false_eq_true, if_false, if_true, List.nil_append]
      have := clustersFrom_context (a := a) hs h1 (fun hr y hy => by rw [hx] at hy; cases hy; exact h5 hr) b [] [c]
      simpa using this

/-- C80: in particular after a newline, as between lines or between the texts that readers deliver. -/
theorem c80_newline (a b : List Char) (ha : isBasicText ucd15 a = true) (hb : isBasicText ucd15 b = true) (hn : a.getLast? = some '\n') :
    boundary a b = true := by
  cases b with
  | nil => rfl
  | cons c b =>
    have := (not_congr (c80_junction_iff a b c ha hb)).2 (by
      rintro ⟨y, hy, h6, -⟩
      rw [hn] at hy
      cases hy
      simp [isGcbControl] at h6)
    simpa using this

/-- Texts that are Basic Text, separately and together, and of which a grapheme cluster spans the junction: a text may begin with
U+034F; flags and Hangul syllables of leading consonants only. -/
theorem c80_refuted :
    (isBasicText ucd15 ['a'] = true ∧ isBasicText ucd15 [CGJ, 'b'] = true ∧ isBasicText ucd15 ['a', CGJ, 'b'] = true ∧
      clusters ['a', CGJ, 'b'] = [['a', CGJ], ['b']]) ∧
    (isBasicText ucd15 ['🇫'] = true ∧ isBasicText ucd15 ['🇷'] = true ∧ isBasicText ucd15 ['🇫', '🇷'] = true ∧
      clusters ['🇫', '🇷'] = [['🇫', '🇷']]) ∧
    (isBasicText ucd15 ['ᄀ'] = true ∧ isBasicText ucd15 ['ᄀ', 'ᄀ'] = true ∧ clusters ['ᄀ', 'ᄀ'] = [['ᄀ', 'ᄀ']]) ∧
    (isBasicText ucd15 ['࢐'] = true ∧ isBasicText ucd15 ['1'] = true ∧ isBasicText ucd15 ['࢐', '1'] = true ∧
      clusters ['࢐', '1'] = [['࢐', '1']]) := by decide +kernel

/-- An emoji sequence, a flag and Hangul before a text that begins with an emoji. -/
example : isBasicText ucd15 ['👩', '‍', '👧', 'e'] = true ∧ isBasicText ucd15 ['👧', '🇫', '🇷', '한'] = true ∧
    hangulPair 'e' '👧' = false ∧ isRI '👧' = false ∧
    clusters (['👩', '‍', '👧', 'e'] ++ ['👧', '🇫', '🇷', '한']) = [['👩', '‍', '👧'], ['e'], ['👧'], ['🇫', '🇷'], ['한']] := by decide +kernel

end Verif
