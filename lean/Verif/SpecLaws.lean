import Verif.TokenTheory

/-!
# Laws of the stream conversion
-/

namespace Verif
open Ucd Spec
variable {U : Ucd}

theorem dropBom_append {a : List Char} (h : a ≠ []) (b : List Char) : dropBom (a ++ b) = dropBom a ++ b := by
  cases a with
  | nil => exact absurd rfl h
  | cons c a =>
    simp only [dropBom, dropOne, List.cons_append]
    split <;> rfl

theorem dropBom_of_ne {s : List Char} (h : s.head? ≠ some BOM) : dropBom s = s := by
  cases s with
  | nil => rfl
  | cons c s =>
    simp only [List.head?_cons, ne_eq, Option.some.injEq] at h
    simp [dropBom, dropOne, h]

theorem Plain.dropBom {a : List Char} (h : Plain a) : Plain (dropBom a) := by
  cases a with
  | nil => exact h
  | cons c a =>
    simp only [Spec.dropBom, dropOne]
    split
    · exact h.tail
    · exact h

theorem translate_congr {nel lsps nel' lsps' : Bool} {s s' : List Char}
    (h : tokens finCan (single nel lsps) s = tokens finCan (single nel' lsps') s') : translate U nel lsps s = translate U nel' lsps' s' := by
  unfold translate
  rw [h]

theorem translate_toLF (nel lsps : Bool) {s : List Char} (h : ESC ∉ s) :
    translate U nel lsps (dropBom (toLF s)) = translate U nel lsps (dropBom s) := by
  have hd : dropBom (toLF s) = toLF (dropBom s) := by
    cases s with
    | nil => rfl
    | cons c s =>
      by_cases hc : c = BOM
      · subst hc
        rw [toLF_cons (by decide)]
        rfl
      · by_cases hr : c = '\r'
        · subst hr
          rw [toLF_cr, dropBom_of_ne (by simp; decide), dropBom_of_ne (by simp; decide), toLF_cr]
        · rw [toLF_cons hr, dropBom_of_ne (by simpa using hc), dropBom_of_ne (by simpa using hc), toLF_cons hr]
  rw [hd]
  apply translate_congr
  exact tokens_toLF _ _ (Nat.le_refl _) fun hc => h (mem_dropOne hc)

theorem form_toLF (nel lsps : Bool) {s : List Char} (h : ESC ∉ s) : form U nel lsps (toLF s) = form U nel lsps s := by
  unfold form
  rw [translate_toLF nel lsps h]

theorem tokens_ne_nil {fin : Char → Bool} {one : Char → Tok} : ∀ (n : Nat) (s : List Char), s.length ≤ n → s ≠ [] → tokens fin one s ≠ [] := by
  intro n
  induction n with
  | zero =>
    intro s hs h
    exact absurd (List.length_eq_zero_iff.1 (by omega)) h
  | succ n ih =>
    intro s hs h
    cases s with
    | nil => exact absurd rfl h
    | cons c r =>
      rw [tokens]
      split
      · simp
      split
      · simp
      split
      · simp only
        split
        · rename_i hh
          apply ih
          · have := dropWhile_le (· = FF) r
            simp only [List.length_cons] at hs
            omega
          · intro hc
            rw [hc] at hh
            simp at hh
        · simp
      split
      · simp
      · simp

theorem form_escape (nel lsps : Bool) {a e b : List Char} (ha : Plain a) (he : IsEscape e) (hb : b ≠ [])
    (hbom : a ≠ [] ∨ b.head? ≠ some BOM) : form U nel lsps (a ++ e ++ b) = form U nel lsps (a ++ b) := by
  obtain ⟨a', ha', h1, h2⟩ : ∃ a', Plain a' ∧ dropBom (a ++ e ++ b) = a' ++ (e ++ b) ∧ dropBom (a ++ b) = a' ++ b := by
    cases a with
    | nil =>
      refine ⟨[], ha, ?_, ?_⟩
      · rw [List.nil_append, List.nil_append, dropBom_of_ne]
        cases he <;> simp <;> decide
      · simp only [ne_eq, not_true_eq_false, false_or] at hbom
        rw [List.nil_append, dropBom_of_ne hbom]
    | cons c a =>
      exact ⟨dropBom (c :: a), ha.dropBom, by rw [List.append_assoc, dropBom_append (by simp)], dropBom_append (by simp) _⟩
  unfold form
  rw [h1, h2]
  unfold translate
  rw [tokens_append _ a' _ (Nat.le_refl _) ha', tokens_append _ a' _ (Nat.le_refl _) ha', tokens_escape he]
  have hne : tokens finCan (single nel lsps) b ≠ [] := tokens_ne_nil _ b (Nat.le_refl _) hb
  generalize tokens finCan (single nel lsps) a' = ta
  generalize tokens finCan (single nel lsps) b = tb at hne
  have hl : ∀ x : List Tok, (x ++ tb).getLast? = tb.getLast? := by
    intro x
    rw [List.getLast?_append]
    cases h : tb.getLast? with
    | none => exact absurd (List.getLast?_eq_none_iff.1 h) hne
    | some t => rfl
  have e1 : (ta ++ Tok.gone :: tb).flatMap Tok.out = (ta ++ tb).flatMap Tok.out := by simp [Tok.out]
  have e2 : (ta ++ Tok.gone :: tb).getLast? = (ta ++ tb).getLast? := by
    rw [hl, show ta ++ Tok.gone :: tb = (ta ++ [Tok.gone]) ++ tb by simp, hl]
  simp only [e1, e2]
  simp [hne]

/-- An escape sequence at the very end, after an ordinary scalar. -/
theorem form_escape_end (nel lsps : Bool) {a e : List Char} {c : Char} (ha : Plain (a ++ [c])) (hp : Plain a) (he : IsEscape e)
    (hc : c ≠ '\n' ∧ single nel lsps c ≠ .nl ∧ c ≠ BOM) : form U nel lsps (a ++ [c] ++ e) = form U nel lsps (a ++ [c]) := by
  have h1 : dropBom (a ++ [c] ++ e) = dropBom a ++ [c] ++ e := by
    cases a with
    | nil => rw [List.nil_append, dropBom_of_ne (by simpa using hc.2.2)]; rfl
    | cons x a => rw [List.append_assoc, dropBom_append (by simp), List.append_assoc]
  have h2 : dropBom (a ++ [c]) = dropBom a ++ [c] := by
    cases a with
    | nil => rw [List.nil_append, dropBom_of_ne (by simpa using hc.2.2)]; rfl
    | cons x a => rw [dropBom_append (by simp)]
  have hpc : Plain [c] := by
    refine ⟨?_, ?_, ?_⟩
    · intro h; exact ha.1 (by simp at h; simp [h])
    · simpa using ha.2.1
    · simpa using ha.2.2
  have hcc : tokens finCan (single nel lsps) [c] = [single nel lsps c] := by
    have i1 : c ≠ '\r' := by simpa using hpc.2.1
    have i2 : c ≠ FF := by simpa using hpc.2.2
    have i3 : c ≠ ESC := by intro h; exact hpc.1 (by simp [h])
    rw [tokens]
    simp [hc.1, i1, i2, i3, tokens]
  unfold form
  rw [h1, h2]
  unfold translate
  rw [List.append_assoc, tokens_append _ _ _ (Nat.le_refl _) hp.dropBom, tokens_append _ _ _ (Nat.le_refl _) hp.dropBom,
    tokens_append _ _ _ (Nat.le_refl _) hpc]
  have := tokens_escape (one := single nel lsps) he []
  rw [List.append_nil] at this
  rw [this, hcc]
  simp [tokens, Tok.out, hc.2.1]

theorem tokens_congr {fin : Char → Bool} {one one' : Char → Tok} : ∀ (n : Nat) (s : List Char), s.length ≤ n →
    (∀ c ∈ s, one c = one' c) → tokens fin one s = tokens fin one' s := by
  intro n
  induction n with
  | zero =>
    intro s hs h
    have : s = [] := List.length_eq_zero_iff.1 (by omega)
    subst this; simp [tokens]
  | succ n ih =>
    intro s hs h
    cases s with
    | nil => simp [tokens]
    | cons c r =>
      simp only [List.length_cons] at hs
      have hr : ∀ d ∈ r, one d = one' d := fun d hd => h d (by simp [hd])
      have l1 := dropOne_le (· = '\n') r
      have l2 := dropWhile_le (· = FF) r
      have l3 := afterEsc_le fin (r.dropWhile (· = ESC))
      have l4 := dropWhile_le (· = ESC) r
      rw [tokens, tokens.eq_2, ih r (by omega) hr, ih (dropOne (· = '\n') r) (by omega) fun d hd => hr d (mem_dropOne hd),
        ih (afterEsc fin (r.dropWhile (· = ESC))) (by omega) fun d hd => hr d (mem_dropWhile (mem_afterEsc hd)), h c (by simp)]
      have e := ih (r.dropWhile (· = FF)) (by omega) fun d hd => hr d (mem_dropWhile hd)
      simp only [e]

/-- The modes make no difference to content without the scalars they are about. -/
theorem form_modes {nel lsps nel' lsps' : Bool} {s : List Char} (h1 : nel ≠ nel' → NEL ∉ s) (h2 : lsps ≠ lsps' → LS ∉ s ∧ PS ∉ s) :
    form U nel lsps s = form U nel' lsps' s := by
  unfold form
  apply translate_congr
  apply tokens_congr _ _ (Nat.le_refl _)
  intro c hc
  have hc := mem_dropOne hc
  have hne : nel ≠ nel' → c ≠ NEL := fun h => by rintro rfl; exact h1 h hc
  have hnl : lsps ≠ lsps' → c ≠ LS ∧ c ≠ PS := fun h => ⟨by rintro rfl; exact (h2 h).1 hc, by rintro rfl; exact (h2 h).2 hc⟩
  unfold single
  congr 1
  cases nel <;> cases nel' <;> cases lsps <;> cases lsps' <;> simp_all

theorem tokens_one {fin : Char → Bool} {one : Char → Tok} {c : Char} (h1 : c ≠ '\n') (h2 : c ≠ '\r') (h3 : c ≠ FF) (h4 : c ≠ ESC) (b : List Char) :
    tokens fin one (c :: b) = one c :: tokens fin one b := by
  rw [tokens]
  simp [h1, h2, h3, h4]

/-- Exchanging a scalar for another one that stands for the same. -/
theorem form_exchange {nel lsps : Bool} {a b : List Char} (ha : Plain a) {c d : Char} (hc : c ≠ BOM) (hd : d ≠ BOM)
    (h : ∀ r, tokens finCan (single nel lsps) (c :: r) = tokens finCan (single nel lsps) (d :: r)) :
    form U nel lsps (a ++ c :: b) = form U nel lsps (a ++ d :: b) := by
  have hx : ∀ x : Char, x ≠ BOM → dropBom (a ++ x :: b) = dropBom a ++ x :: b := by
    intro x hx
    cases a with
    | nil => rw [List.nil_append, dropBom_of_ne (by simpa using hx)]; rfl
    | cons y a => rw [dropBom_append (by simp)]
  unfold form
  rw [hx c hc, hx d hd]
  apply translate_congr
  rw [tokens_append _ _ _ (Nat.le_refl _) ha.dropBom, tokens_append _ _ _ (Nat.le_refl _) ha.dropBom, h b]

theorem tokens_nl {fin : Char → Bool} {one : Char → Tok} (b : List Char) : tokens fin one ('\n' :: b) = .nl :: tokens fin one b := by
  rw [tokens, if_pos rfl]

theorem form_nel_newline (lsps : Bool) {a : List Char} (ha : Plain a) (b : List Char) :
    form U true lsps (a ++ NEL :: b) = form U true lsps (a ++ '\n' :: b) := by
  apply form_exchange ha (by decide) (by decide)
  intro r
  rw [tokens_one (by decide) (by decide) (by decide) (by decide), tokens_nl]
  simp [single]

theorem form_nel_space (lsps : Bool) {a : List Char} (ha : Plain a) (b : List Char) :
    form U false lsps (a ++ NEL :: b) = form U false lsps (a ++ ' ' :: b) := by
  apply form_exchange ha (by decide) (by decide)
  intro r
  rw [tokens_one (by decide) (by decide) (by decide) (by decide), tokens_one (by decide) (by decide) (by decide) (by decide)]
  congr 1
  cases lsps <;> decide +kernel

theorem form_lsps_newline (nel : Bool) {a : List Char} (ha : Plain a) (b : List Char) {c : Char} (hc : c = LS ∨ c = PS) :
    form U nel true (a ++ c :: b) = form U nel true (a ++ '\n' :: b) := by
  have hn : c ≠ '\n' ∧ c ≠ '\r' ∧ c ≠ FF ∧ c ≠ ESC ∧ c ≠ BOM := by rcases hc with rfl | rfl <;> decide
  apply form_exchange ha hn.2.2.2.2 (by decide)
  intro r
  rw [tokens_one hn.1 hn.2.1 hn.2.2.1 hn.2.2.2.1, tokens_nl]
  simp [single, hc]

theorem form_lsps_space (nel : Bool) {a : List Char} (ha : Plain a) (b : List Char) {c : Char} (hc : c = LS ∨ c = PS) :
    form U nel false (a ++ c :: b) = form U nel false (a ++ ' ' :: b) := by
  have hn : c ≠ '\n' ∧ c ≠ '\r' ∧ c ≠ FF ∧ c ≠ ESC ∧ c ≠ BOM := by rcases hc with rfl | rfl <;> decide
  apply form_exchange ha hn.2.2.2.2 (by decide)
  intro r
  rw [tokens_one hn.1 hn.2.1 hn.2.2.1 hn.2.2.2.1, tokens_one (by decide) (by decide) (by decide) (by decide)]
  congr 1
  rcases hc with rfl | rfl <;> cases nel <;> decide +kernel

/-- A second byte-order mark stands for a word joiner. -/
theorem form_second_bom (nel lsps : Bool) (s : List Char) : form U nel lsps (BOM :: BOM :: s) = form U nel lsps (WJ :: s) := by
  unfold form
  have h1 : dropBom (BOM :: BOM :: s) = BOM :: s := rfl
  have h2 : dropBom (WJ :: s) = WJ :: s := rfl
  rw [h1, h2]
  apply translate_congr
  rw [tokens_one (by decide) (by decide) (by decide) (by decide), tokens_one (by decide) (by decide) (by decide) (by decide)]
  congr 1
  cases nel <;> cases lsps <;> decide +kernel

theorem form_bom (nel lsps : Bool) {s : List Char} (h : s.head? ≠ some BOM) : form U nel lsps (BOM :: s) = form U nel lsps s := by
  unfold form
  rw [dropBom_of_ne h]
  rfl

end Verif
