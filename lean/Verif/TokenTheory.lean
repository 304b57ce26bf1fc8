import Verif.ReaderSpec

/-!
# Laws of the translation
-/

namespace Verif
open Ucd Spec
variable {U : Ucd}

theorem mem_dropOne {p : Char → Bool} {s : List Char} {x : Char} (h : x ∈ dropOne p s) : x ∈ s := by
  unfold dropOne at h
  split at h
  · split at h
    · exact List.mem_cons_of_mem _ h
    · exact h
  · exact h

theorem mem_dropWhile {p : Char → Bool} {s : List Char} {x : Char} (h : x ∈ s.dropWhile p) : x ∈ s :=
  (List.dropWhile_sublist p).subset h

theorem mem_afterEsc {fin : Char → Bool} {s : List Char} {x : Char} (h : x ∈ afterEsc fin s) : x ∈ s := by
  unfold afterEsc at h
  split at h
  · have := mem_dropOne h; simp [this]
  · have := mem_dropWhile (mem_dropOne h); simp [this]
  · have := mem_dropWhile (mem_dropOne h); simp [this]
  · exact mem_dropOne h

/-- Where the items come from. -/
theorem mem_tokens {fin : Char → Bool} {one : Char → Tok} : ∀ (n : Nat) (s : List Char), s.length ≤ n → ∀ t ∈ tokens fin one s,
    t = .nl ∨ t = .text [' '] ∨ t = .gone ∨ ∃ c ∈ s, c ≠ ESC ∧ t = one c := by
  intro n
  induction n with
  | zero =>
    intro s hs t ht
    have : s = [] := List.length_eq_zero_iff.1 (by omega)
    subst this
    simp [tokens] at ht
  | succ n ih =>
    intro s hs t ht
    have sub : ∀ s' : List Char, s'.length ≤ n → (∀ x ∈ s', x ∈ s) → t ∈ tokens fin one s' →
        t = .nl ∨ t = .text [' '] ∨ t = .gone ∨ ∃ c ∈ s, c ≠ ESC ∧ t = one c := by
      intro s' h1 h2 h3
      rcases ih s' h1 t h3 with h | h | h | ⟨c, hc, h⟩
      · exact Or.inl h
      · exact Or.inr (Or.inl h)
      · exact Or.inr (Or.inr (Or.inl h))
      · exact Or.inr (Or.inr (Or.inr ⟨c, h2 c hc, h⟩))
    cases s with
    | nil => simp [tokens] at ht
    | cons c r =>
      simp only [List.length_cons] at hs
      rw [tokens] at ht
      split at ht
      · rcases List.mem_cons.1 ht with rfl | ht
        · exact Or.inl rfl
        · exact sub r (by omega) (fun x hx => by simp [hx]) ht
      split at ht
      · rcases List.mem_cons.1 ht with rfl | ht
        · exact Or.inl rfl
        · have := dropOne_le (· = '\n') r
          exact sub _ (by omega) (fun x hx => by simp [mem_dropOne hx]) ht
      split at ht
      · have := dropWhile_le (· = FF) r
        simp only at ht
        split at ht
        · exact sub _ (by omega) (fun x hx => by simp [mem_dropWhile hx]) ht
        · rcases List.mem_cons.1 ht with rfl | ht
          · exact Or.inr (Or.inl rfl)
          · exact sub _ (by omega) (fun x hx => by simp [mem_dropWhile hx]) ht
      split at ht
      · rcases List.mem_cons.1 ht with rfl | ht
        · exact Or.inr (Or.inr (Or.inl rfl))
        · have h1 := afterEsc_le fin (r.dropWhile (· = ESC))
          have h2 := dropWhile_le (· = ESC) r
          exact sub _ (by omega) (fun x hx => by simp [mem_dropWhile (mem_afterEsc hx)]) ht
      · rename_i hesc
        rcases List.mem_cons.1 ht with rfl | ht
        · exact Or.inr (Or.inr (Or.inr ⟨c, by simp, hesc, rfl⟩))
        · exact sub r (by omega) (fun x hx => by simp [hx]) ht

/-- The text of the items: newlines, spaces, and replacements of scalars of the content. -/
theorem mem_body {fin : Char → Bool} {nel lsps : Bool} {s : List Char} {x : Char}
    (h : x ∈ (tokens fin (single nel lsps) s).flatMap Tok.out) : x = '\n' ∨ x = ' ' ∨ ∃ c ∈ s, c ≠ ESC ∧ x ∈ replace c := by
  obtain ⟨t, ht, hx⟩ := List.mem_flatMap.1 h
  rcases mem_tokens _ s (Nat.le_refl _) t ht with rfl | rfl | rfl | ⟨c, hc, he, rfl⟩
  · left; simpa [Tok.out] using hx
  · right; left; simpa [Tok.out] using hx
  · simp [Tok.out] at hx
  · unfold single at hx
    split at hx
    · left; simpa [Tok.out] using hx
    · right; right; exact ⟨c, hc, he, by simpa [Tok.out] using hx⟩

theorem guardStart_cases (U : Ucd) (s : List Char) : guardStart U s = s ∨ ∃ c r, s = c :: r ∧ isStart U c = false ∧ guardStart U s = CGJ :: s := by
  unfold guardStart
  split
  · split
    · exact Or.inl rfl
    · rename_i h; exact Or.inr ⟨_, _, rfl, by simpa using h, rfl⟩
  · exact Or.inl rfl

/-- CGJ and '\n' at the end do no harm. -/
theorem NoCgjUn.tail {s t : List Char} (hs : NoCgjUn U s) (ht : ∀ c ∈ t, isAssigned U c = true) : NoCgjUn U (s ++ t) := by
  intro a c b h
  rw [List.append_eq_append_iff] at h
  rcases h with ⟨x, rfl, h2⟩ | ⟨x, rfl, h2⟩
  · exact ht c (by rw [h2]; simp)
  · cases x with
    | nil => exact ht c (by simp at h2; rw [← h2]; simp)
    | cons d x =>
      simp only [List.cons_append, List.cons.injEq] at h2
      obtain ⟨rfl, h2⟩ := h2
      cases x with
      | nil => exact ht c (by simp at h2; rw [← h2]; simp)
      | cons e x =>
        simp only [List.cons_append, List.cons.injEq] at h2
        obtain ⟨rfl, h2⟩ := h2
        exact hs a c x rfl

/-- The text added around the items does no harm either. -/
theorem noCgjUn_translate_of (hU : TextLaws U) {nel lsps : Bool} {s : List Char}
    (h : NoCgjUn U ((tokens finCan (single nel lsps) s).flatMap Tok.out)) : NoCgjUn U (translate U nel lsps s) := by
  have hC : isAssigned U CGJ = true := by simp [isAssigned, hU.assigned_cgj]
  have hN : isAssigned U '\n' = true := by simp [isAssigned, hU.assigned_ascii '\n' (by decide)]
  generalize hb : (tokens finCan (single nel lsps) s).flatMap Tok.out = body at h
  have hgs : NoCgjUn U (guardStart U body) := by
    rcases guardStart_cases U body with e | ⟨c, r, e1, e2, e3⟩
    · rw [e]; exact h
    · rw [e3]
      intro a d b he
      cases a with
      | nil =>
        simp only [List.nil_append, List.cons.injEq, true_and] at he
        rw [e1] at he
        simp only [List.cons.injEq] at he
        rw [← he.1]
        cases ha : U.assigned c with
        | true => simp [isAssigned, ha]
        | false => rw [hU.start_unassigned c ha] at e2; simp at e2
      | cons x a =>
        simp only [List.cons_append, List.cons.injEq] at he
        exact h a d b he.2
  have hge : NoCgjUn U (guardEnd (guardStart U body)) := by
    rw [guardEnd_eq]
    apply hgs.tail
    intro c hc
    rw [endGuard_fine _ c hc]; exact hC
  unfold translate
  simp only [hb]
  split
  · exact hge
  · exact hge.tail (by simpa using hN)

/-- The condition under which the way the source is split does not matter holds whenever the content has no
unassigned scalar, or no CGJ. -/
theorem noCgjUn_translate (hU : TextLaws U) {nel lsps : Bool} {s : List Char}
    (h : (∀ c ∈ s, isAssigned U c = true) ∨ CGJ ∉ s) : NoCgjUn U (translate U nel lsps s) := by
  have hN : isAssigned U '\n' = true := by simp [isAssigned, hU.assigned_ascii '\n' (by decide)]
  have hS : isAssigned U ' ' = true := by simp [isAssigned, hU.assigned_ascii ' ' (by decide)]
  apply noCgjUn_translate_of hU
  generalize hb : (tokens finCan (single nel lsps) s).flatMap Tok.out = body
  intro a c b he
  have hc : c ∈ body := by rw [he]; simp
  have hg : CGJ ∈ body := by rw [he]; simp
  rw [← hb] at hc hg
  rcases mem_body hc with rfl | rfl | ⟨d, hd, -, hc⟩
  · exact hN
  · exact hS
  · rcases hU.repl_assigned d c hc with rfl | ⟨hc, -⟩
    · rcases h with h | h
      · exact h c hd
      · exfalso
        rcases mem_body hg with hg | hg | ⟨e, he, -, hg⟩
        · revert hg; decide
        · revert hg; decide
        · rcases hU.repl_assigned e CGJ hg with rfl | ⟨-, hg⟩
          · exact h he
          · exact hg rfl
    · simp [isAssigned, hc]

/-- Deciding it. -/
def noPair (U : Ucd) : List Char → Bool
  | c :: d :: r => (c != CGJ || isAssigned U d) && noPair U (d :: r)
  | _ => true

theorem NoCgjUn.of_bool {s : List Char} (h : noPair U s = true) : NoCgjUn U s := by
  intro a
  induction a generalizing s with
  | nil =>
    intro c b e
    subst e
    simp [noPair] at h
    exact h.1
  | cons x a ih =>
    intro c b e
    subst e
    refine ih (s := a ++ CGJ :: c :: b) ?_ c b rfl
    cases a with
    | nil => simp only [List.cons_append, List.nil_append] at h ⊢; rw [noPair, Bool.and_eq_true] at h; exact h.2
    | cons y a => simp only [List.cons_append] at h ⊢; rw [noPair, Bool.and_eq_true] at h; exact h.2

theorem clear_of (hU : TextLaws U) {nel lsps : Bool} {s : List Char} (h : (∀ c ∈ s, isAssigned U c = true) ∨ CGJ ∉ s) : Clear U nel lsps s := by
  apply noCgjUn_translate hU
  rcases h with h | h
  · exact Or.inl fun c hc => h c (mem_dropOne hc)
  · exact Or.inr fun hc => h (mem_dropOne hc)

/-- Without ESC it is enough that the content itself has no such pair. -/
theorem clear_raw (hU : TextLaws U) {nel lsps : Bool} {s : List Char} (he : ESC ∉ s)
    (h : ∀ a c b, s = a ++ CGJ :: c :: b → isAssigned U c = true) : Clear U nel lsps s := by
  apply noCgjUn_translate_of hU
  have hN : isAssigned U '\n' = true := by simp [isAssigned, hU.assigned_ascii '\n' (by decide)]
  have hS : isAssigned U ' ' = true := by simp [isAssigned, hU.assigned_ascii ' ' (by decide)]
  have key : ∀ (n : Nat) (s : List Char), s.length ≤ n → ESC ∉ s → NoCgjUn U s →
      NoCgjUn U ((tokens finCan (single nel lsps) s).flatMap Tok.out) ∧
      ∀ c ∈ ((tokens finCan (single nel lsps) s).flatMap Tok.out).head?, isAssigned U c = false → s.head? = some c := by
    -- one more item in front
    have one : ∀ (d : Char) (o : List Char) (r r' : List Char), o ≠ [] → (∀ x ∈ o, x = d ∨ (isAssigned U x = true ∧ x ≠ CGJ)) →
        (NoCgjUn U r' ∧ ∀ c ∈ r'.head?, isAssigned U c = false → d = CGJ → r.head? = some c) → NoCgjUn U (d :: r) →
        NoCgjUn U (o ++ r') ∧ ∀ c ∈ (o ++ r').head?, isAssigned U c = false → (d :: r).head? = some c := by
      intro d o r r' ho hm hr hd
      refine ⟨?_, ?_⟩
      · intro a c b hh
        cases hc : isAssigned U c with
        | true => rfl
        | false =>
          exfalso
          have hC : isAssigned U CGJ = true := by simp [isAssigned, hU.assigned_cgj]
          rw [List.append_eq_append_iff] at hh
          have fromO : CGJ ∈ o → c ∈ o → False := by
            intro h1 h2
            rcases hm _ h1 with e | e
            · rcases hm _ h2 with e' | e'
              · rw [e', ← e, hC] at hc; simp at hc
              · rw [e'.1] at hc; simp at hc
            · exact e.2 rfl
          rcases hh with ⟨x, h1, h2⟩ | ⟨x, h1, h2⟩
          · have := hr.1 x c b h2
            rw [this] at hc; simp at hc
          · cases x with
            | nil =>
              have := hr.1 [] c b (by simpa using h2.symm)
              rw [this] at hc; simp at hc
            | cons e x =>
              simp only [List.cons_append, List.cons.injEq] at h2
              obtain ⟨rfl, h2⟩ := h2
              cases x with
              | nil =>
                simp only [List.nil_append] at h2
                have hd' : d = CGJ := by
                  rcases hm CGJ (by rw [h1]; simp) with e | e
                  · exact e.symm
                  · exact absurd rfl e.2
                have h3 := hr.2 c (by rw [← h2]; simp) hc hd'
                cases r with
                | nil => simp at h3
                | cons y r =>
                  simp at h3
                  have := hd [] c r (by rw [hd', h3]; rfl)
                  rw [this] at hc; simp at hc
              | cons y x =>
                simp only [List.cons_append, List.cons.injEq] at h2
                exact fromO (by rw [h1]; simp) (by rw [h1, h2.1]; simp)
      · intro c hc ha
        cases o with
        | nil => exact absurd rfl ho
        | cons x o =>
          simp at hc
          subst hc
          rcases hm x (by simp) with e | e
          · simp [e]
          · rw [e.1] at ha; simp at ha
    intro n
    induction n with
    | zero =>
      intro s hs _ _
      have : s = [] := List.length_eq_zero_iff.1 (by omega)
      subst this
      simp [tokens, NoCgjUn]
    | succ n ih =>
      intro s hs he hn
      cases s with
      | nil => simp [tokens, NoCgjUn]
      | cons d r =>
        simp only [List.length_cons] at hs
        have he' : ESC ∉ r := fun hm => he (by simp [hm])
        have hn' : NoCgjUn U r := NoCgjUn.suffix (x := [d]) hn
        have sfx : ∀ x y, r = x ++ y → NoCgjUn U y := fun x y e => NoCgjUn.suffix (x := x) (e ▸ hn')
        have hnl : ∀ x ∈ ['\n'], x = d ∨ (isAssigned U x = true ∧ x ≠ CGJ) := by
          intro x hx; simp at hx; subst hx; exact Or.inr ⟨hN, by decide⟩
        have hsp : ∀ x ∈ [' '], x = d ∨ (isAssigned U x = true ∧ x ≠ CGJ) := by
          intro x hx; simp at hx; subst hx; exact Or.inr ⟨hS, by decide⟩
        rw [tokens]
        split
        · rename_i hd
          obtain ⟨i1, i2⟩ := ih r (by omega) he' hn'
          simp only [List.flatMap_cons]
          exact one d ['\n'] r _ (by simp) hnl ⟨i1, fun c hc ha hd' => absurd (hd.symm.trans hd') (by decide)⟩ hn
        split
        · rename_i hd
          obtain ⟨x, hx⟩ : ∃ x, r = x ++ dropOne (· = '\n') r := by
            cases r with
            | nil => exact ⟨[], rfl⟩
            | cons y r =>
              by_cases hy : y = '\n'
              · exact ⟨[y], by simp [dropOne, hy]⟩
              · exact ⟨[], by simp [dropOne, hy]⟩
          have hl := dropOne_le (· = '\n') r
          obtain ⟨i1, i2⟩ := ih (dropOne (· = '\n') r) (by omega) (fun hm => he' (mem_dropOne hm)) (sfx _ _ hx)
          simp only [List.flatMap_cons]
          exact one d ['\n'] r _ (by simp) hnl ⟨i1, fun c hc ha hd' => absurd (hd.symm.trans hd') (by decide)⟩ hn
        split
        · rename_i hd
          have hx : r = r.takeWhile (· = FF) ++ r.dropWhile (· = FF) := (List.takeWhile_append_dropWhile).symm
          have hl := dropWhile_le (· = FF) r
          obtain ⟨i1, i2⟩ := ih (r.dropWhile (· = FF)) (by omega) (fun hm => he' (mem_dropWhile hm)) (sfx _ _ hx)
          simp only
          split
          · rename_i hh
            refine ⟨i1, fun c hc ha => ?_⟩
            rw [i2 c hc ha] at hh
            simp only [Option.some.injEq] at hh
            rcases hh with rfl | rfl
            · rw [hN] at ha; simp at ha
            · simp [isAssigned, hU.assigned_ascii '\r' (by decide)] at ha
          · simp only [List.flatMap_cons]
            exact one d [' '] r _ (by simp) hsp ⟨i1, fun c hc ha hd' => absurd (hd.symm.trans hd') (by decide)⟩ hn
        split
        · rename_i hd; exact absurd (by simp [hd]) he
        · obtain ⟨i1, i2⟩ := ih r (by omega) he' hn'
          simp only [List.flatMap_cons]
          have i2' : ∀ c ∈ ((tokens finCan (single nel lsps) r).flatMap Tok.out).head?, isAssigned U c = false → d = CGJ → r.head? = some c :=
            fun c hc ha _ => i2 c hc ha
          unfold single
          split
          · exact one d ['\n'] r _ (by simp) hnl ⟨i1, i2'⟩ hn
          · refine one d (replace d) r _ (replace_ne_nil d) ?_ ⟨i1, i2'⟩ hn
            intro x hx
            rcases hU.repl_assigned d x hx with e | e
            · exact Or.inl e
            · exact Or.inr ⟨by simp [isAssigned, e.1], e.2⟩
  have hs : ∃ x, s = x ++ dropBom s := by
    cases s with
    | nil => exact ⟨[], rfl⟩
    | cons d r =>
      simp only [dropBom, dropOne]
      split
      · exact ⟨[d], rfl⟩
      · exact ⟨[], rfl⟩
  obtain ⟨x, hx⟩ := hs
  refine (key _ (dropBom s) (Nat.le_refl _) (fun hm => he (mem_dropOne hm)) (NoCgjUn.suffix (x := x) ?_)).1
  rw [← hx]; exact h

/-! ## Ordinary text in front -/

/-- No ESC, and neither CR nor FF at the end: whatever follows is treated as at the start of a text. -/
def Plain (a : List Char) : Prop := ESC ∉ a ∧ a.getLast? ≠ some '\r' ∧ a.getLast? ≠ some FF

theorem getLast?_cons_ne {c : Char} {r : List Char} {x : Char} (h : (c :: r).getLast? ≠ some x) : r.getLast? ≠ some x := by
  rw [List.getLast?_cons] at h
  intro hc
  rw [hc] at h
  simp at h

theorem Plain.tail {c : Char} {r : List Char} (h : Plain (c :: r)) : Plain r :=
  ⟨fun hc => h.1 (by simp [hc]), getLast?_cons_ne h.2.1, getLast?_cons_ne h.2.2⟩

theorem Plain.dropWhile {p : Char → Bool} {r : List Char} (h : Plain r) : Plain (r.dropWhile p) := by
  induction r with
  | nil => exact h
  | cons c r ih =>
    rw [List.dropWhile_cons]
    split
    · exact ih h.tail
    · exact h

theorem Plain.dropWhile_ne_nil {r : List Char} (h : Plain r) (hr : r ≠ []) : r.dropWhile (· = FF) ≠ [] := by
  intro hc
  rcases List.eq_nil_or_concat r with rfl | ⟨r', c, rfl⟩
  · exact hr rfl
  · rw [List.concat_eq_append] at hc h
    have hall : ∀ l : List Char, l.dropWhile (· = FF) = [] → ∀ x ∈ l, x = FF := by
      intro l
      induction l with
      | nil => simp
      | cons d l ih =>
        intro h
        rw [List.dropWhile_cons] at h
        split at h
        · rename_i hd
          intro x hx
          rcases List.mem_cons.1 hx with rfl | hx
          · simpa using hd
          · exact ih h x hx
        · simp at h
    have hcf : c = FF := hall _ hc c (by simp)
    exact h.2.2 (by simp [hcf])

theorem dropWhile_append_ne {p : Char → Bool} {a b : List Char} (h : a.dropWhile p ≠ []) :
    (a ++ b).dropWhile p = a.dropWhile p ++ b := by
  induction a with
  | nil => simp at h
  | cons c a ih =>
    simp only [List.cons_append, List.dropWhile_cons] at h ⊢
    split
    · rename_i hc; rw [if_pos hc] at h; exact ih h
    · rfl

/-- Items of ordinary text followed by anything. -/
theorem tokens_append {fin : Char → Bool} {one : Char → Tok} : ∀ (n : Nat) (a b : List Char), a.length ≤ n → Plain a →
    tokens fin one (a ++ b) = tokens fin one a ++ tokens fin one b := by
  intro n
  induction n with
  | zero =>
    intro a b hs _
    have : a = [] := List.length_eq_zero_iff.1 (by omega)
    subst this
    simp [tokens]
  | succ n ih =>
    intro a b hs hp
    cases a with
    | nil => simp [tokens]
    | cons c r =>
      simp only [List.length_cons] at hs
      rw [List.cons_append, tokens, tokens.eq_2]
      have hr := hp.tail
      by_cases h1 : c = '\n'
      · rw [if_pos h1, if_pos h1, ih r b (by omega) hr]; rfl
      rw [if_neg h1, if_neg h1]
      by_cases h2 : c = '\r'
      · rw [if_pos h2, if_pos h2]
        have hne : r ≠ [] := by
          rintro rfl
          exact hp.2.1 (by simp [h2])
        cases r with
        | nil => exact absurd rfl hne
        | cons d r =>
          simp only [List.length_cons] at hs
          by_cases hd : d = '\n'
          · simp only [List.cons_append, dropOne, hd, decide_true, if_true]
            rw [ih r b (by omega) hr.tail]
          · simp only [List.cons_append, dropOne, hd, decide_false, Bool.false_eq_true, if_false]
            rw [← List.cons_append, ih (d :: r) b (by simp; omega) hr]
      rw [if_neg h2, if_neg h2]
      by_cases h3 : c = FF
      · rw [if_pos h3, if_pos h3]
        have hne : r ≠ [] := by
          rintro rfl
          exact hp.2.2 (by simp [h3])
        have hd := hr.dropWhile_ne_nil hne
        have hl := dropWhile_le (· = FF) r
        simp only
        rw [dropWhile_append_ne hd, head?_append_ne hd, ih _ b (by omega) hr.dropWhile]
        split <;> rfl
      rw [if_neg h3, if_neg h3]
      have h4 : c ≠ ESC := fun hc => hp.1 (by simp [hc])
      rw [if_neg h4, if_neg h4, ih r b (by omega) hr]; rfl

/-! ## Newline forms -/

/-- CRLF and lone CR replaced by LF. -/
def toLF : List Char → List Char
  | '\r' :: '\n' :: r => '\n' :: toLF r
  | '\r' :: r => '\n' :: toLF r
  | c :: r => c :: toLF r
  | [] => []

theorem toLF_cr (r : List Char) : toLF ('\r' :: r) = '\n' :: toLF (dropOne (· = '\n') r) := by
  cases r with
  | nil => rfl
  | cons c r =>
    by_cases h : c = '\n'
    · subst h; rfl
    · rw [dropOne, if_neg (by simp [h])]
      rw [toLF]
      intro r' hr; simp at hr; exact h hr.1

theorem toLF_cons {c : Char} (h : c ≠ '\r') (r : List Char) : toLF (c :: r) = c :: toLF r := by
  rw [toLF]
  · intro r' hr; exact absurd hr h
  · intro hr; exact absurd hr h

theorem toLF_dropWhile (r : List Char) : (toLF r).dropWhile (· = FF) = toLF (r.dropWhile (· = FF)) := by
  induction r with
  | nil => rfl
  | cons c r ih =>
    by_cases h : c = '\r'
    · subst h
      rw [toLF_cr, List.dropWhile_cons, if_neg (by decide), List.dropWhile_cons, if_neg (by decide), toLF_cr]
    · rw [toLF_cons h, List.dropWhile_cons, List.dropWhile_cons]
      split
      · exact ih
      · rw [toLF_cons h]

theorem toLF_head (r : List Char) : ((toLF r).head? = some '\n' ∨ (toLF r).head? = some '\r') ↔ (r.head? = some '\n' ∨ r.head? = some '\r') := by
  cases r with
  | nil => simp [toLF]
  | cons c r =>
    by_cases h : c = '\r'
    · subst h; rw [toLF_cr]; simp
    · rw [toLF_cons h]; simp

theorem tokens_toLF {fin : Char → Bool} {one : Char → Tok} : ∀ (n : Nat) (s : List Char), s.length ≤ n → ESC ∉ s →
    tokens fin one (toLF s) = tokens fin one s := by
  intro n
  induction n with
  | zero =>
    intro s hs _
    have : s = [] := List.length_eq_zero_iff.1 (by omega)
    subst this; rfl
  | succ n ih =>
    intro s hs he
    cases s with
    | nil => rfl
    | cons c r =>
      simp only [List.length_cons] at hs
      have her : ESC ∉ r := fun h => he (by simp [h])
      by_cases h2 : c = '\r'
      · subst h2
        have := dropOne_le (· = '\n') r
        rw [toLF_cr, tokens, if_pos rfl, tokens.eq_2, if_neg (by decide), if_pos rfl,
          ih _ (by omega) fun h => her (mem_dropOne h)]
      rw [toLF_cons h2, tokens, tokens.eq_2, ih r (by omega) her, toLF_dropWhile]
      have := dropWhile_le (· = FF) r
      have e := ih (r.dropWhile (· = FF)) (by omega) fun h => her (mem_dropWhile h)
      have h4 : c ≠ ESC := fun hc => he (by simp [hc])
      simp only [if_neg h2, if_neg h4, toLF_head, e]

/-! ## Escape sequences -/

/-- A complete escape sequence: CSI with parameters and final, OSC with text and terminator, Linux
function key, or a two-character sequence. -/
inductive IsEscape : List Char → Prop
  | csi (ps : List Char) (f : Char) : (∀ c ∈ ps, param c = true) → final f = true → (ps = [] → f ≠ '[') →
      IsEscape (ESC :: '[' :: ps ++ [f])
  | osc (ps : List Char) (f : Char) : (∀ c ∈ ps, oscText c = true) → f = BEL ∨ f = CAN → IsEscape (ESC :: ']' :: ps ++ [f])
  | linux (f : Char) : within 0 0x7f f = true → IsEscape [ESC, '[', '[', f]
  | two (f : Char) : final f = true → f ≠ '[' → f ≠ ']' → IsEscape [ESC, f]

theorem dropWhile_all_append {p : Char → Bool} {ps : List Char} (h : ∀ c ∈ ps, p c = true) {f : Char} (hf : p f = false) (b : List Char) :
    (ps ++ f :: b).dropWhile p = f :: b := by
  induction ps with
  | nil => simp [hf]
  | cons c ps ih =>
    rw [List.cons_append, List.dropWhile_cons, if_pos (h c (by simp))]
    exact ih fun d hd => h d (by simp [hd])

theorem final_not_param {f : Char} (h : final f = true) : param f = false := by
  simp only [final, param, within, decide_eq_true_eq, decide_eq_false_iff_not] at *
  omega

theorem tokens_escape {one : Char → Tok} {e : List Char} (h : IsEscape e) (b : List Char) :
    tokens finCan one (e ++ b) = .gone :: tokens finCan one b := by
  have key : ∀ (r : List Char), r.head? ≠ some ESC → afterEsc finCan r = b → tokens finCan one (ESC :: r) = .gone :: tokens finCan one b := by
    intro r h1 h2
    rw [tokens, if_neg (by decide), if_neg (by decide), if_neg (by decide), if_pos rfl]
    have : r.dropWhile (· = ESC) = r := by
      cases r with
      | nil => rfl
      | cons c r =>
        simp at h1
        rw [List.dropWhile_cons, if_neg (by simp [h1])]
    rw [this, h2]
  cases h with
  | csi ps f h1 h2 h3 =>
    rw [show (ESC :: '[' :: ps ++ [f]) ++ b = ESC :: ('[' :: (ps ++ f :: b)) by simp]
    apply key
    · simp only [List.head?_cons]; decide
    · have hne : ∀ r, ps ++ f :: b ≠ '[' :: r := by
        intro r hc
        cases ps with
        | nil => simp at hc; exact h3 rfl hc.1
        | cons p ps =>
          simp at hc
          have := h1 p (by simp)
          rw [hc.1] at this
          revert this; decide
      have : afterEsc finCan ('[' :: (ps ++ f :: b)) = dropOne finCan ((ps ++ f :: b).dropWhile param) := by
        unfold afterEsc
        split
        · rename_i heq; simp at heq; exact absurd heq (hne _)
        · rename_i heq; simp at heq; rw [heq]
        · rename_i heq; simp at heq
        · rename_i h1 h2; exact absurd rfl (h1 _)
      rw [this, dropWhile_all_append h1 (final_not_param h2), dropOne, if_pos (by simp [finCan, h2])]
  | osc ps f h1 h2 =>
    rw [show (ESC :: ']' :: ps ++ [f]) ++ b = ESC :: (']' :: (ps ++ f :: b)) by simp]
    apply key
    · simp only [List.head?_cons]; decide
    · have : afterEsc finCan (']' :: (ps ++ f :: b)) = dropOne (fun c => c = BEL ∨ c = CAN) ((ps ++ f :: b).dropWhile oscText) := rfl
      rw [this, dropWhile_all_append h1 (by rcases h2 with rfl | rfl <;> decide), dropOne, if_pos (by simpa using h2)]
  | linux f h1 =>
    rw [show [ESC, '[', '[', f] ++ b = ESC :: ('[' :: '[' :: f :: b) by simp]
    apply key
    · simp only [List.head?_cons]; decide
    · show dropOne (within 0 0x7f) (f :: b) = b
      rw [dropOne, if_pos h1]
  | two f h1 h2 h3 =>
    rw [show [ESC, f] ++ b = ESC :: (f :: b) by simp]
    apply key
    · simp only [List.head?_cons, ne_eq, Option.some.injEq]
      rintro rfl
      revert h1; decide
    · have : afterEsc finCan (f :: b) = dropOne finCan (f :: b) := by
        unfold afterEsc
        split
        · rename_i heq; simp at heq; exact absurd heq.1 h2
        · rename_i heq; simp at heq; exact absurd heq.1 h2
        · rename_i heq; simp at heq; exact absurd heq.1 h3
        · rfl
      rw [this, dropOne, if_pos (by simp [finCan, h1])]

/-! ## Valid text -/

theorem ok_not_special {c : Char} (h : okChar c = true) : c ≠ '\r' ∧ c ≠ FF ∧ c ≠ ESC ∧ c ≠ NEL ∧ c ≠ LS ∧ c ≠ PS ∧ c ≠ BOM := by
  have key : okChar '\r' = false ∧ okChar FF = false ∧ okChar ESC = false ∧ okChar NEL = false ∧ okChar LS = false ∧
      okChar PS = false ∧ okChar BOM = false := by decide +kernel
  refine ⟨?_, ?_, ?_, ?_, ?_, ?_, ?_⟩ <;> rintro rfl <;> simp [key] at h

theorem ok_check {c : Char} (h : okChar c = true) : checkChar c = none := by
  simp only [okChar, Bool.and_eq_true] at h
  cases hc : checkChar c with
  | none => rfl
  | some e => rw [hc] at h; simp at h

theorem single_ok {nel lsps : Bool} {c : Char} (h : okChar c = true) : single nel lsps c = .text [c] := by
  have := ok_not_special h
  unfold single
  rw [if_neg (by simp [this]), replace_ok (ok_check h)]

theorem tokens_ok {fin : Char → Bool} {nel lsps : Bool} {s : List Char} (h : ∀ c ∈ s, okChar c = true) :
    tokens fin (single nel lsps) s = s.map fun c => if c = '\n' then .nl else .text [c] := by
  induction s with
  | nil => simp [tokens]
  | cons c s ih =>
    have hc := h c (by simp)
    have := ok_not_special hc
    rw [tokens, ih fun d hd => h d (by simp [hd]), List.map_cons, single_ok hc]
    simp only [this, if_false]
    split <;> rfl

theorem translate_clean {nel lsps : Bool} {s : List Char} (h1 : ∀ c ∈ s.head?, isStart U c = true) (h4 : ∀ c ∈ s, okChar c = true) :
    translate U nel lsps s = if s = [] ∨ s.getLast? = some '\n' then s else guardEnd s ++ ['\n'] := by
  have hflat : (s.map fun c => if c = '\n' then Tok.nl else .text [c]).flatMap Tok.out = s := by
    clear h1 h4
    induction s with
    | nil => rfl
    | cons c s ih =>
      rw [List.map_cons, List.flatMap_cons, ih]
      split
      · rename_i hc; rw [hc]; rfl
      · rfl
  unfold translate
  rw [tokens_ok h4]
  simp only [hflat]
  have hgs : guardStart U s = s := by
    cases s with
    | nil => rfl
    | cons c s => simp [guardStart, h1 c (by simp)]
  rw [hgs]
  have hcond : ((s.map fun c => if c = '\n' then Tok.nl else .text [c]) = [] ∨
      (s.map fun c => if c = '\n' then Tok.nl else .text [c]).getLast? = some .nl) ↔ (s = [] ∨ s.getLast? = some '\n') := by
    rw [List.map_eq_nil_iff, List.getLast?_map]
    cases hl : s.getLast? with
    | none => simp
    | some c =>
      simp only [Option.map_some, Option.some.injEq]
      by_cases hc : c = '\n' <;> simp [hc]
  simp only [hcond]
  split
  · rename_i h
    rw [guardEnd_eq]
    rcases h with rfl | h
    · simp [endGuard]
    · rw [h]; simp [endGuard, end_nl]
  · rfl

theorem guardEnd_end {s : List Char} (h2 : ∀ c ∈ s.getLast?, isEnd c = true) : guardEnd s = s := by
  rw [guardEnd_eq]
  cases hl : s.getLast? with
  | none => simp [endGuard]
  | some c => simp [endGuard, h2 c (by simp [hl])]

theorem translate_ok {nel lsps : Bool} {s : List Char} (h : isBasicText U s = true) :
    translate U nel lsps s = if s = [] ∨ s.getLast? = some '\n' then s else s ++ ['\n'] := by
  obtain ⟨h1, h2, h3⟩ := text_iff.1 h
  rw [translate_clean h1 (substr_iff.1 h3).1, guardEnd_end h2]

theorem ok_dropBom {s : List Char} (h : ∀ c ∈ s, okChar c = true) : dropBom s = s := by
  cases s with
  | nil => rfl
  | cons c s =>
    have := ok_not_special (h c (by simp))
    simp [dropBom, dropOne, this]

end Verif
