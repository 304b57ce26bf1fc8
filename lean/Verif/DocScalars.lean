import Verif.CutAdds
import Verif.DocEscape

/-!
# The document's conversions apart from U+34F

Where U+34F is put at the ends of the text and around unassigned scalars is where the code and `docs/BasicText.md` differ most.
The other scalars are compared here.
-/

namespace Verif
open Ucd Spec

variable {U : Ucd}

/-! ## A U+34F at the ends of the text changes nothing else -/

theorem normChain_cgj_front (hU : TextLaws U) (z : List Char) : (normChain U (CGJ :: z)).filter (· ≠ CGJ) = (normChain U z).filter (· ≠ CGJ) := by
  have h1 : normChain U [CGJ] = [CGJ] := by
    rw [normChain_eq, isolate]
    have : isolateGo U false false [CGJ] = [CGJ] := by simp [isolateGo, isAssigned, hU.assigned_cgj]
    rw [this]
    have := norm3_split hU hU.law.inert_cgj [] []
    simpa [norm3_nil] using this
  by_cases h : HeadOk U z
  · have := normChain_fine hU [] (b := CGJ) (by decide) (z := z) (fun _ => h)
    simp only [List.nil_append] at this
    rw [this, h1]; simp
  · have := (normChain_inside hU [] (z := z) h).1.same
    simp only [List.nil_append] at this
    rw [← this, h1]; simp

theorem isolateGo_cgj_back (hU : TextLaws U) (x : List Char) : ∀ need hv, isolateGo U need hv (x ++ [CGJ]) = isolateGo U need hv x ++ [CGJ] ∨
    isolateGo U need hv (x ++ [CGJ]) = isolateGo U need hv x := by
  have hC : isAssigned U CGJ = true := by simp [isAssigned, hU.assigned_cgj]
  induction x with
  | nil => intro need hv; cases need <;> simp [isolateGo, hC]
  | cons c x ih =>
    intro need hv
    rw [List.cons_append, isolateGo, isolateGo]
    split
    · exact (ih _ _).imp (fun h => by rw [h]; rfl) (fun h => by rw [h])
    · exact (ih _ _).imp (fun h => by rw [h]; rfl) (fun h => by rw [h])

theorem normChain_cgj_back (hU : TextLaws U) (x : List Char) : (normChain U (x ++ [CGJ])).filter (· ≠ CGJ) = (normChain U x).filter (· ≠ CGJ) := by
  rw [normChain_eq, normChain_eq, isolate, isolate]
  rcases isolateGo_cgj_back hU x false false with h | h
  · rw [h]
    have := norm3_split hU hU.law.inert_cgj (isolateGo U false false x) []
    rw [this, norm3_nil]; simp
  · rw [h]

theorem guardStart_two (x : List Char) : Spec.guardStart U x = x ∨ Spec.guardStart U x = CGJ :: x := by
  unfold Spec.guardStart
  split
  · split
    · exact Or.inl rfl
    · exact Or.inr rfl
  · exact Or.inl rfl

theorem guardEnd_two (x : List Char) : Spec.guardEnd x = x ∨ Spec.guardEnd x = x ++ [CGJ] := by
  unfold Spec.guardEnd
  split
  · split
    · exact Or.inl rfl
    · exact Or.inr rfl
  · exact Or.inl rfl

/-- The guards at the two ends change nothing else. -/
theorem normChain_guards (hU : TextLaws U) (x : List Char) :
    (normChain U (Spec.guardEnd (Spec.guardStart U x))).filter (· ≠ CGJ) = (normChain U x).filter (· ≠ CGJ) := by
  have e : ∀ y, (normChain U (Spec.guardEnd y)).filter (· ≠ CGJ) = (normChain U y).filter (· ≠ CGJ) := by
    intro y
    rcases guardEnd_two y with h | h
    · rw [h]
    · rw [h, normChain_cgj_back hU]
  rw [e]
  rcases guardStart_two (U := U) x with h | h
  · rw [h]
  · rw [h, normChain_cgj_front hU]

/-! ## A scalar behind the text -/

theorem dropOne_behind {p : Char → Bool} (k : Char) (x : List Char) :
    dropOne p (x ++ [k]) = dropOne p x ++ [k] ∨ (dropOne p (x ++ [k]) = [] ∧ dropOne p x = []) := by
  cases x with
  | nil => simp only [List.nil_append, dropOne]; split <;> simp
  | cons c r => simp only [List.cons_append, dropOne]; split <;> simp

theorem dropWhile_behind {p : Char → Bool} (k : Char) (x : List Char) :
    (x ++ [k]).dropWhile p = x.dropWhile p ++ [k] ∨ ((x ++ [k]).dropWhile p = [] ∧ x.dropWhile p = []) := by
  induction x with
  | nil => simp only [List.nil_append, List.dropWhile]; split <;> simp
  | cons c r ih => simp only [List.cons_append, List.dropWhile_cons]; split <;> simp_all

theorem afterEsc_behind {fin : Char → Bool} {k : Char} (x : List Char) (h1 : k ≠ '[') (h2 : k ≠ ']') :
    afterEsc fin (x ++ [k]) = afterEsc fin x ++ [k] ∨ (afterEsc fin (x ++ [k]) = [] ∧ afterEsc fin x = []) := by
  have comb : ∀ (p q : Char → Bool) (r : List Char), dropOne p ((r ++ [k]).dropWhile q) = dropOne p (r.dropWhile q) ++ [k] ∨
      (dropOne p ((r ++ [k]).dropWhile q) = [] ∧ dropOne p (r.dropWhile q) = []) := by
    intro p q r
    rcases dropWhile_behind (p := q) k r with h | ⟨h, h'⟩
    · rw [h]; exact dropOne_behind _ _
    · rw [h, h']; exact Or.inr ⟨rfl, rfl⟩
  have csi : ∀ r : List Char, r.head? ≠ some '[' → afterEsc fin ('[' :: r) = dropOne fin (r.dropWhile param) := by
    intro r hr
    cases r with
    | nil => rfl
    | cons d r =>
      unfold afterEsc
      split
      · rename_i h; simp at h; exact absurd (by rw [h.1]; rfl) hr
      · rename_i h; simp at h; rw [h]
      · rename_i h; simp at h
      · rename_i h _; exact absurd rfl (h _)
  have els : ∀ r : List Char, r.head? ≠ some '[' → r.head? ≠ some ']' → afterEsc fin r = dropOne fin r := by
    intro r h1 h2
    unfold afterEsc
    split
    · exact absurd rfl h1
    · exact absurd rfl h1
    · exact absurd rfl h2
    · rfl
  cases x with
  | nil => rw [els _ (by simpa using h1) (by simpa using h2), els _ (by simp) (by simp)]; exact dropOne_behind _ _
  | cons d x =>
    by_cases h3 : d = '['
    · subst h3
      cases x with
      | nil => rw [List.cons_append, csi _ (by simpa using h1), csi _ (by simp)]; exact comb _ _ _
      | cons e x =>
        by_cases h4 : e = '['
        · subst h4; exact dropOne_behind _ _
        · rw [List.cons_append, csi _ (by simp [h4]), csi _ (by simp [h4])]; exact comb _ _ _
    · by_cases h4 : d = ']'
      · subst h4; exact comb _ _ _
      · rw [els _ (by simp [h3]) (by simp [h4]), els _ (by simp [h3]) (by simp [h4])]; exact dropOne_behind _ _

/-- A scalar behind the text is a token of its own, or part of an escape sequence. -/
theorem tokens_behind {fin : Char → Bool} {one : Char → Tok} {k : Char} (h1 : k ≠ '[') (h2 : k ≠ ']') (h3 : k ≠ '\r') (h4 : k ≠ FF) (h5 : k ≠ ESC) :
    ∀ (n : Nat) (s : List Char), s.length ≤ n → (k = '\n' → s.getLast? ≠ some '\r' ∧ s.getLast? ≠ some FF) →
    tokens fin one (s ++ [k]) = tokens fin one s ++ [if k = '\n' then .nl else one k] ∨ tokens fin one (s ++ [k]) = tokens fin one s := by
  have base : tokens fin one [k] = [if k = '\n' then .nl else one k] := by
    by_cases hk : k = '\n'
    · subst hk; rw [tokens_nl, tokens]; rfl
    · rw [tokens_one hk h3 h4 h5, tokens, if_neg hk]
  intro n
  induction n with
  | zero =>
    intro s hs _
    have : s = [] := List.length_eq_zero_iff.1 (by omega)
    subst this
    left
    rw [List.nil_append, base, tokens]; rfl
  | succ n ih =>
    intro s hs hr
    cases s with
    | nil => left; rw [List.nil_append, base, tokens]; rfl
    | cons c r =>
      simp only [List.length_cons] at hs
      have last : ∀ r' : List Char, r' <:+ r → ∀ x, r'.getLast? = some x → (c :: r).getLast? = some x := by
        intro r' hr' x hx
        obtain ⟨w, rfl⟩ := hr'
        rw [← List.cons_append, List.getLast?_append, hx]; rfl
      have down : ∀ r' : List Char, r' <:+ r →
          tokens fin one (r' ++ [k]) = tokens fin one r' ++ [if k = '\n' then .nl else one k] ∨ tokens fin one (r' ++ [k]) = tokens fin one r' := by
        intro r' hr'
        exact ih r' (by have := hr'.length_le; omega) fun hk => ⟨fun hx => (hr hk).1 (last r' hr' _ hx), fun hx => (hr hk).2 (last r' hr' _ hx)⟩
      have cons : ∀ (t : Tok) (r' : List Char), r' <:+ r →
          t :: tokens fin one (r' ++ [k]) = (t :: tokens fin one r') ++ [if k = '\n' then .nl else one k] ∨ t :: tokens fin one (r' ++ [k]) = t :: tokens fin one r' := by
        intro t r' hr'
        exact (down r' hr').imp (fun h => by rw [h]; rfl) (fun h => by rw [h])
      rw [List.cons_append, tokens, tokens]
      split
      · exact cons _ _ (List.suffix_refl _)
      split
      · rename_i hc
        have e : dropOne (fun x => decide (x = '\n')) (r ++ [k]) = dropOne (fun x => decide (x = '\n')) r ++ [k] := by
          cases r with
          | nil =>
            have : k ≠ '\n' := fun hk => (hr hk).1 (by rw [hc]; rfl)
            simp [dropOne, this]
          | cons d r => simp only [List.cons_append, dropOne]; split <;> rfl
        rw [e]
        exact cons _ _ (dropOne_suffix _ _)
      split
      · rename_i hc
        have hsuf := List.dropWhile_suffix (l := r) (fun x => decide (x = FF))
        have e : (r ++ [k]).dropWhile (fun x => decide (x = FF)) = r.dropWhile (fun x => decide (x = FF)) ++ [k] := by
          rcases dropWhile_behind (p := fun x => decide (x = FF)) k r with h | ⟨h, -⟩
          · exact h
          · obtain ⟨w, e1, e2, -⟩ := dropWhile_spec (fun x => decide (x = FF)) (r ++ [k])
            rw [h, List.append_nil] at e1
            exact absurd (e2 k (by rw [← e1]; simp)) (by simpa using h4)
        have eh : ((r.dropWhile (fun x => decide (x = FF)) ++ [k]).head? = some '\n' ∨ (r.dropWhile (fun x => decide (x = FF)) ++ [k]).head? = some '\r') ↔
            ((r.dropWhile (fun x => decide (x = FF))).head? = some '\n' ∨ (r.dropWhile (fun x => decide (x = FF))).head? = some '\r') := by
          cases hq : r.dropWhile (fun x => decide (x = FF)) with
          | cons d q => rfl
          | nil =>
            have : k ≠ '\n' := by
              intro hk
              obtain ⟨w, e1, e2, -⟩ := dropWhile_spec (fun x => decide (x = FF)) r
              rw [hq, List.append_nil] at e1
              apply (hr hk).2
              rw [List.getLast?_cons]
              cases hl : r.getLast? with
              | none => rw [hc]; rfl
              | some z =>
                have := e2 z (e1 ▸ List.mem_of_getLast? hl)
                simp only [decide_eq_true_eq] at this
                rw [this]; rfl
            simp [this, h3]
        simp only [e, eh]
        split
        · exact down _ hsuf
        · exact cons _ _ hsuf
      split
      · have hsuf := List.dropWhile_suffix (l := r) (fun x => decide (x = ESC))
        have e : (r ++ [k]).dropWhile (fun x => decide (x = ESC)) = r.dropWhile (fun x => decide (x = ESC)) ++ [k] := by
          rcases dropWhile_behind (p := fun x => decide (x = ESC)) k r with h | ⟨h, -⟩
          · exact h
          · obtain ⟨w, e1, e2, -⟩ := dropWhile_spec (fun x => decide (x = ESC)) (r ++ [k])
            rw [h, List.append_nil] at e1
            exact absurd (e2 k (by rw [← e1]; simp)) (by simpa using h5)
        rw [e]
        rcases afterEsc_behind (fin := fin) (k := k) (r.dropWhile (fun x => decide (x = ESC))) h1 h2 with e2 | ⟨e2, e3⟩
        · rw [e2]
          exact cons _ _ ((afterEsc_suffix _ _).trans hsuf)
        · right; rw [e2, e3]
      · exact cons _ _ (List.suffix_refl _)

theorem rows_behind (s : List Char) : Doc.rows (s ++ [CGJ]) = Doc.rows s ++ [CGJ] ∨ Doc.rows (s ++ [CGJ]) = Doc.rows s := by
  unfold Doc.rows
  rcases tokens_behind (fin := final) (one := Doc.row) (k := CGJ) (by decide) (by decide) (by decide) (by decide) (by decide) _ s (Nat.le_refl _) (fun h => absurd h (by decide)) with h | h
  · left
    rw [h, List.flatMap_append]
    congr 1
  · right; rw [h]

/-! ## The document's string conversion -/

theorem doc_text_cases (s : List Char) : ∃ x y, (x = [] ∨ x = [CGJ]) ∧ (y = [] ∨ y = [CGJ]) ∧ Doc.text false false s = x ++ Doc.rows s ++ y := by
  unfold Doc.text
  rw [modes_off]
  have h1 : ∃ x, (x = [] ∨ x = [CGJ]) ∧ Doc.guardStart s = x ++ s ∧ Doc.rows (x ++ s) = x ++ Doc.rows s := by
    cases s with
    | nil => exact ⟨[], Or.inl rfl, rfl, rfl⟩
    | cons c r =>
      rw [doc_guardStart]
      split
      · exact ⟨[CGJ], Or.inr rfl, rfl, rows_cgj _⟩
      · exact ⟨[], Or.inl rfl, rfl, rfl⟩
  obtain ⟨x, hx, e1, e2⟩ := h1
  rw [e1]
  have h2 : Doc.guardEnd (x ++ s) = x ++ s ∨ Doc.guardEnd (x ++ s) = x ++ s ++ [CGJ] := by
    unfold Doc.guardEnd
    split
    · split
      · exact Or.inr rfl
      · exact Or.inl rfl
    · exact Or.inl rfl
  rcases h2 with h | h
  · exact ⟨x, [], hx, Or.inl rfl, by rw [h, e2, List.append_nil]⟩
  · rw [h]
    rcases rows_behind (x ++ s) with h' | h'
    · exact ⟨x, [CGJ], hx, Or.inr rfl, by rw [h', e2]⟩
    · exact ⟨x, [], hx, Or.inl rfl, by rw [h', e2, List.append_nil]⟩

theorem normalize_same (hU : TextLaws U) (s : List Char) : (Spec.normalize U s).filter (· ≠ CGJ) = (normChain U s).filter (· ≠ CGJ) :=
  (normChain_adds hU s).same

/-- The document's string conversion, apart from U+34F. -/
theorem doc_string_same {s : List Char} (he : CAN ∉ s ∨ ESC ∉ s) (hf : 'ﬃ' ∉ s) :
    (Doc.string false false s).filter (· ≠ CGJ) = (normChain ucd15 (codeRows s)).filter (· ≠ CGJ) := by
  obtain ⟨x, y, hx, hy, e⟩ := doc_text_cases s
  have hcg : ∀ z : List Char, z = [] ∨ z = [CGJ] → Like z z := by
    rintro z (rfl | rfl)
    · exact .nil
    · exact Like.refl (by decide +kernel)
  have hl : Like (x ++ codeRows s ++ y) (Doc.text false false s) := by
    rw [e]
    exact ((hcg x hx).append (he.elim (fun he => tokens_like_esc _ s (Nat.le_refl _) he hf) fun he => tokens_like _ s (Nat.le_refl _) he hf)).append (hcg y hy)
  have : Doc.string false false s = Spec.normalize ucd15 (x ++ codeRows s ++ y) := (like_normalize hl).symm
  rw [this, normalize_same textLaws15]
  have h1 : (normChain ucd15 (x ++ codeRows s ++ y)).filter (· ≠ CGJ) = (normChain ucd15 (x ++ codeRows s)).filter (· ≠ CGJ) := by
    rcases hy with rfl | rfl
    · rw [List.append_nil]
    · exact normChain_cgj_back textLaws15 _
  rw [h1]
  rcases hx with rfl | rfl
  · rfl
  · exact normChain_cgj_front textLaws15 _

end Verif
