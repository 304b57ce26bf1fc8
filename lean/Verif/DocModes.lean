import Verif.DocSpec

/-!
# The document's stream conversion in the compatibility modes
-/

namespace Verif
open Ucd Spec Tables

/-- No scalar that a compatibility mode turns into a newline stands directly after U+D or U+C. -/
def Loose (nel lsps : Bool) (s : List Char) : Prop :=
  ∀ a d c b, s = a ++ d :: c :: b → Doc.modes nel lsps c ≠ c → d ≠ '\r' ∧ d ≠ FF

theorem Loose.suffix {nel lsps : Bool} {s r : List Char} (h : Loose nel lsps s) (hr : r <:+ s) : Loose nel lsps r := by
  obtain ⟨w, rfl⟩ := hr
  intro a d c b e hc
  exact h (w ++ a) d c b (by rw [e]; simp) hc

theorem modes_cases (nel lsps : Bool) (c : Char) : (Doc.modes nel lsps c = c ∧ single nel lsps c = single false false c) ∨
    (Doc.modes nel lsps c = '\n' ∧ single nel lsps c = .nl ∧ (c = NEL ∨ c = LS ∨ c = PS)) := by
  unfold Doc.modes single
  by_cases h : (nel = true ∧ c = NEL) ∨ (lsps = true ∧ (c = LS ∨ c = PS))
  · right
    rw [if_pos h, if_pos h]
    exact ⟨rfl, rfl, by grind⟩
  · left
    rw [if_neg h, if_neg h, if_neg (by simp)]
    exact ⟨rfl, rfl⟩

theorem modes_eq_iff {nel lsps : Bool} {c x : Char} (hx : x ≠ '\n') (h1 : x ≠ NEL) (h2 : x ≠ LS) (h3 : x ≠ PS) : Doc.modes nel lsps c = x ↔ c = x := by
  rcases modes_cases nel lsps c with ⟨h, -⟩ | ⟨h, -, h'⟩
  · rw [h]
  · rw [h]
    constructor
    · exact fun h => absurd h.symm hx
    · rintro rfl; grind

theorem modes_dropWhile (nel lsps : Bool) (r : List Char) :
    (r.map (Doc.modes nel lsps)).dropWhile (fun x => decide (x = FF)) = (r.dropWhile (fun x => decide (x = FF))).map (Doc.modes nel lsps) := by
  induction r with
  | nil => rfl
  | cons c r ih =>
    have := modes_eq_iff (nel := nel) (lsps := lsps) (c := c) (x := FF) (by decide) (by decide) (by decide) (by decide)
    simp only [List.map_cons, List.dropWhile_cons, this]
    split
    · exact ih
    · rfl

theorem tokens_ff {fin : Char → Bool} {one : Char → Tok} (r : List Char) : tokens fin one (FF :: r) =
    if (r.dropWhile (fun x => decide (x = FF))).head? = some '\n' ∨ (r.dropWhile (fun x => decide (x = FF))).head? = some '\r'
    then tokens fin one (r.dropWhile (fun x => decide (x = FF))) else .text [' '] :: tokens fin one (r.dropWhile (fun x => decide (x = FF))) := by
  rw [tokens, if_neg (by decide), if_neg (by decide), if_pos rfl]

theorem tokens_modes {nel lsps : Bool} : ∀ (n : Nat) (s : List Char), s.length ≤ n → ESC ∉ s → Loose nel lsps s →
    tokens finCan (single nel lsps) s = tokens finCan (single false false) (s.map (Doc.modes nel lsps)) := by
  intro n
  induction n with
  | zero =>
    intro s hs _ _
    have : s = [] := List.length_eq_zero_iff.1 (by omega)
    subst this
    rw [List.map_nil, tokens, tokens]
  | succ n ih =>
    intro s hs he ha
    cases s with
    | nil => rw [List.map_nil, tokens, tokens]
    | cons c r =>
      simp only [List.length_cons] at hs
      have sub : ∀ r' : List Char, r' <:+ r → tokens finCan (single nel lsps) r' = tokens finCan (single false false) (r'.map (Doc.modes nel lsps)) := by
        intro r' hr
        exact ih r' (by have := hr.length_le; omega) (fun h => he (by simp [hr.subset h])) (ha.suffix (hr.trans ⟨[c], rfl⟩))
      have head : c = '\r' ∨ c = FF → ∀ d ∈ r.head?, Doc.modes nel lsps d = d := by
        intro hc d hd
        cases r with
        | nil => simp at hd
        | cons e r =>
          simp only [List.head?_cons, Option.mem_some_iff] at hd
          subst hd
          apply Decidable.byContradiction
          intro hm
          have := ha [] c e r rfl hm
          grind
      have hC : c ≠ ESC := fun h => he (by simp [h])
      rw [List.map_cons]
      by_cases h1 : c = '\n'
      · subst h1
        have : Doc.modes nel lsps '\n' = '\n' := by rcases modes_cases nel lsps '\n' with h | h <;> exact h.1
        rw [this, tokens_nl, tokens_nl, sub r (List.suffix_refl _)]
      by_cases h2 : c = '\r'
      · subst h2
        rw [(modes_eq_iff (by decide) (by decide) (by decide) (by decide)).2 rfl, tokens, tokens, if_neg (by decide), if_pos rfl, if_neg (by decide), if_pos rfl]
        have e : dropOne (fun x => decide (x = '\n')) (r.map (Doc.modes nel lsps)) = (dropOne (fun x => decide (x = '\n')) r).map (Doc.modes nel lsps) := by
          cases r with
          | nil => rfl
          | cons d r =>
            have := head (Or.inl rfl) d rfl
            simp only [List.map_cons, dropOne, this]
            split
            · rfl
            · rw [List.map_cons, this]
        rw [e, sub]
        unfold dropOne
        split
        · split
          · exact ⟨[_], rfl⟩
          · exact List.suffix_refl _
        · exact List.suffix_refl _
      by_cases h3 : c = FF
      · subst h3
        rw [(modes_eq_iff (by decide) (by decide) (by decide) (by decide)).2 rfl, tokens_ff, tokens_ff]
        have hsuf := List.dropWhile_suffix (l := r) (fun x => decide (x = FF))
        have eh : (r.dropWhile (fun x => decide (x = FF))).head? = ((r.dropWhile (fun x => decide (x = FF))).map (Doc.modes nel lsps)).head? := by
          obtain ⟨w, e1, e2, -⟩ := dropWhile_spec (fun x => decide (x = FF)) r
          cases hq : r.dropWhile (fun x => decide (x = FF)) with
          | nil => rfl
          | cons d q =>
            rw [hq] at e1
            have : Doc.modes nel lsps d = d := by
              rcases List.eq_nil_or_concat w with hw | ⟨w', x, hw⟩
              · subst hw; exact head (Or.inr rfl) d (by rw [e1]; rfl)
              · rw [List.concat_eq_append] at hw
                apply Decidable.byContradiction
                intro hm
                have hx := e2 x (by rw [hw]; simp)
                simp only [decide_eq_true_eq] at hx
                exact (ha (FF :: w') x d q (by rw [e1, hw]; simp) hm).2 hx
            rw [List.map_cons, List.head?_cons, List.head?_cons, this]
        rw [modes_dropWhile, ← eh, sub _ hsuf]
      · rcases modes_cases nel lsps c with ⟨e1, e2⟩ | ⟨e1, e2, -⟩
        · rw [e1, tokens_one h1 h2 h3 hC, tokens_one h1 h2 h3 hC, e2, sub r (List.suffix_refl _)]
        · rw [e1, tokens_one h1 h2 h3 hC, tokens_nl, e2, sub r (List.suffix_refl _)]

theorem modes_dropBom (nel lsps : Bool) (s : List Char) : dropBom (s.map (Doc.modes nel lsps)) = (dropBom s).map (Doc.modes nel lsps) := by
  cases s with
  | nil => rfl
  | cons c r =>
    have := modes_eq_iff (nel := nel) (lsps := lsps) (c := c) (x := BOM) (by decide) (by decide) (by decide) (by decide)
    simp only [dropBom, dropOne, List.map_cons, this]
    split <;> rfl

theorem stream_modes {nel lsps : Bool} {s : List Char} (he : ESC ∉ s) (h : Loose nel lsps (dropBom s)) :
    Spec.stream ucd15 nel lsps s = Spec.stream ucd15 false false (s.map (Doc.modes nel lsps)) := by
  unfold Spec.stream translate
  rw [modes_dropBom, tokens_modes _ (dropBom s) (Nat.le_refl _) (fun hm => he (mem_dropOne hm)) h]

theorem modes_nonStarter (nel lsps : Bool) (c : Char) : NonStarter (Doc.modes nel lsps c) ↔ NonStarter c := by
  rcases modes_cases nel lsps c with ⟨h, -⟩ | ⟨h, -, rfl | rfl | rfl⟩ <;> rw [h]
  all_goals exact iff_of_false (by decide +kernel) (by decide +kernel)

theorem modes_nonEnder (nel lsps : Bool) (c : Char) : NonEnder (Doc.modes nel lsps c) ↔ NonEnder c := by
  rcases modes_cases nel lsps c with ⟨h, -⟩ | ⟨h, -, rfl | rfl | rfl⟩ <;> rw [h]
  all_goals exact iff_of_false (by decide +kernel) (by decide +kernel)

theorem modes_cgj (nel lsps : Bool) : Doc.modes nel lsps CGJ = CGJ :=
  (modes_eq_iff (by decide) (by decide) (by decide) (by decide)).2 rfl

theorem modes_guardStart (nel lsps : Bool) (s : List Char) : Doc.guardStart (s.map (Doc.modes nel lsps)) = (Doc.guardStart s).map (Doc.modes nel lsps) := by
  cases s with
  | nil => rfl
  | cons c r =>
    rw [List.map_cons, doc_guardStart, doc_guardStart, List.map_append, List.map_cons]
    simp only [modes_nonStarter]
    split
    · rw [List.map_singleton, modes_cgj]
    · rfl

theorem modes_guardEnd (nel lsps : Bool) (s : List Char) : Doc.guardEnd (s.map (Doc.modes nel lsps)) = (Doc.guardEnd s).map (Doc.modes nel lsps) := by
  cases h : s.getLast? with
  | none => rw [List.getLast?_eq_none_iff] at h; subst h; rfl
  | some d =>
    rw [doc_guardEnd h, doc_guardEnd (d := Doc.modes nel lsps d) (by rw [List.getLast?_map, h]; rfl), List.map_append]
    simp only [modes_nonEnder]
    split
    · rw [List.map_singleton, modes_cgj]
    · rfl

theorem doc_modes {nel lsps : Bool} {s : List Char} (h : ∀ c ∈ (dropBom s).getLast?, Doc.modes nel lsps c = c) :
    Doc.stream nel lsps s = Doc.stream false false (s.map (Doc.modes nel lsps)) := by
  have e : Doc.addNewline ((dropBom s).map (Doc.modes nel lsps)) = (Doc.addNewline (dropBom s)).map (Doc.modes nel lsps) := by
    have hl : ((dropBom s).map (Doc.modes nel lsps)).getLast? = (dropBom s).getLast? := by
      rw [List.getLast?_map]
      cases hq : (dropBom s).getLast? with
      | none => rfl
      | some c => rw [Option.map_some, h c hq]
    have hn : Doc.modes nel lsps '\n' = '\n' := by rcases modes_cases nel lsps '\n' with h | h <;> exact h.1
    unfold Doc.addNewline
    simp only [hl, List.map_eq_nil_iff]
    split
    · rfl
    · rw [List.map_append, List.map_singleton, hn]
  unfold Doc.stream Doc.string Doc.text
  rw [modes_dropBom, e, modes_guardStart, modes_guardEnd, modes_off]

/-- The code's stream conversion is the document's. -/
theorem stream_doc_modes {nel lsps : Bool} {s : List Char} (he : ESC ∉ s) (hf : 'ﬃ' ∉ s) (hi : ∀ c ∈ (dropBom s).head?, ¬ inherent c)
    (hff : (dropBom s).getLast? ≠ some FF) (hend : ∀ c ∈ (dropBom s).getLast?, ¬ NonEnder c) (ha : Loose nel lsps (dropBom s))
    (hl : ∀ c ∈ (dropBom s).getLast?, Doc.modes nel lsps c = c) : Spec.stream ucd15 nel lsps s = Doc.stream nel lsps s := by
  have hm : ∀ x, x ≠ '\n' → x ≠ NEL → x ≠ LS → x ≠ PS → x ∉ s → x ∉ s.map (Doc.modes nel lsps) := by
    intro x h1 h2 h3 h4 h hx
    obtain ⟨c, hc, e⟩ := List.mem_map.1 hx
    rw [modes_eq_iff h1 h2 h3 h4] at e
    exact h (e ▸ hc)
  rw [stream_modes he ha, doc_modes hl]
  apply stream_doc (hm _ (by decide) (by decide) (by decide) (by decide) he) (hm _ (by decide) (by decide) (by decide) (by decide) hf)
  · rw [modes_dropBom, List.head?_map]
    intro c hc
    obtain ⟨d, hd, rfl⟩ := Option.map_eq_some_iff.1 hc
    rcases modes_cases nel lsps d with ⟨h, -⟩ | ⟨h, -⟩
    · rw [h]; exact hi d hd
    · rw [h]; rintro (h | h) <;> exact absurd h (by decide)
  · rw [modes_dropBom, List.getLast?_map]
    intro hc
    obtain ⟨d, hd, e⟩ := Option.map_eq_some_iff.1 hc
    rw [modes_eq_iff (by decide) (by decide) (by decide) (by decide)] at e
    exact hff (e ▸ hd)
  · rw [modes_dropBom, List.getLast?_map]
    intro c hc
    obtain ⟨d, hd, rfl⟩ := Option.map_eq_some_iff.1 hc
    rw [hl d hd]; exact hend d hd

end Verif
