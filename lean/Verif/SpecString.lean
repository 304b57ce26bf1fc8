import Verif.LossyWhole
import Verif.StringTheory

/-!
# Specification of the string conversion
-/

namespace Verif
open Ucd Spec
variable {U : Ucd}

namespace Spec

/-- The conversion of a string without byte-order mark: rows of the table, guards, isolation, normalization; no final
newline is added. -/
def string0 (U : Ucd) (s : List Char) : List Char :=
  normalize U (guardEnd (guardStart U ((tokens finCan (single false false) s).flatMap Tok.out)))

/-- The string conversion (`docs/BasicText.md:173-189`) with the details settled as in `Spec.stream`: a leading byte-order
mark becomes U+2060. -/
def string (U : Ucd) : List Char → List Char
  | c :: r => if c = BOM then WJ :: string0 U r else string0 U (c :: r)
  | [] => string0 U []

end Spec

theorem string_eq (s : List Char) : Spec.string U s = bomPrefix s ++ normalize U (body U (dropBom s)) := by
  cases s with
  | nil => rfl
  | cons c r =>
    unfold Spec.string bomPrefix dropBom dropOne
    by_cases hc : c = BOM <;> simp [hc, string0, body]

/-- A text without escapes that ends with a newline ends with a newline token. -/
theorem tokens_ends_nl {fin : Char → Bool} : ∀ (n : Nat) (s : List Char), s.length ≤ n → ESC ∉ s →
    (s.getLast? = some '\n' ∨ s.getLast? = some '\r') → (tokens fin (single false false) s).getLast? = some .nl := by
  intro n
  induction n with
  | zero =>
    intro s hs _ h
    have : s = [] := List.length_eq_zero_iff.1 (by omega)
    subst this; simp at h
  | succ n ih =>
    intro s hs he h
    cases s with
    | nil => simp at h
    | cons c r =>
      simp only [List.length_cons] at hs
      have down : ∀ r' : List Char, r' <:+ r → r' ≠ [] → (tokens fin (single false false) r').getLast? = some .nl := by
        rintro r' ⟨t, rfl⟩ hne
        have hl : (c :: (t ++ r')).getLast? = r'.getLast? := by
          rw [← List.cons_append, List.getLast?_append]
          cases hq : r'.getLast? with
          | none => rw [List.getLast?_eq_none_iff] at hq; exact absurd hq hne
          | some x => rfl
        rw [hl] at h
        refine ih r' ?_ (fun hm => he (by simp [hm])) h
        simp only [List.length_append] at hs; omega
      have go : ∀ (t : Tok) (r' : List Char), r' <:+ r → (r' = [] → t = .nl) →
          (t :: tokens fin (single false false) r').getLast? = some .nl := by
        intro t r' hsuf ht
        by_cases hr : r' = []
        · subst hr; rw [ht rfl]; simp [tokens]
        · rw [List.getLast?_cons, down r' hsuf hr]; rfl
      have hce : c ≠ ESC := fun hc => he (by simp [hc])
      rw [tokens]
      split
      · exact go _ r (List.suffix_refl _) (fun _ => rfl)
      · rename_i hc1
        split
        · refine go _ _ ?_ (fun _ => rfl)
          unfold dropOne
          split
          · split
            · exact ⟨[_], rfl⟩
            · exact List.suffix_refl _
          · exact List.suffix_refl _
        · rename_i hc2
          split
          · rename_i hc3
            simp only
            have hsuf : r.dropWhile (· = FF) <:+ r := List.dropWhile_suffix _
            have hne : r.dropWhile (· = FF) ≠ [] := by
              intro hq
              have hm : ∀ x ∈ (c :: r).getLast?, x = FF := by
                intro x hx
                have := List.mem_of_getLast? hx
                simp only [List.mem_cons] at this
                rcases this with rfl | hx
                · exact hc3
                · obtain ⟨w, e1, e2, -⟩ := dropWhile_spec (· = FF) r
                  rw [hq, List.append_nil] at e1
                  rw [e1] at hx
                  simpa using e2 x hx
              rcases h with h | h
              · exact absurd (hm _ h) (by decide)
              · exact absurd (hm _ h) (by decide)
            split
            · exact down _ hsuf hne
            · exact go _ _ hsuf (fun hq => absurd hq hne)
          · refine go _ r (List.suffix_refl _) ?_
            rintro rfl
            rcases h with h | h <;> simp at h
            · exact absurd h hc1
            · exact absurd h hc2

/-- What the conversion works on is what the specification says, unless the text ends with a newline inside an escape
sequence. -/
theorem lossyText_body {r : List Char} (h : ESC ∉ r ∨ (r.getLast? ≠ some '\n' ∧ r.getLast? ≠ some '\r')) : lossyText U r = body U r := by
  unfold lossyText
  split
  · rename_i hc
    unfold translate body
    simp only
    rw [if_pos]
    rcases hc with rfl | hc
    · exact Or.inl (by simp [tokens])
    · rcases h with h | h
      · exact Or.inr (tokens_ends_nl _ r (Nat.le_refl _) h hc)
      · rcases hc with hc | hc
        · exact absurd hc h.1
        · exact absurd hc h.2
  · rfl

theorem dropBom_last {v : List Char} (h : dropBom v ≠ []) : (dropBom v).getLast? = v.getLast? := by
  cases v with
  | nil => rfl
  | cons c r =>
    by_cases hc : c = BOM
    · have e : dropBom (c :: r) = r := by simp [dropBom, dropOne, hc]
      rw [e] at h ⊢
      rw [List.getLast?_cons]
      cases hq : r.getLast? with
      | none => rw [List.getLast?_eq_none_iff] at hq; exact absurd hq h
      | some x => rfl
    · have e : dropBom (c :: r) = c :: r := by simp [dropBom, dropOne, hc]
      rw [e]

theorem mem_dropBom {v : List Char} {c : Char} (h : c ∈ dropBom v) : c ∈ v := by
  cases v with
  | nil => exact h
  | cons d r =>
    unfold dropBom dropOne at h
    simp only at h
    split at h
    · simp [h]
    · exact h

theorem lossy_string (hU : TextLaws U) {chunks : List (List Char)} {last : List Char} (hb : SliceReads chunks last) {lens : List Nat} {text : List Char}
    (hn : Clear U false false (chunks.flatten ++ last))
    (he : ESC ∉ chunks.flatten ++ last ∨ ((chunks.flatten ++ last).getLast? ≠ some '\n' ∧ (chunks.flatten ++ last).getLast? ≠ some '\r'))
    (h : readToEnd U lens (.new false false) (script chunks last) = some text) :
    fromTextLossy U chunks last lens = some (Spec.string U (chunks.flatten ++ last)) := by
  rw [lossy_eq hU hb hn h, string_eq, lossyText_body]
  rcases he with he | he
  · exact Or.inl (fun hm => he (mem_dropBom hm))
  · right
    by_cases hd : dropBom (chunks.flatten ++ last) = []
    · rw [hd]; simp
    · rw [dropBom_last hd]; exact he

/-! ## Reading further -/

theorem readToEnd_append {lens lens' : List Nat} : ∀ {t : TextInput} {src : List Event} {text : List Char},
    readToEnd U lens t src = some text → readToEnd U (lens ++ lens') t src = some text := by
  induction lens with
  | nil => intro t src text h; simp [readToEnd] at h
  | cons len lens ih =>
    intro t src text h
    simp only [readToEnd, List.cons_append] at h ⊢
    generalize hr : (readWithStatus U len t src).ret = ret at h
    cases ret with
    | ok n st =>
      cases st with
      | end_ => exact h
      | active =>
        simp only [Option.map_eq_some_iff] at h ⊢
        obtain ⟨x, h1, h2⟩ := h
        exact ⟨x, ih h1, h2⟩
      | push =>
        simp only [Option.map_eq_some_iff] at h ⊢
        obtain ⟨x, h1, h2⟩ := h
        exact ⟨x, ih h1, h2⟩
    | invalidInput => simp at h
    | sourceError => simp at h
    | panic => simp at h

theorem readToEnd_ge {f : Nat → Nat} {n m : Nat} (hm : n ≤ m) {t : TextInput} {src : List Event} {text : List Char}
    (h : readToEnd U ((List.range n).map f) t src = some text) : readToEnd U ((List.range m).map f) t src = some text := by
  obtain ⟨k, rfl⟩ := Nat.exists_eq_add_of_le hm
  rw [List.range_add, List.map_append]
  exact readToEnd_append h

end Verif
