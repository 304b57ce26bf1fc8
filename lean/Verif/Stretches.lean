import Verif.CountTheory
import Verif.LockstepForms

/-!
# The text between escape sequences, and sources that begin with an empty read

An escape sequence separates what stands before it from what stands behind it.  An empty first read is for the reader what a first read
that holds only a byte-order mark is.
-/

namespace Verif
open Ucd Spec
variable {U : Ucd}

/-- The stretches of text before, between and behind the escape sequences of a text. -/
def Spec.stretches (fin : Char → Bool) : List Char → List (List Char)
  | [] => [[]]
  | c :: r =>
    if c = ESC then [] :: stretches fin (afterEsc fin (r.dropWhile (· = ESC)))
    else match stretches fin r with
      | x :: xs => (c :: x) :: xs
      | [] => [[c]]
termination_by s => s.length
decreasing_by
  all_goals simp only [List.length_cons]
  · have h1 := afterEsc_le fin (r.dropWhile (· = ESC))
    have h2 := dropWhile_le (· = ESC) r
    omega
  · omega

theorem stretches_plain {fin : Char → Bool} {s : List Char} (h : ESC ∉ s) : stretches fin s = [s] := by
  induction s with
  | nil => rw [stretches]
  | cons c s ih => rw [stretches, if_neg fun e => h (by simp [e]), ih fun e => h (by simp [e])]

theorem stretches_esc {fin : Char → Bool} {p : List Char} (h : ESC ∉ p) (r : List Char) :
    stretches fin (p ++ ESC :: r) = p :: stretches fin (afterEsc fin (r.dropWhile (· = ESC))) := by
  induction p with
  | nil => rw [List.nil_append, stretches, if_pos rfl]
  | cons c p ih => rw [List.cons_append, stretches, if_neg fun e => h (by simp [e]), ih fun e => h (by simp [e])]

/-- What comes behind an escape sequence does not affect what comes before it. -/
theorem tokens_stretch {fin : Char → Bool} {one : Char → Tok} (r : List Char) : ∀ (n : Nat) (p : List Char), p.length ≤ n → ESC ∉ p →
    tokens fin one (p ++ ESC :: r) = tokens fin one p ++ .gone :: tokens fin one (afterEsc fin (r.dropWhile (· = ESC))) := by
  have hesc : tokens fin one ([] ++ ESC :: r) = tokens fin one [] ++ .gone :: tokens fin one (afterEsc fin (r.dropWhile (· = ESC))) := by
    rw [List.nil_append, show tokens fin one [] = [] by rw [tokens], List.nil_append, tokens.eq_def]
    simp [show ¬ ESC = '\n' by decide, show ¬ ESC = '\r' by decide, show ¬ ESC = FF by decide]
  intro n
  induction n with
  | zero =>
    intro p hp _
    have : p = [] := List.length_eq_zero_iff.1 (by omega)
    subst this
    exact hesc
  | succ n ih =>
    intro p hp he
    cases p with
    | nil =>
      exact hesc
    | cons c p =>
      simp only [List.length_cons] at hp
      have her : ESC ∉ p := fun h => he (by simp [h])
      rw [List.cons_append, tokens, tokens]
      by_cases c1 : c = '\n'
      · rw [if_pos c1, if_pos c1, ih p (by omega) her]; rfl
      rw [if_neg c1, if_neg c1]
      by_cases c2 : c = '\r'
      · rw [if_pos c2, if_pos c2]
        have hd : dropOne (· = '\n') (p ++ ESC :: r) = dropOne (· = '\n') p ++ ESC :: r := by
          cases p with
          | nil => rfl
          | cons d p => simp only [List.cons_append, dropOne]; split <;> rfl
        have hl := dropOne_le (· = '\n') p
        rw [hd, ih _ (by omega) fun h => her (mem_dropOne h)]; rfl
      rw [if_neg c2, if_neg c2]
      by_cases c3 : c = FF
      · rw [if_pos c3, if_pos c3]
        have hl := dropWhile_le (· = FF) p
        have hd : (p ++ ESC :: r).dropWhile (· = FF) = p.dropWhile (· = FF) ++ ESC :: r := by
          by_cases hw : p.dropWhile (· = FF) = []
          · have := List.dropWhile_append (p := fun x => decide (x = FF)) (xs := p) (ys := ESC :: r)
            rw [this, hw]
            simp [show ¬ ESC = FF by decide]
          · exact dropWhile_append_ne hw
        have hh : ((p.dropWhile (· = FF) ++ ESC :: r).head? = some '\n' ∨ (p.dropWhile (· = FF) ++ ESC :: r).head? = some '\r') ↔
            ((p.dropWhile (· = FF)).head? = some '\n' ∨ (p.dropWhile (· = FF)).head? = some '\r') := by
          cases p.dropWhile (· = FF) with
          | nil => simp [show ¬ ESC = '\n' by decide, show ¬ ESC = '\r' by decide]
          | cons d q => rfl
        simp only [hd, hh, ih _ (Nat.le_trans hl (by omega) : (p.dropWhile (· = FF)).length ≤ n) fun h => her (mem_dropWhile h)]
        split <;> rfl
      rw [if_neg c3, if_neg c3]
      have c4 : c ≠ ESC := fun h => he (by simp [h])
      rw [if_neg c4, if_neg c4, ih p (by omega) her]; rfl

/-- A text without ESC, or split at the first. -/
theorem first_esc (s : List Char) : ESC ∉ s ∨ ∃ p r, s = p ++ ESC :: r ∧ ESC ∉ p := by
  induction s with
  | nil => simp
  | cons c s ih =>
    by_cases hc : c = ESC
    · exact .inr ⟨[], s, by rw [hc]; rfl, by simp⟩
    · rcases ih with h | ⟨p, r, h1, h2⟩
      · exact .inl (by simp [h, Ne.symm hc])
      · exact .inr ⟨c :: p, r, by rw [h1]; rfl, by simp [h2, Ne.symm hc]⟩

/-- Induction over the stretches of a text. -/
theorem stretches_induction {fin : Char → Bool} {P : List Char → Prop} (h1 : ∀ s, ESC ∉ s → P s)
    (h2 : ∀ p r, ESC ∉ p → P (afterEsc fin (r.dropWhile (· = ESC))) → P (p ++ ESC :: r)) : ∀ (n : Nat) (s : List Char), s.length ≤ n → P s := by
  intro n
  induction n with
  | zero =>
    intro s hs
    have : s = [] := List.length_eq_zero_iff.1 (by omega)
    subst this; exact h1 _ (by simp)
  | succ n ih =>
    intro s hs
    rcases first_esc s with h | ⟨p, r, rfl, hp⟩
    · exact h1 s h
    · have e1 := afterEsc_le fin (r.dropWhile (· = ESC))
      have e2 := dropWhile_le (· = ESC) r
      simp only [List.length_append, List.length_cons] at hs
      exact h2 p r hp (ih _ (by omega))

/-- Scalars are counted stretch by stretch. -/
theorem count_stretches {fin : Char → Bool} {one : Char → Tok} (x : Char) (s : List Char) :
    ((tokens fin one s).flatMap Tok.out).count x = ((stretches fin s).map fun p => ((tokens fin one p).flatMap Tok.out).count x).sum := by
  refine stretches_induction (fin := fin) (P := fun s => ((tokens fin one s).flatMap Tok.out).count x =
    ((stretches fin s).map fun p => ((tokens fin one p).flatMap Tok.out).count x).sum) (fun s h => ?_) (fun p r hp ih => ?_) _ s (Nat.le_refl _)
  · rw [stretches_plain h]; simp
  · rw [stretches_esc hp, tokens_stretch r _ p (Nat.le_refl _) hp, List.flatMap_append, List.count_append, List.flatMap_cons, List.count_append,
      ih, List.map_cons, List.sum_cons]
    simp [Tok.out]

/-- The last token is a newline exactly if the last stretch ends with one. -/
theorem last_stretch {fin : Char → Bool} {nel lsps : Bool} (s : List Char) :
    (tokens fin (single nel lsps) s).getLast? = some .nl ↔ ∃ p ∈ (stretches fin s).getLast?, ∃ c ∈ p.getLast?, isNl nel lsps c = true := by
  have hne : ∀ r, stretches fin r ≠ [] := fun r => by
    rcases first_esc r with h | ⟨p, q, rfl, hp⟩
    · rw [stretches_plain h]; simp
    · rw [stretches_esc hp]; simp
  refine stretches_induction (fin := fin) (P := fun s => (tokens fin (single nel lsps) s).getLast? = some .nl ↔
    ∃ p ∈ (stretches fin s).getLast?, ∃ c ∈ p.getLast?, isNl nel lsps c = true) (fun s h => ?_) (fun p r hp ih => ?_) _ s (Nat.le_refl _)
  · rw [stretches_plain h, tokens_last_iff _ s (Nat.le_refl _) h]; simp
  · rw [stretches_esc hp, tokens_stretch r _ p (Nat.le_refl _) hp]
    rw [List.getLast?_append, List.getLast?_cons, List.getLast?_cons]
    have h2 := hne (afterEsc fin (r.dropWhile (· = ESC)))
    cases e : (stretches fin (afterEsc fin (r.dropWhile (· = ESC)))).getLast? with
    | none => exact absurd (List.getLast?_eq_none_iff.1 e) h2
    | some q =>
      rw [e] at ih
      cases e' : (tokens fin (single nel lsps) (afterEsc fin (r.dropWhile (· = ESC)))).getLast? with
      | none => rw [e'] at ih; simpa using ih
      | some t => rw [e'] at ih; simpa using ih

theorem stretches_eq_nil {fin : Char → Bool} (s : List Char) : stretches fin s = [[]] ↔ s = [] := by
  rcases first_esc s with h | ⟨p, r, rfl, hp⟩
  · rw [stretches_plain h]; simp
  · rw [stretches_esc hp]
    simp only [List.cons.injEq, List.append_eq_nil_iff, List.cons_ne_nil, and_false, iff_false, not_and]
    intro _ h
    rcases first_esc (afterEsc fin (r.dropWhile (· = ESC))) with h' | ⟨p, q, e, hp⟩
    · rw [stretches_plain h'] at h; simp at h
    · rw [e, stretches_esc hp] at h; simp at h

/-! ## An empty first read -/

/-- The same reader and source, or one about to have an empty first read where the other has one with only a byte-order mark. -/
inductive MarkRel : Ctl → List Event → Ctl → List Event → Prop
  | same (k : Ctl) (src : List Event) : MarkRel k src k src
  | mark (k : Ctl) (h : k.atStart = true) (st : Status) (src : List Event) : MarkRel k (.data [] st :: src) k (.data [BOM] st :: src)

theorem processRaw_mark {k : Ctl} (h : k.atStart = true) : processRaw U k [BOM] = processRaw U k [] := by
  unfold processRaw
  simp [h, feed]

theorem inStep_mark : InStep U MarkRel where
  expect := by
    intro k src k' src' h
    cases h with
    | same => exact .same _ _
    | mark h st src => exact .mark { k with expectStarter := true } h st src
  step := by
    intro k src k' src' h
    cases h with
    | same =>
      cases e : (nextEvent src).1 with
      | err => exact .inl ⟨rfl, rfl, .same _ _⟩
      | data s st => exact .inr ⟨s, s, st, rfl, rfl, fun q => ⟨rfl, .same _ _⟩⟩
    | mark h st src =>
      refine .inr ⟨[], [BOM], st, rfl, rfl, fun q => ?_⟩
      have e : intake U k q [BOM] st = intake U k q [] st := by unfold intake; rw [processRaw_mark h]
      rw [e]
      exact ⟨rfl, .same _ _⟩

/-- An empty first read is for the reader what one with only a byte-order mark is. -/
theorem empty_mark (nel lsps : Bool) (chunks : List (List Char)) (last : List Char) (lens : List Nat) :
    (Completes U nel lsps (script ([BOM] :: chunks) last) lens ↔ Completes U nel lsps (script ([] :: chunks) last) lens) ∧
    output U nel lsps (script ([BOM] :: chunks) last) lens = output U nel lsps (script ([] :: chunks) last) lens := by
  have h := (inStep_mark (U := U)).readMany lens (t := .new nel lsps) (k' := (TextInput.new nel lsps).ctl)
    (src := script ([] :: chunks) last) (src' := script ([BOM] :: chunks) last) (.mark _ rfl .active _)
  have h := runs_alike h
  exact ⟨h.2.2, h.1⟩

/-- The content as the reader takes it: behind a byte-order mark, unless the first read was empty. -/
def Spec.opened (chunks : List (List Char)) (last : List Char) : List Char :=
  if (chunks ++ [last]).head? = some [] then chunks.flatten ++ last else dropBom (chunks.flatten ++ last)

theorem opened_safe {chunks : List (List Char)} {last : List Char} (hb : BomSafe chunks last) :
    opened chunks last = dropBom (chunks.flatten ++ last) := by
  unfold opened
  split
  · rename_i h
    rcases hb with hb | hb
    · exact absurd h hb
    · unfold dropBom dropOne
      cases e : chunks.flatten ++ last with
      | nil => rfl
      | cons c r => rw [e] at hb; simp at hb; simp [hb]
  · rfl

/-- Every source is one that is safe, or begins with an empty read and can be replaced by one that begins with a byte-order mark. -/
theorem safe_or (chunks : List (List Char)) (last : List Char) : BomSafe chunks last ∨
    ∃ rest, chunks = [] :: rest ∧ BomSafe ([BOM] :: rest) last ∧ opened chunks last = dropBom (([BOM] :: rest).flatten ++ last) := by
  cases chunks with
  | nil =>
    left
    cases last with
    | nil => exact .inr (by simp)
    | cons c r => exact .inl (by simp)
  | cons s rest =>
    cases s with
    | cons c s => exact .inl (.inl (by simp))
    | nil =>
      refine .inr ⟨rest, rfl, .inl (by simp), ?_⟩
      simp [opened, dropBom, dropOne]

/-- The text read is made of the normalized segments of the translated content, whatever the source. -/
theorem run_opened (hU : TextLaws U) {nel lsps : Bool} {chunks : List (List Char)} {last : List Char} {lens : List Nat}
    (h : Completes U nel lsps (script chunks last) lens) :
    ∃ segs : List (List Char), translate U nel lsps (opened chunks last) = segs.flatten ∧
      output U nel lsps (script chunks last) lens = segs.flatMap (normChain U) := by
  rcases safe_or chunks last with hb | ⟨rest, rfl, hb, e⟩
  · obtain ⟨r, n, hr, hok⟩ := h
    obtain ⟨-, -, -, segs, h1, h2, -⟩ := run_script hU hb hr hok
    exact ⟨segs, by rw [opened_safe hb]; exact h1, h2⟩
  · have h' := (empty_mark nel lsps rest last lens).1.2 h
    obtain ⟨r, n, hr, hok⟩ := h'
    obtain ⟨-, -, -, segs, h1, h2, -⟩ := run_script hU hb hr hok
    exact ⟨segs, by rw [e]; exact h1, by rw [← (empty_mark nel lsps rest last lens).2]; exact h2⟩

end Verif
