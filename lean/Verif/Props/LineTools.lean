import Verif.Props.Image
import Verif.Props.Everyday

/-!
# Picking, sorting and merging lines (C128)
-/

namespace Verif
open Ucd Spec

/-- Lines written one after the other. -/
def Spec.ofLines (ls : List (List Char)) : List Char := ls.flatMap (· ++ ['\n'])

/-- Each of the lines is a line of a text with the property: any of them, from any number of texts, in any order, any number of times. -/
def Spec.Drawn (P : List Char → Prop) (ls : List (List Char)) : Prop := ∀ l ∈ ls, ∃ s, P s ∧ l ∈ lines s

theorem ofLines_nl (ls : List (List Char)) : ofLines ls = [] ∨ (ofLines ls).getLast? = some '\n' := by
  rcases List.eq_nil_or_concat ls with rfl | ⟨ls, l, rfl⟩
  · exact Or.inl rfl
  · right
    simp [ofLines, List.concat_eq_append]

theorem lines_substr {ls : List (List Char)} (h : ∀ l ∈ ls, isBasicTextSubstr ucd15 l = true) : isBasicTextSubstr ucd15 (ofLines ls) = true := by
  induction ls with
  | nil => decide +kernel
  | cons l ls ih =>
    have h1 := substr_iff.1 (h l (by simp))
    have h2 := substr_iff.1 (ih fun l m => h l (by simp [m]))
    have he : ofLines (l :: ls) = l ++ '\n' :: ofLines ls := by simp [ofLines]
    rw [he]
    refine substr_iff.2 ⟨?_, (nss_inert textLaws15.law (inert_lf textLaws15)).2 ⟨h1.2, h2.2⟩⟩
    intro c hc
    simp only [List.mem_append, List.mem_cons] at hc
    rcases hc with hc | rfl | hc
    · exact h1.1 c hc
    · decide
    · exact h2.1 c hc

/-- C128: lines drawn from valid substrings make a valid substring. -/
theorem c128_substr (ls : List (List Char)) (h : Drawn (fun s => fromText (isBasicTextSubstr ucd15) s = .ok s) ls) :
    fromText (isBasicTextSubstr ucd15) (ofLines ls) = .ok (ofLines ls) := by
  refine fromText_ok_iff.2 ⟨lines_substr fun l hl => ?_, rfl⟩
  obtain ⟨s, hs, hm⟩ := h l hl
  exact (c86_lines_valid_partial s (fromText_ok_iff.1 hs).1 l hm).1

/-- C128: and Basic Text exactly if the first scalar may be the first of Basic Text. -/
theorem c128_text_iff (ls : List (List Char)) (h : Drawn (fun s => fromText (isBasicTextSubstr ucd15) s = .ok s) ls) :
    fromText (isBasicText ucd15) (ofLines ls) = .ok (ofLines ls) ↔ ∀ c ∈ (ofLines ls).head?, isStart ucd15 c = true := by
  have h1 := (fromText_ok_iff.1 (c128_substr ls h)).1
  rw [fromText_ok_iff, text_iff]
  constructor
  · rintro ⟨⟨h2, -⟩, -⟩; exact h2
  · intro h2
    refine ⟨⟨h2, ?_, h1⟩, rfl⟩
    rcases ofLines_nl ls with h3 | h3
    · rw [h3]; simp
    · rw [h3]; simp [end_nl]

/-- C128: so always if the line that comes first was the first of a Basic Text, or is empty, or begins with an ASCII scalar. -/
theorem c128_text_ascii (l : List Char) (ls : List (List Char)) (h : Drawn (fun s => fromText (isBasicTextSubstr ucd15) s = .ok s) (l :: ls))
    (hl : ∀ c ∈ l.head?, c.toNat ≤ 0x7f ∨ ∃ s, fromText (isBasicText ucd15) s = .ok s ∧ s.head? = some c) :
    fromText (isBasicText ucd15) (ofLines (l :: ls)) = .ok (ofLines (l :: ls)) := by
  refine (c128_text_iff (l :: ls) h).2 fun c hc => ?_
  cases l with
  | nil =>
    have : c = '\n' := by simpa [ofLines] using hc.symm
    subst this
    decide +kernel
  | cons d l =>
    have : d = c := by simpa [ofLines] using hc
    subst this
    rcases hl d (by simp) with h1 | ⟨s, h1, h2⟩
    · exact textLaws15.start_ascii d h1
    · exact (text_iff.1 (fromText_ok_iff.1 h1).1).1 d (by simp [h2])

/-- Unassigned scalars of drawn lines still come after their U+34F. -/
theorem drawn_preceded {ls : List (List Char)} (h : ∀ l ∈ ls, Preceded ucd15 l) : Preceded ucd15 (ofLines ls) := by
  induction ls with
  | nil => intro a u b e; simp [ofLines] at e
  | cons l ls ih =>
    have ih := ih fun l m => h l (by simp [m])
    have he : ofLines (l :: ls) = l ++ '\n' :: ofLines ls := by simp [ofLines]
    intro a u b e hu
    rw [he] at e
    rcases List.append_eq_append_iff.1 e with ⟨x, h1, h2⟩ | ⟨x, h1, h2⟩
    · cases x with
      | nil =>
        simp only [List.nil_append, List.cons.injEq] at h2
        rw [← h2.1] at hu
        exact absurd hu (by decide +kernel)
      | cons y x =>
        simp only [List.cons_append, List.cons.injEq] at h2
        have h3 := ih x u b h2.2 hu
        rw [h1, List.getLast?_append, List.getLast?_cons, h3]
        rfl
    · cases x with
      | nil =>
        simp only [List.nil_append, List.cons.injEq] at h2
        rw [h2.1] at hu
        exact absurd hu (by decide +kernel)
      | cons y x =>
        simp only [List.cons_append, List.cons.injEq] at h2
        rw [← h2.1] at h1
        exact h l (by simp) a u x h1 hu

theorem line_preceded {s l : List Char} (hr : '\r' ∉ s) (h : Preceded ucd15 s) (hl : l ∈ lines s) : Preceded ucd15 l := by
  obtain ⟨p, q, hpq⟩ := List.append_of_mem hl
  have hj := lines_join hr
  rw [hpq] at hj
  have h' : Preceded ucd15 (if s = [] ∨ s.getLast? = some '\n' then s else s ++ ['\n']) := by
    split
    · exact h
    · intro a u b e hu
      rcases List.eq_nil_or_concat b with rfl | ⟨b, y, rfl⟩
      · have := (List.append_inj' e rfl).2
        simp only [List.cons.injEq, and_true] at this
        rw [← this] at hu
        exact absurd hu (by decide +kernel)
      · rw [List.concat_eq_append, ← List.cons_append, ← List.append_assoc] at e
        exact h a u b (List.append_inj' e rfl).1 hu
  rw [← hj] at h'
  intro a u b e hu
  have h2 := h' (ofLines p ++ a) u (b ++ '\n' :: ofLines q) (by rw [e]; simp [ofLines]) hu
  rcases List.eq_nil_or_concat a with rfl | ⟨a, y, rfl⟩
  · rw [List.append_nil] at h2
    rcases ofLines_nl p with h3 | h3
    · rw [h3] at h2; simp at h2
    · rw [h3] at h2
      exact absurd h2 (by decide)
  · rw [List.concat_eq_append, ← List.append_assoc, List.getLast?_concat] at h2
    rw [List.concat_eq_append, List.getLast?_concat, h2]

theorem no_cr_of_substr {s : List Char} (h : isBasicTextSubstr ucd15 s = true) : '\r' ∉ s :=
  fun hc => absurd ((substr_iff.1 h).1 _ hc) (by decide +kernel)

/-- C128: lines drawn from texts that were read or converted make a text that could have been read, if it begins like one; it is read
back as it is by every reader, unless a read ends between a U+34F and its unassigned scalar (see C107). -/
theorem c128_read_iff (ls : List (List Char)) (h : Drawn Attained ls) (hs : ∀ c ∈ (ofLines ls).head?, isStart ucd15 c = true)
    (nel lsps : Bool) (chunks : List (List Char)) (last : List Char) (he : chunks.flatten ++ last = ofLines ls) (lens : List Nat)
    (hc : Completes ucd15 nel lsps (script chunks last) lens) :
    Attained (ofLines ls) ∧ (output ucd15 nel lsps (script chunks last) lens = ofLines ls ↔
      ∀ i, i < chunks.length → ¬ EndsInside ucd15 (ofLines ls) (chunks.take (i + 1)).flatten) := by
  have hd : Drawn (fun s => fromText (isBasicTextSubstr ucd15) s = .ok s) ls := fun l hl => by
    obtain ⟨s, h1, h2⟩ := h l hl
    exact ⟨s, fromText_ok_iff.2 ⟨text_substr (fromText_ok_iff.1 h1.1).1, rfl⟩, h2⟩
  have hv := (c128_text_iff ls hd).2 hs
  have hp : Preceded ucd15 (ofLines ls) := drawn_preceded fun l hl => by
    obtain ⟨s, h1, h2⟩ := h l hl
    exact line_preceded (no_cr_of_substr (text_substr (fromText_ok_iff.1 h1.1).1)) h1.2 h2
  refine ⟨⟨hv, hp⟩, ?_⟩
  rw [c107_unchanged_iff nel lsps chunks last _ he hv (ofLines_nl ls) lens hc]
  exact ⟨fun h => h.2, fun h => ⟨hp, h⟩⟩

theorem guardStart_eq (x : List Char) : guardStart ucd15 x = if (∀ c ∈ x.head?, isStart ucd15 c = true) then x else CGJ :: x := by
  cases x with
  | nil => simp [guardStart]
  | cons c x => simp [guardStart]

theorem translate_lines {nel lsps : Bool} {s : List Char} (h4 : ∀ c ∈ s, okChar c = true) (hn : s = [] ∨ s.getLast? = some '\n') :
    translate ucd15 nel lsps s = guardStart ucd15 s := by
  rcases guardStart_cases ucd15 s with h | ⟨c, r, h1, h2, h3⟩
  · have h1 : ∀ c ∈ s.head?, isStart ucd15 c = true := by
      rw [guardStart_eq] at h
      intro c hc
      apply Classical.byContradiction
      intro hno
      rw [if_neg (fun hx => hno (hx c hc))] at h
      have := congrArg List.length h
      simp at this
    rw [translate_clean h1 h4, if_pos hn, h]
  · have hflat : (s.map fun c => if c = '\n' then Tok.nl else .text [c]).flatMap Tok.out = s := by
      clear h1 h2 h3 h4 hn
      induction s with
      | nil => rfl
      | cons c s ih =>
        rw [List.map_cons, List.flatMap_cons, ih]
        split
        · rename_i hc; rw [hc]; rfl
        · rfl
    have hne : s ≠ [] := by rw [h1]; simp
    have hn := hn.resolve_left hne
    unfold translate
    rw [tokens_ok h4]
    simp only [hflat]
    rw [if_pos (Or.inr (by rw [List.getLast?_map, hn]; rfl)), h3, guardEnd_end]
    intro d hd
    rw [List.getLast?_cons, hn] at hd
    simp at hd
    rw [← hd]; exact end_nl

/-- C128: if it does not begin like a text, reading it adds a U+34F at the beginning and nothing else. -/
theorem c128_guarded (ls : List (List Char)) (h : Drawn Attained ls) (nel lsps : Bool) (lens : List Nat)
    (hc : Completes ucd15 nel lsps (script [] (ofLines ls)) lens) :
    output ucd15 nel lsps (script [] (ofLines ls)) lens =
      if (∀ c ∈ (ofLines ls).head?, isStart ucd15 c = true) then ofLines ls else '\u034f' :: ofLines ls := by
  split
  · rename_i hs
    exact ((c128_read_iff ls h hs nel lsps [] _ rfl lens hc).2).2 (by simp)
  · rename_i hs
    have hd : Drawn (fun s => fromText (isBasicTextSubstr ucd15) s = .ok s) ls := fun l hl => by
      obtain ⟨s, h1, h2⟩ := h l hl
      exact ⟨s, fromText_ok_iff.2 ⟨text_substr (fromText_ok_iff.1 h1.1).1, rfl⟩, h2⟩
    have h1 := (fromText_ok_iff.1 (c128_substr ls hd)).1
    have hp : Preceded ucd15 (ofLines ls) := drawn_preceded fun l hl => by
      obtain ⟨s, h1, h2⟩ := h l hl
      exact line_preceded (no_cr_of_substr (text_substr (fromText_ok_iff.1 h1.1).1)) h1.2 h2
    have hne : ofLines ls ≠ [] := by intro e; rw [e] at hs; simp at hs
    have hnl := (ofLines_nl ls).resolve_left hne
    have hok := (substr_iff.1 h1).1
    have hT : translate ucd15 nel lsps (ofLines ls) = '\u034f' :: ofLines ls := by
      rw [translate_lines hok (Or.inr hnl), guardStart_eq, if_neg hs]
    have hv : isBasicText ucd15 ('\u034f' :: ofLines ls) = true := by
      refine text_iff.2 ⟨?_, ?_, substr_iff.2 ⟨?_, ?_⟩⟩
      · intro c hc
        simp only [List.head?_cons, Option.mem_def, Option.some.injEq] at hc
        rw [← hc]; exact textLaws15.start_cgj
      · intro c hc
        rw [List.getLast?_cons, hnl] at hc
        simp at hc
        rw [← hc]; exact end_nl
      · intro c hc
        rcases List.mem_cons.1 hc with rfl | hc
        · decide
        · exact hok c hc
      · exact (nss_inert textLaws15.law (boundary_inert textLaws15 (by decide)) (x := [])).2 ⟨nss_nil, (substr_iff.1 h1).2⟩
    have hnl' : ('\u034f' :: ofLines ls).getLast? = some '\n' := by rw [List.getLast?_cons, hnl]; rfl
    have hp' : Preceded ucd15 ('\u034f' :: ofLines ls) := by
      intro a u b e hu
      cases a with
      | nil =>
        simp only [List.nil_append, List.cons.injEq] at e
        rw [← e.1] at hu
        exact absurd hu (by decide +kernel)
      | cons y a =>
        simp only [List.cons_append, List.cons.injEq] at e
        rw [List.getLast?_cons, hp a u b e.2 hu]; rfl
    obtain ⟨n, hn⟩ := c15_reader_reaches_end nel lsps (script [] ('\u034f' :: ofLines ls)) (fun _ => normalizationBufferSize) (fun _ => Nat.le_refl _)
    have h3 := (c107_unchanged_iff nel lsps [] ('\u034f' :: ofLines ls) _ rfl (fromText_ok_iff.2 ⟨hv, rfl⟩) (Or.inr hnl') _ hn).2 ⟨hp', by simp⟩
    rw [output_single textLaws15 hn, ok_dropBom (substr_iff.1 (text_substr hv)).1, translate_ok hv, if_pos (Or.inr hnl')] at h3
    rw [output_single textLaws15 hc, ok_dropBom hok, hT]
    exact h3

/-- The third line of one text, the first, and the third again, in this order: no Basic Text, as the third begins with a mark. -/
theorem c128_refuted_always : Drawn Attained [['\u0301'], ['a', '\u034f', '\u0378', '\u034f'], ['\u0301']] ∧
    isBasicText ucd15 (ofLines [['\u0301'], ['a', '\u034f', '\u0378', '\u034f'], ['\u0301']]) = false ∧
    Completes ucd15 false false (script [] (ofLines [['\u0301'], ['a', '\u034f', '\u0378', '\u034f'], ['\u0301']])) [136] := by
  refine ⟨?_, by decide +kernel, completes_of (by decide +kernel)⟩
  have ha : Attained ['a', '\u034f', '\u0378', '\u034f', '\n', '\n', '\u0301', '\n'] :=
    ⟨by decide +kernel, (isolate_fix textLaws15 _).1 (by decide +kernel)⟩
  intro l hl
  refine ⟨_, ha, ?_⟩
  simp only [List.mem_cons, List.not_mem_nil, or_false] at hl
  rcases hl with rfl | rfl | rfl <;> decide +kernel

end Verif
