import Verif.Props.Tables
import Verif.SpecLaws
import Verif.Copy

/-!
# Error messages and error positions, and how reads use their source (C90, C91, C92)
-/

namespace Verif
open Ucd Spec Tables

/-! ## C90 -/

/-- The scalars whose row (`docs/BasicText.md:150-169`) the code leaves to normalization: U+2126, U+212A, U+212B and the CJK
compatibility ideographs. -/
def LeftToNormalization (c : Char) : Prop := c = 'Ω' ∨ c = 'K' ∨ c = 'Å' ∨ inRanges docCjk c.toNat = true

theorem legacy_doc : rangesSub legacyRanges (docCjk ++ [(0x2126, 0x2126), (0x212a, 0x212b)]) = true := by decide +kernel
theorem doc_legacy : rangesSub docCjk legacyRanges = true := by decide +kernel

theorem legacy_left (c : Char) : isLegacy c = true ↔ LeftToNormalization c := by
  unfold LeftToNormalization
  constructor
  · intro h
    have h := rangesSub_sound legacy_doc h
    obtain ⟨r, hr, h1, h2⟩ := inRanges_iff.1 h
    simp only [List.mem_append, List.mem_cons, List.not_mem_nil, or_false] at hr
    simp only [← Char.toNat_inj]
    show c.toNat = 0x2126 ∨ c.toNat = 0x212a ∨ c.toNat = 0x212b ∨ _
    rcases hr with hr | rfl | rfl
    · exact Or.inr (Or.inr (Or.inr (inRanges_iff.2 ⟨r, hr, h1, h2⟩)))
    · simp only at h1 h2; omega
    · simp only at h1 h2; omega
  · rintro (rfl | rfl | rfl | h)
    · decide +kernel
    · decide +kernel
    · decide +kernel
    · exact rangesSub_sound doc_legacy h

theorem replacement_eq {c no : Char} {yes : List Char} (h : checkChar c = some (.replacement yes no)) :
    yes = replace c ∧ no = c := by
  have key : ∀ {p : Prop} [Decidable p] {a b x : Option BasicTextError}, (if p then a else b) = x → a = x ∨ b = x := by
    intro p _ a b x h; split at h
    · exact Or.inl h
    · exact Or.inr h
  unfold checkChar at h
  rcases key h with h | h
  · cases h
  rcases key h with h | h
  · injection h with h; injection h with h1 h2; exact ⟨h1.symm, h2.symm⟩
  iterate 11
    rcases key h with h | h
    · cases h
  cases h

/-- C90: "use `yes` instead of `no`" is said about the scalar itself, and offers something. -/
theorem c90_about_itself (c no : Char) (yes : List Char) (h : checkChar c = some (.replacement yes no)) : no = c ∧ yes ≠ [] := by
  obtain ⟨rfl, rfl⟩ := replacement_eq h
  exact ⟨rfl, replace_ne_nil _⟩

theorem suggestion_ok {c : Char} (hc : checkChar c ≠ none) (hl : isLegacy c = false) {d : Char} (hd : d ∈ replace c) : okChar d = true := by
  have hE : c ≠ ESC := by rintro rfl; exact hc (by decide)
  rcases (c46_replacement c).2 with h | ⟨h, -⟩
  · rcases replace_mem hE hd with h2 | h2
    · exact h2
    · have h3 := h d hd
      refine okChar_check.2 ⟨h3, ?_⟩
      rintro rfl
      exact absurd h2 (by decide +kernel)
  · rcases (replace_eq_self_iff c).1 h with h | h
    · exact absurd h hc
    · rw [hl] at h; simp at h

/-- C90: exactly for the scalars that are not left to normalization, what is suggested is accepted. -/
theorem c90_accepted_iff (c no : Char) (yes : List Char) (h : checkChar c = some (.replacement yes no)) :
    (∀ d ∈ yes, checkChar d = none ∧ d ≠ ESC) ↔ ¬ LeftToNormalization c := by
  obtain ⟨rfl, rfl⟩ := replacement_eq h
  rw [← legacy_left]
  constructor
  · intro hy hl
    have := (replace_eq_self_iff no).2 (Or.inr hl)
    rw [this] at hy
    have := (hy no (by simp)).1
    rw [this] at h; simp at h
  · intro hl d hd
    exact okChar_check.1 (suggestion_ok (by simp [h]) (by simpa using hl) hd)

/-- C90 fails for the others: the suggestion is to use the scalar instead of itself. -/
theorem c90_refuted (c no : Char) (yes : List Char) (h : checkChar c = some (.replacement yes no)) (hl : LeftToNormalization c) : yes = [no] := by
  obtain ⟨rfl, rfl⟩ := replacement_eq h
  exact (replace_eq_self_iff no).2 (Or.inr ((legacy_left no).2 hl))

/-- And there are such scalars. -/
theorem c90_refuted_exists : checkChar 'Ω' = some (.replacement ['Ω'] 'Ω') ∧
    checkChar '豈' = some (.replacement ['豈'] '豈') := by decide +kernel

/-- C90: a suggestion, normalized, is the document's row, except for U+FB03. -/
theorem c90_row_partial (c no : Char) (yes : List Char) (h : checkChar c = some (.replacement yes no)) (h4 : c ≠ 'ﬃ') :
    ∃ row, docRow c = some row ∧ normChain ucd15 yes = normChain ucd15 row := by
  obtain ⟨rfl, rfl⟩ := replacement_eq h
  have h1 : no ≠ '\r' := by rintro rfl; revert h; decide +kernel
  have h2 : no ≠ FF := by rintro rfl; revert h; decide +kernel
  have h3 : no ≠ ESC := by rintro rfl; revert h; decide +kernel
  have := (c57_check no h1 h2 h3).1 (by simp [h])
  cases hd : docRow no with
  | none => exact absurd hd this
  | some l => exact ⟨l, rfl, c57_row_partial no l hd h3 h4⟩

example : checkChar 'ﬁ' = some (.replacement ['f', 'i'] 'ﬁ') ∧ 'ﬁ' ≠ 'ﬃ' := by decide +kernel
example : ¬ LeftToNormalization 'ﬁ' ∧ LeftToNormalization 'Ω' := by rw [← legacy_left, ← legacy_left]; decide +kernel

/-- The items of accepted text that is no newline. -/
theorem tokens_accepted {nel lsps : Bool} : ∀ (y b : List Char), (∀ d ∈ y, okChar d = true ∧ d ≠ '\n') →
    tokens finCan (single nel lsps) (y ++ b) = y.map (fun d => .text [d]) ++ tokens finCan (single nel lsps) b := by
  intro y
  induction y with
  | nil => intro b _; rfl
  | cons d y ih =>
    intro b h
    obtain ⟨hd, hn⟩ := h d (by simp)
    have hok := okChar_check.1 hd
    have hne : ∀ x : Char, checkChar x ≠ none → d ≠ x := by rintro x hx rfl; exact hx hok.1
    rw [List.cons_append, tokens_one hn (hne '\r' (by decide)) (hne FF (by decide)) hok.2, ih b (fun e he => h e (by simp [he]))]
    have h1 := hne NEL (by decide)
    have h2 := hne LS (by decide)
    have h3 := hne PS (by decide)
    simp [single, h1, h2, h3, replace_ok hok.1]

/-- No suggestion contains a newline. -/
theorem multi_nl : replaceMulti.all (fun r => r.2.all fun n => !Nat.beq n 0xa) = true := by decide +kernel

theorem suggestion_nl {c no : Char} {yes : List Char} (h : checkChar c = some (.replacement yes no)) : '\n' ∉ yes := by
  obtain ⟨rfl, rfl⟩ := replacement_eq h
  intro hn
  rcases replace_cases no with ⟨-, v, hv, he⟩ | ⟨-, he⟩ | ⟨-, he⟩
  · rw [he, List.mem_map] at hn
    obtain ⟨n, hm, hn⟩ := hn
    have h2 := List.all_eq_true.1 multi_nl _ hv
    have h3 := List.all_eq_true.1 multi_ok _ hv
    simp only [Bool.and_eq_true, List.all_eq_true] at h2 h3
    have h4 := h2 n hm
    have := (h3.1.1 n hm).2
    have h5 : (Char.ofNat n).toNat = 0xa := by rw [hn]; rfl
    rw [toNat_ofNat this] at h5
    subst h5
    simp at h4
  · rw [he] at hn; simp at hn; exact absurd hn (by decide)
  · rw [he] at hn
    simp at hn
    subst hn
    revert h; decide +kernel

/-- The translated text is the same with a suggestion in place of the scalar. -/
theorem form_suggestion (nel lsps : Bool) {c no : Char} {yes : List Char} (h : checkChar c = some (.replacement yes no)) (hl : ¬ LeftToNormalization c)
    {a : List Char} (ha : Plain a) (b : List Char) :
    form ucd15 nel lsps (a ++ c :: b) = form ucd15 nel lsps (a ++ yes ++ b) ∧
    (nel = false → lsps = false → lossyText ucd15 (dropBom (a ++ c :: b)) = lossyText ucd15 (dropBom (a ++ yes ++ b))) := by
  have hnl := suggestion_nl h
  have hy := (c90_accepted_iff c no yes h).2 hl
  have hne := (c90_about_itself c no yes h).2
  obtain ⟨rfl, rfl⟩ := replacement_eq h
  have hx : ∀ x : List Char, x ≠ [] → x.head? ≠ some BOM → dropBom (a ++ x) = dropBom a ++ x := by
    intro x hx hb
    cases a with
    | nil => rw [List.nil_append, dropBom_of_ne hb]; rfl
    | cons y a => rw [dropBom_append (by simp)]
  have k1 : ∀ x : Char, checkChar x ≠ some (.replacement (replace x) x) → no ≠ x := by
    rintro x hx rfl; exact hx h
  obtain ⟨d, y, hdy⟩ := List.exists_cons_of_ne_nil hne
  unfold form
  rw [List.append_assoc, hx (no :: b) (by simp) (by simpa using k1 BOM (by decide +kernel)),
    hx (replace no ++ b) (by simp [hne]) (by
      rw [hdy]
      simp only [List.cons_append, List.head?_cons, ne_eq, Option.some.injEq]
      rintro rfl
      have := (hy BOM (by rw [hdy]; simp)).1
      exact absurd this (by decide))]
  have t1 : tokens finCan (single nel lsps) (dropBom a ++ no :: b) =
      tokens finCan (single nel lsps) (dropBom a) ++ .text (replace no) :: tokens finCan (single nel lsps) b := by
    rw [tokens_append _ _ _ (Nat.le_refl _) ha.dropBom, tokens_one (k1 '\n' (by decide +kernel)) (k1 '\r' (by decide +kernel)) (k1 FF (by decide +kernel))
      (k1 ESC (by decide +kernel))]
    have h1 := k1 NEL (by decide +kernel)
    have h2 := k1 LS (by decide +kernel)
    have h3 := k1 PS (by decide +kernel)
    simp [single, h1, h2, h3]
  have t2 : tokens finCan (single nel lsps) (dropBom a ++ (replace no ++ b)) =
      tokens finCan (single nel lsps) (dropBom a) ++ ((replace no).map (fun d => .text [d]) ++ tokens finCan (single nel lsps) b) := by
    rw [tokens_append _ _ _ (Nat.le_refl _) ha.dropBom, tokens_accepted _ _ (fun d hd => ⟨okChar_check.2 (hy d hd), by rintro rfl; exact hnl hd⟩)]
  have hfl : ∀ l : List Char, (l.map (fun d => Tok.text [d])).flatMap Tok.out = l := by
    intro l; induction l with
    | nil => rfl
    | cons x l ih => simp [Tok.out, ih]
  have o : (tokens finCan (single nel lsps) (dropBom a) ++ .text (replace no) :: tokens finCan (single nel lsps) b).flatMap Tok.out =
      (tokens finCan (single nel lsps) (dropBom a) ++ ((replace no).map (fun d => Tok.text [d]) ++ tokens finCan (single nel lsps) b)).flatMap Tok.out := by
    simp only [List.flatMap_append, List.flatMap_cons, hfl]; rfl
  have hf : translate ucd15 nel lsps (dropBom a ++ no :: b) = translate ucd15 nel lsps (dropBom a ++ (replace no ++ b)) := by
    unfold translate
    rw [t1, t2]
    simp only [o]
    congr 1
    rcases List.eq_nil_or_concat (tokens finCan (single nel lsps) b) with hb | ⟨ts, t, hb⟩
    · rw [hb]
      rcases List.eq_nil_or_concat (replace no) with h0 | ⟨ys, z, hz⟩
      · exact absurd h0 hne
      · rw [hz]; simp
    · rw [hb, List.concat_eq_append]; simp [List.getLast?_append, List.getLast?_cons]
  refine ⟨hf, fun h1 h2 => ?_⟩
  subst h1; subst h2
  have hc : Closed (dropBom a ++ no :: b) ↔ Closed (dropBom a ++ (replace no ++ b)) := by
    unfold Closed
    rcases List.eq_nil_or_concat b with rfl | ⟨b', x, rfl⟩
    · rcases List.eq_nil_or_concat (replace no) with h0 | ⟨ys, z, hz⟩
      · exact absurd h0 hne
      · rw [List.concat_eq_append] at hz
        have hzm : z ∈ replace no := by rw [hz]; simp
        have hz1 : z ≠ '\n' := by rintro rfl; exact hnl hzm
        have hz2 : z ≠ '\r' := by
          rintro rfl
          exact absurd (hy _ hzm).1 (by decide)
        have h1 := k1 '\n' (by decide +kernel)
        have h2 := k1 '\r' (by decide +kernel)
        rw [hz]
        simp [List.getLast?_append, h1, h2, hz1, hz2]
    · rw [List.concat_eq_append]
      simp [List.getLast?_append, List.getLast?_cons]
  unfold lossyText
  rw [hf]
  have hb : body ucd15 (dropBom a ++ no :: b) = body ucd15 (dropBom a ++ (replace no ++ b)) := by
    unfold body
    rw [t1, t2, o]
  rw [hb]
  simp only [hc]

/-- C90: taking a suggestion gives what the reader would have made of the scalar, after ordinary text (no ESC, and neither CR nor
FF directly before), whatever follows. -/
theorem c90_follow_reader_partial (nel lsps : Bool) (c no : Char) (yes a b : List Char) (h : checkChar c = some (.replacement yes no))
    (hl : ¬ LeftToNormalization c) (ha : Plain a) (chunks chunks' : List (List Char)) (last last' : List Char) (lens lens' : List Nat)
    (h1 : chunks.flatten ++ last = a ++ c :: b) (h2 : chunks'.flatten ++ last' = a ++ yes ++ b)
    (hb : BomSafe chunks last) (hb' : BomSafe chunks' last') (hn : Clear ucd15 nel lsps (a ++ c :: b))
    (hc : Completes ucd15 nel lsps (script chunks last) lens) (hc' : Completes ucd15 nel lsps (script chunks' last') lens') :
    output ucd15 nel lsps (script chunks last) lens = output ucd15 nel lsps (script chunks' last') lens' := by
  have hf := (form_suggestion nel lsps h hl ha b).1
  rw [output_stream textLaws15 hb (by rw [h1]; exact hn) hc,
    output_stream textLaws15 hb' (by rw [h2]; unfold Clear at hn ⊢; rw [← hf]; exact hn) hc', h1, h2]
  exact congrArg (normalize ucd15) hf

/-- C90: and what the lossy conversion would have made of it. -/
theorem c90_follow_lossy_partial (c no : Char) (yes a b : List Char) (h : checkChar c = some (.replacement yes no))
    (hl : ¬ LeftToNormalization c) (ha : Plain a) (chunks chunks' : List (List Char)) (last last' : List Char) (lens lens' : Nat → Nat)
    (h1 : chunks.flatten ++ last = a ++ c :: b) (h2 : chunks'.flatten ++ last' = a ++ yes ++ b)
    (hb : SliceReads chunks last) (hb' : SliceReads chunks' last') (hn : Clear ucd15 false false (a ++ c :: b)) (t t' : List Char)
    (ht : Converts chunks last lens t) (ht' : Converts chunks' last' lens' t') : t = t' := by
  have hf := form_suggestion false false h hl ha b
  obtain ⟨m, x, g1, g2⟩ := read_of_converts ht
  obtain ⟨m', x', g1', g2'⟩ := read_of_converts ht'
  rw [lossy_eq textLaws15 hb (by rw [h1]; exact hn) g1, h1] at g2
  rw [lossy_eq textLaws15 hb' (by rw [h2]; unfold Clear at hn ⊢; rw [← hf.1]; exact hn) g1', h2] at g2'
  injection g2 with g2
  injection g2' with g2'
  rw [← g2, ← g2', hf.2 rfl rfl]
  congr 1
  unfold bomPrefix
  have hy := (c90_accepted_iff c no yes h).2 hl
  have hne := (c90_about_itself c no yes h).2
  obtain ⟨rfl, rfl⟩ := replacement_eq h
  have e : ((a ++ no :: b).head? = some BOM) ↔ ((a ++ replace no ++ b).head? = some BOM) := by
    cases a with
    | cons x a => simp
    | nil =>
      obtain ⟨d, y, hdy⟩ := List.exists_cons_of_ne_nil hne
      have h3 : no ≠ BOM := by rintro rfl; revert h; decide +kernel
      have h4 : d ≠ BOM := by
        rintro rfl
        exact absurd (hy BOM (by rw [hdy]; simp)).1 (by decide)
      rw [hdy]
      simp [h3, h4]
  simp only [e]

example : checkChar 'ﬁ' = some (.replacement ['f', 'i'] 'ﬁ') ∧ BomSafe [['x', 'ﬁ'], ['\n']] [] ∧ SliceReads [['x', 'ﬁ', 'n']] [] ∧
    Completes ucd15 false false (script [['x', 'ﬁ'], ['\n']] []) [136, 136, 136] ∧
    Completes ucd15 false false (script [['x'], ['f', 'i', '\n']] []) [136, 136, 136] ∧
    output ucd15 false false (script [['x', 'ﬁ'], ['\n']] []) [136, 136, 136] = ['x', 'f', 'i', '\n'] :=
  ⟨by decide +kernel, by unfold BomSafe; decide, Or.inl (by decide), completes_of (by decide +kernel), completes_of (by decide +kernel), by decide +kernel⟩

/-- After ESC it does not: `f` belongs to the escape sequence. -/
theorem c90_refuted_escape : output ucd15 false false (script [] [ESC, 'ﬁ', '\n']) [136] = ['f', 'i', '\n'] ∧
    output ucd15 false false (script [] [ESC, 'f', 'i', '\n']) [136] = ['i', '\n'] := by decide +kernel

/-! ## C91 -/

theorem drain_stop_full {U : Ucd} : ∀ (fuel room : Nat) (t : TextInput) (out : List Char) (t' : TextInput),
    drain U fuel room t = (.full, out, t') → room < (encode out).length + 4 := by
  intro fuel
  induction fuel with
  | zero => intro room t out t' h; simp [drain] at h
  | succ fuel ih =>
    intro room t out t' h
    rw [drain] at h
    revert h
    generalize queueNext U t = qn
    obtain ⟨o, t1⟩ := qn
    cases o with
    | none => simp
    | some c =>
      intro h
      simp only at h
      split at h
      · simp at h
      · split at h
        · rename_i h1 h2
          simp only [Prod.mk.injEq, true_and] at h
          rw [← h.1]
          simp only [encode_cons, encode_nil, List.append_nil, encodeChar_length]
          unfold maxUtf8Size at h2; omega
        · cases hrec : drain U fuel (room - utf8Len c) t1 with
          | mk stop1 p =>
            obtain ⟨out1, t2⟩ := p
            rw [hrec] at h
            simp only [Prod.mk.injEq] at h
            obtain ⟨rfl, rfl, rfl⟩ := h
            have := ih _ _ _ _ hrec
            simp only [encode_cons, List.length_append, encodeChar_length]
            omega

/-- How a read uses its source. -/
theorem read_src {U : Ucd} (len : Nat) (t : TextInput) (e : Event) (src : List Event) :
    ((readWithStatus U len t (e :: src)).src = src ∧ (readWithStatus U len t (.err :: src)).ret = .sourceError ∧
      (readWithStatus U len t (e :: src)).ret ≠ .invalidInput ∧ t.pending = .active) ∨
    ((readWithStatus U len t (e :: src)).src = e :: src ∧ (readWithStatus U len t (.err :: src)).ret = (readWithStatus U len t (e :: src)).ret ∧
      ((readWithStatus U len t (e :: src)).ret = .invalidInput ∨ (readWithStatus U len t (e :: src)).ret = .panic ∨
        ∃ n, (readWithStatus U len t (e :: src)).ret = .ok n .active ∧ (t.pending = .active → len < n + 4))) := by
  unfold readWithStatus
  by_cases hl : len < normalizationBufferSize
  · right; simp [if_pos hl]
  · simp only [if_neg hl]
    cases hd : drain U (len + 1) len t with
    | mk stop p =>
      obtain ⟨out, t'⟩ := p
      have hp : t'.pending = t.pending := by
        have := drain_pending (U := U) (len + 1) len t
        rw [hd] at this; exact this
      cases stop with
      | panic => right; simp
      | full =>
        exact Or.inr ⟨rfl, rfl, Or.inr (Or.inr ⟨_, rfl, fun _ => drain_stop_full _ _ _ _ _ hd⟩)⟩
      | empty =>
        simp only
        by_cases hpe : t'.pending = .active
        · rw [if_neg (by simp [hpe]), if_neg (by simp [hpe])]
          left
          simp only [nextEvent]
          rw [hp] at hpe
          cases e with
          | err => simp [hpe]
          | data s st =>
            simp only
            split <;> simp [hpe]
        · rw [if_pos hpe, if_pos hpe]
          right
          exact ⟨rfl, rfl, Or.inr (Or.inr ⟨_, rfl, fun h => absurd (hp.trans h) hpe⟩)⟩

/-- C91: one call of `read` makes at most one read of the source, in whatever state the reader is. -/
theorem c91_at_most_one (len : Nat) (t : TextInput) (e : Event) (src : List Event) :
    (readWithStatus ucd15 len t (e :: src)).src = src ∨ (readWithStatus ucd15 len t (e :: src)).src = e :: src := by
  rcases read_src (U := ucd15) len t e src with h | h
  · exact Or.inl h.1
  · exact Or.inr h.1

/-- C91: it makes one exactly if it would fail on a source that fails. -/
theorem c91_consults_iff (len : Nat) (t : TextInput) (e : Event) (src : List Event) :
    (readWithStatus ucd15 len t (e :: src)).src = src ↔ (readWithStatus ucd15 len t (.err :: src)).ret = .sourceError := by
  have hne : e :: src ≠ src := fun h => by have := congrArg List.length h; simp at this
  rcases read_src (U := ucd15) len t e src with h | ⟨h1, h2, h3⟩
  · exact ⟨fun _ => h.2.1, fun _ => h.1⟩
  · rw [h1, h2]
    refine ⟨fun h => absurd h hne, fun h => ?_⟩
    rw [h] at h3
    simp at h3

/-- C91: a read that succeeds without a read of the source has filled its buffer up to at most three bytes, unless the source had
reported a push or its end in an earlier read that had no room left; and it reports no status of its own. -/
theorem c91_without_source (len : Nat) (t : TextInput) (e : Event) (src : List Event) (n : Nat) (st : Status)
    (h : (readWithStatus ucd15 len t (e :: src)).src = e :: src) (hr : (readWithStatus ucd15 len t (e :: src)).ret = .ok n st) :
    st = .active ∧ (t.pending = .active → len < n + 4) := by
  have hne : e :: src ≠ src := fun h => by have := congrArg List.length h; simp at this
  rcases read_src (U := ucd15) len t e src with h' | ⟨-, -, h3⟩
  · exact absurd (h.symm.trans h'.1) hne
  · rw [hr] at h3
    simp only [reduceCtorEq, false_or] at h3
    obtain ⟨m, h3, h4⟩ := h3
    injection h3 with h5 h6
    subst h5
    exact ⟨h6, h4⟩

/-- C91: after the reads of a whole session there have been at most as many reads of the source. -/
theorem c91_session (nel lsps : Bool) (src : List Event) (lens : List Nat) :
    ∃ k, k ≤ lens.length ∧ (finalState (.new nel lsps) src (readMany ucd15 lens (.new nel lsps) src)).2 = src.drop k := by
  generalize TextInput.new nel lsps = t
  induction lens generalizing t src with
  | nil => exact ⟨0, by simp, rfl⟩
  | cons len lens ih =>
    rw [readMany, finalState_cons]
    obtain ⟨k, hk, h⟩ := ih (readWithStatus ucd15 len t src).src (readWithStatus ucd15 len t src).input
    rw [h]
    cases src with
    | nil =>
      refine ⟨0, by simp, ?_⟩
      have : (readWithStatus ucd15 len t []).src = [] := by
        unfold readWithStatus
        split
        · rfl
        · split
          · rfl
          · rfl
          · split
            · rfl
            · simp only [nextEvent]
              split <;> rfl
      simp [this]
    | cons e src =>
      rcases c91_at_most_one len t e src with h1 | h1
      · exact ⟨k + 1, by simp; omega, by rw [h1]; rfl⟩
      · exact ⟨k, by simp; omega, by rw [h1]⟩

/-- C91 fails the other way: text that is ready is not handed out before the source has been read again, so it waits for the source, and
is lost if that fails. -/
theorem c91_refuted : stuck.ret = .ok 133 .active ∧ stuck.src = [.err] ∧
    (readWithStatus ucd15 136 stuck.input [.data [] .active]).out = ['a', 'a', 'a', 'a', '\n'] ∧
    (readWithStatus ucd15 136 stuck.input [.data [] .active]).src = [] ∧
    (readWithStatus ucd15 136 stuck.input [.err]).ret = .sourceError := by decide +kernel

/-- A reader with 300 letters, read with a buffer of 136 bytes. -/
def loaded : ReadResult := readWithStatus ucd15 136 (.new false false) [.data (List.replicate 300 'a' ++ ['\n']) .active, .data ['b'] .end_]

example : (readWithStatus ucd15 136 loaded.input (.data ['b'] .end_ :: [])).src = .data ['b'] .end_ :: [] ∧
    (readWithStatus ucd15 136 loaded.input (.data ['b'] .end_ :: [])).ret = .ok 133 .active ∧ loaded.input.pending = .active := by decide +kernel

/-! ## C92 -/

/-- C92: when `TextString::from_text` fails, the part before the reported position is Basic Text, accepted by itself both owned and
borrowed, and the rest, which is not empty, is not accepted by itself: there is an error at or after the position. -/
theorem c92_split_at_error (s : List Char) (n : Nat) (h : fromTextOwned ucd15 (isBasicText ucd15) s = .err n) :
    ∃ p q, s = p ++ q ∧ n = (encode p).length ∧ q ≠ [] ∧ fromText (isBasicText ucd15) p = .ok p ∧
      (∃ t, fromTextOwned ucd15 (isBasicText ucd15) p = .ok t) ∧
      (∀ t, fromTextOwned ucd15 (isBasicText ucd15) q ≠ .ok t) ∧ fromText (isBasicText ucd15) q ≠ .ok q := by
  obtain ⟨m, h1, p, c, q, rfl, rfl, hv, -⟩ := c07_valid_up_to_owned s (by intro t ht; rw [h] at ht; simp at ht)
  rw [h] at h1
  injection h1 with h1
  have hp := acceptable_of_valid hv
  have hno : ¬ Acceptable ucd15 (p ++ c :: q) := by
    intro ha
    rw [(owned_ok_iff isBasicText_nil).2 ⟨ha, rfl⟩] at h
    simp at h
  have hq : ¬ Acceptable ucd15 (c :: q) := by
    intro hq
    apply hno
    refine ⟨?_, ?_, ?_⟩
    · intro x hx
      rcases List.mem_append.1 hx with hx | hx
      · exact hp.1 x hx
      · exact hq.1 x hx
    · cases p with
      | nil => exact hq.2.1
      | cons y p => simpa using hp.2.1
    · have : (p ++ c :: q).getLast? = (c :: q).getLast? := by simp [List.getLast?_append, List.getLast?_cons]
      rw [this]; exact hq.2.2
  refine ⟨p, c :: q, rfl, h1, by simp, fromText_ok hv, ⟨_, (owned_ok_iff isBasicText_nil).2 ⟨hp, rfl⟩⟩, ?_, ?_⟩
  · intro t ht
    exact hq ((owned_ok_iff isBasicText_nil).1 ht).1
  · intro ht
    exact hq (acceptable_of_valid (fromText_ok_iff.1 ht).1)

/-- The same for `TextStr::from_text`, except that the rest may be acceptable when it only does not fit what is before it. -/
theorem c92_split_at_error_borrowed_partial (s : List Char) (n : Nat) (h : fromText (isBasicText ucd15) s = .err n) :
    ∃ p q, s = p ++ q ∧ n = (encode p).length ∧ q ≠ [] ∧ fromText (isBasicText ucd15) p = .ok p ∧
      (fromText (isBasicText ucd15) q = .ok q → ucd15.isNfcStreamSafe (p ++ q) = false) := by
  obtain ⟨m, h1, p, c, q, rfl, rfl, hv, -⟩ := c07_valid_up_to_borrowed s (by rw [h]; simp)
  rw [h] at h1
  injection h1 with h1
  refine ⟨p, c :: q, rfl, h1, by simp, fromText_ok hv, fun hq => ?_⟩
  cases hn : ucd15.isNfcStreamSafe (p ++ c :: q) with
  | false => rfl
  | true =>
    have hq := (fromText_ok_iff.1 hq).1
    have hpa := acceptable_of_valid hv
    have hqa := acceptable_of_valid hq
    have : isBasicText ucd15 (p ++ c :: q) = true := by
      refine text_iff.2 ⟨?_, ?_, substr_iff.2 ⟨?_, hn⟩⟩
      · cases p with
        | nil => exact hqa.2.1
        | cons y p => simpa using hpa.2.1
      · have : (p ++ c :: q).getLast? = (c :: q).getLast? := by simp [List.getLast?_append, List.getLast?_cons]
        rw [this]; exact hqa.2.2
      · intro x hx
        rcases List.mem_append.1 hx with hx | hx
        · exact hpa.1 x hx
        · exact hqa.1 x hx
    rw [fromText_ok this] at h
    simp at h

/-- The position reported by the owned conversion need not be where the error is: it is found on the text before normalization, and "e" followed by
U+0301, which would be accepted, counts as an error. -/
theorem c92_refuted_owned : fromTextOwned ucd15 (isBasicText ucd15) ['e', '\u0301', '\x00'] = .err 1 ∧
    fromTextOwned ucd15 (isBasicText ucd15) ['e', '\u0301'] = .ok ['\u00e9'] := by decide +kernel

/-- A text that normalization alone separates from Basic Text: each part is accepted. -/
example : fromText (isBasicText ucd15) ['\u1100', '\u1161'] = .err 3 ∧ fromText (isBasicText ucd15) ['\u1100'] = .ok ['\u1100'] ∧
    fromText (isBasicText ucd15) ['\u1161'] = .ok ['\u1161'] := by decide +kernel


end Verif
