import Verif.Props.Fields
import Verif.Props.PiecesExact

/-!
# C141: values may be put into templates, and fields picked, ordered and joined
-/

namespace Verif
open Ucd Spec

/-- Scalars behind which anything may stand: the newline, and those that can stand between fields. -/
def Separates (c : Char) : Prop := c = '\n' ∨ Delim ucd15 c

theorem Separates.inert {c : Char} (h : Separates c) : ucd15.Inert c ∧ okChar c = true := by
  rcases h with rfl | h
  · exact ⟨inert_lf textLaws15, by decide⟩
  · exact ⟨h.inert, h.ok⟩

theorem Separates.start {c : Char} (h : Separates c) : isStart ucd15 c = true := by
  rcases h with rfl | h
  · exact textLaws15.start_ascii _ (by decide)
  · exact h.start

/-- Two pieces of text next to each other: the first ends with a scalar that divides, or the second begins with one that may begin text and is no
vowel or final of Hangul. -/
def Meets (x c : Char) : Prop := Separates x ∨ Separates c ∨ (isStart ucd15 c = true ∧ isJamoVT c = false)

/-- Pieces of text, each of which meets what follows it. -/
def Parted : List (List Char) → Prop
  | [] => True
  | p :: ps => (∀ x ∈ p.getLast?, ∀ c ∈ ps.flatten.head?, Meets x c) ∧ Parted ps

theorem substr_separated {a b : List Char} {d : Char} (hd : Separates d) :
    isBasicTextSubstr ucd15 (a ++ d :: b) = true ↔ isBasicTextSubstr ucd15 a = true ∧ isBasicTextSubstr ucd15 b = true := by
  rw [substr_iff, substr_iff, substr_iff, nss_inert textLaws15.law hd.inert.1]
  constructor
  · rintro ⟨h1, h2, h3⟩
    exact ⟨⟨fun c hc => h1 c (by simp [hc]), h2⟩, fun c hc => h1 c (by simp [hc]), h3⟩
  · rintro ⟨⟨h1, h2⟩, h3, h4⟩
    refine ⟨fun c hc => ?_, h2, h4⟩
    simp only [List.mem_append, List.mem_cons] at hc
    rcases hc with hc | rfl | hc
    · exact h1 c hc
    · exact hd.inert.2
    · exact h3 c hc

theorem substr_meets {a b : List Char} (h : ∀ x ∈ a.getLast?, ∀ c ∈ b.head?, Meets x c) :
    isBasicTextSubstr ucd15 (a ++ b) = true ↔ isBasicTextSubstr ucd15 a = true ∧ isBasicTextSubstr ucd15 b = true := by
  constructor
  · intro h
    exact ⟨substr_prefix textLaws15 h, substr_suffix textLaws15 h⟩
  · rintro ⟨h1, h2⟩
    rcases List.eq_nil_or_concat a with rfl | ⟨a, x, rfl⟩
    · simpa using h2
    rw [List.concat_eq_append] at *
    cases b with
    | nil => simpa using h1
    | cons c b =>
      rcases h x (by simp) c (by simp) with hx | hc | hc
      · rw [List.append_assoc]
        exact (substr_separated hx).2 ⟨substr_prefix textLaws15 h1, h2⟩
      · exact (substr_separated hc).2 ⟨h1, substr_suffix (a := [c]) textLaws15 h2⟩
      · exact substr_append textLaws15 h1 h2 (by simpa using hc)

/-- C141: pieces that meet make a `TextSubstr` together exactly if each is one. -/
theorem c141_pieces (ps : List (List Char)) (h : Parted ps) :
    fromText (isBasicTextSubstr ucd15) ps.flatten = .ok ps.flatten ↔ ∀ p ∈ ps, fromText (isBasicTextSubstr ucd15) p = .ok p := by
  simp only [fromText_ok_iff, and_true]
  induction ps with
  | nil => simp [isBasicTextSubstr_nil]
  | cons p ps ih =>
    rw [List.flatten_cons, substr_meets h.1, ih h.2]
    simp

/-- A template: its first literal part, and then values, each with the literal part behind it. -/
def filled (l : List Char) : List (List Char × List Char) → List Char
  | [] => l
  | (v, l') :: vs => l ++ v ++ filled l' vs

/-- A template's literal part before a value: it ends with a scalar that separates. -/
def Before (l : List Char) : Prop := ∃ x ∈ l.getLast?, Separates x
/-- A template's literal part behind a value: it begins with a scalar that may begin text and is no vowel or final of Hangul. -/
def Behind (l : List Char) : Prop := ∃ c ∈ l.head?, isStart ucd15 c = true ∧ isJamoVT c = false

theorem filled_head {l : List Char} (hl : l ≠ []) (vs : List (List Char × List Char)) : (filled l vs).head? = l.head? := by
  cases l with
  | nil => exact absurd rfl hl
  | cons c l => cases vs <;> simp [filled]

theorem filled_substr (vs : List (List Char × List Char)) : ∀ (l : List Char), isBasicTextSubstr ucd15 l = true → (vs ≠ [] → Before l) →
    (∀ p ∈ vs, isBasicTextSubstr ucd15 p.2 = true ∧ Behind p.2) → (∀ p ∈ vs.dropLast, Before p.2) →
    (isBasicTextSubstr ucd15 (filled l vs) = true ↔ ∀ p ∈ vs, isBasicTextSubstr ucd15 p.1 = true) := by
  induction vs with
  | nil => intro l h _ _ _; simpa [filled] using h
  | cons p vs ih =>
    obtain ⟨v, l'⟩ := p
    intro l h1 h2 h3 h4
    obtain ⟨x, hx, hxs⟩ := h2 (by simp)
    obtain ⟨c, hc, hcs⟩ := (h3 (v, l') (by simp)).2
    have hne : l' ≠ [] := by rintro rfl; simp at hc
    have hb : vs ≠ [] → Before l' := fun hv => h4 (v, l') (by rw [List.dropLast_cons_of_ne_nil hv]; simp)
    have := ih l' (h3 (v, l') (by simp)).1 hb (fun p hp => h3 p (List.mem_cons_of_mem _ hp)) (fun p hp => h4 p (by
      rw [List.dropLast_cons_of_ne_nil (by rintro rfl; simp at hp)]; exact List.mem_cons_of_mem _ hp))
    rw [filled, List.append_assoc, substr_meets, substr_meets, this]
    · simp [h1]
    · intro y _ d hd
      rw [filled_head hne, hc] at hd
      obtain rfl : c = d := by simpa using hd
      exact .inr (.inr hcs)
    · intro y hy d _
      rw [hx] at hy
      obtain rfl : x = y := by simpa using hy
      exact .inl hxs

/-- C141: a template filled with values. Every literal part before a value ends with a scalar that separates, and every one behind a value begins as
text may. Then the result is a `TextSubstr` exactly if the values are. -/
theorem c141_template (l : List Char) (vs : List (List Char × List Char)) (hl : fromText (isBasicTextSubstr ucd15) l = .ok l) (hb : vs ≠ [] → Before l)
    (h : ∀ p ∈ vs, fromText (isBasicTextSubstr ucd15) p.2 = .ok p.2 ∧ Behind p.2) (h' : ∀ p ∈ vs.dropLast, Before p.2) :
    fromText (isBasicTextSubstr ucd15) (filled l vs) = .ok (filled l vs) ↔ ∀ p ∈ vs, fromText (isBasicTextSubstr ucd15) p.1 = .ok p.1 := by
  simp only [fromText_ok_iff, and_true] at *
  exact filled_substr vs l hl hb h h'

theorem filled_last {vs : List (List Char × List Char)} : ∀ {l : List Char}, (∀ p ∈ vs, p.2 ≠ []) →
    (filled l vs).getLast? = (((vs.getLast?).map (·.2)).getD l).getLast? := by
  induction vs with
  | nil => intro l _; simp [filled]
  | cons p vs ih =>
    obtain ⟨v, l'⟩ := p
    intro l h
    have hne : filled l' vs ≠ [] := by
      intro e
      have := filled_head (h (v, l') (by simp)) vs
      rw [e] at this
      exact h (v, l') (by simp) (List.head?_eq_none_iff.1 this.symm)
    have := ih (l := l') fun p hp => h p (List.mem_cons_of_mem _ hp)
    rw [filled, List.getLast?_append, this]
    cases vs with
    | nil =>
      cases e : l'.getLast? with
      | none => exact absurd (List.getLast?_eq_none_iff.1 e) (h (v, l') (by simp))
      | some x => simp [e]
    | cons q vs =>
      obtain ⟨y, hy⟩ : ∃ y, (filled l' (q :: vs)).getLast? = some y := by
        cases e : (filled l' (q :: vs)).getLast? with
        | none => exact absurd (List.getLast?_eq_none_iff.1 e) hne
        | some y => exact ⟨y, rfl⟩
      rw [← this, hy]
      simp [List.getLast?_cons]
      rw [← hy, this, List.getLast?_cons]; rfl

/-- C141: and a `TextStr`, if the first literal part begins and the last ends as text may. -/
theorem c141_template_text (l : List Char) (vs : List (List Char × List Char)) (hl : fromText (isBasicTextSubstr ucd15) l = .ok l)
    (hb : vs ≠ [] → Before l) (h : ∀ p ∈ vs, fromText (isBasicTextSubstr ucd15) p.2 = .ok p.2 ∧ Behind p.2) (h' : ∀ p ∈ vs.dropLast, Before p.2)
    (hs : ∀ c ∈ l.head?, isStart ucd15 c = true) (he : ∀ c ∈ (((vs.getLast?).map (·.2)).getD l).getLast?, isEnd c = true) :
    fromText (isBasicText ucd15) (filled l vs) = .ok (filled l vs) ↔ ∀ p ∈ vs, fromText (isBasicTextSubstr ucd15) p.1 = .ok p.1 := by
  rw [← c141_template l vs hl hb h h']
  simp only [fromText_ok_iff, and_true]
  rw [text_iff, filled_last (fun p hp => by
    obtain ⟨c, hc, _⟩ := (h p hp).2
    rintro e
    simp [e] at hc)]
  have : ∀ c ∈ (filled l vs).head?, isStart ucd15 c = true := by
    cases l with
    | nil =>
      cases vs with
      | nil => simp [filled]
      | cons p vs =>
        obtain ⟨x, hx, _⟩ := hb (by simp)
        simp at hx
    | cons c l => rw [filled_head (by simp)]; exact hs
  exact ⟨fun x => x.2.2, fun x => ⟨this, he, x⟩⟩

/-- C141: fields with delimiters between them make a `TextSubstr` exactly if each field is one. So fields may be picked, left out, put in another
order, taken from several strings, and joined with another delimiter. -/
theorem c141_fields (d : Char) (hd : Separates d) (fs : List (List Char)) (hne : fs ≠ []) :
    fromText (isBasicTextSubstr ucd15) (joined d fs) = .ok (joined d fs) ↔ ∀ f ∈ fs, fromText (isBasicTextSubstr ucd15) f = .ok f := by
  simp only [fromText_ok_iff, and_true]
  induction fs with
  | nil => exact absurd rfl hne
  | cons f fs ih =>
    cases fs with
    | nil => simp [joined]
    | cons g fs =>
      rw [joined, substr_separated hd, ih (by simp)]
      simp
      all_goals simp

/-- C141: replacing scalars that separate by others, as `tr` does, keeps a `TextSubstr` one, and nothing else becomes one. -/
theorem c141_translate (f : Char → Char) (hf : ∀ c, f c = c ∨ (Separates c ∧ Separates (f c))) (s : List Char) :
    fromText (isBasicTextSubstr ucd15) (s.map f) = .ok (s.map f) ↔ fromText (isBasicTextSubstr ucd15) s = .ok s := by
  simp only [fromText_ok_iff, and_true]
  suffices h : ∀ (r s : List Char), isBasicTextSubstr ucd15 (r ++ s.map f) = true ↔ isBasicTextSubstr ucd15 (r ++ s) = true by simpa using h [] s
  intro r s
  induction s generalizing r with
  | nil => simp
  | cons c s ih =>
    rcases hf c with e | ⟨h1, h2⟩
    · rw [List.map_cons, e, show r ++ c :: s.map f = (r ++ [c]) ++ s.map f by simp, ih]; simp
    · rw [List.map_cons, substr_separated h2, substr_separated h1]
      have := ih []
      simp only [List.nil_append] at this
      rw [this]

/-- A value behind a scalar that does not separate can spoil the result: a letter, or `=`. -/
theorem c141_not_any : isBasicTextSubstr ucd15 ['a'] = true ∧ isBasicTextSubstr ucd15 ['='] = true ∧ isBasicTextSubstr ucd15 ['\u0301'] = true ∧
    isBasicTextSubstr ucd15 ['\u0338'] = true ∧ isBasicTextSubstr ucd15 ['a', '\u0301'] = false ∧ isBasicTextSubstr ucd15 ['=', '\u0338'] = false := by
  decide +kernel

/-- `name: {}, age ({}).` with a mark for a name. -/
example : Before "name: ".toList ∧ Behind ", age (".toList ∧ Before ", age (".toList ∧ Behind ").\n".toList ∧
    filled "name: ".toList [(['\u0301', 'é'], ", age (".toList), (['7'], ").\n".toList)] = "name: \u0301é, age (7).\n".toList ∧
    fromText (isBasicText ucd15) "name: \u0301é, age (7).\n".toList = .ok "name: \u0301é, age (7).\n".toList := by
  refine ⟨⟨' ', by decide, .inr (c140_delimiters ' ' (by decide) (by decide) (by decide))⟩, ⟨',', by decide, by decide +kernel⟩,
    ⟨'(', by decide, .inr (c140_delimiters '(' (by decide) (by decide) (by decide))⟩, ⟨')', by decide, by decide +kernel⟩, by decide, by decide +kernel⟩

/-- Tabs for commas. -/
example : ∀ c, (fun c => if c = ',' then '\t' else c) c = c ∨ (Separates c ∧ Separates ((fun c => if c = ',' then '\t' else c) c)) := by
  intro c
  by_cases h : c = ','
  · subst h
    exact .inr ⟨.inr (c140_delimiters ',' (by decide) (by decide) (by decide)), .inr (c140_delimiters '\t' (by decide) (by decide) (by decide))⟩
  · exact .inl (by simp [h])

/-- Pieces of a formatted string: wherever two meet, the one ends or the other begins with a scalar that separates. -/
def PiecesApart : List (List Char) → Prop
  | [] => True
  | p :: ps => (∀ x ∈ p.getLast?, ∀ c ∈ ps.flatten.head?, Separates x ∨ Separates c) ∧ PiecesApart ps

theorem Separates.split {d : Char} (h : Separates d) (x y : List Char) : normChain ucd15 (x ++ d :: y) = normChain ucd15 x ++ d :: normChain ucd15 y := by
  rcases h with rfl | h
  · exact normChain_split textLaws15 (inert_lf textLaws15) (nl_assigned textLaws15) (by decide) x y
  · exact normChain_split textLaws15 h.inert h.assigned h.joiner x y

theorem apart_normal : ∀ {ps : List (List Char)}, PiecesApart ps → ps.flatMap (normChain ucd15) = normChain ucd15 ps.flatten := by
  intro ps
  induction ps with
  | nil => intro _; rfl
  | cons p ps ih =>
    intro h
    rw [List.flatMap_cons, ih h.2, List.flatten_cons]
    rcases List.eq_nil_or_concat p with rfl | ⟨a, x, rfl⟩
    · rw [normChain_nil]; rfl
    rw [List.concat_eq_append] at *
    cases e : ps.flatten with
    | nil => rw [normChain_nil, List.append_nil, List.append_nil]
    | cons c b =>
      rcases h.1 x (by simp) c (by rw [e]; rfl) with hx | hc
      · have h1 := hx.split a []
        have h2 := hx.split a (c :: b)
        rw [h1, List.append_assoc, List.append_assoc, List.singleton_append, h2, normChain_nil]
        simp
      · have h1 := hc.split [] b
        have h2 := hc.split (a ++ [x]) b
        rw [List.nil_append, normChain_nil, List.nil_append] at h1
        rw [h1, h2]

/-- C141 for writers: `write!` of such pieces, the values being any strings, writes what `write_str` of the formatted string does, and fails if it does. -/
theorem c141_written (w : Writer) (hw : WBetween w) (pieces : List (List Char)) (hne : pieces.flatten ≠ []) (h : PiecesApart pieces) :
    (writeFmt ucd15 w pieces).map (·.2) = some (writeStr ucd15 w pieces.flatten).2 ∧
    ((writeStr ucd15 w pieces.flatten).2 = .ok → writeFmt ucd15 w pieces = some (writeStr ucd15 w pieces.flatten)) := by
  obtain ⟨h1, -, h3⟩ := c77_exact w hw pieces hne
  exact ⟨h1, fun hok => (h3 hok).1.2 (apart_normal h)⟩

/-- A decomposed value between `(` and `)`, and behind a letter. -/
example : PiecesApart [['f', '('], ['e', '\u0301'], [')', '\n']] ∧
    (writeFmt ucd15 (.new goodSink) [['f', '('], ['e', '\u0301'], [')', '\n']]).map (·.1.sink.sent) = some ['f', '(', 'é', ')', '\n'] ∧
    (writeFmt ucd15 (.new goodSink) [['f', 'e'], ['\u0301'], [')', '\n']]).map (·.1.sink.sent) = some ['f', 'e', '\u0301', ')', '\n'] ∧
    (writeStr ucd15 (.new goodSink) ['f', 'e', '\u0301', ')', '\n']).1.sink.sent = ['f', 'é', ')', '\n'] := by
  have hs : ∀ c ∈ ['(', ')'], Separates c := fun c hc => by
    simp only [List.mem_cons, List.not_mem_nil, or_false] at hc
    rcases hc with rfl | rfl
    · exact .inr (c140_delimiters '(' (by decide) (by decide) (by decide))
    · exact .inr (c140_delimiters ')' (by decide) (by decide) (by decide))
  refine ⟨⟨fun x hx c _ => .inl ?_, fun x _ c hc => .inr ?_, fun x _ c hc => by simp at hc, trivial⟩, by decide +kernel, by decide +kernel, by decide +kernel⟩
  · obtain rfl : '(' = x := by simpa using hx
    exact hs _ (by simp)
  · obtain rfl : ')' = c := by simpa using hc
    exact hs _ (by simp)

end Verif
