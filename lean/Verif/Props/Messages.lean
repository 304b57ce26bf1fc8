import Verif.Message
import Verif.Props.Escaping
import Verif.Props.Errors
import Verif.Props.Bytes

/-!
# Property C133: the messages of errors
-/

namespace Verif
open Ucd Spec

/-- The scalar that an error names in its message. -/
def Spec.names : BasicTextError → Option Char
  | .controlCode c => some c
  | .deprecatedFormatChar c => some c
  | .omit c => some c
  | .replacement _ no => some no
  | _ => none

variable {ext printable : Char → Bool}

/-! ## What a scalar is shown as -/

/-- Printable ASCII, or one scalar shown as it is. -/
theorem debug_shape (c : Char) : (∀ x ∈ debugChar ext printable c, 0x20 ≤ x.toNat ∧ x.toNat ≤ 0x7e) ∨
    (debugChar ext printable c = [c] ∧ ext c = false ∧ printable c = true) := by
  unfold debugChar
  split
  · exact Or.inl (by decide)
  split
  · exact Or.inl (by decide)
  split
  · exact Or.inl (by decide)
  split
  · exact Or.inl (by decide)
  split
  · rename_i h; rcases h with rfl | rfl <;> exact Or.inl (by decide)
  split
  · rename_i h; subst h; exact Or.inl (by decide)
  split
  · exact Or.inl (escapeUnicodeChar_ascii c)
  · rename_i h
    split
    · rename_i h'; exact Or.inr ⟨rfl, by simpa using h, h'⟩
    · exact Or.inl (escapeUnicodeChar_ascii c)

/-- A rejected scalar that is not a control is shown as it is exactly if the tables say so. -/
theorem debug_shown {c : Char} (h : ext c = false) (hp : printable c = true) (hc : 0x7e < c.toNat) : debugChar ext printable c = [c] := by
  have ne : ∀ d : Char, d.toNat ≤ 0x7e → c ≠ d := by rintro d hd rfl; omega
  unfold debugChar
  rw [if_neg (ne _ (by decide)), if_neg (ne _ (by decide)), if_neg (ne _ (by decide)), if_neg (ne _ (by decide)),
    if_neg (by rintro (h | h) <;> exact ne _ (by decide) h), if_neg (ne _ (by decide)), h, hp]
  simp

theorem listed_mem : ∀ (s : List Char) {x : Char}, x ∈ listed ext printable s → (0x20 ≤ x.toNat ∧ x.toNat ≤ 0x7e) ∨ ∃ c ∈ s, x ∈ debugChar ext printable c
  | [], x, h => by simp only [listed, List.mem_singleton] at h; subst h; exact Or.inl (by decide)
  | [c], x, h => by
    simp only [listed, quoted, List.mem_append, List.mem_cons, List.not_mem_nil, or_false] at h
    rcases h with (rfl | h | rfl) | rfl
    · exact Or.inl (by decide)
    · exact Or.inr ⟨c, by simp, h⟩
    · exact Or.inl (by decide)
    · exact Or.inl (by decide)
  | c :: d :: s, x, h => by
    simp only [listed, quoted, List.mem_append, List.mem_cons, List.not_mem_nil, or_false] at h
    rcases h with (rfl | h | rfl) | rfl | rfl | h
    · exact Or.inl (by decide)
    · exact Or.inr ⟨c, by simp, h⟩
    · exact Or.inl (by decide)
    · exact Or.inl (by decide)
    · exact Or.inl (by decide)
    · rcases listed_mem (d :: s) h with h | ⟨e, he, h⟩
      · exact Or.inl h
      · exact Or.inr ⟨e, by simp [he], h⟩

theorem listed_of_mem : ∀ (s : List Char) {c : Char}, c ∈ s → ∀ x ∈ debugChar ext printable c, x ∈ listed ext printable s
  | [c], d, h, x, hx => by
    obtain rfl := List.mem_singleton.1 h
    simp [listed, quoted, hx]
  | c :: d :: s, e, h, x, hx => by
    rcases List.mem_cons.1 h with rfl | h
    · simp [listed, quoted, hx]
    · have := listed_of_mem (d :: s) h x hx
      simp [listed, this]

/-- The scalars that a message shows. -/
def shown : BasicTextError → List Char
  | .controlCode c => [c]
  | .deprecatedFormatChar c => [c]
  | .omit c => [c]
  | .replacement yes no => no :: yes
  | _ => []

theorem opening_ascii (e : BasicTextError) : (opening e).toList ≠ [] ∧ ∀ x ∈ (opening e).toList, 0x20 ≤ x.toNat ∧ x.toNat ≤ 0x7e := by
  cases e <;> simp only [opening] <;> decide +kernel

theorem instead_ascii : ∀ x ∈ " instead of ".toList, 0x20 ≤ x.toNat ∧ x.toNat ≤ 0x7e := by decide +kernel

theorem quoted_mem {c x : Char} (hx : x ∈ quoted ext printable c) : (0x20 ≤ x.toNat ∧ x.toNat ≤ 0x7e) ∨ x ∈ debugChar ext printable c := by
  simp only [quoted, List.mem_cons, List.mem_append, List.not_mem_nil, or_false] at hx
  rcases hx with rfl | hx | rfl
  · exact Or.inl (by decide)
  · exact Or.inr hx
  · exact Or.inl (by decide)

theorem message_mem (e : BasicTextError) {x : Char} (h : x ∈ message ext printable e) :
    (0x20 ≤ x.toNat ∧ x.toNat ≤ 0x7e) ∨ ∃ c ∈ shown e, x ∈ debugChar ext printable c := by
  rcases List.mem_append.1 h with h | h
  · exact Or.inl ((opening_ascii e).2 x h)
  have hq : ∀ c, c ∈ shown e → x ∈ quoted ext printable c → (0x20 ≤ x.toNat ∧ x.toNat ≤ 0x7e) ∨ ∃ c ∈ shown e, x ∈ debugChar ext printable c :=
    fun c hc hx => (quoted_mem hx).imp id fun h => ⟨c, hc, h⟩
  cases e <;> simp only [details, List.mem_append, List.not_mem_nil] at h <;> try exact hq _ (by simp [shown]) h
  rename_i yes no _
  rcases h with (h | h) | h
  · rcases listed_mem yes h with h | ⟨c, hc, h⟩
    · exact Or.inl h
    · exact Or.inr ⟨c, by simp [shown, hc], h⟩
  · exact Or.inl (instead_ascii x h)
  · exact hq no (by simp [shown]) h

theorem message_of_mem (e : BasicTextError) {c x : Char} (hc : c ∈ shown e) (hx : x ∈ debugChar ext printable c) : x ∈ message ext printable e := by
  refine List.mem_append_right _ ?_
  cases e <;> simp only [shown, List.not_mem_nil, List.mem_cons, or_false] at hc <;> try (subst hc; simp [details, quoted, hx]; done)
  rename_i yes no
  rcases hc with rfl | hc
  · simp [details, quoted, hx]
  · have := listed_of_mem yes hc x hx
    simp [details, this]

/-! ## One line -/

/-- C133: whatever the error, its message is on one line and has no control codes, as long as the standard library does not count these as printable. -/
theorem c133_one_line (hp : ∀ c, (c.toNat < 0x20 ∨ (0x7f ≤ c.toNat ∧ c.toNat ≤ 0x9f)) → printable c = false) (e : BasicTextError) :
    ∀ x ∈ message ext printable e, ¬ (x.toNat < 0x20 ∨ (0x7f ≤ x.toNat ∧ x.toNat ≤ 0x9f)) := by
  intro x hx hc
  rcases message_mem e hx with h | ⟨c, -, h⟩
  · omega
  · rcases debug_shape (ext := ext) (printable := printable) c with g | ⟨g, -, g'⟩
    · have := g x h; omega
    · rw [g, List.mem_singleton] at h
      subst h
      rw [hp _ hc] at g'
      simp at g'

/-! ## Writing the message -/

theorem acceptable_ends (e : BasicTextError) : (∀ c ∈ (message ext printable e).head?, c.toNat ≤ 0x7e) ∧ (∀ c ∈ (message ext printable e).getLast?, c.toNat ≤ 0x7e) := by
  have hq : ∀ (l : List Char) (c : Char), (l ++ quoted ext printable c).getLast? = some '\'' := by
    intro l c
    rw [quoted, ← List.cons_append, ← List.append_assoc, List.getLast?_concat]
  obtain ⟨h1, h2⟩ := opening_ascii e
  refine ⟨fun c hc => ?_, fun c hc => ?_⟩
  · obtain ⟨d, l, hd⟩ := List.exists_cons_of_ne_nil h1
    rw [message, hd, List.cons_append, List.head?_cons] at hc
    obtain rfl := Option.some.inj hc
    exact (h2 _ (by rw [hd]; simp)).2
  · rw [message] at hc
    cases e <;> simp only [details, List.append_nil, ← List.append_assoc] at hc <;> first
      | (rw [hq] at hc; obtain rfl := Option.some.inj hc; decide)
      | exact (h2 c (List.mem_of_getLast? hc)).2

theorem names_itself {c : Char} {e : BasicTextError} (h : checkChar c = some e) : names e = none ∨ (names e = some c ∧ c ∈ shown e) := by
  have key : ∀ {p : Prop} [Decidable p] {a b x : Option BasicTextError}, (if p then a else b) = x → a = x ∨ b = x := by
    intro p _ a b x h; split at h
    · exact Or.inl h
    · exact Or.inr h
  unfold checkChar at h
  iterate 13
    rcases key h with h | h
    · injection h with h; subst h; simp [names, shown]
  cases h

theorem names_none {e : BasicTextError} (h : names e = none) : shown e = [] := by
  cases e <;> simp [names] at h <;> rfl

/-- C133, exactly: the message of the error about a scalar is accepted by `TextString::from_text`, and so can be written, exactly if it
does not name the scalar or the standard library escapes it. -/
theorem c133_accepted_iff (hp : ∀ c, (c.toNat < 0x20 ∨ (0x7f ≤ c.toNat ∧ c.toNat ≤ 0x9f)) → printable c = false) (c : Char) (e : BasicTextError)
    (h : checkChar c = some e) :
    (∃ t, fromTextOwned ucd15 (isBasicText ucd15) (message ext printable e) = .ok t) ↔ names e = none ∨ ext c = true ∨ printable c = false := by
  have hown : (∃ t, fromTextOwned ucd15 (isBasicText ucd15) (message ext printable e) = .ok t) ↔ ∀ x ∈ message ext printable e, okChar x = true := by
    constructor
    · rintro ⟨t, ht⟩
      exact ((owned_ok_iff isBasicText_nil).1 ht).1.1
    · intro hok
      refine ⟨_, (owned_ok_iff isBasicText_nil).2 ⟨⟨hok, fun c hc => ?_, fun c hc => ?_⟩, rfl⟩⟩
      · exact textLaws15.start_ascii c (by have := (acceptable_ends e).1 c hc; omega)
      · exact ascii_end (by have := (acceptable_ends e).2 c hc; omega)
  rw [hown]
  constructor
  · intro hok
    rcases names_itself h with hn | ⟨-, hs⟩
    · exact Or.inl hn
    · right
      cases he : ext c with
      | true => exact Or.inl rfl
      | false =>
        cases hpr : printable c with
        | false => exact Or.inr rfl
        | true =>
          exfalso
          have hbad : okChar c = false := by simp [okChar, h]
          have hbig : 0x7e < c.toNat := by
            by_cases h1 : c.toNat ≤ 0x7e
            · exfalso
              have : ¬ Printable c := fun g => by rw [(ok_ascii (by omega)).2 g] at hbad; simp at hbad
              have h2 : c.toNat < 0x20 := by
                by_cases h3 : c.toNat < 0x20
                · exact h3
                · exact absurd (Or.inr (Or.inr ⟨by omega, h1⟩)) this
              rw [hp c (Or.inl h2)] at hpr; simp at hpr
            · omega
          have := hok c (message_of_mem e hs (by rw [debug_shown he hpr hbig]; simp))
          rw [hbad] at this; simp at this
  · intro hc x hx
    have hasc : 0x20 ≤ x.toNat ∧ x.toNat ≤ 0x7e → okChar x = true := fun g => (ok_ascii (by omega)).2 (Or.inr (Or.inr g))
    rcases message_mem e hx with g | ⟨d, hd, hxd⟩
    · exact hasc g
    · rcases debug_shape (ext := ext) (printable := printable) d with g | ⟨g, g1, g2⟩
      · exact hasc (g x hxd)
      · rw [g, List.mem_singleton] at hxd
        subst hxd
        rcases hc with hc | hc
        · rw [names_none hc] at hd; simp at hd
        · have hne : x ≠ c := by
            rintro rfl
            rcases hc with hc | hc
            · rw [hc] at g1; simp at g1
            · rw [hc] at g2; simp at g2
          rcases names_itself h with hn | ⟨hn, -⟩
          · rw [names_none hn] at hd; simp at hd
          · cases e <;> simp only [names, shown, Option.some.injEq, List.mem_cons, List.not_mem_nil, or_false, reduceCtorEq] at hn hd <;>
              try (subst hn; exact absurd hd hne)
            rename_i yes no
            subst hn
            rcases hd with rfl | hd
            · exact absurd rfl hne
            · by_cases hl : LeftToNormalization no
              · rw [c90_refuted no no yes h hl, List.mem_singleton] at hd
                exact absurd hd hne
              · exact okChar_check.2 ((c90_accepted_iff no no yes h).2 hl x hd)

/-- C133: and exactly then it can be written, as a line, to a `TextWriter` whose inner stream does not fail. -/
theorem c133_written_iff (hp : ∀ c, (c.toNat < 0x20 ∨ (0x7f ≤ c.toNat ∧ c.toNat ≤ 0x9f)) → printable c = false) (c : Char) (e : BasicTextError)
    (h : checkChar c = some e) (k : Sink) (hd : k.dead = false) (hk : k.script = []) :
    (∃ T, writeClose ucd15 (.new k) (encode (message ext printable e ++ ['\n'])) = some T) ↔ names e = none ∨ ext c = true ∨ printable c = false := by
  rw [← c133_accepted_iff (ext := ext) hp c e h, c68_write_close_iff k hd hk]
  constructor
  · rintro ⟨s, h1, h2, -, -⟩
    have h1 := encode_injective h1
    refine ⟨_, (owned_ok_iff isBasicText_nil).2 ⟨⟨fun x hx => okChar_check.2 (h2 x (by rw [← h1]; simp [hx])), fun c hc => ?_, fun c hc => ?_⟩, rfl⟩⟩
    · exact textLaws15.start_ascii c (by have := (acceptable_ends e).1 c hc; omega)
    · exact ascii_end (by have := (acceptable_ends e).2 c hc; omega)
  · rintro ⟨t, ht⟩
    have h1 := ((owned_ok_iff isBasicText_nil).1 ht).1
    refine ⟨_, rfl, fun x hx => ?_, fun x hx => ?_, by simp⟩
    · rcases List.mem_append.1 hx with hx | hx
      · exact okChar_check.1 (h1.1 x hx)
      · obtain rfl := List.mem_singleton.1 hx
        exact ⟨by decide +kernel, by decide⟩
    · have hne : message ext printable e ≠ [] := by
        intro h0
        exact (opening_ascii e).1 (List.append_eq_nil_iff.1 h0).1
      obtain ⟨y, l, hy⟩ := List.exists_cons_of_ne_nil hne
      rw [hy, List.cons_append, List.head?_cons] at hx
      exact h1.2.1 x (by rw [hy]; exact hx)

/-! ## Messages tell errors apart -/

/-- A quoted scalar, read back from behind its first quote. -/
def unquoteOne : List Char → Option (Char × List Char)
  | [] => none
  | c :: r =>
    if c ≠ '\\' then some (c, r.drop 1)
    else match r with
      | [] => none
      | d :: r =>
        if d = 'u' then some (Char.ofNat (hexValue ((r.drop 1).takeWhile (· ≠ '}'))), (((r.drop 1).dropWhile (· ≠ '}')).drop 1).drop 1)
        else some (if d = '0' then '\x00' else if d = 't' then '\t' else if d = 'r' then '\r' else if d = 'n' then '\n' else d, r.drop 1)

theorem unquote_unicode (c : Char) (r : List Char) : unquoteOne (escapeUnicodeChar c ++ r) = some (c, r.drop 1) := by
  have h1 : ((hexDigits c.toNat ++ ['}'] ++ r).takeWhile (· ≠ '}')) = hexDigits c.toNat := by
    rw [List.append_assoc, List.takeWhile_append_of_pos (fun x hx => by simpa using (hexDigits_ascii _ x hx).2)]
    simp
  have h2 : ((hexDigits c.toNat ++ ['}'] ++ r).dropWhile (· ≠ '}')) = '}' :: r := by
    rw [List.append_assoc, List.dropWhile_append_of_pos (fun x hx => by simpa using (hexDigits_ascii _ x hx).2)]
    simp
  have e : escapeUnicodeChar c ++ r = '\\' :: 'u' :: '{' :: (hexDigits c.toNat ++ ['}'] ++ r) := by simp [escapeUnicodeChar]
  rw [e]
  simp only [unquoteOne, ne_eq, not_true, if_false, if_true, List.drop_succ_cons, List.drop_zero]
  simp only [ne_eq] at h1 h2
  rw [h1, h2, hexValue_digits, Char.ofNat_toNat]
  rfl

theorem unquote_debug (c : Char) (r : List Char) : unquoteOne (debugChar ext printable c ++ '\'' :: r) = some (c, r) := by
  unfold debugChar
  split
  · rename_i h; subst h; rfl
  split
  · rename_i h; subst h; rfl
  split
  · rename_i h; subst h; rfl
  split
  · rename_i h; subst h; rfl
  split
  · rename_i h; rcases h with rfl | rfl <;> rfl
  rename_i h
  have hb : c ≠ '\\' := fun g => h (Or.inr g)
  have hone : unquoteOne ([c] ++ '\'' :: r) = some (c, r) := by simp [unquoteOne, hb]
  have huni := unquote_unicode c ('\'' :: r)
  rw [List.drop_succ_cons, List.drop_zero] at huni
  (repeat' split) <;> assumption

theorem quoted_inj {c d : Char} {r t : List Char} (h : quoted ext printable c ++ r = quoted ext printable d ++ t) : c = d ∧ r = t := by
  simp only [quoted, List.cons_append, List.append_assoc, List.nil_append, List.cons.injEq, true_and] at h
  have h1 := unquote_debug (ext := ext) (printable := printable) c r
  rw [h, unquote_debug] at h1
  simp only [Option.some.injEq, Prod.mk.injEq] at h1
  exact ⟨h1.1.symm, h1.2.symm⟩

theorem listed_inj : ∀ {x y : List Char} {r t : List Char}, listed ext printable x ++ r = listed ext printable y ++ t → x = y ∧ r = t
  | [], [], r, t, h => by simpa [listed] using h
  | [], [d], r, t, h => by simp [listed, quoted] at h
  | [], d :: e :: y, r, t, h => by simp [listed, quoted] at h
  | [c], [], r, t, h => by simp [listed, quoted] at h
  | c :: c' :: x, [], r, t, h => by simp [listed, quoted] at h
  | [c], [d], r, t, h => by
    simp only [listed, List.append_assoc] at h
    obtain ⟨rfl, h⟩ := quoted_inj h
    simpa using h
  | [c], d :: e :: y, r, t, h => by
    simp only [listed, List.append_assoc] at h
    obtain ⟨rfl, h⟩ := quoted_inj h
    simp at h
  | c :: c' :: x, [d], r, t, h => by
    simp only [listed, List.append_assoc] at h
    obtain ⟨rfl, h⟩ := quoted_inj h
    simp at h
  | c :: c' :: x, d :: e :: y, r, t, h => by
    simp only [listed, List.append_assoc] at h
    obtain ⟨rfl, h3⟩ := quoted_inj h
    simp only [List.cons_append, List.cons.injEq, true_and] at h3
    obtain ⟨h1, h2⟩ := listed_inj h3
    exact ⟨by rw [h1], h2⟩

/-- The first four scalars tell the kind. -/
def kindOf : BasicTextError → Nat
  | .colorEscapeSequence => 0 | .controlCode _ => 1 | .deprecatedFormatChar _ => 2 | .escape => 3 | .bidiFormatChar => 4 | .interlinear => 5
  | .languageTag => 6 | .lineSeparation => 7 | .nonChar => 8 | .paraSeparation => 9 | .unneededBOM => 10 | .outOfBand => 11 | .omit _ => 12
  | .beyyal => 13 | .unrecognizedEscape => 14 | .replacement _ _ => 15

def kindTags : List (List Char) :=
  ["Colo", "Cont", "Depr", "Esca", "Expl", "Inte", "Lang", "Line", "Nonc", "Para", "U+FE", "U+FF", "Omit", "Spel", "Unre", "Use "].map String.toList

theorem tags_nodup : ∀ i j : Fin 16, kindTags[i.val]? = kindTags[j.val]? → i = j := by decide +kernel

theorem kind_lt (e : BasicTextError) : kindOf e < 16 := by cases e <;> simp [kindOf]

theorem message_tag (e : BasicTextError) : some ((message ext printable e).take 4) = kindTags[kindOf e]? := by
  have h : 4 ≤ (opening e).toList.length ∧ some ((opening e).toList.take 4) = kindTags[kindOf e]? := by
    cases e <;> simp only [opening, kindOf] <;> decide +kernel
  rw [message, List.take_append_of_le_length h.1, h.2]

/-- C133: the message tells the error: different errors have different messages. -/
theorem c133_tells (e e' : BasicTextError) (h : message ext printable e = message ext printable e') : e = e' := by
  have hk : kindOf e = kindOf e' := by
    have h1 := message_tag (ext := ext) (printable := printable) e
    rw [h, message_tag] at h1
    exact (Fin.mk.inj (tags_nodup ⟨kindOf e', kind_lt e'⟩ ⟨kindOf e, kind_lt e⟩ h1)).symm
  have hq : ∀ {c d : Char}, quoted ext printable c = quoted ext printable d → c = d := by
    intro c d hcd
    have : quoted ext printable c ++ [] = quoted ext printable d ++ [] := by rw [hcd]
    exact (quoted_inj this).1
  cases e <;> cases e' <;> first | rfl | (simp only [kindOf] at hk; omega) | skip
  all_goals
    simp only [message, opening] at h
    have h := List.append_cancel_left h
    simp only [details, List.append_assoc] at h
  · rw [hq h]
  · rw [hq h]
  · rw [hq h]
  · obtain ⟨h1, h2⟩ := listed_inj h
    rw [h1, hq (List.append_cancel_left h2)]

/-- C133 fails for the scalars that are shown as they are: the message of the error about U+2126, as a program receives it, is not accepted as text
and cannot be written. -/
theorem c133_refuted (ext printable : Char → Bool) (h1 : ext '\u2126' = false) (h2 : printable '\u2126' = true) :
    checkChar '\u2126' = some (.replacement ['\u2126'] '\u2126') ∧
    message ext printable (.replacement ['\u2126'] '\u2126') = "Use ['".toList ++ ['\u2126'] ++ "'] instead of '".toList ++ ['\u2126', '\''] ∧
    ∀ t, fromTextOwned ucd15 (isBasicText ucd15) (message ext printable (.replacement ['\u2126'] '\u2126')) ≠ .ok t := by
  have hd : debugChar ext printable '\u2126' = ['\u2126'] := debug_shown h1 h2 (by decide)
  refine ⟨by decide +kernel, ?_, fun t ht => ?_⟩
  · simp only [message, opening, details, listed, quoted, hd]
    decide +kernel
  · have := ((owned_ok_iff isBasicText_nil).1 ht).1.1 '\u2126' (message_of_mem _ (c := '\u2126') (by simp [shown]) (by rw [hd]; simp))
    exact absurd this (by decide +kernel)

/-! ## The index of a conversion error -/

theorem digit_table : ∀ n : Fin 10, (0x20 ≤ (Char.ofNat (48 + n.val)).toNat ∧ (Char.ofNat (48 + n.val)).toNat ≤ 0x7e) ∧ (Char.ofNat (48 + n.val)).toNat - 48 = n.val := by
  decide +kernel

def decimalValue (l : List Char) : Nat := l.foldl (fun v c => v * 10 + (c.toNat - 48)) 0

theorem decimal_facts (n : Nat) : (∀ x ∈ decimal n, 0x20 ≤ x.toNat ∧ x.toNat ≤ 0x7e) ∧ decimalValue (decimal n) = n := by
  induction n using Nat.strongRecOn with
  | _ n ih =>
    rw [decimal]
    split
    · rename_i h
      have := digit_table ⟨n, h⟩
      exact ⟨fun x hx => by rw [List.mem_singleton.1 hx]; exact this.1, by simpa [decimalValue] using this.2⟩
    · rename_i h
      obtain ⟨h1, h2⟩ := ih (n / 10) (by omega)
      have h3 := digit_table ⟨n % 10, Nat.mod_lt _ (by decide)⟩
      refine ⟨fun x hx => ?_, ?_⟩
      · rcases List.mem_append.1 hx with hx | hx
        · exact h1 x hx
        · rw [List.mem_singleton.1 hx]; exact h3.1
      · unfold decimalValue at h2 ⊢
        rw [List.foldl_append, h2, List.foldl_cons, List.foldl_nil, h3.2]
        dsimp only
        omega

/-- C133: the message of a failed conversion is Basic Text whatever was converted, and tells the index. -/
theorem c133_index (n m : Nat) : fromText (isBasicText ucd15) (indexMessage n) = .ok (indexMessage n) ∧
    (indexMessage n = indexMessage m → n = m) := by
  have hascii : ∀ x ∈ indexMessage n, 0x20 ≤ x.toNat ∧ x.toNat ≤ 0x7e := by
    intro x hx
    rcases List.mem_append.1 hx with hx | hx
    · have : ∀ x ∈ "invalid Basic Text byte sequence from index ".toList, 0x20 ≤ x.toNat ∧ x.toNat ≤ 0x7e := by decide +kernel
      exact this x hx
    · exact (decimal_facts n).1 x hx
  refine ⟨(c81_ascii_accepted _ fun c hc => by have := hascii c hc; omega).1.2 fun c hc => Or.inr (Or.inr (hascii c hc)), fun h => ?_⟩
  have h := congrArg decimalValue (List.append_cancel_left h)
  rwa [(decimal_facts n).2, (decimal_facts m).2] at h

/-- Messages with a control code and with two scalars. -/
example : message (fun _ => false) (fun c => 0x20 ≤ c.toNat ∧ c.toNat < 0x7f) (.controlCode '\x07') = "Control code not valid in text: '\\u{7}'".toList ∧
    checkChar '\ufb01' = some (.replacement ['f', 'i'] '\ufb01') ∧
    message (fun _ => false) (fun c => 0x20 ≤ c.toNat ∧ c.toNat < 0x7f) (.replacement ['f', 'i'] '\ufb01') = "Use ['f', 'i'] instead of '\\u{fb01}'".toList ∧
    indexMessage 120 = "invalid Basic Text byte sequence from index 120".toList := by decide +kernel

end Verif
