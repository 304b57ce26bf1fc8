import Verif.CountTheory
import Verif.Props.Tables
import Verif.Props.Strings
import Verif.Props.Reader
import Verif.Props.Bytes

/-!
# What the conversions keep (C71–C73)

How many replacement characters and newlines come out, and that lines are converted independently of each other.
-/

namespace Verif
open Ucd Spec Tables

/-! ## C71 -/

/-- Does `c` come out as a replacement character?  It is one, or its row of the Sequence Table says so. -/
def Spec.Replaced (c : Char) : Prop := c = '�' ∨ docRow c = some ['�']

instance (c : Char) : Decidable (Replaced c) := inferInstanceAs (Decidable (_ ∨ _))

theorem repl_inert : ucd15.Inert '�' := inert_of_plain (by decide +kernel)

theorem rows_repl : docRows.all (fun r => rangeAll (fun n => Nat.beq n 0x1b || match docRowN n with
    | some l => eqN l [0xfffd] && eqN (replaceN n) [0xfffd] || l.all (fun d => !Nat.beq d 0xfffd && validN d) && (replaceN n).all (fun d => !Nat.beq d 0xfffd && validN d)
    | none => false) r.1.1 (r.1.2 + 1 - r.1.1)) = true := by decide +kernel

theorem count_absent {l : List Nat} (h : l.all (fun d => !Nat.beq d 0xfffd && validN d) = true) : '�' ∉ l.map Char.ofNat := by
  intro hm
  obtain ⟨d, hd, he⟩ := List.mem_map.1 hm
  have := List.all_eq_true.1 h d hd
  rw [Bool.and_eq_true] at this
  have hv := toNat_ofNat this.2
  rw [he] at hv
  rw [← hv] at this
  exact absurd this.1 (by decide)

theorem replace_count (c : Char) (h1 : c ≠ '\r') (h2 : c ≠ FF) (h3 : c ≠ ESC) : (replace c).count '�' = if Replaced c then 1 else 0 := by
  cases hd : docRow c with
  | none =>
    rw [c57_no_row c hd h1 h2 h3]
    have hrep : Replaced c ↔ c = '�' := by
      unfold Replaced
      rw [hd]; simp
    simp only [hrep]
    by_cases hc : c = '�'
    · simp [hc]
    · simp [hc]
  | some l =>
    have hne : c ≠ '�' := by
      rintro rfl
      have : docRow '�' = none := by decide +kernel
      rw [this] at hd; simp at hd
    have hrep : Replaced c ↔ l = ['�'] := by
      unfold Replaced
      rw [hd]; simp [hne]
    simp only [hrep]
    unfold docRow at hd
    cases hr : docRowN c.toNat with
    | none =>
      rw [hr] at hd
      simp only at hd
      split at hd
      · rename_i hc
        injection hd with hd
        rw [(cjk_row hc).1, if_neg]
        · simp [hne]
        · intro hl
          rw [hl] at hd
          exact hne (repl_inert.cjk_only c (by rw [hd]; simp))
      · simp at hd
    | some v =>
      rw [hr] at hd
      injection hd with hd
      obtain ⟨r, m1, m2, m3⟩ := row_mem hr
      have := rangeAll_mem (List.all_eq_true.1 rows_repl r m1) m2 (by omega)
      have hb : Nat.beq c.toNat 0x1b = false := by
        cases hb : Nat.beq c.toNat 0x1b with
        | false => rfl
        | true => exact absurd (Char.toNat_inj.1 (beq_iff.1 hb)) h3
      rw [hb, hr] at this
      simp only [Bool.false_or, Bool.or_eq_true, Bool.and_eq_true] at this
      rw [replace_map]
      rcases this with ⟨g1, g2⟩ | ⟨g1, g2⟩
      · rw [eqN_iff] at g1 g2
        rw [← hd, g1, g2]; decide
      · rw [List.count_eq_zero_of_not_mem (count_absent g2), if_neg]
        rintro rfl
        exact count_absent g1 (by rw [hd]; simp)

theorem tokens_repl (nel lsps : Bool) (s : List Char) (he : ESC ∉ s) :
    ((tokens finCan (single nel lsps) s).flatMap Tok.out).count '�' = s.countP (fun c => Replaced c) := by
  apply count_tokens (x := '�') (by decide) (by decide) (by decide +kernel) (by decide +kernel) (by decide +kernel) _ _ _ (Nat.le_refl _) he
  intro c h1 h2 h3 h4
  unfold single
  split
  · rename_i hc
    have : Replaced c = False := by
      rcases hc with ⟨-, rfl⟩ | ⟨-, rfl | rfl⟩ <;> simp <;> decide +kernel
    simp [this, Tok.out]
  · simp only [Tok.out, decide_eq_true_eq]
    exact replace_count c h2 h3 h4

theorem translate_repl (nel lsps : Bool) (s : List Char) (he : ESC ∉ s) : (translate ucd15 nel lsps s).count '�' = s.countP (fun c => Replaced c) := by
  have hc : '�' ≠ CGJ := by decide
  unfold translate
  simp only
  split
  · rw [count_guardEnd hc, count_guardStart hc, tokens_repl nel lsps s he]
  · rw [List.count_append, count_guardEnd hc, count_guardStart hc, tokens_repl nel lsps s he]
    simp

theorem dropBom_repl (s : List Char) : (dropBom s).countP (fun c => Replaced c) = s.countP (fun c => Replaced c) := by
  apply countP_dropOne
  intro c hc
  simp at hc; subst hc; decide +kernel

/-- C71: in text without ESC, exactly the scalars the Sequence Table replaces by U+FFFD, and those that are U+FFFD, come out as U+FFFD, one
for one, in every mode, for every split and all buffers. -/
theorem c71_replacements (nel lsps : Bool) (chunks : List (List Char)) (last : List Char) (lens : List Nat)
    (hb : (chunks ++ [last]).head? ≠ some [] ∨ (chunks.flatten ++ last).head? ≠ some BOM) (he : ESC ∉ chunks.flatten ++ last)
    (h : Completes ucd15 nel lsps (script chunks last) lens) :
    (output ucd15 nel lsps (script chunks last) lens).count '�' = (chunks.flatten ++ last).countP (fun c => Replaced c) := by
  obtain ⟨r, n, hr, hok⟩ := h
  obtain ⟨-, -, -, segs, h1, h2, -⟩ := run_script textLaws15 hb hr hok
  have he' : ESC ∉ dropBom (chunks.flatten ++ last) := fun h => he (mem_dropOne h)
  unfold output
  rw [h2, count_segs textLaws15 repl_inert (by decide +kernel) (by decide), ← h1, translate_repl _ _ _ he', dropBom_repl]

/-- C71 for the lossy string conversion. -/
theorem c71_lossy_replacements (chunks : List (List Char)) (last : List Char) (lens : Nat → Nat) (t : List Char) (hb : SliceReads chunks last)
    (he : ESC ∉ chunks.flatten ++ last) (h : Converts chunks last lens t) :
    t.count '�' = (chunks.flatten ++ last).countP (fun c => Replaced c) := by
  obtain ⟨m, text, h1, h2⟩ := read_of_converts h
  obtain ⟨segs, g1, g2, -⟩ := lossy_run textLaws15 hb h1
  rw [h2, Option.some.injEq] at g2
  have he' : ESC ∉ dropBom (chunks.flatten ++ last) := fun h => he (mem_dropOne h)
  have e1 := translate_repl false false _ he'
  rw [translate_lossyText, List.count_append, ← g1] at e1
  have e2 : (if Closed (dropBom (chunks.flatten ++ last)) then ([] : List Char) else ['\n']).count '�' = 0 := by split <;> rfl
  have e3 : (bomPrefix (chunks.flatten ++ last)).count '�' = 0 := by unfold bomPrefix; split <;> decide
  rw [g2, List.count_append, count_segs textLaws15 repl_inert (by decide +kernel) (by decide), e3, ← dropBom_repl]
  omega

/-- C71: so text in which the table replaces nothing by U+FFFD comes out without U+FFFD. -/
theorem c71_no_replacement (nel lsps : Bool) (chunks : List (List Char)) (last : List Char) (lens : List Nat)
    (hb : (chunks ++ [last]).head? ≠ some [] ∨ (chunks.flatten ++ last).head? ≠ some BOM) (he : ESC ∉ chunks.flatten ++ last)
    (h : Completes ucd15 nel lsps (script chunks last) lens) (hn : ∀ c ∈ chunks.flatten ++ last, ¬ Replaced c) :
    '�' ∉ output ucd15 nel lsps (script chunks last) lens := by
  intro hm
  have := c71_replacements nel lsps chunks last lens hb he h
  rw [List.countP_eq_zero.2 (by simpa using hn)] at this
  exact absurd hm (List.count_eq_zero.1 this)

example : Replaced '\x00' ∧ Replaced '￼' ∧ Replaced '�' ∧ ¬ Replaced '\r' ∧ ¬ Replaced '\x0c' ∧ ¬ Replaced '﻿' ∧ ¬ Replaced 'Ω' ∧
    output ucd15 false false (script [['﻿', 'a', '\x00']] ['�', '￼', '\x0c', 'b']) [136, 136] = ['a', '�', '�', '�', ' ', 'b', '\n'] := by
  decide +kernel

/-! ## C72 -/

theorem replace_multi_nl : replaceMulti.all (fun r => r.2.all fun d => !Nat.beq d 10 && validN d) = true := by decide +kernel

theorem replace_no_nl (c : Char) (h : c ≠ '\n') : (replace c).count '\n' = 0 := by
  apply List.count_eq_zero_of_not_mem
  intro hm
  rw [replace_map] at hm
  obtain ⟨d, hd, he⟩ := List.mem_map.1 hm
  unfold replaceN at hd
  cases hl : replaceMulti.lookup c.toNat with
  | some l =>
    rw [hl] at hd
    have := List.all_eq_true.1 (List.all_eq_true.1 replace_multi_nl _ (lookup_mem hl)) d hd
    rw [Bool.and_eq_true] at this
    have hv := toNat_ofNat this.2
    rw [he] at hv
    rw [← hv] at this
    exact absurd this.1 (by decide)
  | none =>
    rw [hl] at hd
    simp only at hd
    cases hr : inRanges replaceRepl c.toNat with
    | true => rw [hr] at hd; simp at hd; subst hd; exact absurd he (by decide)
    | false => rw [hr] at hd; simp at hd; subst hd; rw [Char.ofNat_toNat] at he; exact h he

/-- The newlines of a text in a mode: U+A, U+D U+A, U+D, and U+85 in NEL mode, U+2028 and U+2029 in LSPS mode. -/
def Spec.newlines (nel lsps : Bool) (s : List Char) : Nat := (toLF s).countP fun c => c = '\n' ∨ (nel ∧ c = NEL) ∨ (lsps ∧ (c = LS ∨ c = PS))

/-- C72: in text without ESC, every newline of the mode comes out as one newline, and one is added at the end unless the text is
empty or ends with a newline; there are no others. -/
theorem c72_newlines (nel lsps : Bool) (chunks : List (List Char)) (last : List Char) (lens : List Nat)
    (hb : (chunks ++ [last]).head? ≠ some [] ∨ (chunks.flatten ++ last).head? ≠ some BOM) (he : ESC ∉ chunks.flatten ++ last)
    (h : Completes ucd15 nel lsps (script chunks last) lens) :
    (output ucd15 nel lsps (script chunks last) lens).count '\n' = newlines nel lsps (dropBom (chunks.flatten ++ last)) +
      if dropBom (chunks.flatten ++ last) = [] ∨ ∃ c ∈ (dropBom (chunks.flatten ++ last)).getLast?, isNl nel lsps c = true then 0 else 1 := by
  obtain ⟨r, n, hr, hok⟩ := h
  obtain ⟨-, -, -, segs, h1, h2, -⟩ := run_script textLaws15 hb hr hok
  have hc : '\n' ≠ CGJ := by decide
  have he' : ESC ∉ dropBom (chunks.flatten ++ last) := fun h => he (mem_dropOne h)
  unfold output
  rw [h2, count_segs textLaws15 (inert_lf textLaws15) (by decide +kernel) hc, ← h1]
  generalize dropBom (chunks.flatten ++ last) = s at he'
  have hn := count_tokens_nl (fin := finCan) (nel := nel) (lsps := lsps) replace_no_nl _ s (Nat.le_refl _) he'
  have hl := tokens_last_iff (fin := finCan) (nel := nel) (lsps := lsps) _ s (Nat.le_refl _) he'
  have h0 : tokens finCan (single nel lsps) s = [] ↔ s = [] :=
    ⟨fun h => Classical.byContradiction fun hs => tokens_ne_nil _ s (Nat.le_refl _) hs h, fun h => by rw [h, tokens]⟩
  unfold translate newlines
  simp only [h0, hl]
  split
  · rw [count_guardEnd hc, count_guardStart hc, hn]; rfl
  · rw [List.count_append, count_guardEnd hc, count_guardStart hc, hn]; rfl

example : newlines false false ['a', '\r', '\n', '\r', '\x0c', '\n'] = 3 ∧
    output ucd15 false false (script [['a', '\r']] ['\n', '\r', '\x0c', '\n']) [136, 136] = ['a', '\n', '\n', '\n'] ∧
    newlines true true ['\u0085', 'q', ' '] = 2 ∧
    output ucd15 true true (script [] ['\u0085', 'q', ' ']) [136] = ['\n', 'q', '\n'] := by decide +kernel

/-! ## C73 -/

/-- C73: lines are converted one by one.  What the lines behind the first come out as does not depend on the first, nor the first on them:
the conversion of a text is the conversion of its first line, followed by what the rest comes out as behind an empty line. -/
theorem c73_lines_independent (nel lsps : Bool) (a b : List Char) (ha : ESC ∉ a) (hbom : a.head? ≠ some BOM) (lens lens1 lens2 : List Nat)
    (h : Completes ucd15 nel lsps (script [] (a ++ '\n' :: b)) lens) (h1 : Completes ucd15 nel lsps (script [] (a ++ ['\n'])) lens1)
    (h2 : Completes ucd15 nel lsps (script [] ('\n' :: b)) lens2) :
    ∃ Y, output ucd15 nel lsps (script [] (a ++ '\n' :: b)) lens = output ucd15 nel lsps (script [] (a ++ ['\n'])) lens1 ++ Y ∧
      output ucd15 nel lsps (script [] ('\n' :: b)) lens2 = '\n' :: Y := by
  have hd : ∀ r : List Char, dropBom (a ++ '\n' :: r) = a ++ '\n' :: r := by
    intro r
    apply dropBom_of_ne
    cases a with
    | nil => simp; decide
    | cons c a => simpa using hbom
  have hd' : dropBom ('\n' :: b) = '\n' :: b := dropBom_of_ne (by simp; decide)
  rw [output_single textLaws15 h, output_single textLaws15 h1, output_single textLaws15 h2, hd, hd, hd']
  obtain ⟨Z, z1, z2⟩ := translate_line textLaws15 nel lsps ha b
  obtain ⟨Z', z3, z4⟩ := translate_line textLaws15 nel lsps (a := []) (by simp) b
  obtain ⟨W, hW⟩ : ∃ W, translate ucd15 nel lsps ('\n' :: b) = '\n' :: W := by
    unfold translate
    simp only
    rw [tokens_nl, List.flatMap_cons]
    have hnl : isStart ucd15 '\n' = true := textLaws15.start_ascii '\n' (by decide)
    have : ∀ x : List Char, ∃ W, guardEnd (guardStart ucd15 ('\n' :: x)) = '\n' :: W := by
      intro x
      simp only [guardStart, hnl, if_true]
      unfold guardEnd
      split
      · split
        · exact ⟨_, rfl⟩
        · exact ⟨_, rfl⟩
      · exact ⟨_, rfl⟩
    obtain ⟨W, hW⟩ := this ((tokens finCan (single nel lsps) b).flatMap Tok.out)
    have hW : guardEnd (guardStart ucd15 (Tok.out .nl ++ (tokens finCan (single nel lsps) b).flatMap Tok.out)) = '\n' :: W := hW
    rw [hW]
    split
    · exact ⟨_, rfl⟩
    · exact ⟨_, rfl⟩
  have hs := fun x y => normChain_split textLaws15 (inert_lf textLaws15) (nl_assigned textLaws15) (by decide) x y
  refine ⟨normChain ucd15 W, ?_, ?_⟩
  · rw [z1, z2, hW, hs, hs]; simp [normChain_nil]
  · rw [hW]
    have := hs [] W
    simpa [normChain_nil] using this

example : output ucd15 false false (script [] ['́', 'a', '\n', '́', 'e', '́']) [136] = ['͏', '́', 'a', '\n', '́', 'é', '\n'] ∧
    output ucd15 false false (script [] ['́', 'a', '\n']) [136] = ['͏', '́', 'a', '\n'] ∧
    output ucd15 false false (script [] ['\n', '́', 'e', '́']) [136] = ['\n', '́', 'é', '\n'] := by decide +kernel

/-! ## C70 -/

/-- C70: ill-formed bytes without an ESC always leave a U+FFFD in the converted text, so that the loss can be seen. -/
theorem c70_loss_is_visible (b : Bytes) (hb : ∀ s, b ≠ encode s) (he : ESC ∉ utf8Lossy b) (chunks : List (List Char)) (last : List Char)
    (hs : SliceReads chunks last) (lens : Nat → Nat) (t : List Char) (h : ConvertsBytes b chunks last lens t) : '�' ∈ t := by
  obtain ⟨hd, hc⟩ := h
  unfold Delivers at hd
  have hn : fromUtf8 b = none := by
    cases hu : fromUtf8 b with
    | none => rfl
    | some s => exact absurd (fromUtf8_some hu) (hb s)
  have hm := utf8Lossy_replacement hn
  have := c71_lossy_replacements chunks last lens t hs (by rw [hd]; exact he) hc
  rw [hd] at this
  have hpos : 0 < (utf8Lossy b).countP (fun c => Replaced c) := List.countP_pos_iff.2 ⟨'�', hm, by decide +kernel⟩
  exact List.count_pos_iff.1 (by omega)

example : (∀ s, [0x61, 0xff] ≠ encode s) ∧ ESC ∉ utf8Lossy [0x61, 0xff] ∧
    fromTextLossy ucd15 [['a', '�']] [] [4096, 4096, 4096] = some ['a', '�'] :=
  ⟨fun s h => by
    have := fromUtf8_encode s
    rw [← h] at this
    exact absurd this (by rw [show fromUtf8 [0x61, 0xff] = none by decide]; simp), by decide, by decide +kernel⟩

end Verif
