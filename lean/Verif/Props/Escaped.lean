import Verif.Stretches
import Verif.Props.Lossless
import Verif.Props.CutAdds

/-!
# What the conversions keep, with escape sequences too (C70–C72, C110)

The counts of replacement characters and of newlines for every content and every source: with escape sequences, and with an empty first
read before a byte-order mark.
-/

namespace Verif
open Ucd Spec Tables

theorem sum_countP (q : Char → Bool) (ps : List (List Char)) : (ps.map fun p => p.countP q).sum = ps.flatten.countP q := by
  induction ps with
  | nil => rfl
  | cons p ps ih => rw [List.map_cons, List.sum_cons, ih, List.flatten_cons, List.countP_append]

theorem no_esc_stretches {fin : Char → Bool} (s : List Char) : ∀ p ∈ stretches fin s, ESC ∉ p := by
  refine stretches_induction (fin := fin) (P := fun s => ∀ p ∈ stretches fin s, ESC ∉ p) (fun s h => ?_) (fun p r hp ih => ?_) _ s (Nat.le_refl _)
  · rw [stretches_plain h]; simpa using h
  · rw [stretches_esc hp]
    intro q hq
    rcases List.mem_cons.1 hq with rfl | hq
    · exact hp
    · exact ih q hq

theorem translate_repl_any (nel lsps : Bool) (s : List Char) :
    (translate ucd15 nel lsps s).count '�' = (stretches finCan s).flatten.countP (fun c => Replaced c) := by
  have hc : '�' ≠ CGJ := by decide
  have ht : ((tokens finCan (single nel lsps) s).flatMap Tok.out).count '�' = (stretches finCan s).flatten.countP (fun c => Replaced c) := by
    rw [count_stretches, ← sum_countP]
    congr 1
    exact List.map_congr_left fun p hp => tokens_repl nel lsps p (no_esc_stretches s p hp)
  unfold translate
  simp only
  split
  · rw [count_guardEnd hc, count_guardStart hc, ht]
  · rw [List.count_append, count_guardEnd hc, count_guardStart hc, ht]
    simp

theorem stretches_bom_repl (s : List Char) : (stretches finCan (dropBom s)).flatten.countP (fun c => Replaced c) =
    (stretches finCan s).flatten.countP (fun c => Replaced c) := by
  unfold dropBom dropOne
  cases s with
  | nil => rfl
  | cons c r =>
    simp only
    split
    · rename_i h
      have h : c = BOM := by simpa using h
      subst h
      rw [stretches.eq_def finCan (BOM :: r)]
      simp only [show ¬ BOM = ESC by decide, if_false]
      cases stretches finCan r with
      | nil => simp only [List.flatten_cons, List.flatten_nil, List.append_nil]; decide +kernel
      | cons p ps =>
        simp only [List.flatten_cons, List.cons_append]
        rw [List.countP_cons_of_neg (by decide +kernel)]
    · rfl

/-- C71 for every content, source and mode: the U+FFFD that come out are, one for one, the scalars outside escape sequences that are
U+FFFD or that the Sequence Table replaces by it. -/
theorem c71_replacements_any (nel lsps : Bool) (chunks : List (List Char)) (last : List Char) (lens : List Nat)
    (h : Completes ucd15 nel lsps (script chunks last) lens) :
    (output ucd15 nel lsps (script chunks last) lens).count '�' =
      (stretches finCan (chunks.flatten ++ last)).flatten.countP (fun c => Replaced c) := by
  obtain ⟨segs, h1, h2⟩ := run_opened textLaws15 h
  rw [h2, count_segs textLaws15 repl_inert (by decide +kernel) (by decide), ← h1, translate_repl_any]
  unfold opened
  split
  · rfl
  · exact stretches_bom_repl _

/-- C71 for the lossy string conversion, with escape sequences. -/
theorem c71_lossy_any (chunks : List (List Char)) (last : List Char) (lens : Nat → Nat) (t : List Char) (hb : SliceReads chunks last)
    (h : Converts chunks last lens t) :
    t.count '�' = (stretches finCan (chunks.flatten ++ last)).flatten.countP (fun c => Replaced c) := by
  obtain ⟨m, text, h1, h2⟩ := read_of_converts h
  obtain ⟨segs, g1, g2, -⟩ := lossy_run textLaws15 hb h1
  rw [h2, Option.some.injEq] at g2
  have e1 := translate_repl_any false false (dropBom (chunks.flatten ++ last))
  rw [translate_lossyText, List.count_append, ← g1] at e1
  have e2 : (if Closed (dropBom (chunks.flatten ++ last)) then ([] : List Char) else ['\n']).count '�' = 0 := by split <;> rfl
  have e3 : (bomPrefix (chunks.flatten ++ last)).count '�' = 0 := by unfold bomPrefix; split <;> decide
  rw [g2, List.count_append, count_segs textLaws15 repl_inert (by decide +kernel) (by decide), e3, ← stretches_bom_repl]
  omega

/-- C70: the loss can be seen, exactly: the converted text has a U+FFFD if and only if outside escape sequences there is one, or a scalar
the table replaces by it, in the decoded bytes. -/
theorem c70_loss_visible_iff (b : Bytes) (chunks : List (List Char)) (last : List Char) (hs : SliceReads chunks last) (lens : Nat → Nat)
    (t : List Char) (h : ConvertsBytes b chunks last lens t) :
    '�' ∈ t ↔ ∃ p ∈ stretches finCan (utf8Lossy b), ∃ c ∈ p, Replaced c := by
  obtain ⟨hd, hc⟩ := h
  unfold Delivers at hd
  have := c71_lossy_any chunks last lens t hs hc
  rw [hd] at this
  rw [← List.count_pos_iff, this, List.countP_pos_iff]
  constructor
  · rintro ⟨c, h1, h2⟩
    obtain ⟨p, hp, hc⟩ := List.mem_flatten.1 h1
    exact ⟨p, hp, c, hc, by simpa using h2⟩
  · rintro ⟨p, hp, c, hc, h2⟩
    exact ⟨c, List.mem_flatten.2 ⟨p, hp, hc⟩, by simpa using h2⟩

/-- C72 for every content and source: the newlines that come out are those of the stretches of text between the escape sequences, and one
more unless the content is empty or its last stretch ends with one.  `opened` is the content behind a byte-order mark, unless the first
read was empty. -/
theorem c72_newlines_any (nel lsps : Bool) (chunks : List (List Char)) (last : List Char) (lens : List Nat)
    (h : Completes ucd15 nel lsps (script chunks last) lens) :
    (output ucd15 nel lsps (script chunks last) lens).count '\n' =
      ((stretches finCan (opened chunks last)).map (newlines nel lsps)).sum +
      if opened chunks last = [] ∨ ∃ p ∈ (stretches finCan (opened chunks last)).getLast?, ∃ c ∈ p.getLast?, isNl nel lsps c = true
      then 0 else 1 := by
  obtain ⟨segs, h1, h2⟩ := run_opened textLaws15 h
  have hc : '\n' ≠ CGJ := by decide
  rw [h2, count_segs textLaws15 (inert_lf textLaws15) (by decide +kernel) hc, ← h1]
  generalize opened chunks last = s
  have hn : ((tokens finCan (single nel lsps) s).flatMap Tok.out).count '\n' = ((stretches finCan s).map (newlines nel lsps)).sum := by
    rw [count_stretches]
    congr 1
    exact List.map_congr_left fun p hp => count_tokens_nl replace_no_nl _ p (Nat.le_refl _) (no_esc_stretches s p hp)
  have hl := last_stretch (fin := finCan) (nel := nel) (lsps := lsps) s
  have h0 : tokens finCan (single nel lsps) s = [] ↔ s = [] :=
    ⟨fun h => Classical.byContradiction fun hs => tokens_ne_nil _ s (Nat.le_refl _) hs h, fun h => by rw [h, tokens]⟩
  unfold translate
  simp only [h0, hl]
  split
  · rw [count_guardEnd hc, count_guardStart hc, hn]; rfl
  · rw [List.count_append, count_guardEnd hc, count_guardStart hc, hn]; rfl

/-- C72, a special case: a newline cut in two by an escape sequence counts twice. -/
example : stretches finCan ['a', '\r', '\x1b', '[', '1', 'm', '\n', '\x1b', ']', '�', '\x07', 'b'] = [['a', '\r'], ['\n'], ['b']] ∧
    ([['a', '\r'], ['\n'], ['b']].map (newlines false false)).sum = 2 ∧
    output ucd15 false false (script [['a', '\r', '\x1b']] ['[', '1', 'm', '\n', '\x1b', ']', '�', '\x07', 'b']) [136, 136] = ['a', '\n', '\n', 'b', '\n'] ∧
    Completes ucd15 false false (script [['a', '\r', '\x1b']] ['[', '1', 'm', '\n', '\x1b', ']', '�', '\x07', 'b']) [136, 136] :=
  ⟨by decide +kernel, by decide +kernel, by decide +kernel, completes_of (by decide +kernel)⟩

/-- An empty first read: a byte-order mark behind it is text, so that a newline is added. -/
example : opened [[]] ['﻿'] = ['﻿'] ∧ opened [] ['﻿'] = [] ∧
    output ucd15 false false (script [[]] ['﻿']) [136, 136] = ['⁠', '\n'] ∧
    output ucd15 false false (script [] ['﻿']) [136] = [] ∧
    Completes ucd15 false false (script [[]] ['﻿']) [136, 136] :=
  ⟨by decide, by decide, by decide +kernel, by decide +kernel, completes_of (by decide +kernel)⟩

/-- C70: a U+FFFD inside an escape sequence is gone with it. -/
example : stretches finCan (utf8Lossy [0x1b, 0x5d, 0xff, 0x07, 0x61]) = [[], ['a']] ∧ ¬ Replaced 'a' ∧
    fromTextLossy ucd15 [['\x1b', ']', '�', '\x07', 'a']] [] [4096, 4096, 4096] = some ['a'] := by decide +kernel

/-- C110 for every source, also with an empty first read before a byte-order mark: what is delivered is what is delivered for the content as
the reader takes it (`opened`) in one read behind a byte-order mark, with some U+34F inserted. -/
theorem c110_only_inserts_any (nel lsps : Bool) (chunks : List (List Char)) (last : List Char) (lens lens' : List Nat)
    (h : Completes ucd15 nel lsps (script chunks last) lens) (h' : Completes ucd15 nel lsps (script [] (BOM :: opened chunks last)) lens') :
    Adds (output ucd15 nel lsps (script [] (BOM :: opened chunks last)) lens') (output ucd15 nel lsps (script chunks last) lens) := by
  have key : ∀ (cs : List (List Char)), BomSafe cs last → opened chunks last = dropBom (cs.flatten ++ last) →
      Completes ucd15 nel lsps (script cs last) lens →
      Adds (output ucd15 nel lsps (script [] (BOM :: opened chunks last)) lens') (output ucd15 nel lsps (script cs last) lens) := by
    intro cs hb e hc
    obtain ⟨n, hw⟩ := c15_reader_reaches_end nel lsps (script [] (cs.flatten ++ last)) (fun _ => normalizationBufferSize) (fun _ => Nat.le_refl _)
    have := c110_only_inserts nel lsps cs last hb lens _ hc hw
    rw [output_single textLaws15 hw] at this
    rw [output_single textLaws15 h', e]
    simpa [dropBom, dropOne] using this
  rcases safe_or chunks last with hb | ⟨rest, rfl, hb, e⟩
  · exact key chunks hb (opened_safe hb) h
  · rw [← (empty_mark nel lsps rest last lens).2]
    exact key _ hb e ((empty_mark nel lsps rest last lens).1.2 h)

example : opened [[]] ['\ufeff', 'a', '\n'] = ['\ufeff', 'a', '\n'] ∧
    output ucd15 false false (script [[]] ['\ufeff', 'a', '\n']) [136, 136] = ['\u2060', 'a', '\n'] ∧
    output ucd15 false false (script [] ['\ufeff', '\ufeff', 'a', '\n']) [136] = ['\u2060', 'a', '\n'] ∧
    Completes ucd15 false false (script [[]] ['\ufeff', 'a', '\n']) [136, 136] ∧
    Completes ucd15 false false (script [] ['\ufeff', '\ufeff', 'a', '\n']) [136] :=
  ⟨by decide, by decide +kernel, by decide +kernel, completes_of (by decide +kernel), completes_of (by decide +kernel)⟩

end Verif
