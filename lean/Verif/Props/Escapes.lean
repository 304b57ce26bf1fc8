import Verif.DocEscape
import Verif.DocModes
import Verif.Props.Doc

/-!
# Properties C04, C65 and C66 of text with escape sequences
-/

namespace Verif
open Ucd Spec

/-! ## C04 -/

/-- C04: what `from_text_lossy` returns is the documented conversion, followed by a newline if the string ends with a newline that is part
of an escape sequence. The string may be cut in any way; it must not have U+034F directly before an unassigned scalar. -/
theorem c04_lossy_exact (v : List Char) (hn : Clear ucd15 false false v)
    (chunks : List (List Char)) (last : List Char) (hs : chunks.flatten ++ last = v) (hb : SliceReads chunks last) (lens : Nat → Nat)
    (hl : ∀ i, normalizationBufferSize ≤ lens i) :
    Converts chunks last lens (Spec.string ucd15 v ++ (if Swallowed (dropBom v) then ['\n'] else [])) := by
  subst hs
  exact converts_of hl (fun l text h => lossy_swallow textLaws15 hb hn h)

/-- C04: the result is the documented conversion exactly if the last newline is not part of an escape sequence. -/
theorem c04_lossy_algorithm_iff (v : List Char) (hn : Clear ucd15 false false v)
    (chunks : List (List Char)) (last : List Char) (hs : chunks.flatten ++ last = v) (hb : SliceReads chunks last) (lens : Nat → Nat)
    (hl : ∀ i, normalizationBufferSize ≤ lens i) :
    Converts chunks last lens (Spec.string ucd15 v) ↔ ¬ Swallowed (dropBom v) := by
  have h := c04_lossy_exact v hn chunks last hs hb lens hl
  by_cases hw : Swallowed (dropBom v)
  · rw [if_pos hw] at h
    refine ⟨fun h' => ?_, fun h' => absurd hw h'⟩
    have := congrArg List.length (h.unique h')
    simp at this
  · rw [if_neg hw, List.append_nil] at h
    exact ⟨fun _ => hw, fun _ => h⟩

/-- Colored lines are not affected. -/
example : ¬ Swallowed (dropBom "\x1b[31mred\x1b[m\r\nplain\n".toList) ∧
    Spec.string ucd15 "\x1b[31mred\x1b[m\r\nplain\n".toList = "red\nplain\n".toList := by decide +kernel

example : Swallowed (dropBom ['a', '\x1b', ']', 'b', '\n']) ∧ Spec.string ucd15 ['a', '\x1b', ']', 'b', '\n'] = ['a'] ∧
    fromTextLossy ucd15 [['a', '\x1b', ']', 'b', '\n']] [] [4096, 4096, 4096] = some ['a', '\n'] := by decide +kernel

/-! ## C65 -/

/-- C65 (what holds) for strings with escape sequences: `from_text_lossy` is the document's conversion, however the string is cut, if the
string does not begin with U+FEFF, U+17B4 or U+17B5, has no CAN and no U+FB03, does not end with a non-ender, its last newline is not part
of an escape sequence, and behind an escape sequence at the beginning no non-starter and before one at the end no non-ender becomes
the first or last scalar of the text. -/
theorem c65_escapes_partial (v : List Char) (h0 : v.head? ≠ some '\ufeff') (h1 : v.head? ≠ some '\u17b4') (h2 : v.head? ≠ some '\u17b5')
    (h3 : '\x18' ∉ v) (h4 : 'ﬃ' ∉ v) (h5 : ∀ c ∈ v.getLast?, ¬ NonEnder c)
    (h6 : v.head? = some '\x1b' → ∀ c ∈ (Doc.rows v).head?, ¬ NonStarter c) (h7 : ∀ c ∈ (Doc.rows v).getLast?, ¬ NonEnder c)
    (h8 : ¬ Swallowed v) (hn : Clear ucd15 false false v)
    (chunks : List (List Char)) (last : List Char) (hs : chunks.flatten ++ last = v) (hb : SliceReads chunks last) (lens : Nat → Nat)
    (hl : ∀ i, normalizationBufferSize ≤ lens i) : Converts chunks last lens (Doc.string false false v) := by
  have hd : dropBom v = v := by
    cases v with
    | nil => rfl
    | cons c r => simp only [dropBom, dropOne]; rw [if_neg]; intro hc; exact h0 (by simpa using hc)
  rw [← string_doc_esc h0 h3 h4 ?_ h6 h5 h7]
  · exact (c04_lossy_algorithm_iff v hn chunks last hs hb lens hl).2 (by rwa [hd])
  · rintro c hc (rfl | rfl)
    · exact h1 hc
    · exact h2 hc

/-- A colored line meets the hypotheses. -/
example : Converts [] ['\x1b', '[', '3', '1', 'm', 'ﬁ', '\x1b', '[', 'm', '\r', '\n'] (fun _ => 4096) ['f', 'i', '\n'] := by
  have h := c65_escapes_partial ['\x1b', '[', '3', '1', 'm', 'ﬁ', '\x1b', '[', 'm', '\r', '\n'] (by decide) (by decide) (by decide) (by decide)
    (by decide) (by decide +kernel) (by decide +kernel) (by decide +kernel) (by decide +kernel) (clear_of textLaws15 (Or.inr (by decide)))
    [] _ rfl (Or.inl (by simp)) (fun _ => 4096) (fun _ => by decide)
  have e : Doc.string false false ['\x1b', '[', '3', '1', 'm', 'ﬁ', '\x1b', '[', 'm', '\r', '\n'] = ['f', 'i', '\n'] := by decide +kernel
  rwa [e] at h

/-! ## C66 -/

/-- C66 (what holds) for contents with escape sequences: a reader delivers the document's stream conversion, for every split and all buffers, if the
content, apart from a leading byte-order mark, does not begin with U+17B4 or U+17B5, has no CAN and no U+FB03, does not end with U+C or a
non-ender, its last newline (the added one, if it has none) is not part of an escape sequence, no escape sequence uncovers a non-starter at the
beginning or a non-ender at the end, and the byte-order mark is not preceded by an empty read. -/
theorem c66_escapes_partial (chunks : List (List Char)) (last : List Char) (lens : List Nat) (s : List Char)
    (hs : chunks.flatten ++ last = s) (h1 : (dropBom s).head? ≠ some '឴') (h2 : (dropBom s).head? ≠ some '឵')
    (h3 : '\x18' ∉ s) (h4 : 'ﬃ' ∉ s) (h5 : (dropBom s).getLast? ≠ some '\x0c') (h6 : ∀ c ∈ (dropBom s).getLast?, ¬ NonEnder c)
    (h7 : (dropBom s).head? = some '\x1b' → ∀ c ∈ (Doc.rows (dropBom s)).head?, ¬ NonStarter c)
    (h8 : ∀ c ∈ (Doc.rows (dropBom s)).getLast?, ¬ NonEnder c) (h9 : ¬ Swallowed (Doc.addNewline (dropBom s)))
    (hn : Clear ucd15 false false s) (hb : (chunks ++ [last]).head? ≠ some [] ∨ s.head? ≠ some '﻿')
    (h : Completes ucd15 false false (script chunks last) lens) :
    output ucd15 false false (script chunks last) lens = Doc.stream false false s := by
  subst hs
  rw [← stream_doc_esc h3 h4 ?_ h5 h7 h6 h8 h9]
  · exact output_stream textLaws15 hb hn h
  · rintro c hc (rfl | rfl)
    · exact h1 hc
    · exact h2 hc

/-- A byte-order mark, a window title, color, and a color sequence at the end, read in three pieces. -/
example : output ucd15 false false (script [['﻿', '\x1b', ']', '0', ';'], ['a', '\x07', 'b', '\r']] ['\n', '\x1b', '[', '1', 'm', 'ﬁ', '\x1b', '[', 'm'])
    [136, 136, 136] = ['b', '\n', 'f', 'i', '\n'] := by
  have h := c66_escapes_partial [['﻿', '\x1b', ']', '0', ';'], ['a', '\x07', 'b', '\r']] ['\n', '\x1b', '[', '1', 'm', 'ﬁ', '\x1b', '[', 'm']
    [136, 136, 136] _ rfl (by decide) (by decide) (by decide) (by decide) (by decide) (by decide +kernel) (by decide +kernel) (by decide +kernel)
    (by decide +kernel) (clear_of textLaws15 (Or.inr (by decide))) (Or.inl (by decide)) (completes_of (by decide +kernel))
  rw [h]; decide +kernel

/-- Refuted where the newline becomes part of an escape sequence: the document's result then has none, the code's always ends with one. -/
theorem c66_refuted_swallowed : output ucd15 false false (script [] ['a', '\x1b', ']', 'b']) [136, 136] = ['a', '\n'] ∧
    Completes ucd15 false false (script [] ['a', '\x1b', ']', 'b']) [136, 136] ∧
    Doc.stream false false ['a', '\x1b', ']', 'b'] = ['a'] :=
  ⟨by decide +kernel, completes_of (by decide +kernel), by decide +kernel⟩

/-- C66 (what holds) with NEL and LSPS Compatibility: in addition to the conditions of `c66_reader_is_document_partial`, no scalar that the mode turns
into a newline stands directly after U+D or U+C or at the end. -/
theorem c66_modes_partial (nel lsps : Bool) (chunks : List (List Char)) (last : List Char) (lens : List Nat) (s : List Char)
    (hs : chunks.flatten ++ last = s) (h1 : (dropBom s).head? ≠ some '឴') (h2 : (dropBom s).head? ≠ some '឵')
    (h3 : (dropBom s).getLast? ≠ some '\x0c') (h4 : ∀ c ∈ (dropBom s).getLast?, ¬ NonEnder c) (h5 : '\x1b' ∉ s) (h6 : 'ﬃ' ∉ s)
    (h7 : ∀ a d c b, dropBom s = a ++ d :: c :: b → Doc.modes nel lsps c ≠ c → d ≠ '\r' ∧ d ≠ '\x0c')
    (h8 : ∀ c ∈ (dropBom s).getLast?, Doc.modes nel lsps c = c)
    (hn : ∀ a c b, s = a ++ '͏' :: c :: b → isAssigned ucd15 c = true)
    (hb : (chunks ++ [last]).head? ≠ some [] ∨ s.head? ≠ some '﻿')
    (h : Completes ucd15 nel lsps (script chunks last) lens) :
    output ucd15 nel lsps (script chunks last) lens = Doc.stream nel lsps s := by
  subst hs
  rw [← stream_doc_modes h5 h6 ?_ h3 h4 h7 h8]
  · exact output_stream textLaws15 hb (clear_raw textLaws15 h5 hn) h
  · rintro c hc (rfl | rfl)
    · exact h1 hc
    · exact h2 hc

/-- Both modes on lines that end with U+85, U+2028 and U+2029. -/
example : Completes ucd15 true true (script [['a', '\u0085', 'ﬁ', ' ']] [' ', 'b']) [136, 136] ∧
    Doc.stream true true ['a', '\u0085', 'ﬁ', ' ', ' ', 'b'] = ['a', '\n', 'f', 'i', '\n', '\n', 'b', '\n'] :=
  ⟨completes_of (by decide +kernel), by decide +kernel⟩

end Verif
