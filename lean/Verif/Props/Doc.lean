import Verif.DocSpec
import Verif.Props.Reader

/-!
# The conversions against the letter of the document (C65, C66)

`Doc.string` and `Doc.stream` (`Verif/DocSpec.lean`) are the document's conversions step by step.
-/

namespace Verif
open Ucd Spec

/-! ## C65 -/

/-- C65 (what holds): `from_text_lossy` is the document's conversion, however the string is cut, if the string does not begin with U+FEFF,
U+17B4 or U+17B5 and does not end with U+0890 or U+0891, has no ESC and no U+FB03, and no U+34F directly before an unassigned scalar. -/
theorem c65_lossy_is_document_partial (v : List Char) (h0 : v.head? ≠ some '﻿') (h1 : v.head? ≠ some '឴') (h2 : v.head? ≠ some '឵')
    (h3 : v.getLast? ≠ some '࢐') (h4 : v.getLast? ≠ some '࢑') (h5 : '\x1b' ∉ v) (h6 : 'ﬃ' ∉ v)
    (hn : ∀ a c b, v = a ++ '͏' :: c :: b → isAssigned ucd15 c = true)
    (chunks : List (List Char)) (last : List Char) (hs : chunks.flatten ++ last = v) (hb : SliceReads chunks last) (lens : Nat → Nat)
    (hl : ∀ i, normalizationBufferSize ≤ lens i) : Converts chunks last lens (Doc.string false false v) := by
  rw [← string_doc h0 h5 h6 ?_ h3 h4]
  · exact c04_lossy_algorithm_partial v (clear_raw textLaws15 h5 hn) (Or.inl h5) chunks last hs hb lens hl
  · rintro c hc (rfl | rfl)
    · exact h1 hc
    · exact h2 hc

/-- Non-starters, form feeds, line ends, ligatures, compatibility ideographs, letterlike symbols, unassigned scalars and a final joiner. -/
example : Doc.string false false ['́', '\x0c', '\x0c', '\r', '\n', '͸', 'ﬁ', 'Å', '豈', 'ཷ', '‍'] =
    ['͏', '́', '\n', '͏', '͸', '͏', 'f', 'i', 'Å', '豈', '︀', 'ྲ', 'ཱ', 'ྀ', '‍', '͏'] := by decide +kernel

/-- After a byte-order mark the code guards a non-starter, the document does not. -/
theorem c65_refuted_bom : fromTextLossy ucd15 [] ['﻿', '́'] [4096, 4096] = some ['⁠', '͏', '́'] ∧ Doc.string false false ['﻿', '́'] = ['⁠', '́'] := by
  decide +kernel

/-- A non-starter that is replaced is guarded by the document, not by the code. -/
theorem c65_refuted_inherent : fromTextLossy ucd15 [] ['឴'] [4096, 4096] = some ['�'] ∧ Doc.string false false ['឴'] = ['͏', '�'] := by decide +kernel

/-- Behind an escape sequence the code guards a non-starter; the document does not, and its result is not Basic Text. -/
theorem c65_refuted_escape_start : fromTextLossy ucd15 [] ['\x1b', '[', 'm', '́'] [4096, 4096] = some ['͏', '́'] ∧
    Doc.string false false ['\x1b', '[', 'm', '́'] = ['́'] ∧ ¬ BasicText ['́'] := by
  refine ⟨by decide +kernel, by decide +kernel, fun h => ?_⟩
  exact h.start '́' rfl (Or.inl (by decide +kernel))

/-- The same at the end. -/
theorem c65_refuted_escape_end : fromTextLossy ucd15 [] ['a', '‍', '\x1b', '[', 'm'] [4096, 4096] = some ['a', '‍', '͏'] ∧
    Doc.string false false ['a', '‍', '\x1b', '[', 'm'] = ['a', '‍'] ∧ ¬ BasicText ['a', '‍'] := by
  refine ⟨by decide +kernel, by decide +kernel, fun h => ?_⟩
  exact h.ends '‍' rfl (Or.inl rfl)

/-- CAN in an escape sequence is part of it for the code, and a control code for the document. -/
theorem c65_refuted_can : fromTextLossy ucd15 [] ['\x1b', '[', '\x18', 'a'] [4096, 4096] = some ['a'] ∧
    Doc.string false false ['\x1b', '[', '\x18', 'a'] = ['�', 'a'] := by decide +kernel

/-- The misprint in the row for U+FB03. -/
theorem c65_refuted_ffi : fromTextLossy ucd15 [] ['ﬃ'] [4096, 4096] = some ['f', 'f', 'i'] ∧ Doc.string false false ['ﬃ'] = ['f', 'f', 'f'] := by
  decide +kernel

/-- The non-enders the code does not know. -/
theorem c65_refuted_ender : fromTextLossy ucd15 [] ['࢐'] [4096, 4096] = some ['࢐'] ∧ Doc.string false false ['࢐'] = ['࢐', '͏'] := by decide +kernel

/-! ## C66 -/

/-- C66 (what holds): a reader delivers the document's stream conversion of the content, for every split and all buffers, if the content,
apart from a leading byte-order mark, does not begin with U+17B4 or U+17B5 and does not end with U+C or a non-ender, has no ESC
and no U+FB03, has no U+34F directly before an unassigned scalar, and the byte-order mark is not preceded by an empty read. -/
theorem c66_reader_is_document_partial (chunks : List (List Char)) (last : List Char) (lens : List Nat) (s : List Char)
    (hs : chunks.flatten ++ last = s) (h1 : (dropBom s).head? ≠ some '឴') (h2 : (dropBom s).head? ≠ some '឵')
    (h3 : (dropBom s).getLast? ≠ some '\x0c') (h4 : ∀ c ∈ (dropBom s).getLast?, ¬ NonEnder c) (h5 : '\x1b' ∉ s) (h6 : 'ﬃ' ∉ s)
    (hn : ∀ a c b, s = a ++ '͏' :: c :: b → isAssigned ucd15 c = true)
    (hb : (chunks ++ [last]).head? ≠ some [] ∨ s.head? ≠ some '﻿')
    (h : Completes ucd15 false false (script chunks last) lens) :
    output ucd15 false false (script chunks last) lens = Doc.stream false false s := by
  subst hs
  rw [← stream_doc h5 h6 ?_ h3 h4]
  · exact output_stream textLaws15 hb (clear_raw textLaws15 h5 hn) h
  · rintro c hc (rfl | rfl)
    · exact h1 hc
    · exact h2 hc

example : Completes ucd15 false false (script [['﻿', '́', '\r'], [], ['\n', '\x0c']] ['é', 'ﬁ']) [136, 136, 136, 136] :=
  completes_of (by decide +kernel)

example : Doc.stream false false ['﻿', '́', '\r', '\n', '\x0c', 'é', 'ﬁ'] = ['͏', '́', '\n', ' ', 'é', 'f', 'i', '\n'] := by decide +kernel

/-- The document appends the newline before it looks at the end, so a final joiner needs no U+34F; the code adds one. -/
theorem c66_refuted_joiner : output ucd15 false false (script [] ['a', '‍']) [200, 200] = ['a', '‍', '͏', '\n'] ∧
    Completes ucd15 false false (script [] ['a', '‍']) [200, 200] ∧ Doc.stream false false ['a', '‍'] = ['a', '‍', '\n'] :=
  ⟨by decide +kernel, completes_of (by decide +kernel), by decide +kernel⟩

/-- Likewise a final form feed belongs to the newline in the document, and is a space in the code. -/
theorem c66_refuted_form_feed : output ucd15 false false (script [] ['a', '\x0c']) [200, 200] = ['a', ' ', '\n'] ∧
    Completes ucd15 false false (script [] ['a', '\x0c']) [200, 200] ∧ Doc.stream false false ['a', '\x0c'] = ['a', '\n'] :=
  ⟨by decide +kernel, completes_of (by decide +kernel), by decide +kernel⟩

/-- With NEL Compatibility the document replaces U+85 first: a final one gets another newline, and one after U+D or U+C is
swallowed with it. The code does neither. -/
theorem c66_refuted_nel : output ucd15 true false (script [] ['a', '\u0085']) [200, 200] = ['a', '\n'] ∧ Doc.stream true false ['a', '\u0085'] = ['a', '\n', '\n'] ∧
    output ucd15 true false (script [] ['a', '\r', '\u0085', '\n']) [200, 200] = ['a', '\n', '\n', '\n'] ∧ Doc.stream true false ['a', '\r', '\u0085', '\n'] = ['a', '\n', '\n'] ∧
    output ucd15 true false (script [] ['a', '\x0c', '\u0085', '\n']) [200, 200] = ['a', ' ', '\n', '\n'] ∧
    Doc.stream true false ['a', '\x0c', '\u0085', '\n'] = ['a', '\n', '\n'] := by decide +kernel

end Verif
