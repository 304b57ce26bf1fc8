import Verif.Equivalence
import Verif.Props.Reader
import Verif.Props.Strings

/-!
# Canonically equivalent contents (C106)

Unicode regards texts with the same canonical decomposition as the same text. `CanonicallyEquivalent` is the relation of the Unicode
Standard (D70), defined in `NfcSpec.lean` without reference to the model's normalization; `StreamSafe` is that of UAX #15.
-/

namespace Verif
open Ucd Spec Tables

/-- What the theorems ask of a content: no escape sequences, CJK compatibility ideographs, U+2329 or U+232A, and no U+34F directly
before an unassigned scalar. -/
def Ordinary (s : List Char) : Prop := (∀ c ∈ s, Faithful c) ∧ ∀ a c b, s = a ++ '͏' :: c :: b → isAssigned ucd15 c = true

theorem clear_faithful {nel lsps : Bool} {s : List Char} (h1 : ∀ c ∈ s, Faithful c)
    (h2 : ∀ a c b, s = a ++ '͏' :: c :: b → isAssigned ucd15 c = true) : Clear ucd15 nel lsps s :=
  clear_raw textLaws15 (fun h => (h1 _ h).1 rfl) h2

theorem ordinary_equiv {s s' : List Char} (h : ucd15.nfd s = ucd15.nfd s') (h1 : Ordinary s) (h2 : ∀ c ∈ s', Faithful c) : Ordinary s' := by
  refine ⟨h2, ?_⟩
  have := (noCgjUn_nfd h1.1).1 h1.2
  rw [h] at this
  exact (noCgjUn_nfd h2).2 this

/-- C106: two canonically equivalent contents in Stream-Safe form are read as the same text, however they are split into chunks and
whatever buffers the caller uses. -/
theorem c106_reader_partial (nel lsps : Bool) (chunks chunks' : List (List Char)) (last last' : List Char) (lens lens' : List Nat)
    (heq : CanonicallyEquivalent ucd15 (chunks.flatten ++ last) (chunks'.flatten ++ last'))
    (ho : Ordinary (chunks.flatten ++ last)) (ho' : ∀ c ∈ chunks'.flatten ++ last', Faithful c)
    (hs : StreamSafe (form ucd15 nel lsps (chunks.flatten ++ last))) (hb : BomSafe chunks last) (hb' : BomSafe chunks' last')
    (hc : Completes ucd15 nel lsps (script chunks last) lens) (hc' : Completes ucd15 nel lsps (script chunks' last') lens') :
    output ucd15 nel lsps (script chunks last) lens = output ucd15 nel lsps (script chunks' last') lens' := by
  have hn := canonicallyEquivalent_iff.1 heq
  have hcl := clear_faithful (nel := nel) (lsps := lsps) ho.1 ho.2
  have ho2 := ordinary_equiv hn ho ho'
  have hcl' := clear_faithful (nel := nel) (lsps := lsps) ho2.1 ho2.2
  rw [c17_reader_is_stream_partial nel lsps chunks last lens hb hcl hc, c17_reader_is_stream_partial nel lsps chunks' last' lens' hb' hcl' hc']
  have := form_equiv hn ho.1 ho' (streamSafe_iff.1 hs)
  rw [normalize_spec textLaws15 hcl, normalize_spec textLaws15 hcl'] at this
  exact this

/-- C106: and they are converted to the same string. -/
theorem c106_lossy_partial (chunks chunks' : List (List Char)) (last last' : List Char) (lens lens' : Nat → Nat)
    (hl : ∀ i, normalizationBufferSize ≤ lens i) (hl' : ∀ i, normalizationBufferSize ≤ lens' i)
    (heq : CanonicallyEquivalent ucd15 (chunks.flatten ++ last) (chunks'.flatten ++ last'))
    (ho : Ordinary (chunks.flatten ++ last)) (ho' : ∀ c ∈ chunks'.flatten ++ last', Faithful c)
    (hs : StreamSafe (form ucd15 false false (chunks.flatten ++ last))) (hb : SliceReads chunks last) (hb' : SliceReads chunks' last') :
    ∃ t, Converts chunks last lens t ∧ Converts chunks' last' lens' t := by
  have hn := canonicallyEquivalent_iff.1 heq
  have hcl := clear_faithful (nel := false) (lsps := false) ho.1 ho.2
  have ho2 := ordinary_equiv hn ho ho'
  have hcl' := clear_faithful (nel := false) (lsps := false) ho2.1 ho2.2
  refine ⟨_, c04_lossy_algorithm_partial _ hcl (Or.inl fun h => (ho.1 _ h).1 rfl) chunks last rfl hb lens hl, ?_⟩
  have pre : ∀ {v : List Char}, Clear ucd15 false false v → NoCgjUn ucd15 (body ucd15 (dropBom v)) := by
    intro v hv a d b e
    obtain ⟨r, hr⟩ := form_body v
    have hv' : NoCgjUn ucd15 (form ucd15 false false v) := hv
    rw [hr] at hv'
    exact hv' a d (b ++ r) (by rw [e]; simp)
  have key : Spec.string ucd15 (chunks.flatten ++ last) = Spec.string ucd15 (chunks'.flatten ++ last') := by
    rw [string_eq, string_eq, bomPrefix_equiv hn ho.1 ho', ← normalize_spec textLaws15 (pre hcl), ← normalize_spec textLaws15 (pre hcl')]
    congr 1
    obtain ⟨r, hr⟩ := form_body (chunks.flatten ++ last)
    have hs' := streamSafe_iff.1 hs
    rw [hr] at hs'
    exact body_equiv hn ho.1 ho' (chk_prefix hs')
  rw [key]
  exact c04_lossy_algorithm_partial _ hcl' (Or.inl fun h => (ho' _ h).1 rfl) chunks' last' rfl hb' lens' hl'

/-- So normalizing such a content beforehand (to either form) makes no difference to what is read. -/
theorem c106_normalized_first_partial (nel lsps : Bool) (s : List Char) (lens lens' lens'' : List Nat) (ho : Ordinary s)
    (hs : StreamSafe (form ucd15 nel lsps s)) (hc : Completes ucd15 nel lsps (script [] s) lens)
    (hc' : Completes ucd15 nel lsps (script [] (ucd15.nfc s)) lens') (hc'' : Completes ucd15 nel lsps (script [] (ucd15.nfd s)) lens'') :
    output ucd15 nel lsps (script [] (ucd15.nfc s)) lens' = output ucd15 nel lsps (script [] s) lens ∧
    output ucd15 nel lsps (script [] (ucd15.nfd s)) lens'' = output ucd15 nel lsps (script [] s) lens := by
  have e : ∀ {x : List Char}, ucd15.nfd x = ucd15.nfd s → (∀ c ∈ x, Faithful c) → ∀ {l : List Nat}, Completes ucd15 nel lsps (script [] x) l →
      output ucd15 nel lsps (script [] x) l = output ucd15 nel lsps (script [] s) lens := by
    intro x hx hf l hl
    rw [output_single textLaws15 hl, output_single textLaws15 hc]
    exact (form_equiv hx.symm ho.1 hf (streamSafe_iff.1 hs)).symm
  constructor
  · exact e (nfd_nfc lawful15 s) (faithful_nfc ho.1) hc'
  · refine e ?_ ?_ hc''
    · unfold nfd
      rw [nfd_self]
      · exact (reorder_exchange (exchange_reorder _)).symm
      · intro c hm
        obtain ⟨x, -, hx⟩ := List.mem_flatMap.1 (mem_reorder.1 hm)
        exact lawful15.decomp_idem x c hx
    · intro c hm
      obtain ⟨x, hx, hm⟩ := List.mem_flatMap.1 (mem_reorder.1 hm)
      exact faithful_nfd x (ho.1 x hx) c hm

/-- Marks in another order, precomposed letters, a Hangul syllable, the angstrom sign, a ligature, line ends and an unassigned scalar. -/
def spelling : List Char := ['\ufeff', 'e', '\u0307', '\u0323', '\u212b', '\uac01', '\r', '\n', '\ufb01', '\u2df5', '\u0323', '\u0378', '\x0c', 'x']

def spelling' : List Char := ['\ufeff', '\u1eb9', '\u0307', 'A', '\u030a', '\u1100', '\u1161', '\u11a8', '\r', '\n', '\ufb01', '\u0323', '\u2df5', '\u0378', '\x0c', 'x']

theorem spelling_ordinary : Ordinary spelling ∧ ∀ c ∈ spelling', Faithful c := by
  refine ⟨⟨by decide +kernel, ?_⟩, by decide +kernel⟩
  exact NoCgjUn.of_bool (by decide +kernel)

example : CanonicallyEquivalent ucd15 spelling spelling' ∧ spelling ≠ spelling' ∧ StreamSafe (form ucd15 false false spelling) ∧
    Completes ucd15 false false (script [] spelling) [136] ∧ Completes ucd15 false false (script [] spelling') [136] ∧
    output ucd15 false false (script [] spelling) [136] =
      ['\u1eb9', '\u0307', '\u00c5', '\uac01', '\n', 'f', '\u1ecb', '\u2ded', '\u2dee', '\u034f', '\u0378', '\u034f', ' ', 'x', '\n'] := by
  refine ⟨canonicallyEquivalent_iff.2 (by decide +kernel), by decide +kernel, streamSafe_iff.2 (by decide +kernel), completes_of (by decide +kernel),
    completes_of (by decide +kernel), by decide +kernel⟩

/-- The readings of two contents by readers with one buffer of 136 bytes. -/
def readPair (s s' : List Char) : List Char × List Char :=
  (output ucd15 false false (script [] s) [136], output ucd15 false false (script [] s') [136])

/-- Not so for a CJK compatibility ideograph, by design: its variation sequence tells it from the unified ideograph. -/
theorem c106_refuted_ideograph : CanonicallyEquivalent ucd15 ['\uf900'] ['\u8c48'] ∧ readPair ['\uf900'] ['\u8c48'] = (['\u8c48', '\ufe00', '\n'], ['\u8c48', '\n']) :=
  ⟨canonicallyEquivalent_iff.2 (by decide +kernel), by decide +kernel⟩

/-- Nor for U+2329 and U+232A, by design (`docs/Background.md:159-162`): they are replaced by U+FFFD, while the equivalent U+3008 and U+3009 are kept. -/
theorem c106_refuted_brackets : CanonicallyEquivalent ucd15 ['\u2329', '\u232a'] ['\u3008', '\u3009'] ∧
    readPair ['\u2329', '\u232a'] ['\u3008', '\u3009'] = (['\ufffd', '\ufffd', '\n'], ['\u3008', '\u3009', '\n']) :=
  ⟨canonicallyEquivalent_iff.2 (by decide +kernel), by decide +kernel⟩

/-- Nor for an escape sequence, whose end may be part of a decomposition. -/
theorem c106_refuted_escape : CanonicallyEquivalent ucd15 ['\x1b', '\u00c5'] ['\x1b', 'A', '\u030a'] ∧
    readPair ['\x1b', '\u00c5'] ['\x1b', 'A', '\u030a'] = (['\u00c5', '\n'], ['\u034f', '\u030a', '\n']) :=
  ⟨canonicallyEquivalent_iff.2 (by decide +kernel), by decide +kernel⟩

/-- Nor for more than 30 marks: the U+34F comes after the first 30 in the order of the source. -/
theorem c106_refuted_marks :
    CanonicallyEquivalent ucd15 ('a' :: (List.replicate 16 '\u0301' ++ List.replicate 16 '\u0323')) ('a' :: (List.replicate 16 '\u0323' ++ List.replicate 16 '\u0301')) ∧
    readPair ('a' :: (List.replicate 16 '\u0301' ++ List.replicate 16 '\u0323')) ('a' :: (List.replicate 16 '\u0323' ++ List.replicate 16 '\u0301')) =
      ('\u1ea1' :: (List.replicate 13 '\u0323' ++ List.replicate 16 '\u0301' ++ ['\u034f', '\u0323', '\u0323', '\n']),
       '\u1ea1' :: (List.replicate 15 '\u0323' ++ List.replicate 14 '\u0301' ++ ['\u034f', '\u0301', '\u0301', '\n'])) :=
  ⟨canonicallyEquivalent_iff.2 (by decide +kernel), by decide +kernel⟩

end Verif
