import Verif.Internals
import Verif.StreamSafe

/-!
# Facts about the Unicode data used by the text-level theorems
-/

namespace Verif

/-- `check_basic_text_char` accepts the scalar and it is not ESC (which it leaves to the caller). -/
def okChar (c : Char) : Bool := (checkChar c).isNone && c != ESC

/-- Rejected by `check_basic_text_char` but left alone by `replace`: U+2126, U+212A, U+212B and the CJK
compatibility ideographs. -/
def legacyRanges : List (Nat × Nat) :=
  [(0x2126, 0x2126), (0x212a, 0x212b), (0xf900, 0xfa0d), (0xfa10, 0xfa10), (0xfa12, 0xfa12), (0xfa15, 0xfa1e),
    (0xfa20, 0xfa20), (0xfa22, 0xfa22), (0xfa25, 0xfa26), (0xfa2a, 0xfa6d), (0xfa70, 0xfad9), (0x2f800, 0x2fa1d)]

/-- U+2126, U+212A, U+212B or a CJK compatibility ideograph with a standardized variant. -/
def isLegacy (c : Char) : Bool := inRanges legacyRanges c.toNat

/-- Hangul vowel or trailing consonant that composes with what precedes it. -/
def isJamoVT (c : Char) : Bool := inRanges [(0x1161, 0x1175), (0x11a8, 0x11c2)] c.toNat

/-- Facts relating the repository's tables to the Unicode data. -/
structure TextLaws (U : Ucd) : Prop where
  law : U.Lawful
  end_inert : ∀ c, isEnd c = false → U.Inert c
  unassigned_inert : ∀ c, U.assigned c = false → U.Inert c
  ctl_inert : ∀ c : Char, c.toNat ≤ 0x20 → U.Inert c
  wj_inert : U.Inert WJ
  ok_decomp : ∀ c, okChar c = true ∨ (isLegacy c = true ∧ U.cjk c = [c]) → ∀ d ∈ U.decomp c, okChar d = true
  ok_compose : ∀ k b r, U.compose k b = some r → okChar r = true
  ok_cjk : ∀ c, okChar c = true ∨ isLegacy c = true → ∀ d ∈ U.cjk c, okChar d = true ∨ (isLegacy d = true ∧ U.cjk d = [d])
  cjk_ne : ∀ c, U.cjk c ≠ []
  legacy_no : ∀ c, isLegacy c = true → U.qc c = .no
  start_decomp : ∀ c, isStart U c = true → ∀ d ds, U.decomp c = d :: ds → isStart U d = true
  start_compose : ∀ k b r, U.compose k b = some r → isStart U k = true → isStart U r = true
  start_cjk : ∀ c, isStart U c = true → ∀ d ds, U.cjk c = d :: ds → isStart U d = true
  start_lead : ∀ c, isStart U c = true → U.lead c = 0
  start_second : ∀ c, isStart U c = true → ∀ d ds, U.decomp c = d :: ds → (∃ k r, U.compose k d = some r) → isJamoVT c = true
  start_unassigned : ∀ c, U.assigned c = false → isStart U c = true
  start_ascii : ∀ c : Char, c.toNat ≤ 0x7f → isStart U c = true
  start_cgj : isStart U CGJ = true
  assigned_ascii : ∀ c : Char, c.toNat ≤ 0x7f → U.assigned c = true
  assigned_cgj : U.assigned CGJ = true
  dlen_pos : ∀ c, U.dlen c ≠ 0
  end_assigned : ∀ c, isEnd c = false → U.assigned c = true
  repl_assigned : ∀ c, ∀ d ∈ replace c, d = c ∨ (U.assigned d = true ∧ d ≠ CGJ)

end Verif
