import Verif.Strings

/-!
# `encode_utf16`

`TextStr` and `TextSubstr` forward to `str::encode_utf16` (`src/text_string.rs:822-824`; `src/text_substring.rs:717-719`), which is modelled from
the documentation of the standard library. Units are numbers.
-/

namespace Verif

/-- `char::encode_utf16`: one unit below U+10000, otherwise a leading and a trailing surrogate. -/
def encodeUtf16Char (c : Char) : List Nat :=
  if c.toNat < 0x10000 then [c.toNat]
  else [0xd800 + (c.toNat - 0x10000) / 0x400, 0xdc00 + (c.toNat - 0x10000) % 0x400]

/-- `TextStr::encode_utf16` (`src/text_string.rs:822-824`), `TextSubstr::encode_utf16` (`src/text_substring.rs:717-719`). -/
def encodeUtf16 (s : List Char) : List Nat := s.flatMap encodeUtf16Char

end Verif
