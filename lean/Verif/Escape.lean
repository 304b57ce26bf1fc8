import Verif.Strings

/-!
# `escape_default`, `escape_unicode`, `escape_debug` and `eq_ignore_ascii_case`

`TextStr` and `TextSubstr` forward to `str` (`src/text_string.rs:1073-1075`, `1112-1131`; `src/text_substring.rs:966-968`, `1007-1026`).
What `str` and `char` do is modelled from the documentation of the standard library.
-/

namespace Verif

/-- A hexadecimal digit in lower case. -/
def hexDigit (n : Nat) : Char := if n < 10 then Char.ofNat (48 + n) else Char.ofNat (87 + n)

/-- The hexadecimal digits of a number, without leading zeros. -/
def hexDigits (n : Nat) : List Char := if n < 16 then [hexDigit n] else hexDigits (n / 16) ++ [hexDigit (n % 16)]

/-- `char::escape_unicode`: `\u{NNNN}`. -/
def escapeUnicodeChar (c : Char) : List Char := '\\' :: 'u' :: '{' :: (hexDigits c.toNat ++ ['}'])

/-- `char::escape_default`: tabs, newlines, quotes and backslashes get a backslash, other printable ASCII stays, everything else is
written as by `escape_unicode`. -/
def escapeDefaultChar (c : Char) : List Char :=
  if c = '\t' then ['\\', 't'] else if c = '\r' then ['\\', 'r'] else if c = '\n' then ['\\', 'n']
  else if c = '\'' ∨ c = '"' ∨ c = '\\' then ['\\', c]
  else if 0x20 ≤ c.toNat ∧ c.toNat ≤ 0x7e then [c]
  else escapeUnicodeChar c

/-- `char::escape_debug_ext`. Which scalars extend a grapheme cluster and which are printable are tables of the standard library, and
parameters here. -/
def escapeDebugChar (extends_ printable : Char → Bool) (first : Bool) (c : Char) : List Char :=
  if c = '\x00' then ['\\', '0']
  else if c = '\t' then ['\\', 't'] else if c = '\r' then ['\\', 'r'] else if c = '\n' then ['\\', 'n']
  else if c = '\'' ∨ c = '"' ∨ c = '\\' then ['\\', c]
  else if first && extends_ c then escapeUnicodeChar c
  else if printable c then [c]
  else escapeUnicodeChar c

/-- `TextStr::escape_unicode` (`src/text_string.rs:1126-1130`). -/
def escapeUnicode (s : List Char) : List Char := s.flatMap escapeUnicodeChar

/-- `TextStr::escape_default` (`src/text_string.rs:1119-1123`). -/
def escapeDefault (s : List Char) : List Char := s.flatMap escapeDefaultChar

/-- `TextStr::escape_debug` (`src/text_string.rs:1112-1116`): scalars that extend a grapheme cluster are escaped at the beginning only. -/
def escapeDebug (extends_ printable : Char → Bool) : List Char → List Char
  | [] => []
  | c :: r => escapeDebugChar extends_ printable true c ++ r.flatMap (escapeDebugChar extends_ printable false)

/-- `u8::to_ascii_lowercase`. -/
def lowerByte (b : Nat) : Nat := if 0x41 ≤ b ∧ b ≤ 0x5a then b + 0x20 else b

/-- `TextStr::eq_ignore_ascii_case` (`src/text_string.rs:1073-1075`): the lengths in bytes agree, and the bytes do when made lower case. -/
def eqIgnoreAsciiCase (s t : List Char) : Bool :=
  (encode s).length == (encode t).length && ((encode s).zip (encode t)).all fun p => lowerByte p.1.toNat == lowerByte p.2.toNat

end Verif
