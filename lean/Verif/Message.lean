import Verif.Escape

/-!
# The messages of errors

`Display` of `BasicTextError` (`internals/src/check.rs:117-150`, made by `thiserror`) and of `TextError` (`src/text_string.rs:1258-1266`).
-/

namespace Verif

/-- `char::escape_debug_ext` as `Debug` of `char` calls it: double quotes are left alone.  The tables of the standard library are
parameters, as in `escapeDebugChar`. -/
def debugChar (extends_ printable : Char → Bool) (c : Char) : List Char :=
  if c = '\x00' then ['\\', '0']
  else if c = '\t' then ['\\', 't'] else if c = '\r' then ['\\', 'r'] else if c = '\n' then ['\\', 'n']
  else if c = '\'' ∨ c = '\\' then ['\\', c]
  else if c = '"' then [c]
  else if extends_ c then escapeUnicodeChar c
  else if printable c then [c]
  else escapeUnicodeChar c

/-- `{:?}` of a `char`. -/
def quoted (extends_ printable : Char → Bool) (c : Char) : List Char := '\'' :: (debugChar extends_ printable c ++ ['\''])

/-- What `{:?}` of a slice writes behind the bracket. -/
def listed (extends_ printable : Char → Bool) : List Char → List Char
  | [] => [']']
  | [c] => quoted extends_ printable c ++ [']']
  | c :: d :: s => quoted extends_ printable c ++ ',' :: ' ' :: listed extends_ printable (d :: s)

/-- What the `Display` of a `BasicTextError` begins with (`internals/src/check.rs:118-149`). -/
def opening : BasicTextError → String
  | .colorEscapeSequence => "Color escape sequences are not enabled"
  | .controlCode _ => "Control code not valid in text: "
  | .deprecatedFormatChar _ => "Deprecated Format Characters are deprecated: "
  | .escape => "Escape code not valid in text"
  | .bidiFormatChar => "Explicit Bidirectional Formatting Characters are unsupported"
  | .interlinear => "Interlinear Annotations depend on out-of-band information"
  | .languageTag => "Language tagging is a deprecated mechanism"
  | .lineSeparation => "Line separation is a rich-text function"
  | .nonChar => "Noncharacters are intended for internal use only"
  | .paraSeparation => "Paragraph separation is a rich-text function"
  | .unneededBOM => "U+FEFF is not necessary in Basic Text"
  | .outOfBand => "U+FFFC depends on out-of-band information"
  | .omit _ => "Omit "
  | .beyyal => "Spell beyyal with normal letters"
  | .unrecognizedEscape => "Unrecognized escape sequence"
  | .replacement _ _ => "Use ["

/-- What follows: `{0:?}`, or behind the bracket of `{yes:?}` the rest of it and ` instead of {no:?}`. -/
def details (extends_ printable : Char → Bool) : BasicTextError → List Char
  | .controlCode c => quoted extends_ printable c
  | .deprecatedFormatChar c => quoted extends_ printable c
  | .omit c => quoted extends_ printable c
  | .replacement yes no => listed extends_ printable yes ++ " instead of ".toList ++ quoted extends_ printable no
  | _ => []

/-- `Display` of a `BasicTextError` (`internals/src/check.rs:117-150`). -/
def message (extends_ printable : Char → Bool) (e : BasicTextError) : List Char := (opening e).toList ++ details extends_ printable e

/-- The decimal digits of a number. -/
def decimal (n : Nat) : List Char := if n < 10 then [Char.ofNat (48 + n)] else decimal (n / 10) ++ [Char.ofNat (48 + n % 10)]

/-- `Display` of a `TextError` (`src/text_string.rs:1258-1266`) and of a `FromTextError` (`1300-1304`), which says where valid text ends. -/
def indexMessage (validUpTo : Nat) : List Char := "invalid Basic Text byte sequence from index ".toList ++ decimal validUpTo

end Verif
