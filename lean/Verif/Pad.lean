import Verif.Strings

/-!
# `Display` with width and precision

`Display` for `TextStr` and `TextSubstr` forwards to `str` (`src/text_string.rs:1192-1196`; `src/text_substring.rs:1082-1086`), which calls
`Formatter::pad`; that is modelled from the standard library's documentation and source.
-/

namespace Verif

/-- `fmt::Alignment`. -/
inductive Align where
  | left
  | right
  | center
  deriving DecidableEq, Repr

/-- `Display::fmt` of a text (`src/text_string.rs:1193-1195`, `src/text_substring.rs:1083-1085`) by way of `Formatter::pad`: the strings written, in
order. The precision cuts the text after so many scalars; then, if it has fewer scalars than the width, `fill` is written before or after it, a scalar at a
time; centered text has the odd one behind it. The default alignment of strings is `left`. -/
def displayPieces (fill : Char) (align : Align) (width precision : Option Nat) (s : List Char) : List (List Char) :=
  let s := match precision with | some p => s.take p | none => s
  match width with
  | none => [s]
  | some w =>
    if w ≤ s.length then [s]
    else
      let pad := w - s.length
      let pre := match align with | .left => 0 | .right => pad | .center => pad / 2
      List.replicate pre [fill] ++ s :: List.replicate (pad - pre) [fill]

/-- The formatted string. -/
def display (fill : Char) (align : Align) (width precision : Option Nat) (s : List Char) : List Char :=
  (displayPieces fill align width precision s).flatten

end Verif
