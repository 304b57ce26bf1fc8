import Verif.Internals

/-!
# The literal macros (`literals/src/lib.rs`)

The argument is the value of the string literal, as `syn::LitStr::value` gives it; parsing Rust tokens is not modelled. `none` is a compile error.
-/

namespace Verif

/-- `text!` (`literals/src/lib.rs:9-25`): the literal itself, by `TextStr::from_text_unchecked`, or a compile error. -/
def textLit (U : Ucd) (s : List Char) : Option (List Char) := if isBasicText U s then some s else none

/-- `text_substr!` (`literals/src/lib.rs:30-46`). -/
def textSubstrLit (U : Ucd) (s : List Char) : Option (List Char) := if isBasicTextSubstr U s then some s else none

end Verif
