import Verif.Literals
import Verif.WriteMany
import Verif.Strings

/-!
# The example program of the crate's documentation (`src/lib.rs:24-62`)
-/

namespace Verif.DocExample

/-- `.unwrap()` of what a call on the writer returned; `none` is a panic. -/
def unwrapOk : Writer × Out → Option Writer
  | (w, .ok) => some w
  | _ => none

/-- `.unwrap_err()`. -/
def unwrapErr : Writer × Out → Option Writer
  | (w, .err) => some w
  | _ => none

/-- "Hello, World!" (`src/lib.rs:36`). -/
def greeting : List Char := ['H', 'e', 'l', 'l', 'o', ',', ' ', 'W', 'o', 'r', 'l', 'd', '!']

/-- "\u{1f415}\u{200d}" (`src/lib.rs:46`). -/
def dog : List Char := [Char.ofNat 0x1f415, '\u200d']

/-- "\u{1f9ba}" (`src/lib.rs:48`). -/
def vest : List Char := [Char.ofNat 0x1f9ba]

/-- What `writeln!` makes of "Valid!" (`src/lib.rs:51`). -/
def valid : List Char := ['V', 'a', 'l', 'i', 'd', '!', '\n']

/-- What `writeln!` makes of "\u{c}Invalid!\u{7}" (`src/lib.rs:54`). -/
def invalid : List Char := ['\x0c', 'I', 'n', 'v', 'a', 'l', 'i', 'd', '!', '\x07', '\n']

/-- The part of the program that writes (`src/lib.rs:31-54`), on a `TextWriter`; the writer it ends with, or `none` if it does not compile or panics.
`writeln!` with a literal and no arguments writes one string. -/
def writes (U : Ucd) (w : Writer) : Option Writer := do
  let t ← textLit U greeting
  let w ← unwrapOk (writeText U w t)
  let t ← textSubstrLit U dog
  let w ← unwrapOk (writeText U w t)
  let t ← textSubstrLit U vest
  let w ← unwrapOk (writeText U w t)
  let r ← writeFmt U w [valid]
  let w ← unwrapOk r
  let r ← writeFmt U w [invalid]
  unwrapErr r

/-- The part that reads (`src/lib.rs:58-61`): the string it ends with, or `none` for a panic; the buffers are those of `read_to_string`. -/
def reading (U : Ucd) (lens : List Nat) (src : List Event) : Option (List Char) :=
  match readToTextString U [] (readToEnd U lens (.new false false) src) [] with
  | (s, .ok _) => some s
  | _ => none

end Verif.DocExample
