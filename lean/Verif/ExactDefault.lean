import Verif.ReadStd
import Verif.ReaderLive

/-!
# The default exact reads (`src/read_text.rs:52-104`)

`default_read_exact_text_substr` and `default_read_exact_text_substr_using_status`, with a `TextReader` or
`TextDuplexer` as the inner stream.  (These two types override the trait methods that call them by default, but the
first is exported, and both are what any other implementation of the traits gets.)
-/

namespace Verif
open Ucd Spec
variable {U : Ucd}

/-- How the loops end: the whole buffer is filled, "failed to fill whole buffer", an error of the read (`Interrupted`
included), or a panic. -/
inductive FillRet where
  | ok (status : Status)
  | unexpectedEof
  | interrupted
  | invalidInput
  | sourceError
  | panic
  deriving DecidableEq, Repr

/-- Result, the text written by the calls, reader state and source. -/
structure FillResult where
  ret : FillRet
  out : List Char
  input : TextInput
  src : List Event
  deriving DecidableEq, Repr

/-- `buf.split_at_mut(size).1` (`src/text_substring.rs:673-682`), where `buf` holds the bytes `b`: the second half, or
`none` for a panic: the place must be a character boundary, and both halves must be valid substrings
(`from_text_mut(…).unwrap()`). -/
def splitAtMut (U : Ucd) (b : Bytes) (size : Nat) : Option (List Char) :=
  match fromUtf8 (b.take size), fromUtf8 (b.drop size) with
  | some p, some q => if isBasicTextSubstr U p && isBasicTextSubstr U q then some q else none
  | _, _ => none

/-- `default_read_exact_text_substr` (`src/read_text.rs:52-73`); `buf` is the content of the `TextSubstr`.  `none` when
the loop has not ended after `fuel` iterations. -/
def fillExact (U : Ucd) : Nat → List Char → TextInput → List Event → Option FillResult
  | 0, _, _, _ => none
  | fuel + 1, buf, t, src =>
    if buf = [] then some { ret := .ok .active, out := [], input := t, src }
    else
      let r := readWithStatus U (encode buf).length t src
      match stdRet r.ret with
      | .ok 0 => some { ret := .unexpectedEof, out := r.out, input := r.input, src := r.src }
      | .ok (n + 1) =>
        match splitAtMut U (bufferAfter (encode buf) r) (n + 1) with
        | some rest => (fillExact U fuel rest r.input r.src).map fun x => { x with out := r.out ++ x.out }
        | none => some { ret := .panic, out := r.out, input := r.input, src := r.src }
      | .interrupted => some { ret := .interrupted, out := r.out, input := r.input, src := r.src }
      | .invalidInput => some { ret := .invalidInput, out := r.out, input := r.input, src := r.src }
      | .sourceError => some { ret := .sourceError, out := r.out, input := r.input, src := r.src }
      | .panic => some { ret := .panic, out := r.out, input := r.input, src := r.src }

/-- `default_read_exact_text_substr_using_status` (`src/read_text.rs:75-104`). -/
def fillExactStatus (U : Ucd) : Nat → List Char → TextInput → List Event → Option FillResult
  | 0, _, _, _ => none
  | fuel + 1, buf, t, src =>
    if buf = [] then some { ret := .ok .active, out := [], input := t, src }
    else
      let r := readWithStatus U (encode buf).length t src
      match r.ret with
      | .ok n st =>
        match splitAtMut U (bufferAfter (encode buf) r) n with
        | some rest =>
          if st = .end_ then
            some { ret := if rest = [] then .ok st else .unexpectedEof, out := r.out, input := r.input, src := r.src }
          else (fillExactStatus U fuel rest r.input r.src).map fun x => { x with out := r.out ++ x.out }
        | none => some { ret := .panic, out := r.out, input := r.input, src := r.src }
      | .invalidInput => some { ret := .invalidInput, out := r.out, input := r.input, src := r.src }
      | .sourceError => some { ret := .sourceError, out := r.out, input := r.input, src := r.src }
      | .panic => some { ret := .panic, out := r.out, input := r.input, src := r.src }

end Verif
