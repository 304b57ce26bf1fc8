import Verif.Writer
import Verif.WriterRuns
import Verif.Reader

/-!
# `TextString`, `TextStr`, `TextSubstring`, `TextSubstr`

Model of `/repo/src/text_string.rs` and `/repo/src/text_substring.rs`.  The four types are strings known to satisfy a
predicate: `isBasicText` for `TextString`/`TextStr`, `isBasicTextSubstr` for `TextSubstring`/`TextSubstr`.  `unsafe …
_unchecked` constructors are the identity here; that their callers keep to the predicate is what is proved.
-/

namespace Verif

/-- A call that may return `Ok`, return `Err`, or panic. -/
inductive Res (ε α : Type) where
  | ok (a : α)
  | err (e : ε)
  | panic
  deriving DecidableEq, Repr

/-! ## Slices -/

/-- `&s[..n]` (standard library): panics (`none`) unless `n` is a scalar boundary. -/
def sliceTo (s : List Char) (n : Nat) : Option (List Char) :=
  if isCharBoundary s n then fromUtf8 ((encode s).take n) else none

/-- `&s[n..]`. -/
def sliceFrom (s : List Char) (n : Nat) : Option (List Char) :=
  if isCharBoundary s n then fromUtf8 ((encode s).drop n) else none

/-- `&s[a..b]`. -/
def slice (s : List Char) (a b : Nat) : Option (List Char) :=
  if a ≤ b ∧ isCharBoundary s a ∧ isCharBoundary s b then fromUtf8 (((encode s).take b).drop a) else none

/-! ## Where the error is -/

/-- `while !s.is_char_boundary(mid) { mid -= 1; }` -/
def boundaryDown (s : List Char) : Nat → Nat
  | 0 => 0
  | m + 1 => if isCharBoundary s (m + 1) then m + 1 else boundaryDown s m

/-- `while !s.is_char_boundary(mid) { mid += 1; }`; `none` if the loop has not ended after `fuel` steps. -/
def boundaryUp (s : List Char) : Nat → Nat → Option Nat
  | 0, _ => none
  | fuel + 1, m => if isCharBoundary s m then some m else boundaryUp s fuel (m + 1)

/-- The loop of `compute_valid_up_to` (`src/text_string.rs:420-449`, `src/text_substring.rs:374-403`; `valid` is
`is_basic_text`, `is_basic_text_substr`).  `none`: a slice panics, or the loop has not ended after `fuel` steps. -/
def validLoop (valid : List Char → Bool) (s : List Char) : Nat → Nat → Nat → Option Nat
  | 0, _, _ => none
  | fuel + 1, b, e =>
    if b = e then some b
    else
      let mid := boundaryDown s (b + (e - b) / 2)
      if mid = b then
        match boundaryUp s ((encode s).length + 1) (b + (e - b) / 2 + 1) with
        | none => none
        | some mid =>
          if mid = e then some b
          else match sliceTo s mid with
            | none => none
            | some p => if valid p then validLoop valid s fuel mid e else validLoop valid s fuel b mid
      else match sliceTo s mid with
        | none => none
        | some p => if valid p then validLoop valid s fuel mid e else validLoop valid s fuel b mid

/-- `compute_valid_up_to`. -/
def validUpTo (valid : List Char → Bool) (s : List Char) : Option Nat :=
  validLoop valid s ((encode s).length + 1) 0 (encode s).length

/-! ## Checked conversions -/

/-- `TextString::from_text`, `TextSubstring::from_text` (`src/text_string.rs:149-174`,
`src/text_substring.rs:118-143`); `valid` is the predicate in their `compute_valid_up_to`.  The error carries
`valid_up_to`. -/
def fromTextOwned (U : Ucd) (valid : List Char → Bool) (s : List Char) : Res Nat (List Char) :=
  let fail : Res Nat (List Char) := match validUpTo valid s with | some n => .err n | none => .panic
  match writeStr U (.new { sent := [], dead := false, script := [] }) s with
  | (w, .ok) => match flush w with
    | (w, .ok) => .ok w.sink.sent
    | (_, .err) => fail
    | (_, .panic) => .panic
  | (_, .err) => fail
  | (_, .panic) => .panic

/-- `TextStr::from_text`, `TextSubstr::from_text` and their `_mut` forms (`src/text_string.rs:601-623`,
`src/text_substring.rs:495-517`). -/
def fromText (valid : List Char → Bool) (s : List Char) : Res Nat (List Char) :=
  if valid s then .ok s
  else match validUpTo valid s with | some n => .err n | none => .panic

/-- `Utf8Error::valid_up_to` (standard library): the length of the longest well-formed prefix. -/
def utf8ValidUpTo (b : Bytes) : Nat := (encode (decodePrefix b).1).length

/-- `TextStr::from_text_bytes`, `TextSubstr::from_text_bytes` (`src/text_string.rs:595-597`,
`src/text_substring.rs:489-491`). -/
def fromTextBytes (valid : List Char → Bool) (b : Bytes) : Res Nat (List Char) :=
  match fromUtf8 b with
  | some s => fromText valid s
  | none => .err (utf8ValidUpTo b)

/-- `TextString::from_text_vec`, `TextSubstring::from_text_vec` (`src/text_string.rs:143-145`,
`src/text_substring.rs:112-114`); the error also returns the bytes given. -/
def fromTextVec (U : Ucd) (valid : List Char → Bool) (b : Bytes) : Res (Nat × Bytes) (List Char) :=
  match fromUtf8 b with
  | some s => match fromTextOwned U valid s with
    | .ok t => .ok t
    | .err n => .err (n, encode s)
    | .panic => .panic
  | none => .err (utf8ValidUpTo b, b)

/-! ## Lossy conversion -/

/-- The part of `from_text_lossy` after `read_to_string` (`src/text_string.rs:194-208`,
`src/text_substring.rs:163-177`): `text` is what was read. `none` is a failed `assert_eq!`. -/
def lossyFinish (v text : List Char) : Option (List Char) :=
  let (text, v) := match v with
    | c :: r => if c = BOM then (WJ :: text, r) else (text, v)
    | [] => (text, v)
  if v ≠ [] ∧ v.getLast? ≠ some '\n' ∧ v.getLast? ≠ some '\r' then
    if text.getLast? = some '\n' then some text.dropLast else none
  else some text

/-- `layered_io::default_read_to_end` (dependency) over a `TextReader`: reads with the buffer sizes `lens` until the end is
reported.  `none` if a read fails or the end is not reported within the given sizes. -/
def readToEnd (U : Ucd) : List Nat → TextInput → List Event → Option (List Char)
  | [], _, _ => none
  | len :: lens, t, src =>
    let r := readWithStatus U len t src
    match r.ret with
    | .ok _ .end_ => some r.out
    | .ok _ _ => (readToEnd U lens r.input r.src).map (r.out ++ ·)
    | _ => none

/-- `TextString::from_text_lossy`, `TextSubstring::from_text_lossy` (`src/text_string.rs:187-209`,
`src/text_substring.rs:156-178`) of `chunks.flatten ++ last`; how the byte slice reader cuts the string up, and the
buffer sizes of `read_to_string`, are left open (`chunks`, `lens`). `none` is a panic. -/
def fromTextLossy (U : Ucd) (chunks : List (List Char)) (last : List Char) (lens : List Nat) : Option (List Char) :=
  match readToEnd U lens (.new false false) (chunks.map (fun c => .data c .active) ++ [.data last .end_]) with
  | none => none
  | some text => lossyFinish (chunks.flatten ++ last) text

/-! ## Operations -/

/-- `TextString::push_text`, `+`, `+=` (`src/text_string.rs:284-292`, `539-554`). -/
def pushText (a s : List Char) : List Char :=
  match s with
  | c :: rest => if c = CGJ ∧ a.getLast? = some CGJ then a ++ rest else a ++ s
  | [] => a

/-- `TextString::extend` (`src/text_string.rs:556-591`). -/
def extendText (a : List Char) (l : List (List Char)) : List Char := l.foldl pushText a

/-- `TextStr::repeat`, `TextSubstr::repeat` (`src/text_string.rs:1107-1109`, `src/text_substring.rs:1003-1005`). -/
def repeatText (s : List Char) (n : Nat) : List Char := (List.replicate n s).flatten

/-- `TextStr::split_at`, `TextSubstr::split_at` and their `_mut` forms (`src/text_string.rs:769-787`,
`src/text_substring.rs:664-682`); `none` is a panic. -/
def splitAt (valid : List Char → Bool) (s : List Char) (mid : Nat) : Option (List Char × List Char) :=
  match sliceTo s mid, sliceFrom s mid with
  | some a, some b => match fromText valid a, fromText valid b with
    | .ok a, .ok b => some (a, b)
    | _, _ => none
  | _, _ => none

/-- `char::is_whitespace` (standard library): the `White_Space` property. -/
def isWhite (c : Char) : Bool :=
  between 0x9 0xd c || c == ' ' || c.toNat == 0x85 || c.toNat == 0xa0 || c.toNat == 0x1680 || between 0x2000 0x200a c ||
    c.toNat == 0x2028 || c.toNat == 0x2029 || c.toNat == 0x202f || c.toNat == 0x205f || c.toNat == 0x3000

/-- `trim_start` (`src/text_string.rs:1039-1041`, `src/text_substring.rs:935-937`). -/
def trimStart (s : List Char) : List Char := s.dropWhile isWhite

/-- `trim_end` (`src/text_string.rs:1045-1047`, `src/text_substring.rs:941-943`). -/
def trimEnd (s : List Char) : List Char := (s.reverse.dropWhile isWhite).reverse

/-- `trim` (`src/text_string.rs:1033-1035`, `src/text_substring.rs:929-931`). -/
def trim (s : List Char) : List Char := trimEnd (trimStart s)

/-- `default_read_to_text_string` (`src/text_string.rs:1496-1512`): the buffer afterwards and the result; `text` is
what `read_to_string` appended, `none` if it failed having appended `part`. -/
def readToTextString (U : Ucd) (buf : List Char) (text : Option (List Char)) (part : List Char) : List Char × Res Unit Nat :=
  match text with
  | none => (buf ++ part, .err ())
  | some text =>
    match text.head? with
    | some c => if isStart U c then (buf ++ text, .ok (encode text).length) else (buf ++ text, .err ())
    | none => (buf ++ text, .ok (encode text).length)

end Verif
