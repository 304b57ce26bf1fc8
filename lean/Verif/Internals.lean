import Verif.Norm
import Verif.Table
import Verif.Tables.Repo

/-!
# The `basic-text-internals` crate

Model of `/repo/internals/src`.  Functions that consult Unicode data take the tables `U : Ucd`.
Strings are lists of scalar values (`Char` is exactly a Unicode scalar value).
-/

namespace Verif
open Tables

/-! ## Constants (`internals/src/unicode.rs:9-72`) -/

def maxUtf8Size : Nat := 4
def normalizationBufferLen : Nat := 2 + maxNonstarters + 2
def normalizationBufferSize : Nat := maxUtf8Size * normalizationBufferLen

abbrev FF : Char := Char.ofNat 0xc
abbrev BEL : Char := Char.ofNat 0x7
abbrev CAN : Char := Char.ofNat 0x18
abbrev ESC : Char := Char.ofNat 0x1b
abbrev SUB : Char := Char.ofNat 0x1a
abbrev DEL : Char := Char.ofNat 0x7f
abbrev NEL : Char := Char.ofNat 0x85
abbrev BOM : Char := Char.ofNat 0xfeff
abbrev WJ : Char := Char.ofNat 0x2060
abbrev ZWJ : Char := Char.ofNat 0x200d
abbrev REPL : Char := Char.ofNat 0xfffd
abbrev ORC : Char := Char.ofNat 0xfffc
abbrev LS : Char := Char.ofNat 0x2028
abbrev PS : Char := Char.ofNat 0x2029

/-! ## `check.rs` and `replace.rs` -/

/-- `replace` (`internals/src/replace.rs:9-142`): what it appends to the queue. -/
def replace (c : Char) : List Char :=
  match replaceMulti.lookup c.toNat with
  | some l => l.map Char.ofNat
  | none => if inRanges replaceRepl c.toNat then [REPL] else [c]

/-- `BasicTextError` (`internals/src/check.rs:117-150`). -/
inductive BasicTextError where
  | colorEscapeSequence
  | controlCode (c : Char)
  | deprecatedFormatChar (c : Char)
  | escape
  | bidiFormatChar
  | interlinear
  | languageTag
  | lineSeparation
  | nonChar
  | paraSeparation
  | unneededBOM
  | outOfBand
  | omit (c : Char)
  | beyyal
  | unrecognizedEscape
  | replacement (yes : List Char) (no : Char)
  deriving DecidableEq, Repr

/-- `char::is_control` (standard library): General_Category Cc. -/
def isControl (c : Char) : Bool := inRanges [(0, 0x1f), (0x7f, 0x9f)] c.toNat

/-- `check_basic_text_char` (`internals/src/check.rs:12-113`); `none` is `Ok(())`. -/
def checkChar (c : Char) : Option BasicTextError :=
  if isControl c && c != '\n' && c != '\t' && c != ESC then some (.controlCode c)
  else if inRanges checkReplacement c.toNat then some (.replacement (replace c) c)
  else if c.toNat = 0xe0001 then some .languageTag
  else if inRanges [(0xfff9, 0xfffb)] c.toNat then some .interlinear
  else if c.toNat = 0x17b4 ∨ c.toNat = 0x17b5 then some (.omit c)
  else if c.toNat = 0x17d8 then some .beyyal
  else if inRanges [(0x206a, 0x206f)] c.toNat then some (.deprecatedFormatChar c)
  else if c = LS then some .lineSeparation
  else if c = PS then some .paraSeparation
  else if inRanges [(0x202a, 0x202e), (0x2066, 0x2069)] c.toNat then some .bidiFormatChar
  else if inRanges checkNonchar c.toNat then some .nonChar
  else if c = ORC then some .outOfBand
  else if c = BOM then some .unneededBOM
  else none

/-- `Categorize` (`internals/src/categorize.rs:32-43`): the scalars the adapter yields. -/
def categorize (s : List Char) : List Char := s.map fun c => if (checkChar c).isSome then SUB else c

/-- The error cell shared with `Categorize` after the whole string has gone through it
(`categorize.rs:26-29`, each error overwrites the previous one). -/
def categorizeError (s : List Char) : Option BasicTextError := (s.filterMap checkChar).getLast?

/-! ## `isolate_unassigned.rs` -/

/-- `is_private_use_area` (`internals/src/text_utils.rs:725-730`). -/
def isPrivateUse (c : Char) : Bool := inRanges privateUse c.toNat

/-- `let assigned = ..` (`internals/src/isolate_unassigned.rs:39`). -/
def isAssigned (U : Ucd) (c : Char) : Bool := U.assigned c || isPrivateUse c

/-- `IsolateUnassigned` (`internals/src/isolate_unassigned.rs:26-64`): everything the adapter yields for
the remaining input, from the given `need_cgj` and `have_cgj`.  The `deferred` scalar is emitted right
after the CGJ. -/
def isolateGo (U : Ucd) : Bool → Bool → List Char → List Char
  | need, _, [] => if need then [CGJ] else []
  | need, have_, c :: cs =>
    if (need && c != CGJ) || (!isAssigned U c && !have_) then
      CGJ :: c :: isolateGo U (!isAssigned U c) false cs
    else c :: isolateGo U false (c == CGJ) cs

def isolate (U : Ucd) (s : List Char) : List Char := isolateGo U false false s

/-! ## `text_utils.rs` -/

/-- `is_normalization_form_starter` (`internals/src/unicode.rs:76-78`). -/
def isNfStarter (U : Ucd) (c : Char) : Bool := U.ccc c == 0

/-- `is_starter` (`internals/src/text_utils.rs:86-90`). -/
def isStarter (U : Ucd) (c : Char) : Bool := Nat.ble c.toNat 0x7f || isNfStarter U c

/-- `is_grapheme_cluster_break_spacing_mark_plus` (`internals/src/text_utils.rs:485-508`). -/
def isSpacingMarkPlus (n : Nat) : Bool :=
  Nat.beq n 0xe33 || Nat.beq n 0xeb3 ||
    (inRanges generalCategorySpacingMark n && !inRanges spacingMarkExcept n)

/-- The part of `is_basic_text_start` that only looks at the tables of `text_utils.rs`. -/
def startTable (n : Nat) : Bool :=
  !Nat.beq n 0x200d && !inRanges graphemeExtendNotCgj n && !inRanges emojiModifier n && !isSpacingMarkPlus n

/-- `is_basic_text_start` (`internals/src/text_utils.rs:16-26`). -/
def isStart (U : Ucd) (c : Char) : Bool := isStarter U c && startTable c.toNat

/-- `is_basic_text_end` (`internals/src/text_utils.rs:30-38`). -/
def isEnd (c : Char) : Bool :=
  !Nat.beq c.toNat 0x200d && !inRanges consonantPrecedingRepha c.toNat &&
    !inRanges consonantPrefixed c.toNat && !inRanges prependedConcatenationMark c.toNat

/-- `is_basic_text_substr` (`internals/src/text_utils.rs:59-64`). -/
def isBasicTextSubstr (U : Ucd) (s : List Char) : Bool :=
  !(categorize s).any (fun c => c == SUB || c == ESC) && U.isNfcStreamSafe s

/-- `is_basic_text` (`internals/src/text_utils.rs:42-55`). -/
def isBasicText (U : Ucd) (s : List Char) : Bool :=
  match s.head?, s.getLast? with
  | some a, some b => isStart U a && (isEnd b && isBasicTextSubstr U s)
  | _, _ => isBasicTextSubstr U s

/-- `is_basic_text_substr_quick` (`internals/src/text_utils.rs:69-83`), including the inverted test. -/
def isBasicTextSubstrQuick (U : Ucd) (s : List Char) : Option Bool :=
  if !(categorize s).any (fun c => c == SUB || c == ESC) then some false
  else match U.quick s with
    | .yes => some true
    | .no => some false
    | .maybe => none

/-- The chain `.isolate_unassigned().cjk_compat_variants().stream_safe().nfc()`
(`src/text_input.rs:266-271`, `src/text_output.rs:323-329`). -/
def normChain (U : Ucd) (s : List Char) : List Char :=
  U.nfc (U.streamSafe 0 (U.cjkVariants (isolate U s)))

end Verif
