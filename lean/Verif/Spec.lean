import Verif.Internals

/-!
# Specification of the conversions

Functions on whole strings, written from `/repo/docs/BasicText.md`; no state machine, no segments, no
buffers.  `Spec.stream` is the stream conversion with the details the document leaves open settled the
way the code settles them; `Doc.stream` and `Doc.string` are the document's steps taken literally.
-/

namespace Verif

namespace Spec

/-- `c` is one of the scalars U+`a` to U+`b`. -/
def within (a b : Nat) (c : Char) : Bool := decide (a ≤ c.toNat ∧ c.toNat ≤ b)

/-- CSI parameter or intermediate: U+20–U+3F. -/
def param : Char → Bool := within 0x20 0x3f

/-- Final of a CSI or two-character sequence: U+40–U+7E. -/
def final : Char → Bool := within 0x40 0x7e

/-- Everything but the scalars that end an OSC string: not U+7, U+18, U+1B. -/
def oscText (c : Char) : Bool := c ≠ BEL ∧ c ≠ CAN ∧ c ≠ ESC

/-- Drop the first scalar if it satisfies `p`. -/
def dropOne (p : Char → Bool) : List Char → List Char
  | c :: r => if p c then r else c :: r
  | [] => []

/-- The escape rows of the Sequence Table (`docs/BasicText.md:60-64`): what is left of the text after the
ESCs once the sequence has been removed.  `fin` are the scalars that end a CSI or plain escape sequence. -/
def afterEsc (fin : Char → Bool) : List Char → List Char
  | '[' :: '[' :: r => dropOne (within 0 0x7f) r
  | '[' :: r => dropOne fin (r.dropWhile param)
  | ']' :: r => dropOne (fun c => c = BEL ∨ c = CAN) (r.dropWhile oscText)
  | r => dropOne fin r

/-- What an item of the text turns into: a newline, some scalars, or nothing (an escape sequence). -/
inductive Tok where
  | nl
  | text (l : List Char)
  | gone
  deriving DecidableEq, Repr

theorem dropOne_le (p : Char → Bool) (s : List Char) : (dropOne p s).length ≤ s.length := by
  unfold dropOne
  split
  · split <;> simp
  · simp

theorem dropWhile_le (p : Char → Bool) (s : List Char) : (s.dropWhile p).length ≤ s.length :=
  (List.dropWhile_sublist p).length_le

theorem afterEsc_le (fin : Char → Bool) (s : List Char) : (afterEsc fin s).length ≤ s.length := by
  unfold afterEsc
  split
  · have := dropOne_le (within 0 0x7f) (by assumption)
    simp only [List.length_cons]; omega
  · rename_i r _
    have h1 := dropOne_le fin (r.dropWhile param)
    have h2 := dropWhile_le param r
    simp only [List.length_cons]; omega
  · rename_i r
    have h1 := dropOne_le (fun c => decide (c = BEL ∨ c = CAN)) (r.dropWhile oscText)
    have h2 := dropWhile_le oscText r
    simp only [List.length_cons]; omega
  · exact dropOne_le _ _

/-- Newline rows, form feed rows, escape rows, and everything else by `one`
(`docs/BasicText.md:51-170`). -/
def tokens (fin : Char → Bool) (one : Char → Tok) : List Char → List Tok
  | [] => []
  | c :: r =>
    if c = '\n' then .nl :: tokens fin one r
    else if c = '\r' then .nl :: tokens fin one (dropOne (· = '\n') r)
    else if c = FF then
      let r' := r.dropWhile (· = FF)
      if r'.head? = some '\n' ∨ r'.head? = some '\r' then tokens fin one r'
      else .text [' '] :: tokens fin one r'
    else if c = ESC then .gone :: tokens fin one (afterEsc fin (r.dropWhile (· = ESC)))
    else one c :: tokens fin one r
termination_by s => s.length
decreasing_by
  all_goals simp only [List.length_cons]
  · omega
  · have := dropOne_le (· = '\n') r; omega
  · have := dropWhile_le (· = FF) r; omega
  · have := dropWhile_le (· = FF) r; omega
  · have h1 := afterEsc_le fin (r.dropWhile (· = ESC))
    have h2 := dropWhile_le (· = ESC) r
    omega
  · omega

/-- The text of a token. -/
def Tok.out : Tok → List Char
  | .nl => ['\n']
  | .text l => l
  | .gone => []

/-- A scalar that takes part in none of the multi-scalar rows, with the compatibility modes. -/
def single (nel lsps : Bool) (c : Char) : Tok :=
  if (nel ∧ c = NEL) ∨ (lsps ∧ (c = LS ∨ c = PS)) then .nl else .text (replace c)

/-- Remove a byte-order mark at the start. -/
def dropBom (s : List Char) : List Char := dropOne (· = BOM) s

/-- Prepend CGJ unless the text begins with a scalar allowed at the start. -/
def guardStart (U : Ucd) (s : List Char) : List Char :=
  match s with
  | c :: _ => if isStart U c then s else CGJ :: s
  | [] => []

/-- Append CGJ unless the text ends with a scalar allowed at the end. -/
def guardEnd (s : List Char) : List Char :=
  match s.getLast? with
  | some c => if isEnd c then s else s ++ [CGJ]
  | none => s

/-- The scalars ending a CSI or plain escape sequence: the document's, and CAN. -/
def finCan (c : Char) : Bool := final c || decide (c = CAN)

/-- The translated text of a stream before isolation and normalization. -/
def translate (U : Ucd) (nel lsps : Bool) (s : List Char) : List Char :=
  let ts := tokens finCan (single nel lsps) s
  let body := guardEnd (guardStart U (ts.flatMap Tok.out))
  if ts = [] ∨ ts.getLast? = some .nl then body else body ++ ['\n']

/-! ## Isolation (`docs/BasicText.md:184-187`) -/

/-- Insert CGJ before every unassigned scalar that isn't already preceded by CGJ. -/
def isolateBefore (U : Ucd) (prev : Option Char) : List Char → List Char
  | [] => []
  | c :: r => if !isAssigned U c && prev != some CGJ then CGJ :: c :: isolateBefore U (some c) r
    else c :: isolateBefore U (some c) r

/-- Insert CGJ after every unassigned scalar that isn't already followed by CGJ. -/
def isolateAfter (U : Ucd) : List Char → List Char
  | [] => []
  | c :: r => if !isAssigned U c && r.head? != some CGJ then c :: CGJ :: isolateAfter U r
    else c :: isolateAfter U r

def isolate (U : Ucd) (s : List Char) : List Char := isolateAfter U (isolateBefore U none s)

/-- Isolation, standardized variants, Stream-Safe Text Process, NFC. -/
def normalize (U : Ucd) (s : List Char) : List Char :=
  U.nfc (U.streamSafe 0 (U.cjkVariants (isolate U s)))

/-- The stream conversion. -/
def stream (U : Ucd) (nel lsps : Bool) (s : List Char) : List Char :=
  normalize U (translate U nel lsps (dropBom s))

end Spec
end Verif
