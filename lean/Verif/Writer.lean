import Verif.Reader

/-!
# `TextOutput`: the writer

Model of `/repo/src/text_output.rs`, shared by `TextWriter` and the writer half of `TextDuplexer`.
-/

namespace Verif

/-! ## The sink -/

/-- What the next operation on the inner stream does: succeed, or fail after `n` scalars have gone out. -/
inductive SinkEvent where
  | ok
  | fail (n : Nat)
  deriving DecidableEq, Repr

/-- The inner stream (`WriteStr + WriteLayered`): the scalars it has received, whether it has been abandoned or
closed (every later operation fails), and how the coming operations fare; an exhausted script means success.
A failing write is cut at a scalar, not inside one (simplification). -/
structure Sink where
  sent : List Char
  dead : Bool
  script : List SinkEvent
  deriving DecidableEq, Repr

/-- `inner.write_str(s)` -/
def Sink.writeStr (k : Sink) (s : List Char) : Sink × Bool :=
  if k.dead then (k, false)
  else match k.script with
    | [] => ({ k with sent := k.sent ++ s }, true)
    | .ok :: r => ({ k with sent := k.sent ++ s, script := r }, true)
    | .fail n :: r => ({ k with sent := k.sent ++ s.take n, script := r }, false)

/-- `inner.flush()` -/
def Sink.flush (k : Sink) : Sink × Bool :=
  if k.dead then (k, false)
  else match k.script with
    | [] => (k, true)
    | .ok :: r => ({ k with script := r }, true)
    | .fail _ :: r => ({ k with script := r }, false)

/-- `inner.close()` -/
def Sink.close (k : Sink) : Sink × Bool := ({ k.flush.1 with dead := true }, k.flush.2)

/-- `inner.abandon()` -/
def Sink.abandon (k : Sink) : Sink := { k with dead := true }

/-! ## The writer -/

/-- `Ground` (`src/text_output.rs:575-582`). -/
inductive Ground where
  | newline | zwjOrPrepend | other
  deriving DecidableEq, Repr

/-- `State` (`src/text_output.rs:584-593`). -/
inductive WState where
  | ground (g : Ground) | esc | csi
  deriving DecidableEq, Repr

/-- `TextOutput` (`src/text_output.rs:80-99`) together with its inner stream; `seq` is `escape_sequence`. -/
structure Writer where
  buffer : List Char
  crlf : Bool
  expectStarter : Bool
  ansi : Bool
  state : WState
  seq : List Char
  sink : Sink
  deriving DecidableEq, Repr

/-- The result of an operation: `Ok`, `Err`, or a panic. -/
inductive Out where
  | ok | err | panic
  deriving DecidableEq, Repr

/-- `TextOutput::new` (`src/text_output.rs:102-113`). -/
def Writer.new (sink : Sink) : Writer :=
  { buffer := [], crlf := false, expectStarter := true, ansi := false, state := .ground .newline, seq := [], sink }

/-- `with_crlf_compatibility` (`src/text_output.rs:126-130`). -/
def Writer.newCrlf (sink : Sink) : Writer := { Writer.new sink with crlf := true }

/-- `with_ansi_color` (`src/text_output.rs:154-158`). -/
def Writer.newAnsi (color : Bool) (sink : Sink) : Writer := { Writer.new sink with ansi := color }

/-- `with_bom_compatibility` (`src/text_output.rs:133-148`). -/
def Writer.newBom (sink : Sink) : Option Writer :=
  match sink.writeStr [BOM] with
  | (sink, true) => some (.new sink)
  | (_, false) => none

/-- `reset_state` (`src/text_output.rs:550-555`). -/
def Writer.reset (w : Writer) : Writer := { w with state := .ground .newline }

/-- `prepare_failure` (`src/text_output.rs:557-562`). -/
def Writer.fail (w : Writer) : Writer := { w.reset with sink := w.sink.abandon }

/-- `if !is_basic_text_end(c) { ZwjOrPrepend } else { Other }` -/
def groundOf (c : Char) : Ground := if isEnd c then .other else .zwjOrPrepend

/-- `state_machine_char` (`src/text_output.rs:337-397`).  `rejected`: the error cell shared with `Categorize` is
filled, which `take(..).unwrap()` requires. -/
def putChar (rejected : Bool) (w : Writer) (c : Char) : Writer × Out :=
  match w.state with
  | .ground _ =>
    if c = ESC then
      if w.ansi then ({ w with state := .esc, seq := [ESC] }, .ok) else (w.fail, .err)
    else if c = '\n' then ({ w with state := .ground .newline, buffer := w.buffer ++ [c] }, .ok)
    else if c = SUB then (w.fail, if rejected then .err else .panic)
    else ({ w with state := .ground (groundOf c), buffer := w.buffer ++ [c] }, .ok)
  | .esc =>
    if c = '[' then ({ w with state := .csi, seq := w.seq ++ [c] }, .ok) else (w.fail, .err)
  | .csi =>
    if between 0x20 0x3f c then ({ w with seq := w.seq ++ [c] }, .ok)
    else if c = 'm' then
      ({ w with seq := w.seq ++ [c], buffer := w.buffer ++ w.seq ++ [c], state := .ground .other }, .ok)
    else (w.fail, .err)

/-- The `for` loops of `state_machine` and `state_machine_slow_path`. -/
def putAll (rejected : Bool) : Writer → List Char → Writer × Out
  | w, [] => (w, .ok)
  | w, c :: s =>
    match putChar rejected w c with
    | (w, .ok) => putAll rejected w s
    | r => r

/-- `state_machine` (`src/text_output.rs:294-335`).  The error cell counts as filled if any scalar of `s` is
rejected (simplification: `Categorize` fills it when it gets there, which is before the U+1A comes out). -/
def stateMachine (U : Ucd) (w : Writer) (s : List Char) : Writer × Out :=
  let rejected := s.any fun c => (checkChar c).isSome
  if U.quick s = .yes ∧ s.all U.assigned = true then putAll rejected w (categorize s)
  else putAll rejected w (normChain U (categorize s))

/-- `write_buffer` (`src/text_output.rs:262-292`). -/
def writeBuffer (U : Ucd) (w : Writer) : Writer × Out :=
  let bad := w.expectStarter && !(w.buffer.head?.map (isStart U)).getD true
  let w := { w with expectStarter := false }
  if bad then (w.fail, .err)
  else
    match w.sink.writeStr w.buffer with
    | (sink, true) => ({ w with sink, buffer := [] }, .ok)
    | (sink, false) => ({ w with sink, buffer := [] }.fail, .err)

/-- `s.split('\n')` (standard library). -/
def splitNl : List Char → List (List Char)
  | [] => [[]]
  | c :: s =>
    if c = '\n' then [] :: splitNl s
    else match splitNl s with
      | x :: xs => (c :: x) :: xs
      | [] => [[c]]

/-- The loop of `crlf_write_str` (`src/text_output.rs:195-207`) after the first slice. -/
def crlfRest (U : Ucd) : Writer → List (List Char) → Writer × Out
  | w, [] => (w, .ok)
  | w, x :: xs =>
    match stateMachine U { w with state := .ground .newline, buffer := w.buffer ++ ['\r', '\n'] } x with
    | (w, .ok) => crlfRest U w xs
    | r => r

/-- The loop of `crlf_write_str`. -/
def crlfLoop (U : Ucd) (w : Writer) : List (List Char) → Writer × Out
  | [] => (w, .ok)
  | x :: xs =>
    match stateMachine U w x with
    | (w, .ok) => crlfRest U w xs
    | r => r

/-- `write_str` (`src/text_output.rs:461-470`, `179-211`). -/
def writeStr (U : Ucd) (w : Writer) (s : List Char) : Writer × Out :=
  match if w.crlf then crlfLoop U w (splitNl s) else stateMachine U w s with
  | (w, .ok) => writeBuffer U w
  | r => r

/-- The ground state after writing text (`src/text_output.rs:221-225`). -/
def groundAfter (s : List Char) : Ground :=
  match s.getLast? with
  | none => .newline
  | some c => if c = '\n' then .newline else groundOf c

/-- The loop of `crlf_write_text` (`src/text_output.rs:239-256`) after the first slice. -/
def crlfTextRest (w : Writer) : List (List Char) → Writer
  | [] => w
  | x :: xs => crlfTextRest { w with buffer := w.buffer ++ ['\r', '\n'] ++ x, state := .ground (groundAfter x) } xs

/-- The loop of `crlf_write_text`. -/
def crlfTextLoop (w : Writer) : List (List Char) → Writer
  | [] => w
  | x :: xs => crlfTextRest { w with buffer := w.buffer ++ x, state := .ground (groundAfter x) } xs

/-- `write_text_substr` (`src/text_output.rs:450-459`, `213-260`); `s` is a `TextSubstr`. -/
def writeText (U : Ucd) (w : Writer) (s : List Char) : Writer × Out :=
  writeBuffer U (if w.crlf then crlfTextLoop w (splitNl s)
    else { w with buffer := w.buffer ++ s, state := .ground (groundAfter s) })

/-- `write` (`src/text_output.rs:472-489`); the number is the returned count. -/
def writeBytes (U : Ucd) (w : Writer) (b : Bytes) : Writer × Out × Nat :=
  let (s, rest) := decodePrefix b
  if rest = [] then
    let (w, o) := writeStr U w s
    (w, o, b.length)
  else if (encode s).length ≠ 0 then
    let (w, o) := writeStr U w s
    (w, o, (encode s).length)
  else (w.fail, .err, 0)

/-- `flush` (`src/text_output.rs:492-513`). -/
def flush (w : Writer) : Writer × Out :=
  match w.state with
  | .ground .zwjOrPrepend => (w.fail, .err)
  | .ground _ =>
    let (sink, ok) := w.sink.flush
    ({ w with expectStarter := true, sink }, if ok then .ok else .err)
  | _ => (w, .err)

/-- `check_nl` (`src/text_output.rs:399-426`). -/
def checkNl (w : Writer) : Writer × Out :=
  if w.state = .ground .newline then (w, .ok) else (w.fail, .err)

/-- `close` (`src/text_output.rs:428-434`). -/
def close (w : Writer) : Writer × Out :=
  match checkNl { w with expectStarter := true } with
  | (w, .ok) =>
    let (sink, ok) := w.sink.close
    ({ w with sink }, if ok then .ok else .err)
  | r => r

/-- `abandon` (`src/text_output.rs:436-442`). -/
def abandon (w : Writer) : Writer := { w.reset with sink := w.sink.abandon }

/-- `close_into_inner` (`src/text_output.rs:160-167`): the inner stream, or `none` for `Err`.  It is not closed or
flushed. -/
def closeIntoInner (w : Writer) : Option Sink :=
  match checkNl w with
  | (w, .ok) => some w.sink
  | _ => none

/-- `abandon_into_inner` (`src/text_output.rs:169-177`). -/
def abandonIntoInner (w : Writer) : Sink := w.sink

/-- `newline` (`src/text_output.rs:541-548`), called by `TextDuplexer`. -/
def newline (w : Writer) (nl : Bool) : Writer := if nl then w.reset else w

/-- `Drop` (`src/text_output.rs:565-573`): does dropping panic? -/
def dropPanics (w : Writer) : Bool := w.state != .ground .newline

end Verif
