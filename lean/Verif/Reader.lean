import Verif.Internals
import Verif.Utf8

/-!
# `TextInput`: the reader

Model of `/repo/src/text_input.rs`, shared by `TextReader` and the reader half of `TextDuplexer`.
-/

namespace Verif

/-- `layered_io::Status` (dependency): more data may follow, a push, or the end of the stream. -/
inductive Status where
  | active | push | end_
  deriving DecidableEq, Repr

/-- `State` (`src/text_input.rs:572-597`). -/
inductive RState where
  | ground (nl : Bool) | cr | ff | esc | csiStart | csi | osc | linux
  deriving DecidableEq, Repr

/-- The fields of `TextInput` (`src/text_input.rs:69-106`) that `process_raw_string` works with. -/
structure Ctl where
  state : RState
  expectStarter : Bool
  atStart : Bool
  nel : Bool
  lsps : Bool
  deriving DecidableEq, Repr

/-- `TextInput` (`src/text_input.rs:69-106`).  `ssnfc_iter` is the list of scalars the iterator still
yields; `raw_string` is scratch space and not modelled. -/
structure TextInput where
  ctl : Ctl
  queue : List Char
  iter : List Char
  quick : Nat
  pending : Status
  deriving DecidableEq, Repr

/-- `TextInput::new`, `with_nel_compatibility`, `with_lsps_compatibility` (`src/text_input.rs:111-146`). -/
def TextInput.new (nel lsps : Bool) : TextInput :=
  { ctl := { state := .ground true, expectStarter := true, atStart := true, nel, lsps }
    queue := [], iter := [], quick := 0, pending := .active }

/-! ## `process_raw_string` (`src/text_input.rs:279-383`) -/

/-- Guarding a non-starter (`src/text_input.rs:311-320`); `r` is what `replace` has appended. -/
def startGuard (U : Ucd) (expect : Bool) (r : List Char) : List Char :=
  if expect && !(r.head?.map (isStart U)).getD true then CGJ :: r else r

/-- `(State::Ground(_), c)` (`src/text_input.rs:290-322`): the new control state and the scalars
appended to the queue (a CGJ inserted at the old length comes first among them). -/
def groundStep (U : Ucd) (k : Ctl) (c : Char) : Ctl × List Char :=
  if c = '\n' then ({ k with state := .ground true, expectStarter := false }, ['\n'])
  else if c = '\r' then ({ k with state := .cr }, [])
  else if c = FF then ({ k with state := .ff }, [])
  else if c = ESC then ({ k with state := .esc }, [])
  else
    let nl := (k.nel && c == NEL) || (k.lsps && (c == LS || c == PS))
    let r := replace (if nl then '\n' else c)
    ({ k with state := .ground nl, expectStarter := false }, startGuard U k.expectStarter r)

/-- The scalars from `a` to `b`. -/
def between (a b : Nat) (c : Char) : Bool := decide (a ≤ c.toNat) && decide (c.toNat ≤ b)

/-- One iteration of the `for` loop (`src/text_input.rs:287-382`); every `continue` re-examines the
scalar in the ground state. -/
def stepChar (U : Ucd) (k : Ctl) (c : Char) : Ctl × List Char :=
  match k.state with
  | .ground _ => groundStep U k c
  | .cr =>
    let k' := { k with state := .ground true, expectStarter := false }
    if c ≠ '\n' then
      let (k'', o) := groundStep U k' c
      (k'', '\n' :: o)
    else (k', ['\n'])
  | .ff =>
    if c ≠ FF then
      let k' := { k with state := .ground false, expectStarter := false }
      let (k'', o) := groundStep U k' c
      (k'', (if c ≠ '\n' ∧ c ≠ '\r' then [' '] else []) ++ o)
    else (k, [])
  | .esc =>
    if c = '[' then ({ k with state := .csiStart }, [])
    else if c = ']' then ({ k with state := .osc }, [])
    else if c = ESC then ({ k with state := .esc }, [])
    else if between 0x40 0x7e c || c == CAN then ({ k with state := .ground false }, [])
    else groundStep U { k with state := .ground false } c
  | .csiStart =>
    if c = '[' then ({ k with state := .linux }, [])
    else if between 0x20 0x3f c then ({ k with state := .csi }, [])
    else if between 0x40 0x7e c then ({ k with state := .ground false }, [])
    else if c = CAN then ({ k with state := .ground false }, [])
    else groundStep U { k with state := .ground false } c
  | .csi =>
    if between 0x20 0x3f c then ({ k with state := .csi }, [])
    else if between 0x40 0x7e c then ({ k with state := .ground false }, [])
    else if c = CAN then ({ k with state := .ground false }, [])
    else groundStep U { k with state := .ground false } c
  | .osc =>
    if c = BEL ∨ c = CAN then ({ k with state := .ground false }, [])
    else if c = ESC then ({ k with state := .esc }, [])
    else (k, [])
  | .linux =>
    if between 0 0x7f c then ({ k with state := .ground false }, [])
    else groundStep U { k with state := .ground false } c

/-- The `for` loop. -/
def feed (U : Ucd) : Ctl → List Char → Ctl × List Char
  | k, [] => (k, [])
  | k, c :: s =>
    let (k', o) := stepChar U k c
    let (k'', o') := feed U k' s
    (k'', o ++ o')

/-- `process_raw_string`: skip a byte-order mark at the start of the stream, then the loop. -/
def processRaw (U : Ucd) (k : Ctl) (s : List Char) : Ctl × List Char :=
  let s' := if k.atStart && s.head? == some BOM then s.tail else s
  feed U { k with atStart := false } s'

/-- Completing the state when the inner stream reports push or end (`src/text_input.rs:425-440`). -/
def finishState (k : Ctl) : Ctl × List Char :=
  match k.state with
  | .ground _ => (k, [])
  | .cr => ({ k with state := .ground true, expectStarter := false }, ['\n'])
  | .ff => ({ k with state := .ground false, expectStarter := false }, [' '])
  | _ => ({ k with state := .ground false }, [])

/-- The CGJ appended after a non-ending scalar (`src/text_input.rs:443-447`). -/
def endGuard : Option Char → List Char
  | some l => if isEnd l then [] else [CGJ]
  | none => []

/-- What happens when the inner stream reports push or end (`src/text_input.rs:424-457`); `back` is
the last scalar of the queue. -/
def finish (k : Ctl) (back : Option Char) (status : Status) : Ctl × List Char :=
  let (k1, o1) := finishState k
  let o2 := endGuard ((o1.getLast?).or back)
  if status = .end_ ∧ k1.state ≠ .ground true then
    ({ k1 with state := .ground true, expectStarter := false }, o1 ++ o2 ++ ['\n'])
  else (k1, o1 ++ o2)

/-! ## `queue_next` (`src/text_input.rs:238-277`) -/

/-- `matches!(*c, '\n' | CGJ)`. -/
def isBoundary (c : Char) : Bool := c == '\n' || c == CGJ

/-- `index`: the length of the queue up to and including its last boundary scalar, if there is one. -/
def lastBoundary (q : List Char) : Option Nat := (q.reverse.findIdx? isBoundary).map (q.length - ·)

/-- `queue_next` -/
def queueNext (U : Ucd) (t : TextInput) : Option Char × TextInput :=
  if t.quick ≠ 0 then
    (t.queue.head?, { t with quick := t.quick - 1, queue := t.queue.tail })
  else
    match t.iter with
    | c :: r => (some c, { t with iter := r })
    | [] =>
      match lastBoundary t.queue with
      | none => (none, t)
      | some index =>
        let seg := t.queue.take index
        if U.quick seg = .yes ∧ seg.all U.assigned = true then
          (t.queue.head?, { t with quick := index - 1, queue := t.queue.tail })
        else
          match normChain U seg with
          | c :: r => (some c, { t with queue := t.queue.drop index, iter := r })
          | [] => (none, { t with queue := t.queue.drop index, iter := [] })

/-! ## `read_with_status` (`src/text_input.rs:385-488`) -/

/-- How a drain loop stops: the queue yields nothing more, less than four bytes of room are left, or
`encode_utf8` panics because the scalar does not fit. -/
inductive Stop where
  | empty | full | panic
  deriving DecidableEq, Repr

/-- The drain loops (`src/text_input.rs:396-404` and `459-471`): scalars written, new `nread`, state.
`room` is `buf.len() - nread`.  Every iteration uses up room, so `fuel` (the buffer length) is never
exhausted; running out of it is reported as a panic. -/
def drain (U : Ucd) : Nat → Nat → TextInput → Stop × List Char × TextInput
  | 0, _, t => (.panic, [], t)
  | fuel + 1, room, t =>
    match queueNext U t with
    | (none, t) => (.empty, [], t)
    | (some c, t) =>
      if room < utf8Len c then (.panic, [], t)
      else if room - utf8Len c < maxUtf8Size then (.full, [c], t)
      else
        let (stop, out, t) := drain U fuel (room - utf8Len c) t
        (stop, c :: out, t)

/-- One result of reading from the inner stream. -/
inductive Event where
  | data (s : List Char) (status : Status)
  | err
  deriving DecidableEq, Repr

/-- Result of a read. -/
inductive Ret where
  | ok (n : Nat) (status : Status)
  | invalidInput
  | sourceError
  | panic
  deriving DecidableEq, Repr

/-- Result, scalars written to the buffer, new state, rest of the inner stream's script. -/
structure ReadResult where
  ret : Ret
  out : List Char
  input : TextInput
  src : List Event
  deriving DecidableEq, Repr

/-- The inner stream: the next scripted result; when the script is exhausted it reports the end. -/
def nextEvent : List Event → Event × List Event
  | [] => (.data [] .end_, [])
  | e :: es => (e, es)

/-- `read_with_status` for a buffer of `len` bytes.  The number of bytes written is the length of the
encoding of `out`. -/
def readWithStatus (U : Ucd) (len : Nat) (t : TextInput) (src : List Event) : ReadResult :=
  if len < normalizationBufferSize then { ret := .invalidInput, out := [], input := t, src }
  else
    match drain U (len + 1) len t with
    | (.panic, out, t) => { ret := .panic, out, input := t, src }
    | (.full, out, t) => { ret := .ok (encode out).length .active, out, input := t, src }
    | (.empty, out, t) =>
      if t.pending ≠ .active then
        -- lines 405-413: the status is reset before it is returned
        let t := { t with pending := .active, ctl := { t.ctl with expectStarter := true } }
        { ret := .ok (encode out).length t.pending, out, input := t, src }
      else
        match nextEvent src with
        | (.err, src) => { ret := .sourceError, out, input := t, src }
        | (.data s status, src) =>
          let (k, o) := processRaw U t.ctl s
          let t := { t with ctl := k, queue := t.queue ++ o }
          let t :=
            if status ≠ .active then
              let (k, o) := finish t.ctl t.queue.getLast? status
              { t with ctl := k, queue := t.queue ++ o }
            else t
          match drain U (len + 1) (len - (encode out).length) t with
          | (.panic, out', t) => { ret := .panic, out := out ++ out', input := t, src }
          | (.empty, out', t) =>
            let t := if status ≠ .active then { t with ctl := { t.ctl with expectStarter := true } } else t
            { ret := .ok (encode (out ++ out')).length status, out := out ++ out', input := t, src }
          | (.full, out', t) =>
            { ret := .ok (encode (out ++ out')).length .active, out := out ++ out',
              input := { t with pending := status }, src }

/-! ## Buffers -/

/-- `clear_to_char_boundary` (`src/text_input.rs:539-546`). -/
def clearToBoundary : Bytes → Bytes
  | [] => []
  | b :: r => if isBoundaryByte b then b :: r else 0 :: clearToBoundary r

/-- The caller's buffer after `read_with_status`: the scalars written, then the old bytes, cleared up
to a character boundary unless the call returned an error. -/
def bufferAfter (buf : Bytes) (r : ReadResult) : Bytes :=
  let n := (encode r.out).length
  encode r.out ++ match r.ret with
    | .ok _ _ => clearToBoundary (buf.drop n)
    | _ => buf.drop n

/-- `abandon` (`src/text_input.rs:501-508`): `none` when its assertion panics. -/
def TextInput.abandon (t : TextInput) : Option TextInput :=
  if t.queue = [] then some { t with ctl := { t.ctl with state := .ground true } } else none

end Verif
