import Verif.BytesIO
import Verif.Strings
import Verif.Utf8Stream

/-!
# The fuzz target

Model of `fuzz/fuzz_targets/text.rs` as a program: every `assert!`, `unwrap`, `expect` and `expect_err` in order.  How the `SliceReader`
hands the bytes to the `Utf8Reader` (`bs`, `last`) and the buffers of `read_to_string` (`lens`) are left open.
-/

namespace Verif
open Ucd

/-- The outcome of a run: the lines are those of `fuzz/fuzz_targets/text.rs`. -/
inductive FuzzOutcome where
  | pass
  | panic (line : Nat)
  deriving DecidableEq, Repr

/-- `char::is_control` (standard library). -/
def isCtl (c : Char) : Bool := c.toNat ≤ 0x1f || (0x7f ≤ c.toNat && c.toNat ≤ 0x9f)

/-- The end of the target, `fuzz/fuzz_targets/text.rs:88-90`. -/
def fuzzConcat (U : Ucd) (s : List Char) : FuzzOutcome :=
  match fromText (isBasicText U) (s ++ s) with
  | .ok t => if t = s ++ s then .pass else .panic 90
  | _ => .panic 90

/-- The comparison with the writer, `fuzz/fuzz_targets/text.rs:39-86`; the writer is fresh and its `Vec<u8>` accepts everything. -/
def fuzzWriter (U : Ucd) (bytes : Bytes) (s : List Char) : FuzzOutcome :=
  match writeClose U (.new ⟨[], false, []⟩) bytes with
  | some sent =>
    match fromUtf8 (encode sent) with
    | none => .panic 50
    | some written =>
      if s = written then
        match fromText (isBasicText U) written with
        | .ok _ => fuzzConcat U s
        | _ => .panic 53
      else .panic 48
  | none =>
    match fromUtf8 bytes with
    | some utf8 =>
      if s = utf8 then .panic 60
      else if utf8.getLast? = some '\n' then
        match fromText (isBasicText U) utf8 with
        | .err _ => fuzzConcat U s
        | _ => .panic 66
      else fuzzConcat U s
    | none =>
      if encode s = bytes then .panic 72
      else if bytes.getLast? = some 10 then
        match fromTextBytes (isBasicText U) bytes with
        | .err _ => fuzzConcat U s
        | _ => .panic 79
      else fuzzConcat U s

/-- The fuzz target, `fuzz/fuzz_targets/text.rs:12-91`. -/
def fuzzTarget (U : Ucd) (bs : List Bytes) (last : Bytes) (lens : List Nat) : FuzzOutcome :=
  let reads := decodeReads [] bs last
  match readToEnd U lens (.new false false) (reads.1.map (fun c => .data c .active) ++ [.data reads.2 .end_]) with
  | none => .panic 17
  | some s =>
    if s.any (· == '﻿') then .panic 20
    else if s.any (· == '￼') then .panic 23
    else if !(s.isEmpty || s.getLast? == some '\n') then .panic 26
    else if s.any (fun c => isCtl c && c != '\n' && c != '\t') then .panic 29
    else if !U.isNfcStreamSafe s then .panic 32
    else if s.head?.any (fun c => U.ccc c != 0) then .panic 36
    else fuzzWriter U (bs.flatten ++ last) s

end Verif
