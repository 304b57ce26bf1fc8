import Verif.Internals

/-!
# The iterator chain, as iterators

`Verif/Norm.lean` and `Verif/Internals.lean` model the adapters of the chain
`.categorize().isolate_unassigned().cjk_compat_variants().stream_safe().nfc()` as functions on lists.  The code
pulls one scalar at a time: `queue_next` (`src/text_input.rs:238-277`) stores the chain and calls `next` when it
needs a scalar, and `state_machine_slow_path` (`src/text_output.rs:315-335`) stops at the first failure, while
`Categorize` has the effect of filling an error cell.  Here every adapter is a `next` function on a state, as in
the code.  The adapters of the dependency follow the source of `unicode-normalization` (`replace.rs`,
`stream_safe.rs`, `decompose.rs`, `recompose.rs`), which is not in `/repo`.

An iterator over states `σ` is a function `Nat → σ → Option (Option Char × σ)`.  The number is fuel for the loops
inside `Decompositions::next` and `Recompositions::next`.  The outer `none` means that the fuel ran out or that an
index is out of bounds; the inner option is what the Rust `next` returns.
-/

namespace Verif

/-- `Iterator::next` -/
abbrev Iter (σ : Type) := Nat → σ → Option (Option Char × σ)

/-- `str::chars()` and `VecDeque::into_iter()` (standard library). -/
def listNext : Iter (List Char)
  | _, [] => some (none, [])
  | _, c :: r => some (some c, r)

/-! ## `categorize.rs` -/

/-- `Categorize` (`internals/src/categorize.rs:10-30`) with the error cell it shares with the writer. -/
structure CatSt where
  iter : List Char
  error : Option BasicTextError
  deriving DecidableEq, Repr

/-- `Categorize::next` (`internals/src/categorize.rs:32-43`). -/
def catNext : Iter CatSt
  | _, ⟨[], e⟩ => some (none, ⟨[], e⟩)
  | _, ⟨c :: r, e⟩ =>
    match checkChar c with
    | none => some (some c, ⟨r, e⟩)
    | some e' => some (some SUB, ⟨r, some e'⟩)

/-! ## `Fuse` -/

/-- `std::iter::Fuse`.  The standard library drops the inner iterator when it is exhausted; here it stays in the
state and is not called again, so that the error cell remains in view. -/
structure Fuse (σ : Type) where
  iter : σ
  done : Bool
  deriving DecidableEq, Repr

def fuseNext {σ : Type} (next : Iter σ) : Iter (Fuse σ)
  | f, ⟨i, done⟩ =>
    if done then some (none, ⟨i, true⟩)
    else match next f i with
      | none => none
      | some (none, i) => some (none, ⟨i, true⟩)
      | some (some c, i) => some (some c, ⟨i, false⟩)

/-! ## `isolate_unassigned.rs` -/

/-- `IsolateUnassigned` (`internals/src/isolate_unassigned.rs:7-24`). -/
structure IsoSt (σ : Type) where
  iter : Fuse σ
  needCgj : Bool
  haveCgj : Bool
  deferred : Option Char
  deriving DecidableEq, Repr

/-- `IsolateUnassigned::new` -/
def IsoSt.new {σ : Type} (i : σ) : IsoSt σ := ⟨⟨i, false⟩, false, false, none⟩

/-- `IsolateUnassigned::next` (`internals/src/isolate_unassigned.rs:26-64`). -/
def isoNext (U : Ucd) {σ : Type} (next : Iter σ) : Iter (IsoSt σ)
  | f, s =>
    match s.deferred with
    | some d => some (some d, { s with deferred := none })
    | none =>
      match fuseNext next f s.iter with
      | none => none
      | some (some c, i) =>
        let assigned := isAssigned U c
        let haveCgj := c == CGJ
        if (s.needCgj && !haveCgj) || (!assigned && !s.haveCgj) then
          some (some CGJ, ⟨i, !assigned, false, some c⟩)
        else some (some c, ⟨i, false, haveCgj, none⟩)
      | some (none, i) =>
        if s.needCgj then some (some CGJ, ⟨i, false, s.haveCgj, none⟩) else some (none, ⟨i, s.needCgj, s.haveCgj, none⟩)

/-! ## The dependency: `replace.rs` and `stream_safe.rs` -/

/-- `Replacements`: the rest of the replacement of the last scalar is buffered. -/
structure CjkSt (σ : Type) where
  iter : σ
  buffer : List Char
  deriving DecidableEq, Repr

/-- `Replacements::next`.  A scalar is never replaced by nothing; if it were, this would stop. -/
def cjkNext (U : Ucd) {σ : Type} (next : Iter σ) : Iter (CjkSt σ)
  | _, ⟨i, c :: r⟩ => some (some c, ⟨i, r⟩)
  | f, ⟨i, []⟩ =>
    match next f i with
    | none => none
    | some (none, i) => some (none, ⟨i, []⟩)
    | some (some c, i) =>
      match U.cjk c with
      | [] => none
      | d :: r => some (some d, ⟨i, r⟩)

/-- `StreamSafe` -/
structure SafeSt (σ : Type) where
  iter : σ
  count : Nat
  buffer : Option Char
  deriving DecidableEq, Repr

/-- `StreamSafe::next` -/
def safeNext (U : Ucd) {σ : Type} (next : Iter σ) : Iter (SafeSt σ)
  | f, s =>
    let pulled := match s.buffer with
      | some c => some (some c, { s with buffer := none })
      | none =>
        match next f s.iter with
        | none => none
        | some (r, i) => some (r, { s with iter := i })
    match pulled with
    | none => none
    | some (none, s) => some (none, s)
    | some (some c, s) =>
      if s.count + U.lead c > maxNonstarters then some (some CGJ, { s with count := 0, buffer := some c })
      else if U.lead c = U.dlen c then some (some c, { s with count := s.count + U.dlen c })
      else some (some c, { s with count := U.trail c })

/-! ## The dependency: `decompose.rs` -/

/-- `Decompositions`: `buffer[start..stop]` is ready, `buffer[stop..]` is pending. -/
structure DecSt (σ : Type) where
  iter : Fuse σ
  buffer : List (Nat × Char)
  start : Nat
  stop : Nat
  deriving DecidableEq, Repr

/-- `buffer[ready.end..].sort_by_key(|k| k.0)`; `sort_by_key` is a stable sort, as is `mergeSort`. -/
def sortPending (buffer : List (Nat × Char)) (stop : Nat) : List (Nat × Char) :=
  buffer.take stop ++ (buffer.drop stop).mergeSort (fun a b => decide (a.1 ≤ b.1))

/-- `push_back` -/
def DecSt.push (U : Ucd) {σ : Type} (s : DecSt σ) (c : Char) : DecSt σ :=
  if U.ccc c = 0 then
    { s with buffer := sortPending s.buffer s.stop ++ [(0, c)], stop := s.buffer.length + 1 }
  else { s with buffer := s.buffer ++ [(U.ccc c, c)] }

/-- The end of `next`: the scalar at `ready.start`, and `increment_next_ready` (with `reset_buffer`). -/
def DecSt.emit {σ : Type} (s : DecSt σ) : Option (Option Char × DecSt σ) :=
  match s.buffer[s.start]? with
  | none => none
  | some (_, c) =>
    if s.start + 1 = s.stop then some (some c, { s with buffer := s.buffer.drop s.stop, start := 0, stop := 0 })
    else some (some c, { s with start := s.start + 1 })

/-- `Decompositions::next` -/
def decNext (U : Ucd) {σ : Type} (next : Iter σ) : Iter (DecSt σ)
  | 0, _ => none
  | f + 1, s =>
    if s.stop = 0 then
      match fuseNext next f s.iter with
      | none => none
      | some (some c, i) => decNext U next f ((U.decomp c).foldl (DecSt.push U) { s with iter := i })
      | some (none, i) =>
        if s.buffer = [] then some (none, { s with iter := i })
        else DecSt.emit { s with iter := i, buffer := sortPending s.buffer s.stop, stop := s.buffer.length }
    else s.emit

/-! ## The dependency: `recompose.rs` -/

/-- `RecompositionState` -/
inductive RecState where
  | composing | purging (n : Nat) | finished (n : Nat)
  deriving DecidableEq, Repr

/-- `Recompositions` -/
structure RecSt (σ : Type) where
  iter : DecSt σ
  state : RecState
  buffer : List Char
  composee : Option Char
  lastCcc : Option Nat
  deriving DecidableEq, Repr

/-- `Recompositions::next`.  The `for` loop over the decompositions is entered again from its start when the outer
loop comes round, so both are the same recursion here. -/
def recNext (U : Ucd) {σ : Type} (next : Iter σ) : Iter (RecSt σ)
  | 0, _ => none
  | f + 1, s =>
    match s.state with
    | .composing =>
      match decNext U next f s.iter with
      | none => none
      | some (none, i) =>
        match s.composee with
        | some k => some (some k, { s with iter := i, state := .finished 0, composee := none })
        | none => recNext U next f { s with iter := i, state := .finished 0 }
      | some (some ch, i) =>
        let s := { s with iter := i }
        match s.composee with
        | none =>
          if U.ccc ch ≠ 0 then some (some ch, s) else recNext U next f { s with composee := some ch }
        | some k =>
          match s.lastCcc with
          | none =>
            match U.compose k ch with
            | some r => recNext U next f { s with composee := some r }
            | none =>
              if U.ccc ch = 0 then some (some k, { s with composee := some ch })
              else recNext U next f { s with buffer := s.buffer ++ [ch], lastCcc := some (U.ccc ch) }
          | some l =>
            if l ≥ U.ccc ch then
              if U.ccc ch = 0 then
                some (some k, { s with composee := some ch, lastCcc := none, state := .purging 0 })
              else recNext U next f { s with buffer := s.buffer ++ [ch], lastCcc := some (U.ccc ch) }
            else
              match U.compose k ch with
              | some r => recNext U next f { s with composee := some r }
              | none => recNext U next f { s with buffer := s.buffer ++ [ch], lastCcc := some (U.ccc ch) }
    | .purging n =>
      match s.buffer[n]? with
      | none => recNext U next f { s with buffer := [], state := .composing }
      | some c => some (some c, { s with state := .purging (n + 1) })
    | .finished n =>
      match s.buffer[n]? with
      | none => some (s.composee, { s with buffer := [], composee := none })
      | some c => some (some c, { s with state := .finished (n + 1) })

/-! ## The chain -/

/-- The state of `….isolate_unassigned().cjk_compat_variants().stream_safe().nfc()`. -/
abbrev ChainSt (σ : Type) := RecSt (SafeSt (CjkSt (IsoSt σ)))

/-- `i.isolate_unassigned().cjk_compat_variants().stream_safe().nfc()`
(`src/text_input.rs:266-271`, `src/text_output.rs:322-328`). -/
def ChainSt.new {σ : Type} (i : σ) : ChainSt σ :=
  { iter := { iter := ⟨⟨⟨IsoSt.new i, []⟩, 0, none⟩, false⟩, buffer := [], start := 0, stop := 0 },
    state := .composing, buffer := [], composee := none, lastCcc := none }

/-- `next` of the chain. -/
def chainNext (U : Ucd) {σ : Type} (next : Iter σ) : Iter (ChainSt σ) :=
  recNext U (safeNext U (cjkNext U (isoNext U next)))

/-- The innermost iterator of the chain. -/
def ChainSt.base {σ : Type} (s : ChainSt σ) : σ := s.iter.iter.iter.iter.iter.iter.iter

/-- Pull at most `n` scalars; `none` if some call of `next` does not return. -/
def pull {σ : Type} (next : Iter σ) (fuel : Nat) : Nat → σ → Option (List Char × σ)
  | 0, s => some ([], s)
  | n + 1, s =>
    match next fuel s with
    | none => none
    | some (none, s) => some ([], s)
    | some (some c, s) =>
      match pull next fuel n s with
      | none => none
      | some (l, s) => some (c :: l, s)

end Verif
