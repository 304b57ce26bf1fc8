/-!
# Unicode data and the normalization algorithms of the `unicode-normalization` dependency

`/repo` calls the `unicode-normalization` crate (Cargo.toml, `internals/Cargo.toml`) for
`canonical_combining_class`, `is_nfc_stream_safe`, `is_nfc_stream_safe_quick`, `is_public_assigned`
and the iterator adapters `.cjk_compat_variants()`, `.stream_safe()`, `.nfc()`.  Its source is not in
`/repo`.  This file models it: the data tables are a record `Ucd`, the adapters are functions on
lists (an adapter over a finite iterator yields a finite list; laziness is not observable because
none of the adapters has effects other than `categorize`, see `Verif/Internals.lean`).
-/

namespace Verif

/-- `unicode_normalization::IsNormalized`. -/
inductive QC where
  | yes | no | maybe
  deriving DecidableEq, Repr

/-- The data tables of `unicode-normalization` (dependency, `tables.rs`). -/
structure Ucd where
  /-- `canonical_combining_class` -/
  ccc : Char → Nat
  /-- full canonical decomposition (`decompose_canonical`), `[c]` when there is none -/
  decomp : Char → List Char
  /-- `compose` (Hangul and the composition table) -/
  compose : Char → Char → Option Char
  /-- `qc_nfc` -/
  qc : Char → QC
  /-- `classify_nonstarters(c).leading_nonstarters` -/
  lead : Char → Nat
  /-- `classify_nonstarters(c).trailing_nonstarters` -/
  trail : Char → Nat
  /-- `classify_nonstarters(c).decomposition_len` -/
  dlen : Char → Nat
  /-- `is_public_assigned` -/
  assigned : Char → Bool
  /-- `decompose_cjk_compat_variants`, `[c]` when there is none -/
  cjk : Char → List Char

/-- U+34F, `internals/src/unicode.rs` `CGJ`. -/
abbrev CGJ : Char := Char.ofNat 0x34f

/-- `MAX_NONSTARTERS`, `internals/src/unicode.rs:12` (and the dependency's `stream_safe.rs`). -/
def maxNonstarters : Nat := 30

namespace Ucd
variable (U : Ucd)

/-- Insert `x` in front of a canonically ordered list: it moves right past following nonstarters of
smaller class.  One step of the canonical ordering algorithm (dependency, `decompose.rs`,
`sort_pending`: a stable sort by class of each run of nonstarters). -/
def ins (x : Char) : List Char → List Char
  | [] => [x]
  | y :: ys => if U.ccc y ≠ 0 ∧ U.ccc y < U.ccc x then y :: ins x ys else x :: y :: ys

/-- Canonical ordering (dependency, `decompose.rs`). -/
def reorder : List Char → List Char
  | [] => []
  | x :: xs => U.ins x (reorder xs)

/-- The dependency's `Recompositions` iterator (`recompose.rs`): `comp` is `composee`, `last` is
`last_ccc`, `buf` is `buffer`; result is everything it still yields for the remaining input. -/
def recomp : Option Char → Option Nat → List Char → List Char → List Char
  | none, _, buf, [] => buf
  | some k, _, buf, [] => k :: buf
  | none, _, _, ch :: r =>
      if U.ccc ch ≠ 0 then ch :: recomp none none [] r else recomp (some ch) none [] r
  | some k, none, buf, ch :: r =>
      match U.compose k ch with
      | some k' => recomp (some k') none buf r
      | none =>
          if U.ccc ch = 0 then k :: recomp (some ch) none [] r
          else recomp (some k) (some (U.ccc ch)) (buf ++ [ch]) r
  | some k, some l, buf, ch :: r =>
      if l ≥ U.ccc ch then
        if U.ccc ch = 0 then k :: buf ++ recomp (some ch) none [] r
        else recomp (some k) (some (U.ccc ch)) (buf ++ [ch]) r
      else
        match U.compose k ch with
        | some k' => recomp (some k') (some l) buf r
        | none => recomp (some k) (some (U.ccc ch)) (buf ++ [ch]) r

/-- Canonical decomposition with canonical ordering (dependency, `Decompositions`). -/
def nfd (s : List Char) : List Char := U.reorder (s.flatMap U.decomp)

/-- `.nfc()` (dependency). -/
def nfc (s : List Char) : List Char := U.recomp none none [] (U.nfd s)

/-- The nonstarter counter update shared by `StreamSafe::next` and `quick_check` (dependency). -/
def nxt (n : Nat) (c : Char) : Nat := if U.lead c = U.dlen c then n + U.dlen c else U.trail c

/-- `.stream_safe()` (dependency, `stream_safe.rs`).  After emitting CGJ the iterator re-examines the
buffered scalar with count 0; its `leading_nonstarters` never exceeds 30, so that second test is
omitted here. -/
def streamSafe : Nat → List Char → List Char
  | _, [] => []
  | n, c :: cs =>
      if n + U.lead c > maxNonstarters then CGJ :: c :: streamSafe (U.nxt 0 c) cs
      else c :: streamSafe (U.nxt n c) cs

/-- `quick_check(.., stream_safe = true)` (dependency, `quick_check.rs`). -/
def quickGo : Nat → Nat → QC → List Char → QC
  | _, _, res, [] => res
  | last, n, res, c :: cs =>
      if c.toNat ≤ 0x7f then quickGo 0 0 res cs
      else if last > U.ccc c ∧ U.ccc c ≠ 0 then .no
      else if U.qc c = .no then .no
      else if n + U.lead c > maxNonstarters then .no
      else quickGo (U.ccc c) (U.nxt n c) (if U.qc c = .maybe then .maybe else res) cs

/-- `is_nfc_stream_safe_quick` (dependency). -/
def quick (s : List Char) : QC := U.quickGo 0 0 .yes s

/-- `is_nfc_stream_safe` (dependency). -/
def isNfcStreamSafe (s : List Char) : Bool :=
  match U.quick s with
  | .yes => true
  | .no => false
  | .maybe => s == U.nfc (U.streamSafe 0 s)

/-- `.cjk_compat_variants()` (dependency, `replace.rs`). -/
def cjkVariants (s : List Char) : List Char := s.flatMap U.cjk

end Ucd
end Verif
