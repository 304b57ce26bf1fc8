import Verif.NormTheory
import Verif.Tables.Unicode

/-!
# The concrete Unicode tables

`ucd15` is the data of the `unicode-normalization` dependency for Unicode 15.1.  The checks
below evaluate in the kernel, for every table entry, the facts from which `Verif/Ucd15.lean` derives
the laws of the data.
-/

namespace Verif
open Tables

/-! ## Functions on code points -/

def cccN (n : Nat) : Nat := (cccTree.find n).getD 0

/-- Hangul syllables are `0xac00 ..= 0xd7a3` (dependency, `normalize.rs`). -/
def isSyl (n : Nat) : Bool := Nat.ble 0xac00 n && Nat.ble n 0xd7a3

/-- `decompose_hangul` (dependency, `normalize.rs`). -/
def hangulDecompN (n : Nat) : List Nat :=
  let s := n - 0xac00
  bif Nat.beq (s % 28) 0 then [0x1100 + s / 588, 0x1161 + s % 588 / 28]
  else [0x1100 + s / 588, 0x1161 + s % 588 / 28, 0x11a7 + s % 28]

def decompN (n : Nat) : List Nat :=
  bif isSyl n then hangulDecompN n else (decompTree.find n).getD [n]

/-- `compose` (dependency, `normalize.rs`): Hangul first, then the table. -/
def composeN (k b : Nat) : Option Nat :=
  bif Nat.ble 0x1100 k && Nat.ble k 0x1112 && (Nat.ble 0x1161 b && Nat.ble b 0x1175) then
    some (0xac00 + ((k - 0x1100) * 21 + (b - 0x1161)) * 28)
  else bif isSyl k && Nat.beq ((k - 0xac00) % 28) 0 && (Nat.ble 0x11a8 b && Nat.ble b 0x11c2) then
    some (k + (b - 0x11a7))
  else composeTree.find (k * 0x200000 + b)

def qcN (n : Nat) : QC :=
  match qcTree.find n with
  | none => .yes
  | some 1 => .no
  | some _ => .maybe

/-- `classify_nonstarters` (dependency, `stream_safe.rs`).  The length is only ever compared with the
number of leading nonstarters, so scalars without leading and trailing nonstarters get length 1. -/
def classN (n : Nat) : List Nat :=
  (classTree.find n).getD (bif Nat.beq (cccN n) 0 then [0, 0, 1] else [1, 1, 1])

def leadN (n : Nat) : Nat := (classN n).headD 0
def trailN (n : Nat) : Nat := (classN n).tail.headD 0
def dlenN (n : Nat) : Nat := (classN n).tail.tail.headD 1

def assignedN (n : Nat) : Bool := (assignedTree.find n).isSome

def cjkN (n : Nat) : List Nat := (cjkTree.find n).getD [n]

/-- The Unicode data of the dependency. -/
def ucd15 : Ucd where
  ccc c := cccN c.toNat
  decomp c := (decompN c.toNat).map Char.ofNat
  compose k b := (composeN k.toNat b.toNat).map Char.ofNat
  qc c := qcN c.toNat
  lead c := leadN c.toNat
  trail c := trailN c.toNat
  dlen c := dlenN c.toNat
  assigned c := assignedN c.toNat
  cjk c := (cjkN c.toNat).map Char.ofNat

/-! ## Checks over all table entries -/

def validN (n : Nat) : Bool := Nat.blt n 0xd800 || (Nat.blt 0xdfff n && Nat.blt n 0x110000)

def sortedN : List Nat → Bool
  | [] => true
  | a :: l => l.all (fun b => Nat.ble (cccN a) (cccN b)) && sortedN l

def chainN : Nat → List Nat → Option Nat
  | k, [] => some k
  | k, d :: ds => match composeN k d with
    | some k' => chainN k' ds
    | none => none

/-- Effect of a scalar or a list on the nonstarter counter. -/
inductive Eff where
  | allN (w : Nat)
  | mixed (l t : Nat)
  deriving DecidableEq

def effN (n : Nat) : Eff :=
  bif Nat.beq (leadN n) (dlenN n) then .allN (dlenN n) else .mixed (leadN n) (trailN n)

def Eff.seq : Eff → Eff → Option Eff
  | .allN a, .allN b => some (.allN (a + b))
  | .allN a, .mixed l t => some (.mixed (a + l) t)
  | .mixed l t, .allN b => bif Nat.ble (t + b) 30 then some (.mixed l (t + b)) else none
  | .mixed l t, .mixed l' t' => bif Nat.ble (t + l') 30 then some (.mixed l t') else none

def effList : List Nat → Option Eff
  | [] => none
  | [d] => some (effN d)
  | d :: ds => match effList ds with
    | some e => (effN d).seq e
    | none => none

def eqN : List Nat → List Nat → Bool
  | [], [] => true
  | a :: as, b :: bs => Nat.beq a b && eqN as bs
  | _, _ => false

def QC.beq : QC → QC → Bool
  | .yes, .yes | .no, .no | .maybe, .maybe => true
  | _, _ => false

def Eff.beq : Option Eff → Eff → Bool
  | some (.allN a), .allN b => Nat.beq a b
  | some (.mixed a b), .mixed c d => Nat.beq a c && Nat.beq b d
  | _, _ => false

def optIs (o : Option Nat) (n : Nat) : Bool :=
  match o with
  | some m => Nat.beq m n
  | none => false

/-- Check of one decomposition entry. -/
def decompEntry (k : Nat) (ds : List Nat) : Bool :=
  validN k && !isSyl k && ds.all validN &&
  ds.all (fun d => !isSyl d && match decompTree.find d with | none => true | some _ => false) &&
  sortedN ds && Eff.beq (effList ds) (effN k) &&
  match ds with
  | [] => false
  | d :: r => match qcN k with
    | .yes => QC.beq (qcN d) .yes && optIs (chainN d r) k
    | _ => true

theorem decomp_entries : decompTree.all decompEntry = true := by decide +kernel


def isJamo (n : Nat) : Bool := Nat.ble 0x1100 n && Nat.ble n 0x11ff

/-- `p` holds for the `k` numbers starting at `lo`. -/
def rangeAll (p : Nat → Bool) (lo : Nat) : Nat → Bool
  | 0 => true
  | k + 1 => p (lo + k) && rangeAll p lo k

/-- Check of one composition entry. -/
def composeEntry (key r : Nat) : Bool :=
  let k := key / 0x200000
  let b := key % 0x200000
  validN r && eqN (decompN r) (decompN k ++ [b]) && Nat.beq (cccN k) 0 && Nat.beq (cccN r) 0 &&
  QC.beq (qcN b) .maybe && !QC.beq (qcN r) .no

theorem compose_entries : composeTree.all composeEntry = true := by decide +kernel

/-- The vowel and trailing jamo may compose with what precedes them. -/
theorem qc_vt : (rangeAll (fun n => QC.beq (qcN n) .maybe) 0x1161 21 &&
    rangeAll (fun n => QC.beq (qcN n) .maybe) 0x11a8 27) = true := by decide +kernel

/-- Check of one nonstarter class entry. -/
def classEntry (n : Nat) (v : List Nat) : Bool :=
  !isSyl n && !isJamo n && Nat.blt 0x7f n &&
  match v with
  | [l, t, d] => Nat.ble l 30 && Nat.ble t 30 && Nat.blt 0 d &&
      (Nat.beq (cccN n) 0 || Nat.beq l d || match decompTree.find n with | none => false | some _ => true)
  | _ => false

theorem class_entries : classTree.all classEntry = true := by decide +kernel

/-- Check of one range of NFC_Quick_Check: outside ASCII and Hangul syllables; `No` only for
decomposable scalars. -/
def qcEntry (lo hi v : Nat) : Bool :=
  Nat.blt 0x7f lo && (Nat.blt hi 0xac00 || Nat.blt 0xd7a3 lo) &&
  (Nat.blt hi 0x1100 || Nat.blt 0x1112 lo) &&
  (!Nat.beq v 1 || rangeAll (fun n => match decompTree.find n with | none => false | some _ => true) lo (hi + 1 - lo))

theorem qc_entries : qcTree.all qcEntry = true := by decide +kernel

/-- Check of one range of combining classes: outside ASCII, jamo and Hangul syllables. -/
def cccEntry (lo hi _v : Nat) : Bool :=
  Nat.blt 0x7f lo && (Nat.blt hi 0xac00 || Nat.blt 0xd7a3 lo) && (Nat.blt hi 0x1100 || Nat.blt 0x11ff lo)

theorem ccc_entries : cccTree.all cccEntry = true := by decide +kernel

/-- Check of one CJK variant. -/
def cjkEntry (n : Nat) (v : List Nat) : Bool := validN n && v.all validN && QC.beq (qcN n) .no

theorem cjk_entries : cjkTree.all cjkEntry = true := by decide +kernel

/-- No jamo is decomposable. -/
theorem jamo_entries : decompTree.all (fun n _ => !isJamo n) = true := by decide +kernel

end Verif
