import Verif.Ucd15Data
import Verif.Tables.Repo

/-!
# Scalars that take part in no normalization step

Kernel-evaluated checks over every entry of the concrete tables.
-/

namespace Verif
open Tables

/-- Scalars shown below to take part in no normalization step: unassigned and private-use scalars, the
scalars that may not end a string, controls, and a few more. -/
def plainN (n : Nat) : Bool :=
  !assignedN n || Nat.ble n 0x20 || (Nat.ble 0x7f n && Nat.ble n 0x9f) || Nat.beq n 0x34f ||
  Nat.beq n 0x200d || Nat.beq n 0x2060 || Nat.beq n 0xfeff || Nat.beq n 0xfffd ||
  inRanges consonantPrecedingRepha n || inRanges consonantPrefixed n || inRanges prependedConcatenationMark n

theorem plain_decomp : decompTree.all (fun k v => !plainN k && v.all (fun d => !plainN d)) = true := by
  decide +kernel

theorem plain_compose : composeTree.all (fun key r =>
    !plainN (key / 0x200000) && !plainN (key % 0x200000) && !plainN r) = true := by decide +kernel

theorem plain_cjk : cjkTree.all (fun k v => !plainN k && v.all (fun d => !plainN d)) = true := by
  decide +kernel

theorem plain_ccc : cccTree.all (fun lo hi _ => rangeAll (fun n => !plainN n) lo (hi + 1 - lo)) = true := by
  decide +kernel

theorem plain_qc : qcTree.all (fun lo hi _ => rangeAll (fun n => !plainN n) lo (hi + 1 - lo)) = true := by
  decide +kernel

theorem plain_class : classTree.all (fun k _ => !plainN k) = true := by decide +kernel

theorem plain_jamo : (rangeAll (fun n => !plainN n) 0x1100 256) = true := by decide +kernel

theorem plain_syl : (rangeAll (fun n => !plainN n) 0xac00 11172) = true := by decide +kernel

end Verif
