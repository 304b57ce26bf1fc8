import Verif.CharData

/-!
# Decomposition, composition and variants against the permitted and start tables

Kernel-evaluated checks over every entry of the concrete Unicode tables.
-/

namespace Verif
open Tables

/-- The three letterlike scalars replaced by normalization. -/
def ohmN (n : Nat) : Bool := Nat.beq n 0x2126 || Nat.beq n 0x212a || Nat.beq n 0x212b

theorem ok_decomp : decompTree.all (fun k v => !(okN k || ohmN k) || v.all okN) = true := by decide +kernel

theorem ok_compose : composeTree.all (fun _ r => okN r) = true := by decide +kernel

theorem ok_cjk : cjkTree.all (fun _ v => v.all okN) = true := by decide +kernel

/-- The CJK part of the legacy scalars are the scalars with a standardized variant. -/
theorem legacy_cjk : legacyRanges.all (fun r =>
    rangeAll (fun n => ohmN n || match cjkTree.find n with | none => false | some _ => true) r.1 (r.2 + 1 - r.1)) = true := by
  decide +kernel

theorem cjk_legacy : cjkTree.all (fun n _ => inRanges legacyRanges n && !ohmN n) = true := by decide +kernel

theorem ok_syl : badRanges.all (fun r => (Nat.blt r.2 0x1100 || Nat.blt 0x11ff r.1) &&
    (Nat.blt r.2 0xac00 || Nat.blt 0xd7a3 r.1)) = true := by decide +kernel

/-- `is_basic_text_start` on code points. -/
def startN (n : Nat) : Bool := (Nat.ble n 0x7f || Nat.beq (cccN n) 0) && !(notStartTree.find n).isSome

theorem startN_eq (n : Nat) : startN n = ((Nat.ble n 0x7f || Nat.beq (cccN n) 0) && startTable n) := by
  rw [startTable_tree]; rfl

theorem start_decomp : decompTree.all (fun k v => !startN k || match v with | [] => false | d :: _ => startN d) = true := by
  decide +kernel

theorem start_compose : composeTree.all (fun key r => !startN (key / 0x200000) || startN r) = true := by decide +kernel

theorem start_cjk : cjkTree.all (fun _ v => match v with | [] => false | d :: _ => startN d) = true := by decide +kernel

/-- No start scalar is the second half of a table composition, or decomposes to begin with one. -/
theorem start_second : composeTree.all (fun key _ => !startN (key % 0x200000)) = true := by decide +kernel

theorem start_class : classTree.all (fun n v => !startN n || Nat.beq (v.headD 0) 0) = true := by decide +kernel

/-- Jamo and Hangul syllables may start a string. -/
theorem start_jamo : (graphemeExtendNotCgj ++ emojiModifier ++ generalCategorySpacingMark).all (fun r =>
    (Nat.blt r.2 0x1100 || Nat.blt 0x11ff r.1) && (Nat.blt r.2 0xac00 || Nat.blt 0xd7a3 r.1)) = true := by decide +kernel

theorem start_letters : (rangeAll startTable 0 0x80 && startTable 0x34f && startTable 0xfffd && startTable 0x2060) = true := by
  decide +kernel

theorem start_unassigned : (graphemeExtendNotCgj ++ emojiModifier ++ generalCategorySpacingMark).all (fun r =>
    rangeAll assignedN r.1 (r.2 + 1 - r.1)) = true := by decide +kernel

theorem decomp_no_jamo : decompTree.all (fun _ v => v.all fun d => !isJamo d) = true := by decide +kernel

end Verif
