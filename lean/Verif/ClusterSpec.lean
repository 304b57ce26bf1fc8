import Verif.Tables.Cluster
import Verif.Tables.Gcb
import Verif.Internals

/-!
# Grapheme clusters

Extended grapheme clusters of Unicode 15.0 (UAX #29, rules GB1–GB999), the reason for the start and end rules of Basic Text
(`docs/BasicText.md:31-45`).  A specification: nothing here is taken from the code.
-/

namespace Verif.Spec
open Verif.Tables

/-- Hangul_Syllable_Type, as in the rules GB6–GB8. -/
def isL (n : Nat) : Bool := inRanges [(0x1100, 0x115f), (0xa960, 0xa97c)] n
def isV (n : Nat) : Bool := inRanges [(0x1160, 0x11a7), (0xd7b0, 0xd7c6)] n
def isT (n : Nat) : Bool := inRanges [(0x11a8, 0x11ff), (0xd7cb, 0xd7fb)] n
def isSyllable (n : Nat) : Bool := inRanges [(0xac00, 0xd7a3)] n
def isLV (n : Nat) : Bool := isSyllable n && (n - 0xac00) % 28 == 0
def isLVT (n : Nat) : Bool := isSyllable n && (n - 0xac00) % 28 != 0

/-- GB6–GB8: do these two belong to one Hangul syllable? -/
def hangulPair (x c : Char) : Bool :=
  (isL x.toNat && (isL c.toNat || isV c.toNat || isSyllable c.toNat)) ||
  ((isLV x.toNat || isV x.toNat) && (isV c.toNat || isT c.toNat)) ||
  ((isLVT x.toNat || isT x.toNat) && isT c.toNat)

/-- Grapheme_Cluster_Break is Control, CR or LF. -/
def isGcbControl (c : Char) : Bool := c == '\r' || c == '\n' || inRanges gcbControl c.toNat
def isGcbExtend (c : Char) : Bool := inRanges gcbExtend c.toNat
def isSpacingMark (c : Char) : Bool := inRanges gcbSpacingMark c.toNat
def isPrepend (c : Char) : Bool := inRanges gcbPrepend c.toNat
def isPict (c : Char) : Bool := inRanges extPict c.toNat
/-- Regional_Indicator -/
def isRI (c : Char) : Bool := inRanges [(0x1f1e6, 0x1f1ff)] c.toNat

/-- GB11: does this end with an emoji, marks and U+200D?  The scalars are in reverse. -/
def emojiZwj : List Char → Bool
  | z :: r => z == ZWJ && ((r.dropWhile isGcbExtend).head?.map isPict).getD false
  | [] => false

/-- Is there no boundary between the scalars `pre` (in reverse) and `c`? -/
def clusterGoesOn (pre : List Char) (c : Char) : Bool :=
  match pre with
  | [] => false
  | x :: _ =>
    if x == '\r' && c == '\n' then true                                    -- GB3
    else if isGcbControl x || isGcbControl c then false                     -- GB4, GB5
    else hangulPair x c                                                     -- GB6, GB7, GB8
      || isGcbExtend c || c == ZWJ                                          -- GB9
      || isSpacingMark c                                                    -- GB9a
      || isPrepend x                                                        -- GB9b
      || (emojiZwj pre && isPict c)                                         -- GB11
      || (isRI c && (pre.takeWhile isRI).length % 2 == 1)                   -- GB12, GB13

/-- Is there a grapheme cluster boundary between `p` and `q`? -/
def boundary (p q : List Char) : Bool :=
  match q with
  | [] => true
  | c :: _ => !clusterGoesOn p.reverse c

/-- The grapheme clusters of a string. -/
def clustersFrom : List Char → List Char → List Char → List (List Char)
  | _, cur, [] => if cur = [] then [] else [cur.reverse]
  | pre, cur, c :: s =>
    if clusterGoesOn pre c then clustersFrom (c :: pre) (c :: cur) s
    else (if cur = [] then [] else [cur.reverse]) ++ clustersFrom (c :: pre) [c] s

def clusters (s : List Char) : List (List Char) := clustersFrom [] [] s

end Verif.Spec
