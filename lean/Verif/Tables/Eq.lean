/-!
# The impls of `PartialEq`

Written by `tools/gen_eq.py` from `/repo/src/partial_eq.rs:8-524`, in source order.
-/

namespace Verif

/-- The types between which the text types can be compared: the four text types, strings, references and `Cow`s. -/
inductive Ty where
  | str | string | textStr | textString | textSubstr | textSubstring
  | ref (t : Ty) | cow (t : Ty)
deriving DecidableEq, Repr

/-- The argument of the call of `eq` in the body of an impl: `&other.0`, `other` or `&other`. -/
inductive Arg where
  | field | same | ref
deriving DecidableEq, Repr

/-- `impl PartialEq<rhs> for lhs`, with a body that calls `eq` on `self.0` (if `self0`) or on `self`. -/
structure EqImpl where
  lhs : Ty
  rhs : Ty
  self0 : Bool
  arg : Arg
deriving DecidableEq, Repr

namespace Tables

/-- `src/partial_eq.rs:8-524`. -/
def eqImpls : List EqImpl := [
  ⟨.str, .textStr, false, .field⟩,
  ⟨.string, .ref .textStr, false, .field⟩,
  ⟨.textString, .ref .str, true, .same⟩,
  ⟨.textString, .ref .textStr, true, .field⟩,
  ⟨.textString, .cow .textStr, true, .field⟩,
  ⟨.textString, .cow .str, true, .same⟩,
  ⟨.ref .textStr, .cow .str, true, .same⟩,
  ⟨.cow .textStr, .textString, true, .field⟩,
  ⟨.cow .str, .textString, false, .field⟩,
  ⟨.cow .textStr, .textStr, true, .field⟩,
  ⟨.cow .str, .ref .textStr, false, .field⟩,
  ⟨.cow .textStr, .ref .textStr, true, .field⟩,
  ⟨.textString, .str, true, .same⟩,
  ⟨.textString, .string, true, .same⟩,
  ⟨.cow .str, .textStr, false, .field⟩,
  ⟨.string, .textString, false, .field⟩,
  ⟨.ref .str, .textString, false, .field⟩,
  ⟨.ref .textStr, .textString, false, .field⟩,
  ⟨.ref .textStr, .string, false, .ref⟩,
  ⟨.str, .textString, false, .field⟩,
  ⟨.textString, .textStr, true, .same⟩,
  ⟨.textStr, .textString, true, .field⟩,
  ⟨.textStr, .cow .textStr, true, .field⟩,
  ⟨.ref .textStr, .cow .textStr, true, .field⟩,
  ⟨.textStr, .cow .str, true, .same⟩,
  ⟨.textStr, .str, true, .same⟩,
  ⟨.textStr, .string, true, .same⟩,
  ⟨.string, .textStr, false, .field⟩,
  ⟨.str, .textSubstr, false, .field⟩,
  ⟨.string, .ref .textSubstr, false, .field⟩,
  ⟨.textSubstring, .ref .str, true, .same⟩,
  ⟨.textSubstring, .ref .textSubstr, true, .field⟩,
  ⟨.textSubstring, .cow .textSubstr, true, .field⟩,
  ⟨.textSubstring, .cow .str, true, .same⟩,
  ⟨.ref .textSubstr, .cow .str, true, .same⟩,
  ⟨.cow .textSubstr, .textSubstring, true, .field⟩,
  ⟨.cow .str, .textSubstring, false, .field⟩,
  ⟨.cow .textSubstr, .textSubstr, true, .field⟩,
  ⟨.cow .str, .ref .textSubstr, false, .field⟩,
  ⟨.cow .textSubstr, .ref .textSubstr, true, .field⟩,
  ⟨.textSubstring, .str, true, .same⟩,
  ⟨.textSubstring, .string, true, .same⟩,
  ⟨.cow .str, .textSubstr, false, .field⟩,
  ⟨.string, .textSubstring, false, .field⟩,
  ⟨.ref .str, .textSubstring, false, .field⟩,
  ⟨.ref .textSubstr, .textSubstring, false, .field⟩,
  ⟨.ref .textSubstr, .string, false, .ref⟩,
  ⟨.str, .textSubstring, false, .field⟩,
  ⟨.textSubstring, .textSubstr, true, .same⟩,
  ⟨.textSubstr, .textSubstring, true, .field⟩,
  ⟨.textSubstr, .cow .textSubstr, true, .field⟩,
  ⟨.ref .textSubstr, .cow .textSubstr, true, .field⟩,
  ⟨.textSubstr, .cow .str, true, .same⟩,
  ⟨.textSubstr, .str, true, .same⟩,
  ⟨.textSubstr, .string, true, .same⟩,
  ⟨.string, .textSubstr, false, .field⟩,
  ⟨.textSubstring, .ref .textStr, true, .field⟩,
  ⟨.textString, .ref .textSubstr, true, .field⟩,
  ⟨.textSubstring, .cow .textStr, true, .field⟩,
  ⟨.textString, .cow .textSubstr, true, .field⟩,
  ⟨.cow .textSubstr, .textString, true, .field⟩,
  ⟨.cow .textStr, .textSubstring, true, .field⟩,
  ⟨.cow .textSubstr, .textStr, true, .field⟩,
  ⟨.cow .textStr, .textSubstr, true, .field⟩,
  ⟨.cow .textSubstr, .ref .textStr, true, .field⟩,
  ⟨.cow .textStr, .ref .textSubstr, true, .field⟩,
  ⟨.ref .textSubstr, .textString, false, .field⟩,
  ⟨.ref .textStr, .textSubstring, false, .field⟩,
  ⟨.textSubstring, .textStr, true, .same⟩,
  ⟨.textString, .textSubstr, true, .same⟩,
  ⟨.textSubstr, .textString, true, .field⟩,
  ⟨.textStr, .textSubstring, true, .field⟩,
  ⟨.ref .textSubstr, .cow .textStr, true, .field⟩,
  ⟨.ref .textStr, .cow .textSubstr, true, .field⟩]

end Tables
end Verif
