#!/usr/bin/env python3
"""Write lean/Verif/Tables/Eq.lean: the impls of /repo/src/partial_eq.rs with the call each makes."""
import re, os
src = open('/repo/src/partial_eq.rs').read().split('\n')
names = {'str': '.str', 'String': '.string', 'TextStr': '.textStr', 'TextString': '.textString',
         'TextSubstr': '.textSubstr', 'TextSubstring': '.textSubstring'}
def ty(s, me=None):
    s = s.strip()
    if s == 'Self': return me
    m = re.fullmatch(r"&'\w+ (.*)", s)
    if m: return '.ref ' + ty(m.group(1))
    m = re.fullmatch(r"Cow<'\w+, (.*)>", s)
    if m: return '.cow ' + ty(m.group(1), me)
    return names[s]
rows, i = [], 0
while i < len(src):
    m = re.fullmatch(r"impl(?:<[^>]*>)? PartialEq<(.*)> for (.*) \{", src[i])
    if src[i].startswith('impl'):
        assert m, src[i]
        j = i
        while 'fn eq' not in src[j]: j += 1
        b = re.fullmatch(r'\s*self(\.0)?\.eq\((&?)other(\.0)?\)', src[j + 1])
        assert b, src[j + 1]
        arg = {('&', '.0'): '.field', ('', None): '.same', ('&', None): '.ref'}[(b.group(2), b.group(3))]
        l = ty(m.group(2)); r = ty(m.group(1), l)
        rows.append('⟨%s, %s, %s, %s⟩' % (l, r, 'true' if b.group(1) else 'false', arg))
        i = j
    i += 1
p = os.path.join(os.path.dirname(os.path.abspath(__file__)), '..', 'lean', 'Verif', 'Tables', 'Eq.lean')
open(p, 'w').write('''/-!
# The impls of `PartialEq`

Written by `tools/gen_eq.py` from `/repo/src/partial_eq.rs:8-524`, in source order.
-/

namespace Verif

/-- The types between which the text types can be compared: the four text types, strings, references and `Cow`s. -/
inductive Ty where
  | str | string | textStr | textString | textSubstr | textSubstring
  | ref (t : Ty) | cow (t : Ty)
deriving DecidableEq, Repr

/-- The argument of the call of `eq` in the body of an impl: `&other.0`, `other` or `&other`. -/
inductive Arg where
  | field | same | ref
deriving DecidableEq, Repr

/-- `impl PartialEq<rhs> for lhs`, with a body that calls `eq` on `self.0` (if `self0`) or on `self`. -/
structure EqImpl where
  lhs : Ty
  rhs : Ty
  self0 : Bool
  arg : Arg
deriving DecidableEq, Repr

namespace Tables

/-- `src/partial_eq.rs:8-524`. -/
def eqImpls : List EqImpl := [
  %s]

end Tables
end Verif
''' % ',\n  '.join(rows))
