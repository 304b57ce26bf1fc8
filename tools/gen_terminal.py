#!/usr/bin/env python3
"""Write lean/Verif/Tables/Terminal.lean: the escape sequences of the tables in /repo/docs/Terminal.md."""
import re, os
doc = open('/repo/docs/Terminal.md').read().split('\n')
kinds = {'string': '.string', 'm': '.modifier', 'm?': '.optModifier'}
seqs = []
for l in doc:
    m = re.match(r'\| `(␛[^`]*)` ', l)
    if m:
        seqs.append(m.group(1))
        # "may be omitted and default to"
        if re.search(r'«\w+»;«\w+».*`«(line|top)»;', l) and 'may be omitted' in l:
            seqs.append(re.sub(r'«\w+»;«\w+»', '', m.group(1)))
        # "Same as the similar sequence ending in `H`"
        if 'Same as the similar sequence' in l:
            seqs.append(re.sub(r'«[^»]*»;«[^»]*»', '', m.group(1)))
        # "The `0` is optional"
        if 'The `0` is optional' in l:
            seqs.append(m.group(1).replace('0', ''))
def elem(t):
    if t[0] == '«':
        return kinds.get(t[1:-1], '.number')
    if t == '…':
        return '.attributes'
    return ".lit '%s'" % {'␛': '\\x1b', '␇': '\\x07'}.get(t, t)
rows = ['[' + ', '.join(elem(t) for t in re.findall(r'«[^»]*»|.', s)) + ']' for s in seqs]
p = os.path.join(os.path.dirname(os.path.abspath(__file__)), '..', 'lean', 'Verif', 'Tables', 'Terminal.lean')
open(p, 'w').write('''/-!
Generated by `tools/gen_terminal.py` from `/repo/docs/Terminal.md:42-44`, `94-132`, `149-151`, `214-215`, `278-308`: the escape sequences
that programs write and that keys send.
-/

namespace Verif.Tables

/-- A part of a sequence: a scalar, a number, attributes, a string, modifiers. -/
inductive Part where
  | lit (c : Char)
  | number
  | attributes
  | string
  | modifier
  | optModifier
  deriving DecidableEq, Repr

def terminalRows : List (List Part) := [
  %s]

end Verif.Tables
''' % ',\n  '.join(rows))
print(len(rows))
