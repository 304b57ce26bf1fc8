#!/usr/bin/env python3
"""Write lean/Verif/Tables/Doc.lean: the rows of the Sequence Table of /repo/docs/BasicText.md that replace a single scalar."""
import re, os
lines = open('/repo/docs/BasicText.md').read().split('\n')
start = next(i for i, l in enumerate(lines) if l.startswith('| Sequence'))
rows, cjk = [], []
first = last = None
for i in range(start + 2, len(lines)):
    l = lines[i]
    if not l.startswith('|'): break
    cells = [c.strip() for c in l.strip('|').split('|')]
    seq, rep = cells[0].replace('\\', ''), cells[2]
    if '+ ' in seq or seq.startswith('U+1B') or seq.endswith(']+') or seq in ('U+D U+A', 'U+D'): continue   # multi-scalar rows
    rs = []
    for part in seq.strip('[]').split(','):
        m = re.fullmatch(r'U\+([0-9A-F]+)(?:–U\+([0-9A-F]+))?', part.strip())
        assert m, l
        a = int(m.group(1), 16); b = int(m.group(2), 16) if m.group(2) else a
        rs.append((a, b))
    first = first or i + 1; last = i + 1
    if rep.startswith('CJK'): cjk += rs
    else:
        v = [int(x[2:], 16) for x in rep.split()]
        rows += [(a, b, v) for a, b in rs]
def row(r): return '((0x%x, 0x%x), [%s])' % (r[0], r[1], ', '.join('0x%x' % x for x in r[2]))
def wrap(items):
    out, cur = [], '  '
    for n, it in enumerate(items):
        s = it + (', ' if n + 1 < len(items) else ']')
        if len(cur) + len(s) > 110: out.append(cur.rstrip()); cur = '  '
        cur += s
    return '[\n' + '\n'.join(out + [cur])
p = os.path.join(os.path.dirname(os.path.abspath(__file__)), '..', 'lean', 'Verif', 'Tables', 'Doc.lean')
open(p, 'w').write('''/-!
# The documented Sequence Table

Written by `tools/gen_doc.py` from `/repo/docs/BasicText.md:%d-%d`: the rows that replace a single scalar.
-/

namespace Verif.Tables

/-- Scalars from the first to the second are replaced by the list. -/
def docRows : List ((Nat × Nat) × List Nat) := %s

/-- Scalars replaced by their CJK compatibility ideograph standardized variant. -/
def docCjk : List (Nat × Nat) := %s

end Verif.Tables
''' % (first, last, wrap([row(r) for r in rows]), wrap(['(0x%x, 0x%x)' % r for r in cjk])))
