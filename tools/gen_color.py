#!/usr/bin/env python3
"""Write lean/Verif/Tables/Color.lean: the codes of the table in the section Color of /repo/docs/Terminal.md."""
import re, os
doc = open('/repo/docs/Terminal.md').read().split('\n')
i = doc.index('#### Color'); j = doc.index('#### Custom Title')
codes = [m.group(1) for m in (re.match(r'\| `(\d+)` ', l) for l in doc[i:j]) if m]
rows = ['[' + ', '.join("'%s'" % c for c in code) + ']' for code in codes]
p = os.path.join(os.path.dirname(os.path.abspath(__file__)), '..', 'lean', 'Verif', 'Tables', 'Color.lean')
open(p, 'w').write('''/-!
Generated by `tools/gen_color.py` from `/repo/docs/Terminal.md:156-201`: the codes for text attributes.
-/

namespace Verif.Tables

def colorCodes : List (List Char) := [
  %s]

end Verif.Tables
''' % ',\n  '.join(', '.join(rows[k:k + 8]) for k in range(0, len(rows), 8)))
print(len(codes))
