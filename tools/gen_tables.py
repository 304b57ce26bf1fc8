#!/usr/bin/env python3
"""Write lean/Verif/Tables/*.lean.

Inputs:
 * /repo/internals/src/{text_utils,check,replace}.rs   (range tables of the repository)
 * /repo/tests/basic-text-string.rs                    (the 1002 CJK compatibility variants)
 * ucd.txt, written by dump.pl                         (Unicode 15.0 data of the local Perl)
Usage: perl dump.pl > ucd.txt; python3 gen_tables.py ucd.txt
"""
import re, sys, os
ucdfile = sys.argv[1]
out = os.path.join(os.path.dirname(os.path.abspath(__file__)), '..', 'lean', 'Verif', 'Tables')
os.makedirs(out, exist_ok=True)

# ---------------------------------------------------------------- repository tables
def ranges(body):
    body = re.sub(r'//.*', '', body)
    res = []
    for m in re.finditer(r"'\\u\{([0-9a-f]+)\}'(?:\s*\.\.=\s*'\\u\{([0-9a-f]+)\}')?", body):
        a = int(m.group(1), 16); b = int(m.group(2), 16) if m.group(2) else a
        res.append((a, b))
    return res
T = open('/repo/internals/src/text_utils.rs').read()
def span(text, i, k):
    return text.count('\n', 0, i) + 1, text.count('\n', 0, k) + 1
def fn(name):
    i = T.index('fn ' + name + '('); j = T.index('matches!(', i); k = T.index('\n}\n', i)
    return ranges(T[j:k]), span(T, i, k + 1)
C = open('/repo/internals/src/check.rs').read()
R = open('/repo/internals/src/replace.rs').read()
def cut(text, a, b):
    i = text.index(a); j = text.index(b)
    return ranges(text[i:j]), span(text, i, j)
def fmt(rs):
    items = ['(0x%x, 0x%x)' % r for r in rs]
    lines = []; cur = '  '
    for n, it in enumerate(items):
        s = it + (', ' if n + 1 < len(items) else ']')
        if len(cur) + len(s) > 100: lines.append(cur.rstrip()); cur = '  '
        cur += s
    lines.append(cur)
    return '[\n' + '\n'.join(lines)
def deflist(name, rs, doc):
    return '/-- %s -/\ndef %s : List (Nat × Nat) := %s\n' % (doc, name, fmt(rs) if rs else '[]')
parts = []
for lean, rust in [('graphemeExtendNotCgj', 'is_grapheme_extend_not_cgj'), ('emojiModifier', 'is_emoji_modifier'),
                   ('spacingMarkExcept', 'is_grapheme_cluster_break_spacing_mark_plus'),
                   ('generalCategorySpacingMark', 'is_general_category_spacing_mark'),
                   ('consonantPrecedingRepha', 'indic_syllabic_category_consonant_preceding_repha'),
                   ('consonantPrefixed', 'indic_syllabic_category_consonant_prefixed'),
                   ('prependedConcatenationMark', 'prepended_concatenation_mark'),
                   ('privateUse', 'is_private_use_area')]:
    rs, (a, b) = fn(rust)
    what = 'the excluded ranges of `%s`' % rust if lean == 'spacingMarkExcept' else '`%s`' % rust
    parts.append(deflist(lean, rs, '`internals/src/text_utils.rs:%d-%d`, %s.' % (a, b, what)))
rs, (a, b) = cut(C, "'\\u{149}'", '=> replacement(c)')
parts.append(deflist('checkReplacement', rs, '`internals/src/check.rs:%d-%d`, the scalars reported as `Replacement`.' % (a, b)))
rs, (a, b) = cut(C, "'\\u{fffe}'", '=> noncharacter()')
parts.append(deflist('checkNonchar', rs, '`internals/src/check.rs:%d-%d`, noncharacters.' % (a, b)))
rs, (a, b) = cut(R, "// Control codes: C0", '=> queue.push_back(REPL)')
i = [n for n, r in enumerate(rs) if r == (0x1d551, 0x1d551)][0]
rs.insert(i + 1, (0xfffc, 0xfffc))   # `ORC`, written by name in the source
parts.append(deflist('replaceRepl', rs, '`internals/src/replace.rs:%d-%d`, the scalars replaced by U+FFFD (`ORC` spelled out).' % (a, b)))
multi = []
seg = R[R.index('match c {'):R.index('// Control codes: C0')]
names = {'BOM': 0xfeff, 'LS': 0x2028, 'PS': 0x2029, 'FF': 0xc, 'NEL': 0x85, 'WJ': 0x2060}
def lit(t):
    t = t.strip()
    if t in names: return names[t]
    m = re.fullmatch(r"'\\u\{([0-9a-f]+)\}'", t)
    if m: return int(m.group(1), 16)
    m = re.fullmatch(r"'(.)'", t)
    return ord(m.group(1))
for m in re.finditer(r"^        ([^\s/][^=\n]*?) => (\{.*?\n        \}|queue\.push_back\([^)]*\)),?", seg, re.S | re.M):
    for k in m.group(1).split('|'):
        multi.append((lit(k), [lit(x) for x in re.findall(r"push_back\(((?:'[^']*'|\w+))\)", m.group(2))]))
assert len(multi) == 20, multi
parts.append('/-- `internals/src/replace.rs:11-74`, the scalars replaced by something other than U+FFFD. -/\n'
             'def replaceMulti : List (Nat × List Nat) := [\n' +
             ',\n'.join('  (0x%x, [%s])' % (k, ', '.join('0x%x' % x for x in v)) for k, v in multi) + ']\n')
open(os.path.join(out, 'Repo.lean'), 'w').write(
    '/-!\n# Range tables of the repository\n\nTranscribed from the `match` patterns in `/repo/internals/src` by `tools/gen_tables.py`, in source\norder.\n-/\n\nnamespace Verif.Tables\n\n'
    + '\n'.join(parts) + '\nend Verif.Tables\n')

# ---------------------------------------------------------------- Unicode data
ccc = {}; dec = {}; kd = {}; qc = {}; gc = {}; fce = set(); gcb = {}; ws = set()
for l in open(ucdfile):
    f = l.rstrip('\n').split(';'); c = int(f[0], 16)
    if f[1] != '0': ccc[c] = int(f[1])
    d = [int(x, 16) for x in f[2].split()]
    if d and d != [c]: dec[c] = d
    k = [int(x, 16) for x in f[3].split()]
    if k and k != [c]: kd[c] = k
    if f[4] != 'Yes': qc[c] = f[4]
    gc[c] = f[5]
    if f[6] == 'Y': fce.add(c)
    gcb[c] = f[7]
    if f[9] == 'Y': ws.add(c)
for c in list(range(0x2ebf0, 0x2ee5e)) + list(range(0x2ffc, 0x3000)) + [0x31ef]:
    assert gc[c] == 'Cn'; gc[c] = 'Lo'          # Unicode 15.1 additions
hs = lambda c: 0xac00 <= c < 0xac00 + 11172
inv = {}
for c in dec:
    if not hs(c) and c not in fce: inv.setdefault(tuple(dec[c]), []).append(c)
comp = {}
for c in sorted(dec):
    if hs(c) or c in fce: continue
    d = dec[c]; pre = tuple(d[:-1])
    ks = [pre[0]] if len(pre) == 1 else inv[pre]
    assert len(ks) == 1
    comp[(ks[0], d[-1])] = c
def lt(c):
    k = kd.get(c, [c]); l = 0
    for x in k:
        if x not in ccc: break
        l += 1
    t = 0
    for x in reversed(k):
        if x not in ccc: break
        t += 1
    return l, t, len(k)
cls = {}
for c in set(kd) | set(ccc):
    l, t, n = lt(c)
    if (l, t) == (0, 0): continue
    if c in ccc and (l, t, n) == (1, 1, 1): continue
    cls[c] = [l, t, n]
cjk = {}
for a, b, v in re.findall(r'from_text_lossy\("\\u\{([0-9a-f]+)\}"\)\.as_str\(\),\s*"\\u\{([0-9a-f]+)\}\\u\{([0-9a-f]+)\}"',
                          open('/repo/tests/basic-text-string.rs').read()):
    a = int(a, 16)
    if 0xf900 <= a <= 0xfaff or 0x2f800 <= a <= 0x2fa1f: cjk[a] = [int(b, 16), int(v, 16)]
assert len(cjk) == 1002 and len(comp) == 941
def compress(m):
    res = []
    for c in sorted(m):
        if res and res[-1][1] == c - 1 and res[-1][2] == m[c]: res[-1][1] = c
        else: res.append([c, c, m[c]])
    return res
def rtree(rs):
    def go(i, j):
        if i >= j: return '.leaf'
        m = (i + j) // 2
        return '(.node %s 0x%x 0x%x %d %s)' % (go(i, m), rs[m][0], rs[m][1], rs[m][2], go(m + 1, j))
    return go(0, len(rs))
def wrap(s, w=98):
    toks = re.findall(r'\S+', s); lines = []; cur = ' '
    for t in toks:
        if len(cur) + 1 + len(t) > w: lines.append(cur); cur = ' '
        cur += ' ' + t
    lines.append(cur); return '\n'.join(lines)
def chunked(name, ty, items, node, doc, size=128):
    """Balanced tree whose subtrees of `size` entries are separate definitions."""
    defs = []
    def go(i, j):
        if i >= j: return '.leaf'
        m = (i + j) // 2
        s = node(items[m], go(i, m), go(m + 1, j))
        if j - i <= size and j - i > size // 2 and len(items) > size:
            n = '%s_%d' % (name, len(defs)); defs.append('def %s : %s :=\n%s\n' % (n, ty, wrap(s))); return n
        return s
    top = go(0, len(items))
    return '\n'.join(defs) + '\n/-- %s -/\ndef %s : %s :=\n%s\n' % (doc, name, ty, wrap(top))
rnode = lambda it, l, r: '(.node %s 0x%x 0x%x %d %s)' % (l, it[0], it[1], it[2], r)
lnode = lambda it, l, r: '(.node %s 0x%x [%s] %s)' % (l, it[0], ', '.join(('0x%x' % x) for x in it[1]), r)
vnode = lambda it, l, r: '(.node %s 0x%x 0x%x %s)' % (l, it[0], it[1], r)
P = []
P.append(chunked('cccTree', 'RTree', compress(ccc), rnode, 'Canonical_Combining_Class, nonzero ranges.'))
P.append(chunked('decompTree', 'Tree (List Nat)', sorted((c, d) for c, d in dec.items() if not hs(c)), lnode,
                 'Full canonical decompositions (NFD), without Hangul syllables.'))
P.append(chunked('composeTree', 'Tree Nat', sorted((k * 0x200000 + b, r) for (k, b), r in comp.items()), vnode,
                 'Primary composites: the pair `(k, b)` is keyed as `k * 0x200000 + b`.'))
P.append(chunked('qcTree', 'RTree', compress({c: (1 if v == 'N' else 2) for c, v in qc.items()}), rnode,
                 'NFC_Quick_Check: 1 for No, 2 for Maybe.'))
P.append(chunked('classTree', 'Tree (List Nat)', sorted(cls.items()), lnode,
                 'Leading nonstarters, trailing nonstarters and length of the compatibility decomposition, for the\nscalars where the first two are not both zero and which are not plain nonstarters.'))
P.append(chunked('assignedTree', 'RTree', compress({c: 1 for c in gc if gc[c] not in ('Cn', 'Co')}), rnode,
                 'General_Category neither Cn nor Co.'))
P.append(chunked('cjkTree', 'Tree (List Nat)', sorted(cjk.items()), lnode,
                 'Standardized variants of the CJK compatibility ideographs.'))
open(os.path.join(out, 'Unicode.lean'), 'w').write(
    'import Verif.Table\n\n/-!\n# Unicode data (15.1)\n\nThe data of the `unicode-normalization` dependency, written by `tools/gen_tables.py` from the Unicode\n15.0 tables of the local Perl plus the Unicode 15.1 additions; the CJK variants come from\n`/repo/tests/basic-text-string.rs:771-4782`.\n-/\n\nnamespace Verif.Tables\n\n'
    + '\n'.join(P) + '\nend Verif.Tables\n')
# Search trees for two unions of the repository tables (proved equal to them in CharData.lean).
def pts(rs):
    s = set()
    for a, b in rs: s.update(range(a, b + 1))
    return s
tab = lambda n: pts(fn(n)[0])
notstart = (tab('is_grapheme_extend_not_cgj') | tab('is_emoji_modifier') | {0x200d, 0xe33, 0xeb3} |
            (tab('is_general_category_spacing_mark') - tab('is_grapheme_cluster_break_spacing_mark_plus')))
bad = (pts([(0, 8), (0xb, 0x1a), (0x1c, 0x1f), (0x7f, 0x9f), (0xe0001, 0xe0001), (0xfff9, 0xfffb), (0x17b4, 0x17b5),
            (0x17d8, 0x17d8), (0x206a, 0x206f), (0x2028, 0x202e), (0x2066, 0x2069), (0xfffc, 0xfffc), (0xfeff, 0xfeff)]) |
       pts(cut(C, "'\\u{149}'", '=> replacement(c)')[0]) | pts(cut(C, "'\\u{fffe}'", '=> noncharacter()')[0]))
Q = [chunked('notStartTree', 'RTree', compress({c: 1 for c in notstart}), rnode,
             'The scalars `is_basic_text_start` rejects by its own tables.'),
     chunked('badTree', 'RTree', compress({c: 1 for c in bad}), rnode, 'The scalars `check_basic_text_char` rejects.')]
open(os.path.join(out, 'Trees.lean'), 'w').write(
    'import Verif.Table\n\n/-!\n# Search trees for unions of the repository tables\n\nWritten by `tools/gen_tables.py`; only used to speed up evaluation, and proved equal to the\ntranscribed tables in `Verif/CharData.lean`.\n-/\n\nnamespace Verif.Tables\n\n'
    + '\n'.join(Q) + '\nend Verif.Tables\n')
G = []
G.append(deflist('gcbExtend', [tuple(r[:2]) for r in compress({c: 1 for c in gcb if gcb[c] == 'Extend'})], 'Grapheme_Cluster_Break = Extend.'))
G.append(deflist('gcbSpacingMark', [tuple(r[:2]) for r in compress({c: 1 for c in gcb if gcb[c] == 'SpacingMark'})], 'Grapheme_Cluster_Break = SpacingMark.'))
G.append(deflist('gcbPrepend', [tuple(r[:2]) for r in compress({c: 1 for c in gcb if gcb[c] == 'Prepend'})], 'Grapheme_Cluster_Break = Prepend.'))
G.append(deflist('whiteSpace', [tuple(r[:2]) for r in compress({c: 1 for c in ws})], 'White_Space = Yes (`char::is_whitespace`).'))
open(os.path.join(out, 'Gcb.lean'), 'w').write(
    '/-!\n# Unicode properties used by the documentation (Unicode 15.0)\n\nWritten by `tools/gen_tables.py` from the tables of the local Perl.\n-/\n\nnamespace Verif.Tables\n\n'
    + '\n'.join(G) + '\nend Verif.Tables\n')
# Compatibility decompositions, for the definition of the Stream-Safe Text Format.
K = [chunked('compatTree', 'Tree (List Nat)', sorted((c, d) for c, d in kd.items() if not hs(c)), lnode,
             'Full compatibility decompositions (NFKD), without Hangul syllables.')]
open(os.path.join(out, 'Compat.lean'), 'w').write(
    'import Verif.Table\n\n/-!\n# Compatibility decompositions (Unicode 15.1)\n\nWritten by `tools/gen_tables.py` from the Unicode 15.0 tables of the local Perl; Unicode 15.1 added none.\n-/\n\nnamespace Verif.Tables\n\n'
    + '\n'.join(K) + '\nend Verif.Tables\n')
# The inverse of the standardized variants.
I = [chunked('cjkInverse', 'Tree Nat', sorted((b * 16 + v - 0xfe00, a) for a, (b, v) in cjk.items()), vnode,
             'The CJK compatibility ideograph of a standardized variant, keyed by 16 times the base plus the number of the selector.')]
open(os.path.join(out, 'CjkInverse.lean'), 'w').write(
    'import Verif.Table\n\n/-!\n# The standardized variants, backwards\n\nWritten by `tools/gen_tables.py`; checked against `cjkTree` in `Verif/Cjk.lean`.\n-/\n\nnamespace Verif.Tables\n\n'
    + '\n'.join(I) + '\nend Verif.Tables\n')
