#!/usr/bin/env python3
"""Write lean/Verif/Tables/Tests.lean: the inputs and expected results of the tests in /repo, as scalar values."""
import re, os
LIT = r'b?"((?:[^"\\]|\\.)*)"'
def scalars(s, b=False):
    """Scalar values of the inside of a Rust string literal (bytes if b)."""
    out, i = [], 0
    while i < len(s):
        if s[i] != '\\': out.append(ord(s[i])); i += 1; continue
        c = s[i + 1]
        if c == 'u': j = s.index('}', i); out.append(int(s[i + 3:j], 16)); i = j + 1
        elif c == 'x': out.append(int(s[i + 2:i + 4], 16)); i += 4
        else: out.append({'n': 10, 'r': 13, 't': 9, '0': 0, '\\': 92, '"': 34, "'": 39}[c]); i += 2
    return out
def rd(p): return open('/repo/' + p).read()
def strip(s): return re.sub(r'^\s*//.*$', '', s, flags=re.M)
def pairs(src, head, tail): return [(scalars(a), scalars(b)) for a, b in re.findall(head + LIT + tail + LIT, strip(src), re.S)]
def singles(src, head, tail): return [scalars(a) for a in re.findall(head + LIT + tail, strip(src), re.S)]
W = r'\s*'
inp, outp, bts = rd('tests/text-input.rs'), rd('tests/text-output.rs'), rd('tests/basic-text-string.rs')
rdr, wtr = rd('src/text_reader.rs'), rd('src/text_writer.rs')
dis = [scalars(x) for x in re.findall(r"^    '([^']*)',", rd('tests/disallowed_scalar_values.rs'), re.M)]
assert len(dis) == 190
T = {}
T['readTests'] = pairs(inp, r'to_text\(' + W, r'\)' + W + ',' + W) + \
    pairs(rdr, r'\btest\(' + W, r'(?:\.as_bytes\(\))?' + W + ',' + W) + [(d, [0xfffd, 10]) for d in dis]
T['readNelTests'] = pairs(inp, r'to_text_with_nel_compatibility\(' + W, r'\)\.unwrap\(\)' + W + ',' + W)
T['readLspsTests'] = pairs(inp, r'to_text_with_lsps_compatibility\(' + W, r'\)\.unwrap\(\)' + W + ',' + W)
T['lossyTests'] = pairs(bts, r'from_text_lossy\(' + W, W + r'\)' + W + r'\.as_str\(\)' + W + ',' + W)
T['ownedTests'] = pairs(bts, r'from_text\(' + W, r'\.to_owned\(\)\)' + W + r'\.unwrap\(\)' + W + r'(?:\.as_str\(\))?' + W + ',' + W)
T['writeTests'] = pairs(outp, r'to_text\(' + W, r'\)\.unwrap\(\)' + W + ',' + W) + pairs(wtr, r'\btest\(' + W, W + ',' + W)
T['writeBomTests'] = pairs(outp, r'to_text_with_bom_compatibility\(' + W, r'\)\.unwrap\(\)' + W + ',' + W)
T['writeCrlfTests'] = pairs(outp, r'to_text_with_crlf_compatibility\(' + W, r'\)\.unwrap\(\)' + W + ',' + W)
spec = re.search(r"for c in \[(.*?)\]", outp, re.S).group(1)
T['writeErrTests'] = singles(outp, r'to_text\(' + W, r'\)\.unwrap_err') + singles(wtr, r'test_error\(' + W, r'(?:\.as_bytes\(\))?\)') + \
    [d + [10] for d in dis] + [[int(x, 16), 10] for x in re.findall(r'\\u\{([0-9a-f]+)\}', spec)]
T['writeCrlfErrTests'] = singles(outp, r'to_text_with_crlf_compatibility\(' + W, r'\)\.unwrap_err')
# every assertion of these files has been seen
n = lambda s, w: len(re.findall(w, strip(s)))
assert len(T['lossyTests']) + len(T['ownedTests']) == n(bts, 'assert_eq!'), (len(T['lossyTests']), len(T['ownedTests']), n(bts, 'assert_eq!'))
m = lambda s, w: len(re.findall('^    ' + w, s, re.M))
assert len(T['readTests']) + len(T['readNelTests']) + len(T['readLspsTests']) == n(inp, 'assert_eq!') - 1 + 190 + m(rdr, r'test\(')
assert sum(len(T[k]) for k in T if k.startswith('write')) == n(outp, 'assert_eq!') - 2 + 190 + 17 + m(wtr, r'test\(') + m(wtr, r'test_error\(')
def nats(l): return '[' + ', '.join(('0x%x' % x if x > 9 else str(x)) for x in l) + ']'
def item(x): return '(%s, %s)' % (nats(x[0]), nats(x[1])) if isinstance(x, tuple) else nats(x)
def wrap(items):
    out, cur = [], '  '
    for k, it in enumerate(items):
        s = it + (', ' if k + 1 < len(items) else ']')
        if len(cur) + len(s) > 150 and cur.strip(): out.append(cur.rstrip()); cur = '  '
        cur += s
    return '[\n' + '\n'.join(out + [cur])
o = ['''/-!
# The tests of the repository

Written by `tools/gen_tests.py` from `/repo/tests/*.rs`, `/repo/src/{text_reader,text_writer}.rs` and `/repo/samples`: inputs with the
results the tests expect, as scalar values (the samples as bytes).
-/

namespace Verif.Tables
''']
for k, v in T.items():
    ty = 'List (List Nat × List Nat)' if isinstance(v[0], tuple) else 'List (List Nat)'
    if len(v) > 300:
        cs = [v[i:i + 100] for i in range(0, len(v), 100)]
        for j, c in enumerate(cs): o.append('def %s%d : %s := %s\n' % (k, j, ty, wrap([item(x) for x in c])))
        o.append('def %s : %s := %s\n' % (k, ty, ' ++ '.join(k + str(j) for j in range(len(cs)))))
    else: o.append('def %s : %s := %s\n' % (k, ty, wrap([item(x) for x in v])))
b = open('/repo/samples/basic-text-example.txt', 'rb').read()
cs = [b[i:i + 200] for i in range(0, len(b), 200)]
for j, c in enumerate(cs): o.append('def sampleExample%d : List Nat := %s\n' % (j, wrap(['0x%x' % x for x in c])))
o.append('def sampleExample : List Nat := %s\n' % ' ++ '.join('sampleExample%d' % j for j in range(len(cs))))
# the other sample line by line, each with the lines it is converted to
b = open('/repo/samples/basic-text-invalid.txt', 'rb').read().split(b'\n')
c = open('/repo/samples/basic-text-invalid-converted.txt', 'rb').read().split(b'\n')[:-1]
ls = []
for l in b:
    k = 1 + l.rstrip(b'\r').count(b'\r')
    ls.append((list(l + b'\n'), list(b'\n'.join(c[:k]) + b'\n'))); c = c[k:]
assert not c
ls[-1] = (ls[-1][0][:-1], ls[-1][1][:-1])     # no newline at the end
cs = [ls[i:i + 15] for i in range(0, len(ls), 15)]
for j, x in enumerate(cs): o.append('def sampleInvalid%d : List (List Nat × List Nat) := %s\n' % (j, wrap([item(y) for y in x])))
o.append('def sampleInvalid : List (List Nat × List Nat) := %s\n' % ' ++ '.join('sampleInvalid%d' % j for j in range(len(cs))))
print(len(cs))
o.append('end Verif.Tables\n')
p = os.path.join(os.path.dirname(os.path.abspath(__file__)), '..', 'lean', 'Verif', 'Tables', 'Tests.lean')
open(p, 'w').write('\n'.join(o))
