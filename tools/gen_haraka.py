#!/usr/bin/env python3
"""Generates lean/Verif/Model/HarakaTab.lean from /repo/haraka/aes.go and const.go."""
import re, os
here = os.path.dirname(os.path.abspath(__file__))
def table(path, name):
    L = open(path).read().split('\n')
    for i, l in enumerate(L):
        if re.match(r'\s*(var )?%s = (\[256\]|\[\])uint32\{' % name, l):
            j = i
            while L[j].strip() != '}': j += 1
            return re.findall(r'0x[0-9a-f]{8}', '\n'.join(L[i+1:j])), i + 1, j + 1
out = ['import Verif.Words', '/-', 'Generated by tools/gen_haraka.py: the tables of haraka/aes.go and haraka/const.go.', '-/', 'namespace Verif.Haraka', '']
for f, names, n in (('aes.go', ['t0', 't1', 't2', 't3'], 256), ('const.go', ['rc'], 160)):
    for name in names:
        v, a, b = table('/repo/haraka/' + f, name)
        assert len(v) == n, (name, len(v))
        out.append('/-- haraka/%s:%d-%d -/' % (f, a, b))
        out.append('def %s : List U32 := [' % name)
        rows = [', '.join(x + '#32' for x in v[k:k+16]) for k in range(0, n, 16)]
        out.append('  ' + ',\n  '.join(rows) + ']')
out.append('\nend Verif.Haraka')
open(os.path.join(here, '../lean/Verif/Model/HarakaTab.lean'), 'w').write('\n'.join(out) + '\n')
print('ok')
