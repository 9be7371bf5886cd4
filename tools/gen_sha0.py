#!/usr/bin/env python3
"""Extract the unrolled rounds of /repo/sha0/digest.go as a table for Verif/Model/SHA0Prog.lean."""
import re
src=open('/repo/sha0/digest.go').read()
body=src[src.index('processBlock(data'):]
body=body[body.index('var W0'):]
R='ABCDE'
lines=[l.strip() for l in body.split('\n') if l.strip()]
rows=[]; i=0
while lines[i].startswith(('var W','W')):
    m=re.fullmatch(r'var W(\w) = getu32\(data\[(\d+):\]\)',lines[i])
    if m: w=int(m[1],16); src_='.load %s'%m[2]
    else:
        m=re.fullmatch(r'W(\w) = W(\w) \^ W(\w) \^ W(\w) \^ W(\w)',lines[i]); w=int(m[1],16)
        src_='.mix %d %d %d %d'%tuple(int(x,16) for x in m.groups()[1:])
    m=re.fullmatch(r'(\w) = \(\((\w) << 5\) \| \((\w) >> 27\)\) \+ \((.*)\) \+ (\w) \+ W(\w) \+ sbox\[(\d)\]',lines[i+1])
    e,a,a2,f,e2,w2,k=m.groups(); assert a==a2 and e==e2 and int(w2,16)==w
    for kind,pat in enumerate([r'\((\w) & (\w)\) \| \(\^(\w) & (\w)\)', r'(\w) \^ (\w) \^ (\w)', r'\((\w) & (\w)\) \| \((\w) & (\w)\) \| \((\w) & (\w)\)']):
        q=re.fullmatch(pat,f)
        if q: break
    else: raise SystemExit(f)
    if kind==0: b,c,b2,d=q.groups(); assert b==b2
    elif kind==1: b,c,d=q.groups()
    else: b,c,b2,d,c2,d2=q.groups(); assert (b,c,d)==(b2,c2,d2)
    q=re.fullmatch(r'(\w) = \((\w) << 30\) \| \((\w) >> 2\)',lines[i+2]); assert set(q.groups())=={b}
    rows.append('⟨%d, %s, %d, %d, %d, %d, %d, %d, %s⟩'%(w,src_,R.index(e),R.index(a),R.index(b),R.index(c),R.index(d),kind,k))
    i+=3
assert len(rows)==80
print(',\n   '.join(rows)); import sys; print(lines[i:i+6],file=sys.stderr)
