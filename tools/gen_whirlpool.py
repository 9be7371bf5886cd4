#!/usr/bin/env python3
# Writes lean/Verif/Model/WhirlpoolTables.lean from /repo/whirlpool/sbox.go.
import re
src=open('/repo/whirlpool/sbox.go').read()
def tab(name):
    i=src.index('var '+name+' ='); i=src.index('{',i)
    line=src[:i].count('\n')+1
    j=src.index('}',i)
    ns=[int(x,16) for x in re.findall(r'0x[0-9a-fA-F]+',re.sub(r'//.*','',src[i:j]))]
    return line,src[:j].count('\n')+1,ns
out=['import Verif.Basic','/-','Tables of package whirlpool; generated from whirlpool/sbox.go by tools/gen_whirlpool.py.','-/','namespace Verif.Whirlpool','']
for p in 'CTA':
    for k in range(8):
        a,b,ns=tab(p+str(k)); assert len(ns)==256
        out.append(f'/-- sbox.go:{a}-{b} -/')
        out.append(f'def {p}{k} : List U64 := [')
        out.append(',\n'.join('  '+', '.join('0x%016x'%n for n in ns[i:i+8]) for i in range(0,256,8))+']')
for n in ('rc','rc0','rc1'):
    a,b,ns=tab(n); assert len(ns)==11
    out.append(f'/-- sbox.go:{a}-{b} -/')
    out.append(f'def {n} : List U64 := ['+', '.join('0x%016x'%x for x in ns)+']')
out+=['','end Verif.Whirlpool','']
open('/verif/lean/Verif/Model/WhirlpoolTables.lean','w').write('\n'.join(out))
