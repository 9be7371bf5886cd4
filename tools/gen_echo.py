#!/usr/bin/env python3
"""Generate lean/Verif/Model/EchoTables.lean from /repo/echo/sbox.go."""
import re
s=open('/repo/echo/sbox.go').read()
s=s[s.index('var T ='):]
v=re.findall(r'0x([0-9a-f]{8})\b',s)
assert len(v)==1024
o=['import Verif.Basic','/-','Generated by tools/gen_echo.py from echo/sbox.go.','-/','namespace Verif.Echo','']
for k in range(4):
    o.append(f'/-- echo/sbox.go:7-141, `T[{k}]` -/')
    o.append(f'def T{k} : List U32 := [')
    t=v[256*k:256*k+256]
    for i in range(0,256,16):
        o.append('  '+', '.join('0x'+x for x in t[i:i+16])+(',' if i<240 else ']'))
    o.append('')
o.append('end Verif.Echo')
open('/verif/lean/Verif/Model/EchoTables.lean','w').write('\n'.join(o)+'\n')
