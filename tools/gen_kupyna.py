#!/usr/bin/env python3
# Writes lean/Verif/Model/KupynaTables.lean from /repo/kupyna: the tables of sbox.go, the arrays of kbox.go and the unrolled functions
# G, G1, G2 of kupyna256.go and kupyna512.go, translated expression by expression.
import re
def arr(f,name,cnt):
    src=open('/repo/kupyna/'+f).read()
    i=src.index('var '+name+' ='); i=src.index('{',i)
    j=src.index('}',i)
    ns=[int(x,16) for x in re.findall(r'0x[0-9a-fA-F]+',re.sub(r'//.*','',src[i:j]))]
    assert len(ns)==cnt,(name,len(ns))
    return src[:i].count('\n')+1,src[:j].count('\n')+1,ns
out=['import Verif.Basic','/-','Tables and unrolled functions of package kupyna; generated from kupyna/sbox.go, kbox.go, kupyna256.go, kupyna512.go by tools/gen_kupyna.py.','-/','namespace Verif.Kupyna','']
for k in range(8):
    a,b,ns=arr('sbox.go','T%d'%k,256)
    out.append(f'/-- kupyna/sbox.go:{a}-{b} -/')
    out.append(f'def T{k} : List U64 := [')
    out.append(',\n'.join('  '+', '.join('0x%016x'%n for n in ns[i:i+8]) for i in range(0,256,8))+']')
for n,c in (('dpad',128),('kpad32',32),('kpad48',80),('kpad64',64)):
    a,b,ns=arr('kbox.go',n,c)
    out.append(f'/-- kupyna/kbox.go:{a}-{b} -/')
    out.append(f'def {n} : Bytes := [')
    out.append(',\n'.join('  '+', '.join('0x%02x'%x for x in ns[i:i+16]) for i in range(0,c,16))+']')
out+=['','/-- `x[i]` of a Go array (every index is in range). -/','def g (x : List U64) (i : Nat) : U64 := x.getD i 0',
 '/-- `T[byte(x >> s)]` -/','def look (t : List U64) (x : U64) (s : Nat) : U64 := t.getD ((x >>> s).setWidth 8 : Byte).toNat 0','']
def tr(e):
    e=re.sub(r'T(\d)\[byte\(x\[(\d+)\](?: >> (\d+))?\)\]',lambda m:f'look T{m[1]} (g x {m[2]}) {m[3] or 0}',e)
    e=re.sub(r'\((\d+) << 4\)',r'((\1 : U64) <<< 4)',e)
    e=re.sub(r'\((\d+) - (\d+)\)',r'((\1 : U64) - \2)',re.sub(r' +',' ',e).replace(' )',')'))
    e=e.replace('<< 56','<<< 56').replace('^','^^^')
    return e
for n in (256,512):
    src=open(f'/repo/kupyna/kupyna{n}.go').read()
    for f in ('G','G1','G2'):
        i=src.index(f'func (d *digest{n}) {f}('); j=src.index('\n}',i)
        body=src[i:j]; a=src[:i].count('\n')+1; b=src[:j].count('\n')+2
        ls=re.findall(r'y\[(\d+)\] *= (.*)',body)
        assert [int(x) for x,_ in ls]==list(range(n//32))
        out.append(f'/-- kupyna/kupyna{n}.go:{a}-{b} `{f}`; the result is the array written through the pointer y. -/')
        arg='' if f=='G' else ' (round : U64)'
        out.append(f'def {f}_{n} (x : List U64){arg} : List U64 :=')
        m=re.search(r'var r uint64 = (0x\w+)',body)
        if m: out.append(f'  let r : U64 := {m[1]}')
        out.append('  ['+',\n   '.join(tr(e) for _,e in ls)+']')
out+=['','end Verif.Kupyna','']
open('/verif/lean/Verif/Model/KupynaTables.lean','w').write('\n'.join(out))
# the S-boxes (printed for comparison with the specification, which has its own copy)
import sys
if len(sys.argv)>1:
    # coefficient 1 of column k of the circulant matrix stands in row k
    for k in range(4):
        _,_,ns=arr('sbox.go','T%d'%k,256)
        s=[(x>>(8*k))&0xff for x in ns]
        assert sorted(s)==list(range(256))
        print(f'def pi{k} : Bytes := [')
        print(',\n'.join('  '+', '.join('0x%02x'%x for x in s[i:i+16]) for i in range(0,256,16))+']')
