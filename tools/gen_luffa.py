#!/usr/bin/env python3
"""Translates processBlock of /repo/luffa/digest{256,384,512}.go and the tables of sbox.go into lean/Verif/Model/LuffaBlock.lean, statement by statement."""
import re
R='/repo/luffa/'
t=open(R+'sbox.go').read()
o='''import Verif.Basic
/-
GENERATED by tools/gen_luffa.py from luffa/digest256.go, digest384.go, digest512.go, sbox.go; do not edit.
-/
namespace Verif.Luffa
/-- Eight words: the variables Vj0, …, Vj7, or M0, …, M7. -/
structure R8 where
  v0 : U32
  v1 : U32
  v2 : U32
  v3 : U32
  v4 : U32
  v5 : U32
  v6 : U32
  v7 : U32
deriving DecidableEq, Inhabited
/-- The variables of one array Vj. -/
def reg (d : List R8) (j : Nat) : R8 := d.getD j ⟨0, 0, 0, 0, 0, 0, 0, 0⟩

'''
for m in re.finditer(r'var (\w+) = \[\]uint32\{(.*?)\n\}',t,re.S):
    a=t[:m.start()].count('\n')+1; b=t[:m.end()].count('\n')+1
    o+='/-- luffa/sbox.go:%d-%d -/\ndef %s : List U32 := [%s]\n'%(a,b,m.group(1),', '.join(re.findall(r'0x[0-9a-fA-F]+',m.group(2))))
def tr(e):
    e=re.sub(r'(?<![\w)] )\^(?=V)','~~~',e) if e.startswith('^') else e
    e=e.replace('<<','<<<').replace('>>','>>>')
    return re.sub(r'(?<![~^])\^(?!\^)','^^^',e).replace('|','|||').replace('&','&&&')
def stm(l):
    m=re.match(r'(\w+) ([|&^])= (\w+)$',l)
    if m: return m.group(1), '%s %s %s'%(m.group(1),{'|':'|||','&':'&&&','^':'^^^'}[m.group(2)],m.group(3))
    m=re.match(r'(\w+) = (.*)$',l)
    return m.group(1),tr(m.group(2))
for n,w in ((256,3),(384,4),(512,5)):
    f='digest%d.go'%n
    L=open(R+f).read().split('\n')
    st=next(k for k,l in enumerate(L) if ') processBlock(' in l)
    i=st+1; mi=[]; lo=None; loads=0; ms=0
    while True:
        l=L[i].strip(); i+=1
        if l.startswith('for r'): break
        if not l or l.startswith('var tmp') or l.startswith('var a0') or l.startswith('var b0'): continue
        m=re.match(r'var M(\d) = getu32\(data\[(\d+):\]\)$',l)
        if m: assert int(m.group(2))==4*int(m.group(1)); ms+=1; continue
        m=re.match(r'V(\d)(\d) := d\.V(\d)(\d)$',l)
        if m: assert m.group(1,2)==m.group(3,4); loads+=1; continue
        if lo is None: lo=i
        mi.append(stm(l)); hi=i
    assert ms==8 and loads==8*w
    o+='\n/-- luffa/%s:%d-%d: message injection and tweak.  The loads %d-%d (M big endian words of the block) are `M` and `d`. -/\n'%(f,lo,hi,st+2,lo-1)
    o+='def mi%d (d : List R8) (M : R8) : List R8 :=\n'%n
    for j in range(w):
        o+='  '+'; '.join('let V%d%d := (reg d %d).v%d'%(j,k,j,k) for k in range(8))+'\n'
    o+='  '+'; '.join('let M%d := M.v%d'%(k,k) for k in range(8))+'\n'
    for a in range(0,len(mi),8): o+='  '+'; '.join('let %s := %s'%x for x in mi[a:a+8])+'\n'
    o+='  ['+', '.join('⟨'+', '.join('V%d%d'%(j,k) for k in range(8))+'⟩' for j in range(w))+']\n'
    i-=1
    for j in range(w):
        while not L[i].strip(): i+=1
        assert L[i].strip()=='for r := 0; r < 8; r++ {', L[i]
        lo=i+1; body=[]; i+=1; rc=[]
        while L[i].strip()!='}':
            l=L[i].strip(); i+=1
            m=re.match(r'V%d([04]) \^= RC%d([04])_%d\[r\]$'%(j,j,n),l)
            if m: assert m.group(1)==m.group(2); body.append(('V%d%s'%(j,m.group(1)),'V%d%s ^^^ rc%s'%(j,m.group(1),m.group(1)))); rc.append(m.group(1)); continue
            body.append(stm(l))
        i+=1
        assert rc==['0','4']
        assert all(re.match(r'V%d\d$|tmp$'%j,x) for x,_ in body)
        o+='\n/-- luffa/%s:%d-%d, the body of the loop; rc0 and rc4 are RC%d0_%d[r] and RC%d4_%d[r]. -/\n'%(f,lo,i,j,n,j,n)
        o+='def body%d_%d (rc0 rc4 : U32) (v : R8) : R8 :=\n'%(n,j)
        o+='  '+'; '.join('let V%d%d := v.v%d'%(j,k,k) for k in range(8))+'\n'
        for a in range(0,len(body),9): o+='  '+'; '.join('let %s := %s'%x for x in body[a:a+9])+'\n'
        o+='  ⟨'+', '.join('V%d%d'%(j,k) for k in range(8))+'⟩\n'
    rest=[l.strip() for l in L[i:] if l.strip()]
    assert rest==['d.V%d%d = V%d%d'%(j,k,j,k) for j in range(w) for k in range(8)]+['}'], rest[:3]
    o+='\n/-- luffa/%s:%d-%d -/\n'%(f,st+1,len(L)-1)
    o+='def block%d (d : List R8) (M : R8) : List R8 :=\n  let d := mi%d d M\n  ['%(n,n)
    o+=',\n   '.join('forLoop 0 8 (fun v r => body%d_%d (RC%d0_%d.getD r 0) (RC%d4_%d.getD r 0) v) (reg d %d)'%(n,j,j,n,j,n,j) for j in range(w))+']\n'
o+='end Verif.Luffa\n'
open('/verif/lean/Verif/Model/LuffaBlock.lean','w').write(o)
