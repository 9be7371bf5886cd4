#!/usr/bin/env python3
"""Translates compress of /repo/bmw/digest256.go and digest512.go into lean/Verif/Model/BMWCompress.lean,
statement by statement.  Text substitutions only: x[e] -> x (e), ^ -> ^^^, << -> <<<, >> -> >>>, & -> &&&,
circularLeftNN(e, n) -> (e).rotateLeft (n)."""
import re
R='/repo/bmw/'
def args(s,i):
    d=0;out=[];st=i
    for j in range(i,len(s)):
        c=s[j]
        if c in '([': d+=1
        elif c in ')]':
            if d==0: out.append(s[st:j]); return out,j
            d-=1
        elif c==',' and d==0: out.append(s[st:j]); st=j+1
def tr(s):
    o='';i=0
    while i<len(s):
        m=re.match(r'circularLeft\d\d\(',s[i:])
        if m:
            a,j=args(s,i+m.end()); o+='(%s).rotateLeft (%s)'%(tr(a[0].strip()),tr(a[1].strip())); i=j+1; continue
        m=re.match(r'(K512|m|h|q|w)\[',s[i:])
        if m:
            a,j=args(s,i+m.end()); e=tr(a[0].strip())
            o+= '(K512.getD (%s) 0)'%e if m.group(1)=='K512' else '(%s (%s))'%(m.group(1),e) if not e.isdigit() else '(%s %s)'%(m.group(1),e)
            i=j+1; continue
        if s.startswith('<<',i): o+='<<<'; i+=2; continue
        if s.startswith('>>',i): o+='>>>'; i+=2; continue
        o+={'^':'^^^','&':'&&&'}.get(s[i],s[i]); i+=1
    return re.sub(r'\s+',' ',o)
def stmts(f):
    ls=open(R+f).read().split('\n')
    st=next(i for i,l in enumerate(ls) if ') compress(' in l)
    cur='';out=[];beg=0
    for i in range(st+1,len(ls)):
        l=ls[i].strip()
        if l=='}' and cur=='' and ls[i]=='}': break
        if not l: continue
        if cur=='': beg=i+1
        cur=(cur+' '+l).strip()
        if cur.endswith(('+','-','^')) : continue
        if cur.count('(')!=cur.count(')'): continue
        out.append((beg,i+1,cur)); cur=''
    return out
def stmt(s):
    m=re.match(r'(\w+)\[([^\]]*)\] = (.*)$',s)
    return m.group(1),m.group(2),tr(m.group(3))
o='''import Verif.Basic
/-
GENERATED by tools/gen_bmw.py from bmw/digest256.go and bmw/digest512.go; do not edit.
The assignments of the two functions compress, in program order.  A statement `a[i] = e` is the pair of i and of e as a function of the
arrays it reads; each reads the current contents of the array it assigns.
-/
namespace Verif.BMW
/-- bmw/sbox.go:24-35 -/
def K512 : List U64 := [%s]

'''%', '.join('%d * 0x0555555555555555'%k for k in range(16,32))
S=stmts('digest256.go')
q=[(b,stmt(s)) for b,e,s in S if s.startswith('q[')]
h=[(b,stmt(s)) for b,e,s in S if s.startswith('h[')]
xl=[tr(s[len('xl := '):]) for b,e,s in S if s.startswith('xl :=')][0]
xh=[tr(s[len('xh := '):]) for b,e,s in S if s.startswith('xh :=')][0]
assert len(S)==2+32+16+2, len(S)
def emit(name,lst,ty,params,doc):
    global o
    o+='/-- %s -/\ndef %s : List (Nat × (%s)) := [\n'%(doc,name,ty)
    o+=',\n'.join('  (%s, fun %s => %s)'%(i,params,e) for i,e in lst)+']\n\n'
RD='(Nat → U32) → (Nat → U32) → (Nat → U32) → U32'
emit('qStmts256',[(i,e) for b,(v,i,e) in q],RD,'m h q','bmw/digest256.go:%d-%d'%(q[0][0],q[-1][0]))
o+='/-- bmw/digest256.go:%d -/\ndef xl256 (q : Nat → U32) : U32 := %s\n'%([b for b,e,s in S if s.startswith('xl')][0],xl)
o+='/-- bmw/digest256.go:%d -/\ndef xh256 (xl : U32) (q : Nat → U32) : U32 := %s\n\n'%([b for b,e,s in S if s.startswith('xh')][0],xh)
emit('hStmts256',[(i,e) for b,(v,i,e) in h],'U32 → U32 → '+RD,'xl xh m q h','bmw/digest256.go:%d-%d'%(h[0][0],h[-1][0]))
# 512
S=stmts('digest512.go')
RD='(Nat → U64) → (Nat → U64) → (Nat → U64) → (Nat → U64) → U64'
w=[(b,stmt(s)) for b,e,s in S if s.startswith('w[')]
emit('wStmts512',[(i,e) for b,(v,i,e) in w],'(Nat → U64) → (Nat → U64) → U64','m h','bmw/digest512.go:%d-%d'%(w[0][0],w[-1][0]))
parts=[];i=0
kind=None
for b,e,s in S:
    m=re.match(r'for u := (\d+); u < (\d+); u(\+\+| \+= 5) \{',s)
    if m:
        vals=list(range(int(m.group(1)),int(m.group(2)),1 if m.group(3)=='++' else 5)); kind=vals; body=[]; lo=b; continue
    if s=='}' and kind is not None:
        parts.append((lo,b,kind,body)); kind=None; continue
    if s.startswith('q['):
        v,ix,ex=stmt(s)
        if kind is not None: body.append((ix,ex))
        else: parts.append((b,e,None,[(ix,ex)]))
assert [p[2] for p in parts]==[[0,5,10],None,[16,17],list(range(18,32))]
names=[]
for n,(lo,hi,vals,body) in enumerate(parts):
    nm='qStmts512_%d'%n; names.append(nm)
    if vals is None:
        emit(nm,body,RD,'m h w q','bmw/digest512.go:%d-%d'%(lo,hi))
    else:
        o+='/-- bmw/digest512.go:%d-%d, the loop over u unrolled -/\ndef %s : List (Nat × (%s)) := %s.flatMap fun u => [\n'%(lo,hi,nm,RD,vals)
        o+=',\n'.join('  (%s, fun %s => %s)'%(i,'m h w q',e) for i,e in body)+']\n\n'
o+='/-- bmw/digest512.go:%d-%d -/\ndef qStmts512 := %s\n'%(parts[0][0],parts[-1][1],' ++ '.join(names))
xl=[(b,tr(s[len('xl := '):])) for b,e,s in S if s.startswith('xl :=')][0]
xh=[(b,tr(s[len('xh := '):])) for b,e,s in S if s.startswith('xh :=')][0]
o+='/-- bmw/digest512.go:%d -/\ndef xl512 (q : Nat → U64) : U64 := %s\n'%xl
o+='/-- bmw/digest512.go:%d -/\ndef xh512 (xl : U64) (q : Nat → U64) : U64 := %s\n\n'%xh
h=[(b,stmt(s)) for b,e,s in S if s.startswith('h[')]
assert len(h)==16 and len(w)==16
emit('hStmts512',[(i,e) for b,(v,i,e) in h],'U64 → U64 → (Nat → U64) → (Nat → U64) → (Nat → U64) → U64','xl xh m q h','bmw/digest512.go:%d-%d'%(h[0][0],h[-1][0]))
o+='end Verif.BMW\n'
open('/verif/lean/Verif/Model/BMWCompress.lean','w').write(o)
