#!/usr/bin/env python3
"""Generates lean/Verif/Model/HamsiProg.lean (and, with the argument spec, prints the code matrix for Spec/HamsiCode.lean)."""
import re,sys
sb=open('/repo/hamsi/sbox.go').read().split('\n')
out=['import Verif.Words','/-','Generated by tools/gen_hamsi.py: the tables of hamsi/sbox.go and the straight-line parts of hamsi/digest256.go and hamsi/digest512.go.','-/','namespace Verif.Hamsi','']
def find(name):
    i=next(k for k,l in enumerate(sb) if l.startswith('var %s '%name))
    j=next(k for k in range(i,len(sb)) if sb[k].startswith('}'))
    return i,j
def flat(name):
    i,j=find(name)
    return i+1,j+1,re.findall(r'0x[0-9a-f]+|\b\d+\b',' '.join(sb[i+1:j]))
def lst(ws,suf='#32',n=8): return ',\n  '.join(', '.join(w+suf for w in ws[k:k+n]) for k in range(0,len(ws),n))
def table(name,ty='U32',suf='#32'):
    i,j,ws=flat(name)
    out.append('/-- hamsi/sbox.go:%d-%d -/\ndef %s : List %s := [\n  %s]'%(i,j,name,ty,lst(ws,suf)))
def matrix(name,n):
    i,j,ws=flat(name)
    rows=[ws[k:k+n] for k in range(0,len(ws),n)]
    assert all(len(r)==n for r in rows)
    return i,j,rows
if len(sys.argv)>1:
    o=['import Verif.Words','/-','The generator matrices of the two linear codes of Hamsi, as bits: row i is added for bit i of the block.','(Data; the rest of the specification is in Spec/Hamsi.lean.)','-/','namespace Verif.Spec.Hamsi','']
    for nm,n,d in (('Tsrc256',8,'G256'),('Tsrc512',16,'G512')):
        _,_,rows=matrix(nm,n)
        o.append('def %s : List (List U32) := [\n  %s]'%(d,',\n  '.join('['+', '.join(r)+']' for r in rows)))
    o.append('end Verif.Spec.Hamsi')
    open('/verif/lean/Verif/Spec/HamsiCode.lean','w').write('\n'.join(o)+'\n'); sys.exit()
for nm,n in (('Tsrc256',8),('Tsrc512',16)):
    i,j,rows=matrix(nm,n)
    out.append('/-- hamsi/sbox.go:%d-%d -/\ndef %s : List (List U32) := [\n  %s]'%(i,j,nm,',\n  '.join('['+', '.join(w+'#32' for w in r)+']' for r in rows)))
for t in ('ALPHA_N256','ALPHA_F256','ALPHA_N512','ALPHA_F512'): table(t)
for t in ('HOFF384','HOFF512'): table(t,'Nat','')
for t in ('iv224','iv256','iv384','iv512'): table(t)
out.append('''
/-- The statements of the straight-line parts.  Registers: m0 ... mF are 0 ... 15, c0 ... cF are 16 ... 31, t is 32. -/
inductive Ins
  /-- a ^= ALPHA[i] -/
  | xk (a i : Nat)
  /-- a ^= ALPHA[i] ^ (number of the round) -/
  | xkr (a i : Nat)
  /-- a = b -/
  | mov (a b : Nat)
  /-- a &= b -/
  | and (a b : Nat)
  /-- a |= b -/
  | or (a b : Nat)
  /-- a ^= b -/
  | xor (a b : Nat)
  /-- a = ^b -/
  | not (a b : Nat)
  /-- a = (a << n) | (a >> (32 - n)) -/
  | rol (a n : Nat)
  /-- a ^= b ^ c -/
  | xor2 (a b c : Nat)
  /-- a ^= b ^ (c << n) -/
  | xors (a b c n : Nat)
  deriving DecidableEq
''')
def reg(s):
    if s=='t': return 32
    return int(s[1],16)+(16 if s[0]=='c' else 0)
R=r'([mc][0-9A-F]|t)'
def ins(l,rnd):
    """returns (text, roundconst)"""
    m=re.match(R+r' \^= ALPHA_\w+\[(0x[0-9A-F]+)\]$',l)
    if m: return '.xk %d %d'%(reg(m[1]),int(m[2],16)),None
    m=re.match(R+r' \^= ALPHA_\w+\[(0x[0-9A-F]+)\] \^ (\d|uint32\(r\))$',l)
    if m: return '.xkr %d %d'%(reg(m[1]),int(m[2],16)),m[3]
    m=re.match(R+r' = '+R+'$',l)
    if m: return '.mov %d %d'%(reg(m[1]),reg(m[2])),None
    m=re.match(R+r' = \^'+R+'$',l)
    if m: return '.not %d %d'%(reg(m[1]),reg(m[2])),None
    m=re.match(R+r' (&|\||\^)= '+R+'$',l)
    if m: return '.%s %d %d'%({'&':'and','|':'or','^':'xor'}[m[2]],reg(m[1]),reg(m[3])),None
    m=re.match(R+r' = \('+R+r' << (\d+)\) \| \('+R+r' >> \(32 - (\d+)\)\)$',l)
    if m:
        assert m[1]==m[2]==m[4] and m[3]==m[5]
        return '.rol %d %s'%(reg(m[1]),m[3]),None
    m=re.match(R+r' \^= '+R+r' \^ '+R+'$',l)
    if m: return '.xor2 %d %d %d'%(reg(m[1]),reg(m[2]),reg(m[3])),None
    m=re.match(R+r' \^= '+R+r' \^ \('+R+r' << (\d+)\)$',l)
    if m: return '.xors %d %d %d %s'%(reg(m[1]),reg(m[2]),reg(m[3]),m[4]),None
    return None
def body(path,sig):
    g=open(path).read().split('\n')
    i=next(k for k,l in enumerate(g) if l.startswith(sig))
    j=next(k for k in range(i,len(g)) if g[k].startswith('}'))
    return g,i,j
def analyse(path,sig,tab,nt,nm,alpha,loop):
    g,i,j=body(path,sig)
    ls=[(k+1,g[k].strip()) for k in range(i,j) if g[k].strip()]
    # header
    p=0
    while not ls[p][1].startswith('var rp'): p+=1
    hexd='0123456789ABCDEF'
    f=(lambda z:'%d'%z) if nm==8 else (lambda z:'0x%s'%hexd[z])
    M=['m%s'%hexd[z] for z in range(nm)]
    assert ls[p][1]=='var rp = %s_0[b0]'%tab; p+=1
    for z in range(nm):
        assert ls[p][1]=='var %s = rp[%s]'%(M[z],f(z)),ls[p]; p+=1
    for q in range(1,nt):
        assert ls[p][1]=='rp = %s_%d[b%d]'%(tab,q,q),ls[p]; p+=1
        for z in range(nm):
            assert ls[p][1]=='%s ^= rp[%s]'%(M[z],f(z)),ls[p]; p+=1
    for z in range(nm):
        assert ls[p][1]=='var c%s = d.s[%s]'%(hexd[z],f(z)),ls[p]; p+=1
    assert ls[p][1]=='var t uint32'; p+=1
    rounds=[];cur=[];cr=None;start=ls[p][0];nloop=None
    if loop:
        m=re.match(r'for r := 0; r < (\d+); r\+\+ \{',ls[p][1]); assert m; nloop=int(m[1]); p+=1
    while True:
        l=ls[p][1]
        if l=='}' : p+=1; break
        if l.startswith('d.s['): break
        if l.startswith('m0 ^= ALPHA') and cur: rounds.append((cr,cur)); cur=[];cr=None
        r=ins(l,None); assert r,l
        if 'ALPHA' in l: assert alpha in l
        if r[1] is not None:
            assert cr is None; cr=r[1]
        cur.append(r[0]); end=ls[p][0]; p+=1
    rounds.append((cr,cur))
    outs={}
    while p<len(ls):
        m=re.match(r'd\.s\[(0x[0-9A-F]|\d)\] \^= '+R+'$',ls[p][1]); assert m,ls[p]
        outs[int(m[1],0)]=reg(m[2]); p+=1
    assert sorted(outs)==list(range(nm))
    return rounds,[outs[z] for z in range(nm)],start,end,nloop
def emit(name,path,start,end,prog): out.append('/-- hamsi/%s:%d-%d -/\ndef %s : List Ins := [\n  %s]'%(path,start,end,name,',\n  '.join(', '.join(prog[k:k+12]) for k in range(0,len(prog),12))))
r,o,s,e,_=analyse('/repo/hamsi/digest256.go','func (d *digest256) process(','T256',4,8,'ALPHA_N256',False)
assert [x[0] for x in r]==['0','1','2']
out.append('/-- hamsi/digest256.go:%d-%d: the three unrolled rounds with their numbers -/\ndef rounds256 : List (Nat × List Ins) := [\n  %s]'%(s,e,',\n  '.join('(%s, [%s])'%(x[0],', '.join(x[1])) for x in r)))
out.append('/-- The registers added to d.s at the end of process (the same in processFinal). -/\ndef outs256 : List Nat := %s'%o)
r,o2,s,e,n=analyse('/repo/hamsi/digest256.go','func (d *digest256) processFinal(','T256',4,8,'ALPHA_F256',True)
assert n==6 and len(r)==1 and r[0][0]=='uint32(r)' and o2==o
emit('final256','digest256.go',s,e,r[0][1])
r,o,s,e,n=analyse('/repo/hamsi/digest512.go','func (d *digest512) process(','T512',8,16,'ALPHA_N512',True)
assert n==6 and len(r)==1 and r[0][0]=='uint32(r)'
emit('round512','digest512.go',s,e,r[0][1])
out.append('/-- The registers added to d.s at the end of process (the same in processFinal). -/\ndef outs512 : List Nat := %s'%o)
r,o2,s,e,n=analyse('/repo/hamsi/digest512.go','func (d *digest512) processFinal(','T512',8,16,'ALPHA_F512',True)
assert n==12 and len(r)==1 and r[0][0]=='uint32(r)' and o2==o
emit('final512','digest512.go',s,e,r[0][1])
out.append('\nend Verif.Hamsi')
open('/verif/lean/Verif/Model/HamsiProg.lean','w').write('\n'.join(out)+'\n')
