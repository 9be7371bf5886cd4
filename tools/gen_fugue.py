#!/usr/bin/env python3
"""Generates lean/Verif/Model/FugueTables.lean from /repo/fugue/{sbox,digest}.go."""
import re
sb=open('/repo/fugue/sbox.go').read().split('\n')
dg=open('/repo/fugue/digest.go').read().split('\n')
out=['import Verif.Words','/-','Generated by tools/gen_fugue.py: tables of fugue/sbox.go and the straight-line parts of fugue/digest.go.','-/','namespace Verif.Fugue','']
def table(name):
    i=next(k for k,l in enumerate(sb) if l.startswith('var %s '%name))
    j=next(k for k in range(i,len(sb)) if sb[k].startswith('}'))
    ws=re.findall(r'0x[0-9a-f]+',' '.join(sb[i+1:j]))
    out.append('/-- fugue/sbox.go:%d-%d -/'%(i+1,j+1))
    lines=[', '.join(w+'#32' for w in ws[k:k+8]) for k in range(0,len(ws),8)]
    out.append('def %s : List U32 := [\n  %s]'%(name,',\n  '.join(lines)))
for n in ['mixtab0','mixtab1','mixtab2','mixtab3','initVal224','initVal256','initVal384','initVal512']: table(n)
out.append('''
/-- A statement of the straight-line parts of fugue/digest.go:
`xs i j` is `S[i] ^= S[j]`, `ld i` is `S[i] = w`, `smix a b c e` is `smix(S[:], a, b, c, e)`. -/
inductive Stmt
  | xs (i j : Nat)
  | ld (i : Nat)
  | smix (a b c e : Nat)
  deriving DecidableEq
''')
def prog(fn):
    i=next(k for k,l in enumerate(dg) if l.startswith('func (d *digest) %s('%fn))
    j=next(k for k in range(i,len(dg)) if dg[k].startswith('}'))
    segs=[];cur=[];start=None;exit_=None;loop=None;case=[]
    k=i+1
    body=dg[i+1:j]
    assert body[0].strip()=='S := &d.s' and body[2].strip()=='off := 0' and body[4].strip()=='switch d.rshift {'
    st='stm'
    k=5
    expectcase=1
    while k<len(body):
        l=body[k].strip()
        ln=i+2+k
        if l in('','fallthrough','/* fall through */','/* ================ */'): k+=1; continue
        m=re.match(r'case (\d):',l)
        if m:
            assert int(m[1])==expectcase and (expectcase==1 or body[k-2].strip()=='fallthrough'); expectcase+=1
            k+=1; continue
        m=re.match(r'S\[ *(\d+)\] \^= S\[ *(\d+)\]$',l)
        if m:
            if not cur: start=ln
            cur.append('.xs %s %s'%(m[1],m[2])); k+=1; continue
        m=re.match(r'S\[ *(\d+)\] = w$',l)
        if m: cur.append('.ld %s'%m[1]); k+=1; continue
        m=re.match(r'smix\(S\[:\], *(\d+), *(\d+), *(\d+), *(\d+)\)$',l)
        if m: cur.append('.smix %s %s %s %s'%m.groups()); end=ln; k+=1; continue
        if l=='if num <= 0 {':
            m=re.match(r'd.rshift = (\d)',body[k+1].strip())
            assert body[k+2].strip()=='return' and body[k+3].strip()=='}' and body[k+4].strip()=='num--'
            assert body[k+6].strip()=='w = getu32(buf[off:])' and body[k+7].strip()=='off += 4'
            segs.append((cur,m[1],start,end)); cur=[]; k+=8; continue
        if l=='}':
            k+=1
            if loop is None:
                assert body[k].strip()=='' and body[k+1].strip()=='for {'
                loop=len(segs); k+=2
            else: assert k==len(body),(k,len(body))
            continue
        raise Exception(l)
    assert expectcase-1==loop
    return segs,loop
for fn,nm in [('process2','prog256'),('process384','prog384'),('process512','prog512')]:
    segs,loop=prog(fn)
    cs=segs[:loop]; lp=segs[loop:]
    for which,ss,txt in (('Cases',cs,'the cases 1, 2, ... of the switch'),('Loop',lp,'the body of the endless loop')):
        out.append('/-- fugue/digest.go:%d-%d (%s): %s, cut at the exits `if num <= 0`; with each piece the value the exit gives to rshift. -/'%(ss[0][2],ss[-1][3],fn,txt))
        out.append('def %s%s : List (List Stmt × Nat) := [\n  %s]'%(nm,which,',\n  '.join('([%s], %s)'%(', '.join(s[0]),s[1]) for s in ss)))
out.append('\nend Verif.Fugue')
open('/verif/lean/Verif/Model/FugueTables.lean','w').write('\n'.join(out)+'\n')
