#!/usr/bin/env python3
"""Translate the body of keccakF1600 (k12/keccakf.go) line by line into Verif/Model/Keccak.lean."""
import re,sys
src=open('/repo/k12/keccakf.go').read().split('\n')
start=next(i for i,l in enumerate(src) if '// Round 1' in l)
rounds=[];cur=None;lines=[]
for i in range(start,len(src)):
    l=src[i].strip()
    if l.startswith('// Round'):
        cur=[];rounds.append((i+1,cur));continue
    if l=='}': break
    if l: cur.append(l)
def tr(e):
    e=re.sub(r'a\[(\d+)\]',r'a\1',e)
    e=re.sub(r'rc\[i(\+\d)?\]','c',e)
    m=re.fullmatch(r'(\w+)<<(\d+) \| \1>>\(64-(\d+)\)',e)
    if m: return f'{m[1]} <<< {m[2]} ||| {m[1]} >>> (64 - {m[3]})'
    e=re.sub(r'\((bc\d)<<1 \| \1>>63\)',r'(\1 <<< 1 ||| \1 >>> 63)',e)
    e=re.sub(r'\((\w+) &\^ (\w+)\)',r'(\1 &&& ~~~\2)',e)
    e=e.replace('^','^^^')
    return e
out=['import Verif.Basic','/-','Generated by tools/gen_keccak.py from k12/keccakf.go: one Lean line per Go line.','-/','namespace Verif.Keccak','',
'/-- k12/keccakf.go:6-31 `rc` -/','def rc : List U64 := [']
tab=re.findall(r'0x[0-9A-Fa-f]{16}','\n'.join(src[:start]))
assert len(tab)==24
out.append(',\n'.join('  '+', '.join(t+'#64' for t in tab[i:i+4]) for i in range(0,24,4))+']')
out.append('')
vs=[f'a{i}' for i in range(25)]
def fix(e):
    # &^ was turned into &&& ~~~ then ^ -> ^^^ : undo damage
    return e
for k,(ln,body) in enumerate(rounds):
    out.append(f'/-- k12/keccakf.go:{ln}-{ln+len(body)+6} round {k+1} of the four; `c` is the round constant rc[i{"+"+str(k) if k else ""}]; `t<<n | t>>(64-n)` as written. -/')
    out.append(f'def round{k+1} (c : U64) : List U64 → List U64')
    out.append('  | ['+', '.join(vs)+'] =>')
    for l in body:
        lhs,rhs=l.split(' = ')
        lhs=re.sub(r'a\[(\d+)\]',r'a\1',lhs)
        out.append(f'    let {lhs} := {tr(rhs)}')
    out.append('    ['+', '.join(vs)+']')
    out.append('  | s => s')
    out.append('')
out+=['/-- k12/keccakf.go:35-410 `keccakF1600` with `nr` rounds: the loop over i = 0, 4, …, 20, doing four rounds when i + nr ≥ 24. -/',
'def keccakF1600 (nr : Nat) (a : List U64) : List U64 :=',
'  forLoop 0 6 (fun a j => let i := 4 * j',
'    if i + nr ≥ 24 then round4 (rc.getD (i + 3) 0) (round3 (rc.getD (i + 2) 0) (round2 (rc.getD (i + 1) 0) (round1 (rc.getD i 0) a))) else a) a','','end Verif.Keccak','']
open('/verif/lean/Verif/Model/Keccak.lean','w').write('\n'.join(out))
print([ (a,len(b)) for a,b in rounds])
