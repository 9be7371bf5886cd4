#!/usr/bin/env python3
"""Writes lean/Verif/Model/SIMDTab.lean (tables of simd/sbox.go) and checks that the unrolled parts of simd/digest256.go and
simd/digest512.go have the shape that Model/SIMD.lean gives them."""
import re
R='/repo/simd/'
src=open(R+'sbox.go').read().split('\n')
out=["import Verif.Words","/-","Generated by tools/gen_simd.py: the tables of simd/sbox.go.","-/","namespace Verif.SIMD",""]
i=0
while i<len(src):
    m=re.match(r'var (\w+) = \[\d*\](\w+)\{',src[i])
    if m:
        a=i; txt=''
        i+=1
        while src[i]!='}': txt+=src[i]; i+=1
        vals=[eval(t) for t in txt.split(',') if t.strip()]
        ty=m.group(2)
        if ty in('uint32',): body=[f"0x{v:08x}#32" for v in vals]; t='List U32'
        elif m.group(1).startswith('w') or ty=='int': body=[str(v) for v in vals]; t='List Nat'
        else: body=[f"{v}#32" for v in vals]; t='List U32'
        out.append(f"/-- simd/sbox.go:{a+1}-{i+1} -/")
        out.append(f"def {m.group(1)} : {t} := [")
        for k in range(0,len(body),16):
            out.append("  "+", ".join(body[k:k+16])+("," if k+16<len(body) else "]"))
    i+=1
out+=["","end Verif.SIMD",""]
open('/verif/lean/Verif/Model/SIMDTab.lean','w').write('\n'.join(out))

# --- checks of the unrolled code
def norm(s): return re.sub(r'\s+','',s)
def IF(n,i): return f"(((state[{n+i}]^state[{2*n+i}])&state[{i}])^state[{2*n+i}])"
def MAJ(n,i): return f"((state[{i}]&state[{n+i}])|((state[{i}]|state[{n+i}])&state[{2*n+i}]))"
def upd(n,i,s,t,w,ph,ta): return f"tmp=state[{3*n+i}]+{w}+{ph}state[{i}]=circularLeft(tmp,{s})+{t}state[{3*n+i}]=state[{2*n+i}]state[{2*n+i}]=state[{n+i}]state[{n+i}]={ta}"
s256=open(R+'digest256.go').read(); s512=open(R+'digest512.go').read()
f=norm(s256[s256.index('oneRound(isp'):s256.index('fft32(x []byte')])
e=''
p=['p0','p1','p2','p3']
for k in range(8):
    e+=''.join(f"tA[{i}]=circularLeft(state[{i}],{p[k%4]})" for i in range(4))
    for i in range(4): e+=upd(4,i,p[(k+1)%4],f"tA[pp4k256[isp+{k}]^{i}]",f"w[{4*k+i}]",(IF if k<4 else MAJ)(4,i),f"tA[{i}]")
assert e in f, 'oneRound256'
f=norm(s512[s512.index('oneRound(isp'):s512.index('fft64(x []byte')]); f=re.sub(r'(?<!\d)0\+i','i',f)
e=''
for k in range(8):
    e+=f"fori:=0;i<8;i++{{tA[i]=circularLeft(state[i],{p[k%4]})}}"
    w=f"(w[{8*k}+i])" if k else "(w[i])"
    ph="(((state[8+i]^state[16+i])&state[i])^state[16+i])" if k<4 else "((state[i]&state[8+i])|((state[i]|state[8+i])&state[16+i]))"
    e+=f"fori:=0;i<8;i++{{tmp=state[24+i]+{w}+{ph}state[i]=circularLeft(tmp,{p[(k+1)%4]})+tA[(pp8k512[isp+{k}])^i]state[24+i]=state[16+i]state[16+i]=state[8+i]state[8+i]=tA[i]}}"
assert e in f, 'oneRound512'
def last(src,n,perms,ini):
    f=norm(src[src.index(ini):]).replace('vartmpuint32','')
    rot=[4,13,10,25]
    e=''
    for k in range(4):
        e+='{'+''.join(f"vartA{i}=circularLeft(state[{i}],{rot[k]})" for i in range(n))
        for i in range(n): e+=upd(n,i,rot[(k+1)%4],f"tA{perms[k]^i}",f"(tmpState[{n*k+i}])",IF(n,i),f"tA{i}")
        e+='}'
    assert e in f, 'last'
last(s256,4,[3,1,2,3],'d.oneRound(0, 4, 13, 10, 25)')
last(s512,8,[5,7,4,1],'d.oneRound(3, 4, 13, 10, 25)')
# butterflies of compress
def bf(off,h,st,tab,par):
    o=f"({par})" if '+' in par and par!='0' else par
    def E(k,ob):
        j=f"q[{o}+u+{k}]"; jj=f"q[{o}+u+{k}+{h}]"
        a=f"((n*{tab}[v+{k}*{st}])&0xFFFF)+((n*{tab}[v+{k}*{st}])>>16)"
        if ob: a='('+a+')'
        return f"m={j}n={jj}t={a}{j}=m+t{jj}=m-t"
    r=[]
    for ob in (0,1):
        r.append(f"foru,v:=0,0;u<{h};u,v=u+4,v+4*{st}{{vartint32ifu!=0{{{E(0,ob)}}}{E(1,ob)}{E(2,ob)}{E(3,ob)}}}")
    return r
def has(src,alts): assert any(norm(a) in norm(src) for a in alts), alts[0][:200]
has(s256,bf(0,32,4,'alphaTab256','0')); has(s256,bf(64,32,4,'alphaTab256','0+64')); has(s256,bf(0,64,2,'alphaTab256','0'))
has(s512,bf(0,64,2,'alphaTab512','0')); has(s512,bf(128,64,2,'alphaTab512','0+128')); has(s512,bf(0,128,1,'alphaTab512','0'))
# the fft16 blocks
def fft16(base,idx1,idx2,qo):
    def half(d,ix): 
        return '{'+''.join(f"varx{k}=int32(x[{base}{('+'+t) if t else ''}]&0xFF)" for k,t in enumerate(ix))+ \
        "vara0=x0+x2vara1=x0+(x2<<4)vara2=x0-x2vara3=x0-(x2<<4)varb0=x1+x3varb1=REDS1((x1<<2)+(x3<<6))varb2=(x1<<4)-(x3<<4)varb3=REDS1((x1<<6)+(x3<<2))"+ \
        ''.join(f"{d}_{k}=a{k}+b{k}" for k in range(4))+''.join(f"{d}_{k+4}=a{k}-b{k}" for k in range(4))+'}'
    e=half('d1',idx1)+half('d2',idx2)
    for k in range(16):
        t=f"d2_{k%8}" if k%8==0 else f"(d2_{k%8}<<{k%8})"
        e+=f"q[{qo}+{k}]=d1_{k%8}{'+' if k<8 else '-'}{t}"
    return e
n256=norm(s256); n512=norm(s512)
assert fft16('xb',['','2*xd','4*xd','6*xd'],['xd','3*xd','5*xd','7*xd'],'qoff') in n256
assert fft16('xb+xs',['','2*xd','4*xd','6*xd'],['xd','3*xd','5*xd','7*xd'],'qoff+16') in n256
for b,q1,sh in (('xb','qoff',0),('xb','qoff+16',1),('xb+xs','qoff+32',0),('xb+xs','qoff+32+16',1),):
    alts=[fft16(b,[f"{sh+4*k}*xd" for k in range(4)],[f"{sh+2+4*k}*xd" for k in range(4)],q) for q in (q1,'('+q1+')','(qoff+32)+16','qoff+48')]
    assert any(a in n512 for a in alts),(b,q1)
# the words
def words(src,n,tab,sh):
    c=norm(src)
    for r,(a,b,mm) in enumerate([(0,1,185),(0,1,185),(-32*n,-16*n,233),(-48*n+1,-32*n+1,233)]):
        e=f"foru:=0;u<{8*n};u+={n}{{varv={tab}[(u>>{sh})+{8*r}]"
        for k in range(n):
            fa,fb=(f"{a}",f"{b}") if a>=0 or n==4 else (f"({a})",f"({b})")
            o=f"(uint32((q[v+2*{k}+{fa}])*{mm})&0xFFFF)+(uint32((q[v+2*{k}+{fb}])*{mm})<<16)"
            e+=f"w[u+{k}]="+(f"({o})" if n==4 else o)
        e+='}'+norm('d.oneRound(%d, %s)'%([0,2,1,0][r] if n==4 else r,['3,23,17,27','28,19,22,7','29,9,15,5','4,13,10,25'][r]))
        assert e in c,(n,r,e[:300])
words(s256,4,'wsp256',2); words(s512,8,'wbp512',3)
print('ok')
