"""Transcribes skein512/block.go and skeins/digest256.go, skeins/digest512.go into instruction lists.
Every statement read is checked against an exact shape."""
import re,sys
def parse(fn,start,end,var,kre,tre,rotop):
    src=open(fn).read().split('\n')
    res=[];k=start-1
    while k<end:
        l=src[k].strip()
        if not l: k+=1; continue
        m=re.fullmatch(var+r'(\d+) \+= '+kre+r'(?: \+ '+tre+r')?',l)
        if m:
            d=m.groupdict()
            kk=[d[x] for x in ('k1','k2') if d.get(x) is not None]
            ki=int(kk[0]) + (1 if d.get('one') else 0)
            t='none';c='none'
            if d.get('t') is not None: t=f"(some {d['t']})"
            if d.get('c') is not None: c=f"(some {int(d['c'])})"
            if d.get('s') is not None: c=f"(some {1 if '+ 1' in d['s'] else 0})"
            res.append(f".keyAbs {m[1]} {ki} {t} {c}"); k+=1; continue
        m=re.fullmatch(var+r'(\d+) \+= '+var+r'(\d+)',l)
        if m:
            a,b=m[1],m[2]
            l2=src[k+1].strip()
            m2=re.fullmatch(var+r'(\d+) = '+rotop+r' \^ '+var+r'(\d+)',l2)
            assert m2 and m2[1]==m2[2]==m2[4]==b and m2[6]==a and m2[3]==m2[5],(k,l,l2)
            res.append(f".mix {a} {b} {m2[3]}"); k+=2; continue
        raise Exception((fn,k+1,l))
    return res
def emit(name,doc,l):
    o=[f"/-- {doc} -/",f"def {name} : List Instr := ["]
    for i in range(0,len(l),4): o.append("  "+", ".join(l[i:i+4])+("," if i+4<len(l) else "]"))
    return "\n".join(o)+"\n"
def lines(fn,pat):
    return [i+1 for i,l in enumerate(open(fn).read().split('\n')) if re.search(pat,l)]
f='/repo/skein512/block.go'
a=lines(f,r't2 := ')[0]+1; b=lines(f,r'dst\[0\] = ')[0]-1
# t2 is tweak word 2, k8 key word 8
import tempfile,os
def rewritten(fn,subs):
    s=open(fn).read()
    for p,q in subs: s=re.sub(p,q,s)
    t=tempfile.NamedTemporaryFile('w',delete=False); t.write(s); t.close(); return t.name
g=rewritten(f,[(r'\bt2\b(?! :=)','t[2]'),(r'\bk8\b(?! :=)','k[8]')])
l=parse(g,a,b,'x',r'k\[(?P<k1>\d+)\]',r'(?:t\[(?P<t>\d)\]|(?P<c>\d+))',r'\(x(\d+)<<(\d+) \| x(\d+)>>\(64-(\d+)\)\)')
A=emit('block512',f'The body of `block` (skein512/block.go:{a}-{b}); key word 8 is `k8`, tweak word 2 is `t2`.',l)
f='/repo/skeins/digest256.go'
a=lines(f,r'var t2 = ')[0]+1; b=lines(f,r'd\.s\[0\] = m0')[0]-1
l=parse(f,a,b,'p',r'h(?P<k1>\d+)',r'(?:t(?P<t>\d)|(?P<c>\d+))',r'\(p(\d+) << (\d+)\) \^ \(p(\d+) >> \(64 - (\d+)\)\)')
B=emit('ubi256',f'The body of `ubi` (skeins/digest256.go:{a}-{b}).',l)
f='/repo/skeins/digest512.go'
a=lines(f,r's := u << 1')[0]+1; e=lines(f,r'var tmp = t2')[0]-1; b=lines(f,r'p0 \+= h\[s \+ 1 \+ 0\]')[0]
kre=r'h\[s \+ (?P<one>1 \+ )?(?P<k1>\d+)\]'; tre=r'(?:t(?P<t>\d)|(?P<s>uint64\(s\)(?: \+ 1)?)|(?P<c>\d+))'
rot=r'\(p(\d+) << (\d+)\) \^ \(p(\d+) >> \(64 - (\d+)\)\)'
print(open(f).read().split('\n')[b-1:b+8],file=sys.stderr)
CA=emit('ubi512A',f'The first half of the loop body of `ubi` (skeins/digest512.go:{a}-{b-1}); `.keyAbs w k t c` stands for `p_w += h[s+k] + t_t + uint64(s+c)`.',parse(f,a,b-1,'p',kre,tre,rot))
CB=emit('ubi512B',f'The second half of the loop body of `ubi` (skeins/digest512.go:{b}-{e}).',parse(f,b,e,'p',kre,tre,rot))
a=lines(f,r'p0 \+= h\[18 \+ 0\]')[0]; e=lines(f,r'h\[0\] = m0')[0]-1
kre=r'h\[18 \+ (?P<k1>\d+)\]'
r=parse(f,a,e,'p',kre,tre,rot)
assert r[-1]=='.keyAbs 7 7 none (some 18)'; r[-1]='.keyAbs 7 7 none (some 0)'
CF=emit('ubi512Fin',f'After the loop (skeins/digest512.go:{a}-{e}); as above with `s = 18`.',r)
open('/root/work/gen/skein512_lists.txt','w').write(A)
open('/root/work/gen/skeins_lists.txt','w').write(B+"\n"+CA+"\n"+CB+"\n"+CF)
