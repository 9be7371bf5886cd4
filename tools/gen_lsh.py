import re
def raw(f,name):
    s=open(f).read(); i=re.search(r'\b'+name+r'\b\s*=',s).start(); j=s.index('{',i); k=s.index('}',j)
    l0=s[:i].count('\n')+1; l1=s[:k].count('\n')+1
    return re.findall(r'0x[0-9a-fA-F]+|\d+',s[j:k]),l0,l1
out='''import Verif.HashAPI
/-
The tables of packages lsh256 and lsh512 (generated from /repo/lsh256/sbox.go and /repo/lsh512/sbox.go by tools/gen_lsh.py).
-/
namespace Verif.LSH
'''
def emit(name,f,go,ty):
    global out
    v,a,b=raw('/repo/'+f,go)
    out+=f'\n/-- {f}:{a}-{b} -/\ndef {name} : List {ty} := ['
    out+=',\n  '.join(', '.join(v[i:i+8]) for i in range(0,len(v),8))+']\n'
f='lsh256/sbox.go'
for n in ['iv224','iv256']: emit('l256_'+n,f,n,'U32')
emit('l256_step',f,'step','U32'); emit('l256_gamma',f,'gamma','Nat')
f='lsh512/sbox.go'
for n in ['iv224','iv256','iv384','iv512']: emit('l512_'+n,f,n,'U64')
emit('l512_step',f,'step','U64'); emit('l512_gamma',f,'gamma','Nat')
out+='\nend Verif.LSH\n'
open('/verif/lean/Verif/Model/LSHTables.lean','w').write(out)
