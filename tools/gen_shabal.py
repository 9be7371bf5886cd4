# Generates lean/Verif/Model/ShabalTables.lean from /repo/shabal.
import re
g=open('/repo/shabal/digest.go').read()
L=g.split('\n')
core=g[g.index('func (d *digest) core'):]
H=lambda c:int(c,16)
# message words and the first additions
mi=re.findall(r'var M(.) = getu32\(data\[off \+ +(\d+):\]\)\n +B(.) \+= M(.)\n +B(.) = \(B(.) << (\d+)\) \| \(B(.) >> (\d+)\)',core)
assert len(mi)==16
load=[]
for i,x in enumerate(mi):
    assert x[0]==x[3] and x[2]==x[4]==x[5]==x[7]
    load.append((H(x[0]),int(x[1]),H(x[2]),int(x[6]),int(x[8])))
st=re.findall(r'A(.) = \(\(A(.) \^ \(\(\(A(.) << (\d+)\) \| \(A(.) >> (\d+)\)\) \* (\d+)\) \^ C(.)\) \* (\d+)\) \^ B(.) \^ \(B(.) & \^B(.)\) \^ M(.)\n +B(.) = \^\(\(B(.) << (\d+)\) \| \(B(.) >> (\d+)\)\) \^ A(.)',core)
assert len(st)==48
steps=[]
for x in st:
    assert x[0]==x[1]==x[18] and x[2]==x[4] and x[3]=='15' and x[5]=='17' and x[6]=='5' and x[8]=='3' and x[13]==x[14]==x[16] and x[15]=='1' and x[17]=='31'
    steps.append((H(x[0]),H(x[2]),H(x[7]),H(x[9]),H(x[10]),H(x[11]),H(x[12]),H(x[13])))
ad=re.findall(r'A(.) \+= C(.) \+ C(.) \+ C(.)',core); assert len(ad)==12
adds=[tuple(map(H,x)) for x in ad]
sw=re.findall(r'tmp = B(.); B(.) = C(.) - M(.); C(.) = tmp',core); assert len(sw)==16
assert all(len(set(x))==1 for x in sw) and [H(x[0]) for x in sw]==list(range(16))
s=open('/repo/shabal/sbox.go').read()
ivs={}
for n in (192,224,256,384,512):
    i=s.index('var iv%d '%n); ivs[n]=re.findall(r'0x([0-9A-Fa-f]{8})',s[i:s.index('}\n',i)]); assert len(ivs[n])==44
def tl(l): return '[\n  '+',\n  '.join('('+', '.join(map(str,x))+')' for x in l)+']'
o='''import Verif.Basic
/-
Generated by tools/gen_shabal.py from shabal/digest.go and shabal/sbox.go: the indices in the unrolled statements of core, and the initial states.
-/
namespace Verif.Shabal

/-- digest.go:235-282: "M_m = getu32(data[off + o:]); B_b += M_m; B_b = (B_b << l) | (B_b >> r)": (m, o, b, l, r) -/
def loadTab : List (Nat × Nat × Nat × Nat × Nat) := %s
/-- digest.go:289-384: "A_a = ((A_a ^ (((A_p << 15) | (A_p >> 17)) * 5) ^ C_c) * 3) ^ B_x ^ (B_y & ^B_z) ^ M_m; B_b = ^((B_b << 1) | (B_b >> 31)) ^ A_a": (a, p, c, x, y, z, m, b) -/
def stepTab : List (Nat × Nat × Nat × Nat × Nat × Nat × Nat × Nat) := %s
/-- digest.go:386-397: "A_a += C_x + C_y + C_z" -/
def addTab : List (Nat × Nat × Nat × Nat) := %s
''' % (tl(load),tl(steps),tl(adds))
for n in ivs:
    o+='/-- sbox.go, iv%d -/\ndef iv%d : List U32 := [%s]\n'%(n,n,', '.join('0x'+x for x in ivs[n]))
o+='\nend Verif.Shabal\n'
open('/verif/lean/Verif/Model/ShabalTables.lean','w').write(o)
