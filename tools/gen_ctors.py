out=[]
w=out.append
w('''import Verif.Model.CubeHash
import Verif.Model.Haval
import Verif.Model.Shabal
import Verif.Model.Echo
import Verif.Model.Groestl
import Verif.Model.Tiger
import Verif.Model.MD6
import Verif.Model.SipHash
import Verif.Model.Chaskey
import Verif.Model.FSB
import Verif.Model.Skein512
import Verif.HashAPI
/-
The exported constructors that name a variant and pass its parameters on (cubehash, haval, shabal, echo, groestl, tiger, md6, siphash, chaskey, fsb,
skein512).  (The definitions of single constructors are generated from a table.)
-/
namespace Verif.Ctors

/-- A hash.Hash: a state together with its methods. -/
structure Obj where
  σ : Type
  I : HashImpl σ
  d : σ

/-- `h, _ := newDigest(...); return h`, for instance haval/haval.go:8-11; `none` is the nil pointer, all whose methods panic. -/
def dropError {σ} (I : HashImpl σ) (h : Option σ) : Option Obj := h.map fun d => ⟨σ, I, d⟩
''')
def d(cite,name,body,args=''): w('/-- %s -/\ndef %s%s : Option Obj := %s'%(cite,name,args,body))
cb=lambda a:'some ⟨_, CubeHash.impl, CubeHash.new %s⟩'%a
for n,l,a in [('HS512x',13,'512 1 16 16 32'),('HS512',18,'512 32 16 16 32'),('HS384',23,'384 32 16 16 32'),('HS256',28,'256 32 16 16 32'),('HS224',33,'224 32 16 16 32'),('HS192',38,'192 32 16 16 32'),('HS160',43,'160 32 16 16 32'),('HS128',48,'128 32 16 16 32'),('SH512',55,'512 32 16 160 160'),('SH256',60,'256 32 16 160 160'),('SH224',65,'224 32 16 160 160'),('SH192',70,'192 32 16 160 160')]:
    d('cubehash/cubehash.go:%d-%d, 8-10'%(l,l+2),'cubehashNew'+n,cb(a))
l={128:8,160:58,192:108,224:158,256:208}
for s in l:
    for k,p in enumerate((3,4,5)):
        d('haval/haval.go:%d-%d'%(l[s]+6*k,l[s]+6*k+3),'havalNew%d_%d'%(s,p),'dropError Haval.impl (Haval.newDigest %d %d)'%(s,p))
for s,ln in zip((192,224,256,384,512),(15,33,51,69,87)):
    d('shabal/shabal.go:%d-%d'%(ln,ln+3),'shabalNew%d'%s,'dropError Shabal.impl (Shabal.newDigest %d)'%s)
for s,ln in zip((224,256,384,512),(20,38,56,74)):
    d('echo/echo.go:%d-%d, 8-15'%(ln,ln+3),'echoNew%d'%s,'dropError Echo.impl (Echo.newDigest %d [])'%s)
for s,ln in zip((224,256,384,512),(8,14,20,26)):
    d('groestl/groestl.go:%d-%d'%(ln,ln+3),'groestlNew%d'%s,'dropError Groestl.impl (Groestl.new %d)'%s)
for n,s,v,ln in [('New',24,1,8),('New2',24,2,13),('New160',20,1,20),('New2_160',20,2,25),('New128',16,1,32),('New2_128',16,2,37)]:
    d('tiger/tiger.go:%d-%d'%(ln,ln+2),'tiger'+n,'some ⟨_, Tiger.impl %d %d, Tiger.new⟩'%(s,v))
for s,ln in zip((224,256,384,512),(8,13,18,23)):
    d('md6/md6.go:%d-%d, 28-30'%(ln,ln+2),'md6New%d'%s,'some ⟨_, MD6.impl, MD6.newDigest %d [] 64⟩'%s)
d('md6/md6.go:33-35','md6NewWithKey','some ⟨_, MD6.impl, MD6.newDigest size key 64⟩',' (size : Nat) (key : Bytes)')
for n,s,ln in [('New','0',8),('New64','8',14),('New128','16',20),]:
    d('siphash/siphash.go:%d-%d, 32-34'%(ln,ln+3),'siphash'+n,'dropError (SipHash.impl 0 0 %s) (SipHash.new k %s)'%(s,s),' (k : Bytes)')
d('siphash/siphash.go:26-29, 32-34','siphashNewWithHashSize','dropError (SipHash.impl 0 0 hashSize) (SipHash.new k hashSize)',' (k : Bytes) (hashSize : Int)')
for n,r,ln in [('New',8,18),('New12',12,23)]:
    d('chaskey/chaskey.go:%d-%d; `none` is also the error'%(ln,ln+2),'chaskey'+n,'dropError Chaskey.impl (Chaskey.new key %d)'%r,' (key : Bytes)')
for s,ln in zip((160,224,256,384,512),(37,55,73,91,109)):
    d('fsb/fsb.go:%d-%d, 17-19'%(ln,ln+3),'fsbNew%d'%s,'(FSB.new %d).map fun c => ⟨_, FSB.impl pi c, FSB.reset c⟩'%s,' (pi : Nat → Byte)')
for s,b,ln in zip((224,256,384,512),(28,32,48,64),(17,22,27,32)):
    d('skein512/skein.go:%d-%d, 12-14'%(ln,ln+2),'skein512NewHash%d'%s,'some ⟨_, Skein512.impl, Skein512.new %d {}⟩'%b)
w('\nend Verif.Ctors')
open('/verif/lean/Verif/Model/Ctors.lean','w').write('\n'.join(out)+'\n')
