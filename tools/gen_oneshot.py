# (name, gofile:lines, kind copy|slice, size, impl, ctor (Option?), props-hyp proof, spec fn, length proof, hyps)
F=[]
def f(name,cite,kind,size,impl,ctor,opt,run,H,ln,hyp='',ty=None,args=''):
    F.append((name,cite,kind,size,impl,ctor,opt,run,H,ln,hyp,args))
R=lambda t: f"{t} [.write m, .sum []]"
f('md2Sum','md2/md2.go:13-20','copy',16,'MD2.impl','MD2.new',0,R('C03_md2_refines'),'Spec.MD2.hash','DigestLen.md2')
f('sm3Sum','sm3/sm3.go:13-20','copy',32,'SM3.impl','SM3.new',0,R('C01_sm3_refines'),'Spec.SM3.hash','DigestLen.sm3')
f('sha0Sum','sha0/sha0.go:13-20','copy',20,'SHA0.impl','SHA0.new',0,R('C05_sha0_refines'),'Spec.SHA0.hash','DigestLen.sha0')
f('has160Sum','has160/has160.go:13-21 (`var h digest; h.Reset()` is what `New` does)','copy',20,'HAS160.impl','HAS160.new',0,R('C06_has160_refines'),'Spec.HAS160.hash','DigestLen.has160')
for n,s,l in((128,16,'12-19'),(160,20,'30-37'),(256,32,'47-54'),(320,40,'64-71')):
    f(f'ripemdSum{n}',f'ripemd/ripemd.go:{l}','copy',s,f'RIPEMD.impl{n}',f'RIPEMD.new{n}',0,R(f'C07_ripemd{n}_refines'),f'Spec.RIPEMD.hash{n}',f'DigestLen.ripemd{n}')
f('panamaSum','panama/panama.go:13-20','copy',32,'Panama.impl','Panama.reset',0,R('C50_panama'),'Spec.Panama.hash','DigestLen.panama')
for n,l,b in((32,'18-25',156),(64,'28-35',312)):
    f(f'radioGatunSum{n}',f'radio_gatun/radio_gatun.go:{l}','copy',32,f'(RadioGatun.impl RadioGatun.pkg{n})',f'(RadioGatun.reset RadioGatun.pkg{n})',0,R(f'C50_radio_gatun{n}'),f'(Spec.RadioGatun.hash Spec.RadioGatun.rg{n})',f'DigestLen.radioGatun{n}')
f('beltSum','belt/belt.go:18-25','slice',32,'Belt.impl','Belt.new',0,R('C49_belt_contract'),'Spec.Belt.hash','DigestLen.belt')
for n,l in((256,'18-25'),(224,'42-49')):
    f('blake256Sum' if n==256 else 'blake256Sum224',f'blake256/blake256.go:{l}','copy',n//8,f'(BLAKE256.impl {n} BLAKE256.iv{n})',f'(BLAKE256.new BLAKE256.iv{n})',0,R(f'C09_blake{n}_refines'),f'(Spec.BLAKE.blake{n} [0, 0, 0, 0])',f'(DigestLen.blake{n} _)')
for n,l in((512,'18-25'),(384,'42-49')):
    f('blake512Sum' if n==512 else 'blake512Sum384',f'blake512/blake512.go:{l}','copy',n//8,f'(BLAKE512.impl {n//8} BLAKE512.iv{n})',f'(BLAKE512.new BLAKE512.iv{n})',0,R(f'C10_blake{n}_refines'),f'(Spec.BLAKE.blake{n} [0, 0, 0, 0])',f'(DigestLen.blake{n} _)')
for n,l in((192,'21-28'),(224,'39-46'),(256,'57-64'),(384,'75-82'),(512,'93-100')):
    f(f'shabalSum{n}',f'shabal/shabal.go:{l}','copy',n//8,'Shabal.impl',f'Shabal.newDigest {n}',1,f"C50_shabal {n//32} (by decide) (by decide)",f'(Spec.Shabal.hash {n})',f'(fun m => DigestLen.shabal {n//32} (by decide) m)')
for n,l in((224,'26-33'),(256,'44-51'),(384,'62-69'),(512,'80-87')):
    f(f'echoSum{n}',f'echo/echo.go:{l}','slice',n//8,'Echo.impl',f'Echo.newDigest {n} []',1,f"C50_echo {n//8} (by decide) (by decide) [] (Or.inl rfl)",f'(Spec.Echo.hash {n//8} (zeros 16))',f'(echo_hash_length {n//8} (by decide) (by decide))')
for n,l in((224,'32-39'),(256,'42-49'),(384,'52-59'),(512,'62-69')):
    f(f'groestlSum{n}',f'groestl/groestl.go:{l}','slice',n//8,'Groestl.impl',f'Groestl.new {n}',1,f"C37_groestl_contract_partial {n} (by decide) (by decide) (by decide)",f'(Spec.Groestl.hash {n})',f'(DigestLen.groestl {n} (by decide))','fits60')
i=0
for n in (128,160,192,224,256):
    for p,l in zip((3,4,5),({128:('26-33','36-43','46-53'),160:('76-83','86-93','96-103'),192:('126-133','136-143','146-153'),224:('176-183','186-193','196-203'),256:('226-233','236-243','246-253')})[n]):
        hn={128:'Or.inl rfl',160:'Or.inr (Or.inl rfl)',192:'Or.inr (Or.inr (Or.inl rfl))',224:'Or.inr (Or.inr (Or.inr (Or.inl rfl)))',256:'Or.inr (Or.inr (Or.inr (Or.inr rfl)))'}[n]
        hp={3:'Or.inl rfl',4:'Or.inr (Or.inl rfl)',5:'Or.inr (Or.inr rfl)'}[p]
        f(f'havalSum{n}_{p}',f'haval/haval.go:{l}','copy',n//8,'Haval.impl',f'Haval.newDigest {n} {p}',1,f"C55_haval_contract {p} {n} ({hp}) ({hn})",f'(Spec.Haval.hash {p} {n})',f'(DigestLen.haval {p} {n} ({hn}))')
for v,r,sizes in (('HS','16, 16, 32',((512,'77-84'),(384,'87-94'),(256,'97-104'),(224,'107-114'),(192,'117-124'),(160,'127-134'),(128,'137-144'))),('SH','16, 160, 160',((512,'149-156'),(256,'159-166'),(224,'169-176'),(192,'179-186')))):
    for n,l in sizes:
        P=f'⟨{n}, 32, {r}⟩'
        f(f'cubehashSum{v}{n}',f'cubehash/cubehash.go:{l}','copy',n//8,'CubeHash.impl',f'(CubeHash.new {n} 32 {r.replace(",","")})',0,R(f'C48_cubehash_contract_partial {P} ⟨by decide, by decide, by decide, by decide, by decide⟩'),f'(Spec.CubeHash.hash {P})',f'(DigestLen.cubehash {P} (by decide))')
for n,l in((224,'13-20'),(256,'30-37'),(384,'47-54'),(512,'64-71')):
    hz={224:'Or.inl rfl',256:'Or.inr (Or.inl rfl)',384:'Or.inr (Or.inr (Or.inl rfl))',512:'Or.inr (Or.inr (Or.inr rfl))'}[n]
    f(f'jh2Sum{n}',f'jh2/jh2.go:{l}','copy',n//8,'JH2.impl',f'(JH2.new {n//8})',0,f"C38_jh2_contract {n//8} ({hz})",f'(Spec.JH.hash {n//8})',f'(DigestLen.jh {n//8} (by decide))','fits64')
for nm,T,V,thm,l in (('whirlpoolSum','tables','final','C32_whirlpool_contract','13-20'),('whirlpoolSum0','tables0','version0','C32_whirlpool0_contract','30-37'),('whirlpoolSum1','tables1','versionT','C32_whirlpoolT_contract','47-54')):
    f(nm,f'whirlpool/whirlpool.go:{l}','copy',64,f'(Whirlpool.impl Whirlpool.{T})','Whirlpool.reset',0,thm,f'(Spec.Whirlpool.hash Spec.Whirlpool.{V})','(DigestLen.whirlpool _)','short')
for n,l,k in ((256,'21-28',2),(384,'39-46',3)):
    pass
imports_model="MD2 SM3 SHA0 HAS160 RIPEMD Panama RadioGatun Belt BLAKE256 BLAKE512 Shabal Echo Groestl Haval CubeHash JH1 JH2 Whirlpool Esch K12 BLAKE3 FSB Streebog Skeins".split()
M=''.join(f'import Verif.Model.{x}\n' for x in imports_model)
M+='''import Verif.HashAPI
/-
The one-shot functions: `h := New...(); h.Write(data); sum := h.Sum(nil)` and then either `copy(out[:], sum)`
or `copy(out[:], sum[:n])` into an array of `n` bytes.  (The definitions of single functions are generated from a table.)
-/
namespace Verif.OneShot

/-- The three calls every one-shot function starts with, for instance sm3/sm3.go:14-16; a nil object (a constructor
that failed and whose error was dropped) panics. -/
def calls {σ} (I : HashImpl σ) (h : Option σ) (data : Bytes) : Option Bytes := do
  let h ← h
  let (h, _) ← I.write h data
  let (_, sum) ← I.sum h []
  some sum

/-- `copy(out[:], sum)` into an array of n bytes, for instance sm3/sm3.go:18. -/
def sumCopy {σ} (I : HashImpl σ) (n : Nat) (h : Option σ) (data : Bytes) : Option Bytes :=
  (calls I h data).map fun sum => goCopy (zeros n) 0 sum

/-- `copy(out[:], sum[:n])`, for instance belt/belt.go:23.  Simplification: `sum[:n]` panics here when n is more than the
length of `sum`; in Go it panics when n is more than the capacity. -/
def sumSlice {σ} (I : HashImpl σ) (n : Nat) (h : Option σ) (data : Bytes) : Option Bytes :=
  (calls I h data).bind fun sum => if n ≤ sum.length then some (goCopy (zeros n) 0 (sum.take n)) else none

'''
for (name,cite,kind,size,impl,ctor,opt,run,H,ln,hyp,args) in F:
    c=f'({ctor})' if opt else f'(some {ctor})'
    M+=f'/-- {cite} -/\ndef {name} (data : Bytes) : Option Bytes := {"sumCopy" if kind=="copy" else "sumSlice"} {impl} {size} {c} data\n'
M+='''
/-- jh/jh.go:13-21 (`var h digest; h.Reset()` is what `New` does); `spare` is the memory behind the slice the caller passes. -/
def jhSum (spare : Bytes → Bytes) (data : Bytes) : Option Bytes := sumCopy (JH1.impl spare) 32 (some JH1.new) data
/-- streebog/streebog.go:25-32 -/
def streebogSum256 (data : Bytes) : Option Bytes := sumSlice Streebog.impl 32 (Streebog.new 256) data
/-- streebog/streebog.go:35-42 -/
def streebogSum512 (data : Bytes) : Option Bytes := sumSlice Streebog.impl 64 (Streebog.new 512) data
/-- skeins/skeins.go:35-42 -/
def skeinsSum224 (data : Bytes) : Option Bytes := sumCopy (Skeins.impl Skeins.code512) 28 (some Skeins.new224) data
/-- skeins/skeins.go:45-52 -/
def skeinsSum256 (data : Bytes) : Option Bytes := sumCopy (Skeins.impl Skeins.code512) 32 (some Skeins.new256) data
/-- skeins/skeins.go:55-62 -/
def skeinsSum384 (data : Bytes) : Option Bytes := sumCopy (Skeins.impl Skeins.code512) 48 (some Skeins.new384) data
/-- skeins/skeins.go:65-72 -/
def skeinsSum512 (data : Bytes) : Option Bytes := sumCopy (Skeins.impl Skeins.code512) 64 (some Skeins.new512) data
/-- esch/esch.go:21-28 -/
def eschSum256 (data : Bytes) : Option Bytes := sumSlice (Esch.impl 256) 32 (Esch.new 256) data
/-- esch/esch.go:39-46 -/
def eschSum384 (data : Bytes) : Option Bytes := sumSlice (Esch.impl 384) 48 (Esch.new 384) data
/-- k12/k12.go:12-19 -/
def k12Sum (customString data : Bytes) : Option Bytes := sumCopy K12.impl 32 (some (K12.newDigest customString 32)) data
/-- k12/k12.go:29-35 -/
def k12SumWithSize (customString data : Bytes) (hashSize : Int) : Option Bytes := calls K12.impl (some (K12.newDigest customString hashSize)) data
/-- blake3/blake3.go:57-64 -/
def blake3Sum (data : Bytes) : Option Bytes := sumCopy BLAKE3.impl 32 (some BLAKE3.New) data
/-- blake3/blake3.go:67-78; the inner `none` is the error, the outer one a panic. -/
def blake3SumWithKeyed (data key : Bytes) : Option (Option Bytes) :=
  match BLAKE3.NewWithKeyedAndSize key 32 with
  | none => some none
  | some d => (sumCopy BLAKE3.impl 32 (some d) data).map some
/-- blake3/blake3.go:81-88 -/
def blake3SumWithDeriveKey (data context : Bytes) : Option Bytes := sumCopy BLAKE3.impl 32 (BLAKE3.NewWithDeriveKeyAndSize context 32) data
/-- fsb/fsb.go:22-32; the inner `none` is the error, the outer one a panic.  `pi` is the table of the digits of π. -/
def fsbSum (pi : Nat → Byte) (data : Bytes) (hashbitlen : Int) : Option (Option Bytes) :=
  match FSB.new hashbitlen with
  | none => some none
  | some c => (calls (FSB.impl pi c) (some (FSB.reset c)) data).map some
/-- fsb/fsb.go:43-50, 61-68, 79-86, 97-104, 115-122: Sum160 … Sum512 with their array of `size` bytes. -/
def fsbSumN (pi : Nat → Byte) (hashbitlen : Int) (size : Nat) (data : Bytes) : Option Bytes :=
  (FSB.new hashbitlen).bind fun c => sumSlice (FSB.impl pi c) size (some (FSB.reset c)) data

end Verif.OneShot
'''
open('/verif/lean/Verif/Model/OneShot.lean','w').write(M)
T=''
for (name,cite,kind,size,impl,ctor,opt,run,H,ln,hyp,args) in F:
    lem='copy' if kind=='copy' else 'slice'
    hy={'':'','fits60':' (hm : m.length < 2 ^ 60)','fits64':' (hm : m.length < 2 ^ 64)','short':' (hm : m.length < 2 ^ 60)'}[hyp]
    T+=f'theorem C126_{name} (m : Bytes){hy} : {name} m = some ({H} m) := by\n'
    T+=f'  unfold {name}\n'
    if name.startswith('shabal'):
        k=size*8//32
        T+=f'  exact shabal_one {k} (by decide) (by decide) {size*8} {size*8} {size} rfl rfl rfl m\n\n'
        continue
    if opt:
        T+=f'  obtain ⟨d, hd, h⟩ := {run}\n  have h := h [.write m, .sum []]'
        if hyp.startswith('fits'): T+=' (fits_one hm)'
        T+='\n'
        T+=f'  exact {lem}_of (H := {H}) hd h rfl ({ln} m)\n\n'
    else:
        r=run
        if hyp.startswith('fits'): r=f'{run} [.write m, .sum []] (fits_one hm)'
        if hyp=='short': r=f'{run} [.write m, .sum []] (short_one hm)'
        T+=f'  exact {lem}_of (H := {H}) rfl ({r}) ({"by rw [md2Spec]" if name=="md2Sum" else "by rfl"}) ({ln} m)\n\n'
open('/root/work/oneshot_thms.txt','w').write(T)
