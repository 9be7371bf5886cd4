import re
def lines(f, name):
    src=open('/repo/hash/'+f).read().split('\n')
    for i,l in enumerate(src):
        if l.startswith('func (this Hash) %s('%name):
            j=i
            while src[j]!='}': j+=1
            return f'hash/{f}:{i+1}-{j+1}'
    raise Exception(name)
# (Name, file, params(model), args, impl, obj, kind, H, hyp, proof(refinesOn: P), P)
R='R'  # Refines
E=[]
def add(*a): E.append(a)
def ref(n): return (None, n)
#      name, file, binders, args, impl, obj(Option), newkind, H, (bound or None), proof, ctor comment
add('MD2','md2.go','','','MD2.impl','some MD2.new','p','Spec.MD2.hash',None,'C03_md2_refines')
add('SM3','sm3.go','','','SM3.impl','some SM3.new','p','Spec.SM3.hash',None,'C01_sm3_refines')
add('HAS160','has160.go','','','HAS160.impl','some HAS160.new','p','Spec.HAS160.hash',None,'C06_has160_refines')
for k,n in (('256','256'),('224','224')):
    add('Blake'+k,'blake256.go','','',f'(BLAKE256.impl {k} BLAKE256.iv{k})',f'some (BLAKE256.new BLAKE256.iv{k})','p',f'Spec.BLAKE.blake{k} [0, 0, 0, 0]',None,f'C09_blake{k}_refines')
for k,n in (('512','64'),('384','48')):
    add('Blake'+k,'blake512.go','','',f'(BLAKE512.impl {n} BLAKE512.iv{k})',f'some (BLAKE512.new BLAKE512.iv{k})','p',f'Spec.BLAKE.blake{k} [0, 0, 0, 0]',None,f'C10_blake{k}_refines')
for nm,v,mk in (('Tiger',1,'0x01#8'),('Tiger2',2,'0x80#8')):
    add(nm,'tiger.go','','',f'(Tiger.impl 24 {v})','some Tiger.new','p',f'fun m => (Spec.Tiger.hash Tiger.boxes {mk} m).take 24',None,f'C08_tiger{"2" if v==2 else ""}_refines 24 (by decide)')
for nm,p,hs,w,b in (('LSH256',256,32,256,256),('LSH256_224',256,28,256,224),('LSH512',512,64,512,512),('LSH512_384',512,48,512,384),('LSH512_256',512,32,512,256),('LSH512_224',512,28,512,224)):
    add(nm,f'lsh{p}.go','','',f'(LSH.impl LSH.pkg{p})',f'some (LSH.reset LSH.pkg{p} {hs})','p',f'Spec.LSH.hash Spec.LSH.lsh{p} {b}',None,f'C31_{nm.lower()}_contract')
add('Murmur32','murmur3.go','','','(Murmur3.impl32 0)','some (Murmur3.new32 0)','p','fun m => be32 (Spec.Murmur3.x86_32 0 m)',None,'C13_murmur32_refines 0')
add('Murmur32WithSeed','murmur3.go','(seed : U32)','seed','(Murmur3.impl32 seed)','some (Murmur3.new32 seed)','p','fun m => be32 (Spec.Murmur3.x86_32 seed m)',None,'C13_murmur32_refines seed')
add('Murmur64','murmur3.go','','','(Murmur3.impl64 0)','some (Murmur3.new128 0)','p','fun m => be64 (Spec.Murmur3.x64_128 0 m).1',None,'C13_murmur64_partial 0')
add('Murmur64WithSeed','murmur3.go','(seed : U32)','seed','(Murmur3.impl64 seed)','some (Murmur3.new128 seed)','p','fun m => be64 (Spec.Murmur3.x64_128 seed m).1',None,'C13_murmur64_partial seed')
add('Murmur128','murmur3.go','','','(Murmur3.impl128 0)','some (Murmur3.new128 0)','p','fun m => be64 (Spec.Murmur3.x64_128 0 m).1 ++ be64 (Spec.Murmur3.x64_128 0 m).2',None,'C13_murmur128_refines 0')
add('Murmur128WithSeed','murmur3.go','(seed : U32)','seed','(Murmur3.impl128 seed)','some (Murmur3.new128 seed)','p','fun m => be64 (Spec.Murmur3.x64_128 seed m).1 ++ be64 (Spec.Murmur3.x64_128 seed m).2',None,'C13_murmur128_refines seed')
add('Xxhash32','xxhash.go','','','(XXHash32.impl 0)','some (XXHash32.new 0)','p','fun m => be32 (Spec.XXHash.xxh32 0 m)','fits 2 ^ 64','C12_xxh32_refines 0')
add('Xxhash64','xxhash.go','','','(XXHash64.impl 0)','some (XXHash64.new 0)','p','fun m => be64 (Spec.XXHash.xxh64 0 m)','fits 2 ^ 64','C12_xxh64_refines 0')
add('Whirlpool','whirlpool.go','','','(Whirlpool.impl Whirlpool.tables)','some Whirlpool.reset','p','Spec.Whirlpool.hash Spec.Whirlpool.final','short','C32_whirlpool_contract')
add('Gost341194','gost.go','(cipher : Bytes → Bytes → Bytes)','cipher','Gost94.impl','some (Gost94.new cipher)','p','Spec.Gost94.hash cipher','fits 2 ^ 61','C35_gost341194_contract cipher hE')
for nm,s in (('Gost34112012256',32),('Gost34112012512',64)):
    add(nm,'gost.go','','','Gost12.impl',f'Gost12.new {s}','o',f'Spec.Streebog.hash {s}','fits 2 ^ 61',f'C33_gost34112012 {s} _ rfl')
add('Gost34112012','gost.go','(size : Nat)','size','Gost12.impl','Gost12.new size','o','Spec.Streebog.hash size','fits 2 ^ 61','C33_gost34112012 size _ hd')
add('Rabin','rabin.go','(polynomial : U64) (window : Int)','polynomial window','Rabin.impl','(Rabin.newTable polynomial window).map Rabin.new','o','(rabinSpec polynomial window).H',None,'C21_rabin_refines polynomial window tab hd')
add('Siphash64','siphash.go','(k : Bytes)','k','(SipHash.impl 0 0 8)','SipHash.new k 8','n','Spec.SipHash.siphash 2 4 false k','noreset','C11_siphash_partial 0 0 8 k _ hd')
add('Siphash128','siphash.go','(k : Bytes)','k','(SipHash.impl 0 0 16)','SipHash.new k 16','n','Spec.SipHash.siphash 2 4 true k','noreset','C11_siphash_partial 0 0 16 k _ hd')
for n in (224,256,384,512):
    add(f'Echo{n}','echo.go','','','Echo.impl',f'Echo.newDigest {n} []','e',f'Spec.Echo.hash {n//8} (zeros 16)',None,f'ECHO')
add('JH','jh.go','(spare : Bytes → Bytes)','spare','(JH1.impl spare)','some JH1.new','p','Spec.JH.hash 32','fits 2 ^ 61','C38_jh_contract_partial spare hsp')
imps={'MD2':'MD2','SM3':'SM3'}
model='''import Verif.Model.Facade
import Verif.Model.MD2
import Verif.Model.SM3
import Verif.Model.HAS160
import Verif.Model.BLAKE256
import Verif.Model.BLAKE512
import Verif.Model.Tiger
import Verif.Model.LSH
import Verif.Model.Murmur3
import Verif.Model.XXHash
import Verif.Model.Whirlpool
import Verif.Model.Gost94
import Verif.Model.Gost12
import Verif.Model.Rabin
import Verif.Model.SipHash
import Verif.Model.Echo
import Verif.Model.JH1
/-
Model of the methods of the facade that name an algorithm of this module (hash/md2.go, sm3.go, ...).
Generated by `tools/gen_facade.py` (committed beside), one definition for each Go method.

A method `X` makes a digest object, writes the data and takes its sum; `NewX` stores a new digest
object.  A constructor's result is an `Option`: `none` is a panic, or a nil object whose first use
panics.  The methods for algorithms of the Go library and of golang.org/x/crypto are in FacadeStd.lean.
-/
namespace Verif.Facade

/-- `h := pkg.New(); h.Write(this.data); this.data = h.Sum(nil); return this` -/
def digestWith {σ τ} (I : HashImpl τ) (o : Option τ) (t : Facade σ) : Option (Facade σ) := do
  let h ← o
  let (h, _) ← I.write h t.data
  let (_, d) ← I.sum h []
  some { t with data := d }

/-- `this.hash = pkg.New(); return this` where `pkg.New` panics or succeeds. -/
def newWith {τ} (o : Option τ) (t : Facade τ) : Option (Facade τ) := do
  let h ← o
  some { t with hash := some h }

'''
names=[]
TY={}
for (n,f,b,a,I,o,k,H,P,pr) in E:
    b2=(' '+b) if b else ''
    m='m'+n
    model+=f'/-- {lines(f,n)} `{n}` -/\n'
    if k=='e':
        sz=int(n[4:])//8
        model+=f'''def m{n} {{σ}} (t : Facade σ) : Option (Facade σ) := do
  let u ← digestWith {I} ({o}) t
  if u.data.length < {sz} then none else some {{ u with data := u.data.take {sz} }}
'''
    else:
        model+=f'def m{n} {{σ}}{b2} (t : Facade σ) : Option (Facade σ) := digestWith {I} ({o}) t\n'
    model+=f'/-- {lines(f,"New"+n)} `New{n}`'+(' (a nil object is stored when the key is refused)' if k=='n' else '')+' -/\n'
    ns=I.strip('(').split('.')[0]
    ty={'LSH':'(LSH.Digest %s)'%('32' if 'pkg256' in I else '64'),'Murmur3':'(Murmur3.Digest %s)'%('U32' if 'impl32' in I else '(U64 × U64)')}.get(ns,ns+'.Digest')
    TY[n]=ty
    if k=='n':
        model+=f'def mNew{n}{b2} (t : Facade {ty}) : Option (Facade {ty}) := some {{ t with hash := {o} }}\n\n'
    else:
        model+=f'def mNew{n}{b2} (t : Facade {ty}) : Option (Facade {ty}) := newWith ({o}) t\n\n'
model+=f'''/-- {lines('siphash.go','SiphashWithCDroundsAndHashSize')} `SiphashWithCDroundsAndHashSize`; the rounds are the bit patterns of the
`int32` arguments, the only error is the refused key. -/
def mSiphashWith {{σ}} (k : Bytes) (crounds drounds : U32) (hashSize : Int) (t : Facade σ) : Option (Facade σ) :=
  match SipHash.new k hashSize with
  | none => some {{ t with err := some (.other 0) }}
  | some h => digestWith (SipHash.impl crounds drounds hashSize) (some h) t
/-- {lines('siphash.go','NewSiphashWithCDroundsAndHashSize')} `NewSiphashWithCDroundsAndHashSize` -/
def mNewSiphashWith (k : Bytes) (hashSize : Int) (t : Facade SipHash.Digest) : Option (Facade SipHash.Digest) :=
  match SipHash.new k hashSize with
  | none => some {{ t with hash := none, err := some (.other 0) }}
  | some h => some {{ t with hash := some h, err := none }}

end Verif.Facade
'''
open('/verif/lean/Verif/Model/FacadeAlgos.lean','w').write(model)
props='''import Verif.Model.FacadeAlgos
import Verif.Props.C51_Facade
import Verif.Props.C01_SM3
import Verif.Props.C03_MD2
import Verif.Props.C06_HAS160
import Verif.Props.C08_Tiger
import Verif.Props.C09_BLAKE256
import Verif.Props.C10_BLAKE512
import Verif.Props.C11_SipHash
import Verif.Props.C12_XXHash
import Verif.Props.C13_Murmur3
import Verif.Props.C21_Rabin
import Verif.Props.C31_LSH
import Verif.Props.C32_Whirlpool
import Verif.Props.C33_Streebog
import Verif.Props.C35_Gost94
import Verif.Props.C38_JH
import Verif.Props.C50_Echo
/-
C120: the facade's methods for the algorithms of this module compute those algorithms, and change
nothing but the data.  C121: so do the objects they install.
(The statements are generated by `tools/gen_facade.py`.)
-/
namespace Verif.Props
open Verif.Facade

theorem digestWith_of {σ τ} {I : HashImpl τ} {h₀ : τ} {S : HashSpec} {t : Facade σ} {H : Bytes → Bytes}
    (h : I.run h₀ [.write t.data, .sum []] = S.run [] [.write t.data, .sum []]) (hH : S.H = H) :
    digestWith I (some h₀) t = some { t with data := H t.data } := by
  simp only [HashImpl.run, HashSpec.run] at h
  unfold digestWith
  simp only [Option.bind_eq_bind, Option.bind_some]
  cases e : I.write h₀ t.data with
  | none => rw [e] at h; simp at h
  | some x =>
    obtain ⟨s', n⟩ := x
    rw [e] at h
    simp only [List.cons.injEq] at h
    obtain ⟨-, h⟩ := h
    simp only [Option.bind_some]
    cases e2 : I.sum s' [] with
    | none => rw [e2] at h; simp at h
    | some y =>
      obtain ⟨s2, r⟩ := y
      rw [e2] at h
      simp only [List.cons.injEq, Out.bytes.injEq, List.nil_append, and_true] at h
      simp only [Option.bind_some, h, hH]

/-- The calls `Write(p₁)...Write(pₙ).Sum(b)` on a facade value. -/
def writesThenSum {τ} (I : HashImpl τ) (ps : List Bytes) (b : Bytes) (t : Facade τ) : Option (Facade τ) :=
  chain I (fun _ => none) (ps.map .write ++ [.sum b]) t

theorem stream_of {τ} {I : HashImpl τ} {S : HashSpec} {h₀ : τ} {ps : List Bytes} {b : Bytes} {H : Bytes → Bytes} {t : Facade τ}
    (h : I.run h₀ (ps.map .write ++ [.sum b]) = S.run [] (ps.map .write ++ [.sum b]))
    (hH : S.H = H) :
    ∃ u, writesThenSum I ps b { t with hash := some h₀ } = some u ∧ u.data = b ++ H ps.flatten ∧ u.err = t.err := by
  have key : ∀ (ps : List Bytes) (s : τ) (m : Bytes) (t : Facade τ), t.hash = some s →
      I.run s (ps.map .write ++ [.sum b]) = S.run m (ps.map .write ++ [.sum b]) →
      ∃ u, writesThenSum I ps b t = some u ∧
        u.data = b ++ S.H (m ++ ps.flatten) ∧ u.err = t.err := by
    intro ps
    induction ps with
    | nil =>
      intro s m t ht h
      simp only [List.map_nil, List.nil_append, HashImpl.run, HashSpec.run] at h
      cases e : I.sum s b with
      | none => rw [e] at h; simp at h
      | some x =>
        obtain ⟨s', r⟩ := x
        rw [e] at h
        simp only [List.cons.injEq, Out.bytes.injEq, and_true] at h
        refine ⟨{ t with data := r, hash := some s' }, ?_, ?_, rfl⟩
        · simp only [writesThenSum, List.map_nil, List.nil_append, chain, Call.run, Option.bind_eq_bind, Option.bind_some, e, ht]
        · simp only [List.flatten_nil, List.append_nil, h]
    | cons p ps ih =>
      intro s m t ht h
      simp only [List.map_cons, List.cons_append, HashImpl.run, HashSpec.run] at h
      cases e : I.write s p with
      | none => rw [e] at h; simp at h
      | some x =>
        obtain ⟨s', n⟩ := x
        rw [e] at h
        simp only [List.cons.injEq] at h
        obtain ⟨u, hu, h1, h2⟩ := ih s' (m ++ p) { t with hash := some s' } rfl h.2
        refine ⟨u, ?_, ?_, h2⟩
        · simp only [writesThenSum, List.map_cons, List.cons_append, chain, Call.run, Option.bind_eq_bind, Option.bind_some, e, ht]
          exact hu
        · rw [h1, List.flatten_cons, List.append_assoc]
  obtain ⟨u, hu, h1, h2⟩ := key ps h₀ [] { t with hash := some h₀ } rfl h
  exact ⟨u, hu, by rw [h1, List.nil_append, hH], h2⟩

theorem msgAfter_writes (ps : List Bytes) (m : Bytes) (k : Nat) :
    msgAfter m ((ps.map Op.write).take k) = m ++ (ps.take k).flatten := by
  induction ps generalizing m k with
  | nil => simp [msgAfter]
  | cons p ps ih =>
    cases k with
    | zero => simp [msgAfter]
    | succ k => simp only [List.map_cons, List.take_succ_cons, msgAfter, ih, List.flatten_cons, List.append_assoc]

theorem take_flatten_le (ps : List Bytes) (k : Nat) : (ps.take k).flatten.length ≤ ps.flatten.length := by
  rw [← List.take_append_drop k ps]
  simp only [List.take_append_drop]
  conv => rhs; rw [← List.take_append_drop k ps, List.flatten_append, List.length_append]
  omega

theorem fits_writes {N : Nat} {ps : List Bytes} {b : Bytes} (h : ps.flatten.length < N) :
    Fits N (ps.map Op.write ++ [.sum b]) := by
  intro k
  by_cases hk : k ≤ ps.length
  · rw [List.take_append_of_le_length (by simpa using hk), msgAfter_writes]
    exact Nat.lt_of_le_of_lt (by simpa using take_flatten_le ps k) h
  · rw [List.take_of_length_le (by simp; omega)]
    have e : msgAfter [] (ps.map Op.write ++ [Op.sum b]) = msgAfter [] (ps.map Op.write) := by
      have : ∀ (ops : List Op) (m : Bytes), msgAfter m (ops ++ [Op.sum b]) = msgAfter m ops := by
        intro ops
        induction ops with
        | nil => intro m; rfl
        | cons o ops ih => intro m; cases o <;> simp only [List.cons_append, msgAfter, ih]
      exact this _ _
    rw [e]
    have := msgAfter_writes ps [] ps.length
    rw [List.take_of_length_le (by simp), List.take_of_length_le (Nat.le_refl _)] at this
    rw [this]
    simpa using h

theorem fits_one {N : Nat} {m b : Bytes} (h : m.length < N) : Fits N [.write m, .sum b] := by
  have := fits_writes (N := N) (ps := [m]) (b := b) (by simpa using h)
  exact this

theorem short_writes {ps : List Bytes} {b : Bytes} (h : ∀ p ∈ ps, p.length < 2 ^ 60) :
    ShortWrites (ps.map Op.write ++ [.sum b]) := by
  intro p hp
  simp only [List.mem_append, List.mem_map, Op.write.injEq, exists_eq_right, List.mem_singleton, reduceCtorEq, or_false] at hp
  exact h p hp

theorem noReset_writes {ps : List Bytes} {b : Bytes} : NoReset (ps.map Op.write ++ [.sum b]) := by
  intro h
  simp at h

theorem echo_hash_length (n : Nat) (h1 : 1 ≤ n) (h2 : n ≤ 64) (m : Bytes) : (Spec.Echo.hash n (zeros 16) m).length = n := by
  unfold Spec.Echo.hash
  rw [List.length_take]
  have hiv : n ≤ (Spec.Echo.iv n).length := by
    ECHOIV
  generalize (fullBlocks (Spec.Echo.blockLen n) (Spec.Echo.pad n m)).zipIdx = l
  have : ∀ (l : List (Bytes × Nat)) (V : Bytes), n ≤ V.length →
      n ≤ (l.foldl (fun V b => Spec.Echo.compress n (zeros 16) V b.1 (Spec.Echo.counter n m b.2)) V).length := by
    intro l
    induction l with
    | nil => intro V h; exact h
    | cons a l ih => intro V h; exact ih _ (by
        ECHOC)
  exact Nat.min_eq_left (this l _ hiv)

'''
for (n,f,b,a,I,o,k,H,P,pr) in E:
    b2=(' '+b) if b else ''
    a2=(' '+a) if a else ''
    hy=''; hy2=''
    if n=='Gost341194': hy=hy2=' (hE : ∀ k b, (cipher k b).length = 8)'
    if n=='JH': hy=hy2=' (hsp : ∀ p, 64 ≤ (spare p).length)'
    if n=='Gost34112012': hy=hy2=' (hs : size = 32 ∨ size = 64)'
    if n=='Rabin': hy=hy2=' (hp : 9 ≤ Rabin.bitLen polynomial.toNat)'
    if n.startswith('Siphash'): hy=hy2=' (hk : k.length = 16)'
    if P and P.startswith('fits'):
        hy+=f' (hm : t.data.length < {P[5:]})'; hy2+=f' (hm : ps.flatten.length < {P[5:]})'
        A='_ (fits_one hm)'; B='_ (fits_writes hm)'
    elif P=='short':
        hy+=' (hm : t.data.length < 2 ^ 60)'; hy2+=' (hm : ∀ p ∈ ps, p.length < 2 ^ 60)'
        A='_ (short_writes (ps := [t.data]) (by simpa using hm))'; B='_ (short_writes hm)'
    elif P=='noreset':
        A='_ (noReset_writes (ps := [t.data]))'; B='_ noReset_writes'
    else: A='_'; B='_'
    part='_partial' if n in('JH',) else ''
    if n=='JH': props+='/-- `spare` is what lies behind the slices in memory; the theorem needs 64 bytes of room (see C38). -/\n'
    props+=f'theorem C120_{n}{part} {{σ}}{b2} (t : Facade σ){hy} :\n    m{n}{a2} t = some {{ t with data := ({H}) t.data }} := by\n'
    pre=''
    def body(core):
        return core
    if k=='e':
        z=int(n[4:])//8
        props+=f'''  obtain ⟨d, hd, hr⟩ := C50_echo {z} (by decide) (by decide) [] (Or.inl rfl)
  have e := digestWith_of (t := t) (H := Spec.Echo.hash {z} (zeros 16)) (hr _) rfl
  unfold m{n}
  rw [show Echo.newDigest {n[4:]} [] = some d from hd, e]
  simp only [Option.bind_eq_bind, Option.bind_some]
  rw [if_neg (Nat.not_lt.mpr (Nat.le_of_eq (echo_hash_length {z} (by decide) (by decide) _).symm)),
    List.take_of_length_le (Nat.le_of_eq (echo_hash_length {z} (by decide) (by decide) _))]
'''
        p2=f'''  obtain ⟨d, hd, hr⟩ := C50_echo {z} (by decide) (by decide) [] (Or.inl rfl)
  unfold mNew{n} newWith
  rw [show Echo.newDigest {n[4:]} [] = some d from hd]
  exact stream_of (H := Spec.Echo.hash {z} (zeros 16)) (hr _) rfl
'''
    elif n.startswith('Gost34112012'):
        s='size' if n=='Gost34112012' else n[-3:]
        if s=='size':
            pre='''  obtain ⟨d, hd⟩ : ∃ d, Gost12.new size = some d := by
    rcases hs with rfl | rfl <;> exact ⟨_, rfl⟩
'''
            sz='size'
        else:
            sz=str(int(s)//8)
            pre=f'''  obtain ⟨d, hd⟩ : ∃ d, Gost12.new {sz} = some d := ⟨_, rfl⟩
'''
        props+=pre+f'''  unfold m{n}
  rw [hd]
  exact digestWith_of (C33_gost34112012 {sz} d hd {A}) rfl
'''
        p2=pre+f'''  unfold mNew{n} newWith
  rw [hd]
  exact stream_of (H := {H}) (C33_gost34112012 {sz} d hd {B}) rfl
'''
    elif n=='Rabin':
        pre='''  obtain ⟨tab, hd⟩ : ∃ tab, Rabin.newTable polynomial window = some tab := by
    unfold Rabin.newTable; dsimp only; rw [if_neg (by omega)]; exact ⟨_, rfl⟩
'''
        props+=pre+f'''  unfold mRabin
  rw [hd, Option.map_some]
  exact digestWith_of ({pr} {A}) rfl
'''
        p2=pre+f'''  unfold mNewRabin newWith
  rw [hd, Option.map_some]
  exact stream_of (H := {H}) ({pr} {B}) rfl
'''
    elif n.startswith('Siphash'):
        hs='8' if n.endswith('64') else '16'
        pre=f'''  obtain ⟨d, hd⟩ : ∃ d, SipHash.new k {hs} = some d := by
    unfold SipHash.new; rw [if_neg (by omega)]; exact ⟨_, rfl⟩
'''
        props+=pre+f'''  unfold m{n}
  rw [hd]
  exact digestWith_of ({pr} {A}) rfl
'''
        p2=pre+f'''  unfold mNew{n}
  rw [hd]
  exact stream_of (H := {H}) ({pr} {B}) rfl
'''
    else:
        A1='[.write t.data, .sum []]'+A[1:]; B1='(ps.map .write ++ [.sum b])'+B[1:]
        props+=f'  have h := {pr} {A1}\n  unfold m{n}\n  exact digestWith_of h rfl\n'
        p2=f'  have h := {pr} {B1}\n  unfold mNew{n} newWith\n  exact stream_of (H := {H}) h rfl\n'
    props+=f'theorem C121_New{n}{part}{b2} (t : Facade {TY[n]}) (ps : List Bytes) (b : Bytes){hy2} :\n    ∃ u, (mNew{n}{a2} t).bind (writesThenSum {I} ps b) = some u ∧ u.data = b ++ ({H}) ps.flatten ∧ u.err = t.err := by\n'+p2+'\n'
    names.append((n,part))
props+='''/-- A key of the wrong length: the named methods panic at the first use of the object... -/
theorem C120_Siphash_panics {σ} (k : Bytes) (hk : k.length ≠ 16) (t : Facade σ) :
    mSiphash64 k t = none ∧ mSiphash128 k t = none := by
  have h : ∀ z, SipHash.new k z = none := fun z => by unfold SipHash.new; rw [if_pos hk]
  unfold mSiphash64 mSiphash128
  rw [h, h]
  exact ⟨rfl, rfl⟩

/-- ... the general one reports an error and leaves the data; with a good key it is SipHash-c-d. -/
theorem C120_SiphashWith {σ} (k : Bytes) (c d : U32) (hashSize : Int) (t : Facade σ) :
    mSiphashWith k c d hashSize t = some (if k.length = 16
      then { t with data := Spec.SipHash.siphash (if c = 0 then 2 else c.toNat) (if d = 0 then 4 else d.toNat) (hashSize != 8) k t.data }
      else { t with err := some (.other 0) }) := by
  by_cases hk : k.length = 16
  · obtain ⟨o, hd⟩ : ∃ o, SipHash.new k hashSize = some o := by
      unfold SipHash.new; rw [if_neg (by omega)]; exact ⟨_, rfl⟩
    unfold mSiphashWith
    rw [hd, if_pos hk]
    exact digestWith_of (H := Spec.SipHash.siphash (if c = 0 then 2 else c.toNat) (if d = 0 then 4 else d.toNat) (hashSize != 8) k)
      (C11_siphash_partial c d hashSize k o hd _ (noReset_writes (ps := [t.data]))) rfl
  · have hd : SipHash.new k hashSize = none := by unfold SipHash.new; rw [if_pos hk]
    unfold mSiphashWith
    rw [hd, if_neg hk]

theorem C121_NewSiphashWith (k : Bytes) (hk : k.length = 16) (c d : U32) (hashSize : Int) (t : Facade SipHash.Digest) (ps : List Bytes) (b : Bytes) :
    ∃ u, (mNewSiphashWith k hashSize t).bind (writesThenSum (SipHash.impl c d hashSize) ps b) = some u ∧
      u.data = b ++ Spec.SipHash.siphash (if c = 0 then 2 else c.toNat) (if d = 0 then 4 else d.toNat) (hashSize != 8) k ps.flatten ∧
      u.err = none := by
  obtain ⟨o, hd⟩ : ∃ o, SipHash.new k hashSize = some o := by
    unfold SipHash.new; rw [if_neg (by omega)]; exact ⟨_, rfl⟩
  unfold mNewSiphashWith
  rw [hd]
  exact stream_of (t := { t with err := none })
    (H := Spec.SipHash.siphash (if c = 0 then 2 else c.toNat) (if d = 0 then 4 else d.toNat) (hashSize != 8) k)
    (C11_siphash_partial c d hashSize k o hd _ noReset_writes) rfl

-- Non-vacuity: a facade with data, through a method and its streaming form.
set_option maxRecDepth 100000 in
example : (mBlake256 ({ data := [0#8], hash := none, err := none } : Facade Unit)).map (·.toHexString) =
    some (ascii "0ce8d4ef4dd7cd8d62dfded9d4edb0a774ae6a41929a74da23109e8f11139c87") := by decide +kernel
set_option maxRecDepth 100000 in
example : ((mNewBlake256 newFacade).bind (writesThenSum (BLAKE256.impl 256 BLAKE256.iv256) [[], [0#8]] [])).map (·.toHexString) =
    some (ascii "0ce8d4ef4dd7cd8d62dfded9d4edb0a774ae6a41929a74da23109e8f11139c87") := by decide +kernel
example : (9 : Nat) ≤ Rabin.bitLen (0x11b#64).toNat := by decide +kernel

end Verif.Props
'''
props=props.replace('ECHOC','''simp only [Spec.Echo.compress, List.length_map, List.length_range, Spec.Echo.vLen]; split <;> omega''').replace('ECHOIV',"""have : (Spec.Echo.iv n).length = 16 * (Spec.Echo.vLen n / 16) := by
      unfold Spec.Echo.iv
      generalize Spec.Echo.vLen n / 16 = k
      induction k with
      | zero => rfl
      | succ k ih => rw [List.range_succ, List.flatMap_append, List.length_append, ih]; simp; omega
    rw [this]; unfold Spec.Echo.vLen; split <;> omega""")
0 and props.replace('ECHOIV','have : (Spec.Echo.iv n).length = 128 ∨ (Spec.Echo.iv n).length = 64 := by unfold Spec.Echo.iv; simp\n    omega')
i=props.index('theorem C120_MD2'); j=props.index('theorem C120_SM3')
props=props[:i]+props[i:j].replace('h rfl','h (by rw [md2Spec])')+props[j:]
open('/verif/lean/Verif/Props/C120_FacadeAlgos.lean','w').write(props)


