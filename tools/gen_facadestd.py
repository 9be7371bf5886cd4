# Generates Verif/Model/FacadeStd.lean and Verif/Props/C128_FacadeStd.lean:
# one definition for each facade method that names an algorithm of the Go library or golang.org/x/crypto.
import re
R='/repo/hash/'
# method -> (go file, library constructor call, Lean Ctor, Lean Algorithm)
T=[
('MD4','md4.go','md4.New()','.md4New','.MD4'),
('MD5','md5.go','md5.New()','.md5New','.MD5'),
('SHA1','sha.go','sha1.New()','.sha1New','.SHA1'),
('SHA224','sha.go','sha256.New224()','.sha256New224','.SHA224'),
('SHA256','sha.go','sha256.New()','.sha256New','.SHA256'),
('SHA384','sha.go','sha512.New384()','.sha512New384','.SHA384'),
('SHA512','sha.go','sha512.New()','.sha512New','.SHA512'),
('SHA512_224','sha.go','sha512.New512_224()','.sha512New512_224','.SHA512_224'),
('SHA512_256','sha.go','sha512.New512_256()','.sha512New512_256','.SHA512_256'),
('SHA3_224','sha3.go','sha3.New224()','.sha3New224','.SHA3_224'),
('SHA3_256','sha3.go','sha3.New256()','.sha3New256','.SHA3_256'),
('SHA3_384','sha3.go','sha3.New384()','.sha3New384','.SHA3_384'),
('SHA3_512','sha3.go','sha3.New512()','.sha3New512','.SHA3_512'),
('Keccak256','keccak.go','sha3.NewLegacyKeccak256()','.sha3NewLegacyKeccak256','.Keccak256'),
('Keccak512','keccak.go','sha3.NewLegacyKeccak512()','.sha3NewLegacyKeccak512','.Keccak512'),
('Ripemd160','ripemd160.go','ripemd160.New()','.ripemd160New','.RIPEMD160'),
('Adler32','adler32.go','adler32.New()','.adler32New','.Adler32'),
('CRC32_IEEE','crc32.go','crc32.NewIEEE()','.crc32NewIEEE','(.CRC32 0xedb88320#32)'),
('CRC32_Castagnoli','crc32.go','crc32.MakeTable(crc32.Castagnoli)','(.crc32New crc32Castagnoli)','(.CRC32 0x82f63b78#32)'),
('CRC32_Koopman','crc32.go','crc32.MakeTable(crc32.Koopman)','(.crc32New crc32Koopman)','(.CRC32 0xeb31d82e#32)'),
('CRC64_ISO','crc64.go','crc64.MakeTable(crc64.ISO)','(.crc64New crc64ISO)','(.CRC64 0xd800000000000000#64)'),
('CRC64_ECMA','crc64.go','crc64.MakeTable(crc64.ECMA)','(.crc64New crc64ECMA)','(.CRC64 0xc96c5795d7870f42#64)'),
('Fnv32','fnv.go','fnv.New32()','.fnvNew32','(.FNV1 32)'),
('Fnv32a','fnv.go','fnv.New32a()','.fnvNew32a','(.FNV1a 32)'),
('Fnv64','fnv.go','fnv.New64()','.fnvNew64','(.FNV1 64)'),
('Fnv64a','fnv.go','fnv.New64a()','.fnvNew64a','(.FNV1a 64)'),
('Fnv128','fnv.go','fnv.New128()','.fnvNew128','(.FNV1 128)'),
('Fnv128a','fnv.go','fnv.New128a()','.fnvNew128a','(.FNV1a 128)'),
]
def lines(f,m):
    L=open(R+f).read().split('\n')
    for i,l in enumerate(L):
        if l.startswith(f'func (this Hash) {m}('):
            j=i
            while L[j]!='}': j+=1
            return i+1,j+1,'\n'.join(L[i:j+1])
    raise Exception(m)
out=[];thm=[]
for m,f,call,ctor,alg in T:
    a,b,src=lines(f,m); assert call in src,(m,call)
    out.append(f"/-- hash/{f}:{a}-{b} `{m}` -/\ndef m{m} (L : Lib τ) (t : Facade τ) : Option (Facade τ) := digestWith L.I (some (L.new {ctor})) t")
    a,b,src=lines(f,'New'+m); assert call in src
    out.append(f"/-- hash/{f}:{a}-{b} `New{m}` -/\ndef mNew{m} (L : Lib τ) (t : Facade τ) : Option (Facade τ) := newWith (some (L.new {ctor})) t\n")
    thm.append(f"theorem C128_{m} (ok : LibOK L D) : (∀ t, mustDigest (m{m} L) t (D.H {alg} t.data)) ∧ ∀ t, mustInstall L (mNew{m} L) t (D.H {alg}) :=\n  ⟨fun t => ctor_digest ok {ctor} t, fun t => ctor_install ok {ctor} t⟩")
open('/root/work/fs_model.txt','w').write('\n'.join(out))
open('/root/work/fs_thm.txt','w').write('\n'.join(thm))

# ---- second part: assembles the two files
model='''import Verif.Model.FacadeAlgos
/-
Model of the methods of the facade that name an algorithm of the Go library or of golang.org/x/crypto
(hash/md4.go, md5.go, sha.go, sha3.go, ...), and of `MD5_16`.  Partly generated by
`tools/gen_facadestd.py` (committed beside).

The libraries are not in the repository: they are a parameter `L : Lib τ`, where `τ` is the type of
the objects they return (values of the interface `hash.Hash`).
-/
namespace Verif.Facade

/-- The constructors without a key that the facade calls, by their names in the libraries. -/
inductive Ctor where
  | md4New | md5New | sha1New | sha256New224 | sha256New
  | sha512New384 | sha512New | sha512New512_224 | sha512New512_256
  | sha3New224 | sha3New256 | sha3New384 | sha3New512
  | sha3NewLegacyKeccak256 | sha3NewLegacyKeccak512 | ripemd160New | adler32New | crc32NewIEEE
  /-- `crc32.New(crc32.MakeTable(poly))` -/
  | crc32New (poly : U32)
  /-- `crc64.New(crc64.MakeTable(poly))` -/
  | crc64New (poly : U64)
  | fnvNew32 | fnvNew32a | fnvNew64 | fnvNew64a | fnvNew128 | fnvNew128a
  | sha3NewShake128 | sha3NewShake256
  | sha3NewCShake128 (N S : Bytes) | sha3NewCShake256 (N S : Bytes)
  /-- `&maphash.Hash{}`; the seed is drawn by the library at the first use -/
  | maphash (seed : U64)
  deriving DecidableEq

/-- crc32.Castagnoli, crc32.Koopman, crc64.ISO, crc64.ECMA: constants of the Go library. -/
def crc32Castagnoli : U32 := 0x82f63b78#32
/-- crc32.Koopman -/
def crc32Koopman : U32 := 0xeb31d82e#32
/-- crc64.ISO -/
def crc64ISO : U64 := 0xd800000000000000#64
/-- crc64.ECMA -/
def crc64ECMA : U64 := 0xc96c5795d7870f42#64

/-- The functions of the libraries the facade calls. -/
structure Lib (τ : Type) where
  I : HashImpl τ
  new : Ctor → τ
  /-- `blake2b.Sum256`, `Sum384`, `Sum512` by their number of bits -/
  blake2bSum : Nat → Bytes → Bytes
  /-- `blake2s.Sum256` -/
  blake2sSum256 : Bytes → Bytes
  /-- `blake2b.New256(key)`, ...; `none` is an error -/
  blake2bNew : Nat → Bytes → Option τ
  /-- `blake2s.New256(key)`, `blake2s.New128(key)`; `none` is an error -/
  blake2sNew : Nat → Bytes → Option τ
  /-- what `sha3.ShakeSum128(out, data)`, `ShakeSum256` put in an `out` of the given length -/
  shakeSum128 : Nat → Bytes → Bytes
  shakeSum256 : Nat → Bytes → Bytes
  /-- what `h.Read(out)` puts in an `out` of the given length -/
  read : τ → Nat → Option Bytes

variable {τ : Type}

'''
model+=open('/root/work/fs_model.txt').read()
def newk(n,alg,bits,a,b): return f'''
/-- hash/blake.go:{a}-{b} `New{n}` -/
def mNew{n} (L : Lib τ) (key : Bytes) (t : Facade τ) : Option (Facade τ) := newErr (L.{alg}New {bits} key) t
'''
model+='''
/-- `this.hash, this.Error = pkg.New(key); return this` -/
def newErr (o : Option τ) (t : Facade τ) : Option (Facade τ) :=
  match o with
  | none => some { t with hash := none, err := some (.other 0) }
  | some h => some { t with hash := some h, err := none }

'''
for n,bits,l in (('256','256',(9,14)),('384','384',(26,31)),('512','512',(43,48))):
    model+=f"/-- hash/blake.go:{l[0]}-{l[1]} `Blake2b_{n}` -/\ndef mBlake2b_{n} (L : Lib τ) (t : Facade τ) : Option (Facade τ) := some {{ t with data := L.blake2bSum {bits} t.data }}"
    model+=newk(f'Blake2b_{n}','blake2b',bits,l[0]+8,l[0]+12)
model+="/-- hash/blake.go:60-65 `Blake2s_256` -/\ndef mBlake2s_256 (L : Lib τ) (t : Facade τ) : Option (Facade τ) := some { t with data := L.blake2sSum256 t.data }"
model+=newk('Blake2s_256','blake2s',256,68,72)
model+='''/-- hash/blake.go:77-89 `Blake2s_128` -/
def mBlake2s_128 (L : Lib τ) (t : Facade τ) : Option (Facade τ) :=
  match L.blake2sNew 128 [] with
  | none => some { t with err := some (.other 0) }
  | some h => digestWith L.I (some h) t'''
model+=newk('Blake2s_128','blake2s',128,92,96)
for n,a in ((128,28),(256,47)):
    model+=f'''
/-- hash/shake.go:{a}-{a+7} `Shake{n}`; `make` panics for a negative length -/
def mShake{n} (L : Lib τ) (num : Int) (t : Facade τ) : Option (Facade τ) :=
  if num < 0 then none else some {{ t with data := L.shakeSum{n} num.toNat t.data }}
/-- hash/shake.go:{a+10}-{a+14} `NewShake{n}` -/
def mNewShake{n} (L : Lib τ) (t : Facade τ) : Option (Facade τ) := newWith (some (L.new .sha3NewShake{n})) t
'''
for n,a in ((128,66),(256,88)):
    model+=f'''
/-- hash/shake.go:{a}-{a+10} `CShake{n}` -/
def mCShake{n} (L : Lib τ) (N S : Bytes) (num : Int) (t : Facade τ) : Option (Facade τ) := do
  let (h, _) ← L.I.write (L.new (.sha3NewCShake{n} N S)) t.data
  if num < 0 then none
  else
    let out ← L.read h num.toNat
    some {{ t with data := out }}
/-- hash/shake.go:{a+13}-{a+17} `NewCShake{n}` -/
def mNewCShake{n} (L : Lib τ) (N S : Bytes) (t : Facade τ) : Option (Facade τ) := newWith (some (L.new (.sha3NewCShake{n} N S))) t
'''
model+='''
/-- hash/maphash.go:9-21 `newMaphash`, `Maphash`; the seed is the one the library draws -/
def mMaphash (L : Lib τ) (seed : U64) (t : Facade τ) : Option (Facade τ) := digestWith L.I (some (L.new (.maphash seed))) t
/-- hash/maphash.go:24-28 `NewMaphash` -/
def mNewMaphash (L : Lib τ) (seed : U64) (t : Facade τ) : Option (Facade τ) := newWith (some (L.new (.maphash seed))) t

/-- `h := pkg.New(); h.Write(slice); h.Sum(nil)`, as in hash/md5sha1.go:8-13 `sha1Hash` and :19-22 -/
def libSum (L : Lib τ) (c : Ctor) (slice : Bytes) : Option Bytes := do
  let (h, _) ← L.I.write (L.new c) slice
  let (_, d) ← L.I.sum h []
  some d
/-- hash/md5sha1.go:16-26 `md5Sha1` -/
def md5Sha1 (L : Lib τ) (slice : Bytes) : Option Bytes := do
  let md5sha1 := zeros (16 + 20)
  let d ← libSum L .md5New slice
  let md5sha1 := goCopy md5sha1 0 d
  let e ← libSum L .sha1New slice
  some (goCopy md5sha1 16 e)
/-- hash/md5sha1.go:29-33 `MD5SHA1` -/
def mMD5SHA1 (L : Lib τ) (t : Facade τ) : Option (Facade τ) := do
  let d ← md5Sha1 L t.data
  some { t with data := d }

/-- hash/hash_helper.go:8-12 `MD5_16` (the string as its bytes); slicing panics when the text is short -/
def md5_16 (L : Lib τ) (s : Bytes) : Option Bytes := do
  let u ← mMD5 L { (newFacade : Facade τ) with data := s }
  let data := u.toHexString
  if data.length < 24 then none else some ((data.take 24).drop 8)

end Verif.Facade
'''
open('/verif/lean/Verif/Model/FacadeStd.lean','w').write(model)
s='''import Verif.Model.FacadeStd
import Verif.Props.C120_FacadeAlgos
/-
C128: the facade's methods for algorithms of the Go library and golang.org/x/crypto use the algorithm
they name, given that the libraries do what their documentation says.  C129: the two that do not.
(Generated in part by `tools/gen_facadestd.py`.)
-/
namespace Verif.Props
open Verif.Facade

/-- The algorithms, as their standards name them. -/
inductive Algorithm where
  | MD4 | MD5 | SHA1 | SHA224 | SHA256 | SHA384 | SHA512 | SHA512_224 | SHA512_256
  | SHA3_224 | SHA3_256 | SHA3_384 | SHA3_512 | Keccak256 | Keccak512 | RIPEMD160 | Adler32
  /-- reflected, with the given (reversed) polynomial; IEEE 802.3 is 0xedb88320 -/
  | CRC32 (poly : U32) | CRC64 (poly : U64)
  | FNV1 (bits : Nat) | FNV1a (bits : Nat)
  /-- key, digest length in bytes -/
  | BLAKE2b (key : Bytes) (size : Nat) | BLAKE2s (key : Bytes) (size : Nat)
  /-- output length in bytes -/
  | SHAKE128 (size : Nat) | SHAKE256 (size : Nat)
  | CSHAKE128 (N S : Bytes) (size : Nat) | CSHAKE256 (N S : Bytes) (size : Nat)
  /-- the family of hash/maphash -/
  | Maphash (seed : U64)

/-- The mathematical functions; nothing is used of them but two lengths. -/
structure Digests where
  H : Algorithm → Bytes → Bytes
  md5_length : ∀ m, (H .MD5 m).length = 16
  sha1_length : ∀ m, (H .SHA1 m).length = 20

/-- What the documentation of the libraries says each constructor computes. -/
def Ctor.algorithm : Ctor → Algorithm
  | .md4New => .MD4 | .md5New => .MD5 | .sha1New => .SHA1
  | .sha256New224 => .SHA224 | .sha256New => .SHA256
  | .sha512New384 => .SHA384 | .sha512New => .SHA512
  | .sha512New512_224 => .SHA512_224 | .sha512New512_256 => .SHA512_256
  | .sha3New224 => .SHA3_224 | .sha3New256 => .SHA3_256 | .sha3New384 => .SHA3_384 | .sha3New512 => .SHA3_512
  | .sha3NewLegacyKeccak256 => .Keccak256 | .sha3NewLegacyKeccak512 => .Keccak512
  | .ripemd160New => .RIPEMD160 | .adler32New => .Adler32
  | .crc32NewIEEE => .CRC32 0xedb88320#32 | .crc32New p => .CRC32 p | .crc64New p => .CRC64 p
  | .fnvNew32 => .FNV1 32 | .fnvNew32a => .FNV1a 32 | .fnvNew64 => .FNV1 64 | .fnvNew64a => .FNV1a 64
  | .fnvNew128 => .FNV1 128 | .fnvNew128a => .FNV1a 128
  | .sha3NewShake128 => .SHAKE128 32 | .sha3NewShake256 => .SHAKE256 64
  | .sha3NewCShake128 N S => .CSHAKE128 N S 32 | .sha3NewCShake256 N S => .CSHAKE256 N S 64
  | .maphash s => .Maphash s

/-- The object `h` computes `H`: for every history of calls. -/
def Computes {τ} (I : HashImpl τ) (h : τ) (H : Bytes → Bytes) : Prop := ∃ size blockSize, Refines I h ⟨H, size, blockSize⟩

/-- The libraries do what they document. -/
structure LibOK {τ} (L : Lib τ) (D : Digests) : Prop where
  new : ∀ c, Computes L.I (L.new c) (D.H (Ctor.algorithm c))
  blake2bSum : ∀ bits, bits = 256 ∨ bits = 384 ∨ bits = 512 → ∀ m, L.blake2bSum bits m = D.H (.BLAKE2b [] (bits / 8)) m
  blake2sSum : ∀ m, L.blake2sSum256 m = D.H (.BLAKE2s [] 32) m
  /-- keys of more than 64 bytes are refused -/
  blake2bNew : ∀ bits, bits = 256 ∨ bits = 384 ∨ bits = 512 → ∀ key, match L.blake2bNew bits key with
    | none => 64 < key.length
    | some h => key.length ≤ 64 ∧ Computes L.I h (D.H (.BLAKE2b key (bits / 8)))
  /-- keys of more than 32 bytes are refused -/
  blake2sNew : ∀ key, match L.blake2sNew 256 key with
    | none => 32 < key.length
    | some h => key.length ≤ 32 ∧ Computes L.I h (D.H (.BLAKE2s key 32))
  /-- "a key is required for a 128-bit hash" -/
  blake2sNew128 : ∀ key, match L.blake2sNew 128 key with
    | none => key = [] ∨ 32 < key.length
    | some h => key ≠ [] ∧ key.length ≤ 32 ∧ Computes L.I h (D.H (.BLAKE2s key 16))
  shakeSum128 : ∀ n m, L.shakeSum128 n m = D.H (.SHAKE128 n) m
  shakeSum256 : ∀ n m, L.shakeSum256 n m = D.H (.SHAKE256 n) m
  cread128 : ∀ N S m n, ∃ h k, L.I.write (L.new (.sha3NewCShake128 N S)) m = some (h, k) ∧ L.read h n = some (D.H (.CSHAKE128 N S n) m)
  cread256 : ∀ N S m n, ∃ h k, L.I.write (L.new (.sha3NewCShake256 N S)) m = some (h, k) ∧ L.read h n = some (D.H (.CSHAKE256 N S n) m)

/-- The method succeeds, makes `d` the data and changes nothing else. -/
def mustDigest {τ} (f : Facade τ → Option (Facade τ)) (t : Facade τ) (d : Bytes) : Prop :=
  f t = some { t with data := d }

/-- After the method, `Write(p₁)...Write(pₙ).Sum(b)` leaves `b` and the digest of the bytes written in
the data, and the error as it was before the method; the method itself leaves the data. -/
def mustInstall {τ} (L : Lib τ) (f : Facade τ → Option (Facade τ)) (t : Facade τ) (H : Bytes → Bytes) : Prop :=
  ∃ v, f t = some v ∧ v.data = t.data ∧ v.err = t.err ∧ ∀ ps b, ∃ u, writesThenSum L.I ps b v = some u ∧
    u.data = b ++ H ps.flatten ∧ u.err = t.err

/-- The same for a method that sets the error to nil. -/
def mustInstallNoErr {τ} (L : Lib τ) (f : Facade τ → Option (Facade τ)) (t : Facade τ) (H : Bytes → Bytes) : Prop :=
  ∃ v, f t = some v ∧ v.data = t.data ∧ v.err = none ∧ ∀ ps b, ∃ u, writesThenSum L.I ps b v = some u ∧
    u.data = b ++ H ps.flatten ∧ u.err = none

/-- The method reports an error, keeps the data, and leaves a facade on which every Write panics. -/
def mustRefuse {τ} (L : Lib τ) (f : Facade τ → Option (Facade τ)) (t : Facade τ) : Prop :=
  ∃ v, f t = some v ∧ v.data = t.data ∧ v.err ≠ none ∧ ∀ p, (Call.write p).run L.I (fun _ => none) v = none

variable {τ : Type} {L : Lib τ} {D : Digests}

theorem ctor_digest (ok : LibOK L D) (c : Ctor) (t : Facade τ) :
    mustDigest (digestWith L.I (some (L.new c))) t (D.H (Ctor.algorithm c) t.data) := by
  obtain ⟨a, b, h⟩ := ok.new c
  exact digestWith_of (S := ⟨_, a, b⟩) (h _) rfl

theorem computes_install {h₀ : τ} {H : Bytes → Bytes} (h : Computes L.I h₀ H) (t : Facade τ) (ps : List Bytes) (b : Bytes) :
    ∃ u, writesThenSum L.I ps b { t with hash := some h₀ } = some u ∧ u.data = b ++ H ps.flatten ∧ u.err = t.err := by
  obtain ⟨x, y, h⟩ := h
  exact stream_of (S := ⟨_, x, y⟩) (h _) rfl

theorem ctor_install (ok : LibOK L D) (c : Ctor) (t : Facade τ) :
    mustInstall L (newWith (some (L.new c))) t (D.H (Ctor.algorithm c)) :=
  ⟨_, rfl, rfl, rfl, fun ps b => computes_install (ok.new c) t ps b⟩

theorem newErr_install {o : Option τ} {P : Prop} {H : Bytes → Bytes} (t : Facade τ)
    (h : match o with | none => ¬ P | some h => P ∧ Computes L.I h H) :
    (P → mustInstallNoErr L (newErr o) t H) ∧ (¬ P → mustRefuse L (newErr o) t) := by
  cases o with
  | none =>
    refine ⟨fun p => absurd p h, fun _ => ⟨_, rfl, rfl, by simp, fun p => rfl⟩⟩
  | some x =>
    exact ⟨fun _ => ⟨_, rfl, rfl, rfl, fun ps b => computes_install h.2 { t with err := none } ps b⟩, fun p => absurd h.1 p⟩

'''
s+=open('/root/work/fs_thm.txt').read()+'\n\n'
for n in (256,384,512):
    s+=f'''theorem C128_Blake2b_{n} (ok : LibOK L D) (t : Facade τ) : mustDigest (mBlake2b_{n} L) t (D.H (.BLAKE2b [] {n//8}) t.data) ∧
    (∀ key, key.length ≤ 64 → mustInstallNoErr L (mNewBlake2b_{n} L key) t (D.H (.BLAKE2b key {n//8}))) ∧
    ∀ key, 64 < key.length → mustRefuse L (mNewBlake2b_{n} L key) t := by
  refine ⟨?_, fun key hk => ?_, fun key hk => ?_⟩
  · unfold mustDigest mBlake2b_{n}
    rw [ok.blake2bSum {n} (by decide)]
  all_goals
    have h := ok.blake2bNew {n} (by decide) key
    have h' : match L.blake2bNew {n} key with | none => ¬ key.length ≤ 64 | some h => key.length ≤ 64 ∧ Computes L.I h (D.H (.BLAKE2b key {n//8})) := by
      revert h
      cases L.blake2bNew {n} key with
      | none => intro h; exact Nat.not_le.mpr h
      | some x => intro h; exact h
    have h2 := newErr_install t h'
  · exact h2.1 hk
  · exact h2.2 (Nat.not_le.mpr hk)
'''
s+='''
theorem C128_Blake2s_256 (ok : LibOK L D) (t : Facade τ) : mustDigest (mBlake2s_256 L) t (D.H (.BLAKE2s [] 32) t.data) ∧
    (∀ key, key.length ≤ 32 → mustInstallNoErr L (mNewBlake2s_256 L key) t (D.H (.BLAKE2s key 32))) ∧
    ∀ key, 32 < key.length → mustRefuse L (mNewBlake2s_256 L key) t := by
  refine ⟨?_, fun key hk => ?_, fun key hk => ?_⟩
  · unfold mustDigest mBlake2s_256
    rw [ok.blake2sSum]
  all_goals
    have h := ok.blake2sNew key
    have h' : match L.blake2sNew 256 key with | none => ¬ key.length ≤ 32 | some h => key.length ≤ 32 ∧ Computes L.I h (D.H (.BLAKE2s key 32)) := by
      revert h
      cases L.blake2sNew 256 key with
      | none => intro h; exact Nat.not_le.mpr h
      | some x => intro h; exact h
    have h2 := newErr_install t h'
  · exact h2.1 hk
  · exact h2.2 (Nat.not_le.mpr hk)

/-- `NewBlake2s_128` works for the keys of 1 to 32 bytes and refuses the others. -/
theorem C128_NewBlake2s_128 (ok : LibOK L D) (t : Facade τ) :
    (∀ key, key ≠ [] → key.length ≤ 32 → mustInstallNoErr L (mNewBlake2s_128 L key) t (D.H (.BLAKE2s key 16))) ∧
    ∀ key, (key = [] ∨ 32 < key.length) → mustRefuse L (mNewBlake2s_128 L key) t := by
  refine ⟨fun key h0 hk => ?_, fun key hk => ?_⟩
  all_goals
    have h := ok.blake2sNew128 key
    have h' : match L.blake2sNew 128 key with | none => ¬ (key ≠ [] ∧ key.length ≤ 32) | some h => (key ≠ [] ∧ key.length ≤ 32) ∧ Computes L.I h (D.H (.BLAKE2s key 16)) := by
      revert h
      cases L.blake2sNew 128 key with
      | none => intro h h2; rcases h with h | h
                · exact h2.1 h
                · exact absurd h (Nat.not_lt.mpr h2.2)
      | some x => intro h; exact ⟨⟨h.1, h.2.1⟩, h.2.2⟩
    have h2 := newErr_install t h'
  · exact h2.1 ⟨h0, hk⟩
  · refine h2.2 (fun h => ?_)
    rcases hk with hk | hk
    · exact h.1 hk
    · exact absurd hk (Nat.not_lt.mpr h.2)

'''
for n,z in ((128,32),(256,64)):
    s+=f'''/-- SHAKE: any output length; a negative one panics; the installed object yields {z} bytes. -/
theorem C128_Shake{n} (ok : LibOK L D) (t : Facade τ) : (∀ n : Nat, mustDigest (mShake{n} L n) t (D.H (.SHAKE{n} n) t.data)) ∧
    (∀ num < 0, mShake{n} L num t = none) ∧ mustInstall L (mNewShake{n} L) t (D.H (.SHAKE{n} {z})) := by
  refine ⟨fun n => ?_, fun num hn => ?_, ctor_install ok .sha3NewShake{n} t⟩
  · unfold mustDigest mShake{n}
    rw [if_neg (by omega), ok.shakeSum{n}, Int.toNat_natCast]
  · unfold mShake{n}
    rw [if_pos hn]
theorem C128_CShake{n} (ok : LibOK L D) (t : Facade τ) (N S : Bytes) : (∀ n : Nat, mustDigest (mCShake{n} L N S n) t (D.H (.CSHAKE{n} N S n) t.data)) ∧
    (∀ num < 0, mCShake{n} L N S num t = none) ∧ mustInstall L (mNewCShake{n} L N S) t (D.H (.CSHAKE{n} N S {z})) := by
  refine ⟨fun n => ?_, fun num hn => ?_, ctor_install ok (.sha3NewCShake{n} N S) t⟩
  · obtain ⟨h, k, h1, h2⟩ := ok.cread{n} N S t.data n
    unfold mustDigest mCShake{n}
    rw [h1]
    simp only [Option.bind_eq_bind, Option.bind_some]
    rw [if_neg (by omega), Int.toNat_natCast, h2]
    rfl
  · obtain ⟨h, k, h1, -⟩ := ok.cread{n} N S t.data 0
    unfold mCShake{n}
    rw [h1]
    simp only [Option.bind_eq_bind, Option.bind_some]
    rw [if_pos hn]
'''
s+='''
theorem libSum_eq (ok : LibOK L D) (c : Ctor) (m : Bytes) : libSum L c m = some (D.H (Ctor.algorithm c) m) := by
  have h := ctor_digest ok c { (newFacade : Facade τ) with data := m }
  unfold mustDigest digestWith at h
  unfold libSum
  simp only [Option.bind_eq_bind, Option.bind_some] at h ⊢
  cases e : L.I.write (L.new c) m with
  | none => rw [e] at h; exact absurd h (by simp)
  | some x =>
    rw [e, Option.bind_some] at h
    rw [Option.bind_some]
    cases e2 : L.I.sum x.1 [] with
    | none => rw [e2] at h; exact absurd h (by simp)
    | some y =>
      rw [e2, Option.bind_some, Option.some.injEq, Facade.mk.injEq] at h
      rw [Option.bind_some, h.1]

/-- MD5SHA1: the 36 bytes MD5 || SHA-1 (as in TLS before 1.2). -/
theorem C128_MD5SHA1 (ok : LibOK L D) (t : Facade τ) : mustDigest (mMD5SHA1 L) t (D.H .MD5 t.data ++ D.H .SHA1 t.data) := by
  have h1 := D.md5_length t.data
  have h2 := D.sha1_length t.data
  unfold mustDigest mMD5SHA1 md5Sha1
  rw [libSum_eq ok, libSum_eq ok]
  simp only [Option.bind_eq_bind, Option.bind_some, Ctor.algorithm]
  generalize D.H .MD5 t.data = a at *
  generalize D.H .SHA1 t.data = b at *
  congr 2
  unfold goCopy
  simp [zeros, h1, h2, List.drop_append]
  rw [List.take_of_length_le (l := a) (by omega), List.take_of_length_le (l := b) (by omega)]

/-- MD5_16: the hexadecimal text of the middle 8 bytes of the MD5 digest. -/
theorem C128_MD5_16 (ok : LibOK L D) (s : Bytes) : md5_16 L s = some (hexEncode (((D.H .MD5 s).drop 4).take 8)) := by
  have h := ctor_digest ok .md5New { (newFacade : Facade τ) with data := s }
  unfold mustDigest at h
  unfold md5_16 mMD5
  rw [h]
  simp only [Option.bind_eq_bind, Option.bind_some, Ctor.algorithm]
  unfold Facade.toHexString
  dsimp only
  have h1 := D.md5_length s
  generalize D.H .MD5 s = a at *
  have hl : ∀ b : Bytes, (hexEncode b).length = 2 * b.length := by
    intro b; induction b with
    | nil => rfl
    | cons x b ih => simp only [hexEncode, List.length_cons, ih]; omega
  have hd : ∀ (k : Nat) (b : Bytes), (hexEncode b).drop (2 * k) = hexEncode (b.drop k) := by
    intro k; induction k with
    | zero => intro b; rfl
    | succ k ih =>
      intro b
      cases b with
      | nil => simp [hexEncode]
      | cons x b => rw [show 2 * (k + 1) = 2 * k + 1 + 1 by omega]; simp only [hexEncode, List.drop_succ_cons]; exact ih b
  have ht : ∀ (k : Nat) (b : Bytes), (hexEncode b).take (2 * k) = hexEncode (b.take k) := by
    intro k; induction k with
    | zero => intro b; simp [hexEncode]
    | succ k ih =>
      intro b
      cases b with
      | nil => simp [hexEncode]
      | cons x b => rw [show 2 * (k + 1) = 2 * k + 1 + 1 by omega]; simp only [hexEncode, List.take_succ_cons, ih]
  rw [if_neg (by rw [hl, h1]; decide), ht 12, hd 4, List.drop_take]

/-- An object installed by `NewMaphash` is consistent: it has one seed. -/
theorem C129_NewMaphash_partial (ok : LibOK L D) (seed : U64) (t : Facade τ) : mustInstall L (mNewMaphash L seed) t (D.H (.Maphash seed)) :=
  ctor_install ok (.maphash seed) t

/-- `Maphash()` is not a function of the data: each call draws its own seed. -/
theorem C129_Maphash_violated (ok : LibOK L D) (s₁ s₂ : U64) (m : Bytes) (h : D.H (.Maphash s₁) m ≠ D.H (.Maphash s₂) m) (t : Facade τ) (ht : t.data = m) :
    mMaphash L s₁ t ≠ mMaphash L s₂ t := by
  have h1 := ctor_digest ok (.maphash s₁) t
  have h2 := ctor_digest ok (.maphash s₂) t
  unfold mustDigest at h1 h2
  unfold mMaphash
  rw [h1, h2, ht]
  intro e
  rw [Option.some.injEq, Facade.mk.injEq] at e
  exact h e.1

/-- `Blake2s_128()` computes no digest: it asks for an object without a key, which the library refuses. -/
theorem C129_Blake2s_128_violated (ok : LibOK L D) (t : Facade τ) :
    ∃ u, mBlake2s_128 L t = some u ∧ u.data = t.data ∧ u.err ≠ none := by
  have h := ok.blake2sNew128 []
  unfold mBlake2s_128
  cases e : L.blake2sNew 128 [] with
  | none => exact ⟨_, rfl, rfl, by simp⟩
  | some x => rw [e] at h; exact absurd rfl h.1

/-! ### Some library meets the hypotheses -/

/-- Objects that remember the message. -/
def refLib (D : Digests) : Lib (Algorithm × Bytes) where
  I := { write := fun s p => some ((s.1, s.2 ++ p), p.length), sum := fun s b => some (s, b ++ D.H s.1 s.2),
         reset := fun s => (s.1, []), size := fun _ => 0, blockSize := fun _ => 0 }
  new c := (Ctor.algorithm c, [])
  blake2bSum bits m := D.H (.BLAKE2b [] (bits / 8)) m
  blake2sSum256 m := D.H (.BLAKE2s [] 32) m
  blake2bNew bits key := if key.length ≤ 64 then some (.BLAKE2b key (bits / 8), []) else none
  blake2sNew bits key := if bits = 128 ∧ key = [] then none else if key.length ≤ 32 then some (.BLAKE2s key (bits / 8), []) else none
  shakeSum128 n m := D.H (.SHAKE128 n) m
  shakeSum256 n m := D.H (.SHAKE256 n) m
  read s n := match s.1 with
    | .CSHAKE128 N S _ => some (D.H (.CSHAKE128 N S n) s.2)
    | .CSHAKE256 N S _ => some (D.H (.CSHAKE256 N S n) s.2)
    | _ => none

theorem refLib_computes (D : Digests) (a : Algorithm) : Computes (refLib D).I (a, []) (D.H a) := by
  refine ⟨0, 0, ?_⟩
  suffices h : ∀ (ops : List Op) (m : Bytes), (refLib D).I.run (a, m) ops = HashSpec.run ⟨D.H a, 0, 0⟩ m ops by
    intro ops; exact h ops []
  intro ops
  induction ops with
  | nil => intro m; rfl
  | cons o ops ih =>
    intro m
    cases o <;> simp only [HashImpl.run, HashSpec.run, refLib] <;> exact congrArg _ (ih _)

theorem refLib_ok (D : Digests) : LibOK (refLib D) D where
  new c := refLib_computes D _
  blake2bSum bits _ m := rfl
  blake2sSum m := rfl
  blake2bNew bits _ key := by
    by_cases h : key.length ≤ 64
    · simp only [refLib, if_pos h]; exact ⟨h, refLib_computes D _⟩
    · simp only [refLib, if_neg h]; exact Nat.not_le.mp h
  blake2sNew key := by
    by_cases h : key.length ≤ 32
    · simp only [refLib, if_pos h]; exact ⟨h, refLib_computes D _⟩
    · simp only [refLib, if_neg h]; exact Nat.not_le.mp h
  blake2sNew128 key := by
    by_cases h0 : key = []
    · simp only [refLib, h0, and_self, if_true]; exact Or.inl trivial
    · by_cases h : key.length ≤ 32
      · simp only [refLib, h0, and_false, if_false, if_pos h]; exact ⟨h0, h, refLib_computes D _⟩
      · simp only [refLib, h0, and_false, if_false, if_neg h]; exact Or.inr (Nat.not_le.mp h)
  shakeSum128 n m := rfl
  shakeSum256 n m := rfl
  cread128 N S m n := ⟨_, _, rfl, rfl⟩
  cread256 N S m n := ⟨_, _, rfl, rfl⟩

/-- Functions with the lengths asked for, all different on some message. -/
def someDigests : Digests where
  H a m := match a with
    | .MD5 => zeros 16
    | .SHA1 => List.replicate 20 1#8
    | .Maphash s => [s.setWidth 8]
    | _ => m
  md5_length _ := rfl
  sha1_length _ := rfl

example : LibOK (refLib someDigests) someDigests := refLib_ok someDigests
example : someDigests.H (.Maphash 1) [] ≠ someDigests.H (.Maphash 2) [] := by decide
example : ∃ u, mMD5SHA1 (refLib someDigests) { (newFacade : Facade _) with data := [7#8] } = some u ∧
    u.data = zeros 16 ++ List.replicate 20 1#8 := ⟨_, C128_MD5SHA1 (refLib_ok someDigests) _, rfl⟩

end Verif.Props
'''
open('/verif/lean/Verif/Props/C128_FacadeStd.lean','w').write(s)
