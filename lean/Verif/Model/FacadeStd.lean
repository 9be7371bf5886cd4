import Verif.Model.FacadeAlgos
/-
Model of the methods of the facade that name an algorithm of the Go library or of golang.org/x/crypto
(hash/md4.go, md5.go, sha.go, sha3.go, ...), and of `MD5_16`.  Partly generated by
`tools/gen_facadestd.py` (committed beside).

The libraries are not in the repository: they are a parameter `L : Lib τ`, where `τ` is the type of
the objects they return (values of the interface `hash.Hash`).
-/
namespace Verif.Facade

/-- The constructors without a key that the facade calls, by their names in the libraries. -/
inductive Ctor where
  | md4New | md5New | sha1New | sha256New224 | sha256New
  | sha512New384 | sha512New | sha512New512_224 | sha512New512_256
  | sha3New224 | sha3New256 | sha3New384 | sha3New512
  | sha3NewLegacyKeccak256 | sha3NewLegacyKeccak512 | ripemd160New | adler32New | crc32NewIEEE
  /-- `crc32.New(crc32.MakeTable(poly))` -/
  | crc32New (poly : U32)
  /-- `crc64.New(crc64.MakeTable(poly))` -/
  | crc64New (poly : U64)
  | fnvNew32 | fnvNew32a | fnvNew64 | fnvNew64a | fnvNew128 | fnvNew128a
  | sha3NewShake128 | sha3NewShake256
  | sha3NewCShake128 (N S : Bytes) | sha3NewCShake256 (N S : Bytes)
  /-- `&maphash.Hash{}`; the seed is drawn by the library at the first use -/
  | maphash (seed : U64)
  deriving DecidableEq

/-- crc32.Castagnoli, crc32.Koopman, crc64.ISO, crc64.ECMA: constants of the Go library. -/
def crc32Castagnoli : U32 := 0x82f63b78#32
/-- crc32.Koopman -/
def crc32Koopman : U32 := 0xeb31d82e#32
/-- crc64.ISO -/
def crc64ISO : U64 := 0xd800000000000000#64
/-- crc64.ECMA -/
def crc64ECMA : U64 := 0xc96c5795d7870f42#64

/-- The functions of the libraries the facade calls. -/
structure Lib (τ : Type) where
  I : HashImpl τ
  new : Ctor → τ
  /-- `blake2b.Sum256`, `Sum384`, `Sum512` by their number of bits -/
  blake2bSum : Nat → Bytes → Bytes
  /-- `blake2s.Sum256` -/
  blake2sSum256 : Bytes → Bytes
  /-- `blake2b.New256(key)`, ...; `none` is an error -/
  blake2bNew : Nat → Bytes → Option τ
  /-- `blake2s.New256(key)`, `blake2s.New128(key)`; `none` is an error -/
  blake2sNew : Nat → Bytes → Option τ
  /-- what `sha3.ShakeSum128(out, data)`, `ShakeSum256` put in an `out` of the given length -/
  shakeSum128 : Nat → Bytes → Bytes
  shakeSum256 : Nat → Bytes → Bytes
  /-- what `h.Read(out)` puts in an `out` of the given length -/
  read : τ → Nat → Option Bytes

variable {τ : Type}

/-- hash/md4.go:8-15 `MD4` -/
def mMD4 (L : Lib τ) (t : Facade τ) : Option (Facade τ) := digestWith L.I (some (L.new .md4New)) t
/-- hash/md4.go:18-22 `NewMD4` -/
def mNewMD4 (L : Lib τ) (t : Facade τ) : Option (Facade τ) := newWith (some (L.new .md4New)) t

/-- hash/md5.go:8-15 `MD5` -/
def mMD5 (L : Lib τ) (t : Facade τ) : Option (Facade τ) := digestWith L.I (some (L.new .md5New)) t
/-- hash/md5.go:18-22 `NewMD5` -/
def mNewMD5 (L : Lib τ) (t : Facade τ) : Option (Facade τ) := newWith (some (L.new .md5New)) t

/-- hash/sha.go:10-17 `SHA1` -/
def mSHA1 (L : Lib τ) (t : Facade τ) : Option (Facade τ) := digestWith L.I (some (L.new .sha1New)) t
/-- hash/sha.go:20-24 `NewSHA1` -/
def mNewSHA1 (L : Lib τ) (t : Facade τ) : Option (Facade τ) := newWith (some (L.new .sha1New)) t

/-- hash/sha.go:29-36 `SHA224` -/
def mSHA224 (L : Lib τ) (t : Facade τ) : Option (Facade τ) := digestWith L.I (some (L.new .sha256New224)) t
/-- hash/sha.go:39-43 `NewSHA224` -/
def mNewSHA224 (L : Lib τ) (t : Facade τ) : Option (Facade τ) := newWith (some (L.new .sha256New224)) t

/-- hash/sha.go:48-55 `SHA256` -/
def mSHA256 (L : Lib τ) (t : Facade τ) : Option (Facade τ) := digestWith L.I (some (L.new .sha256New)) t
/-- hash/sha.go:58-62 `NewSHA256` -/
def mNewSHA256 (L : Lib τ) (t : Facade τ) : Option (Facade τ) := newWith (some (L.new .sha256New)) t

/-- hash/sha.go:67-74 `SHA384` -/
def mSHA384 (L : Lib τ) (t : Facade τ) : Option (Facade τ) := digestWith L.I (some (L.new .sha512New384)) t
/-- hash/sha.go:77-81 `NewSHA384` -/
def mNewSHA384 (L : Lib τ) (t : Facade τ) : Option (Facade τ) := newWith (some (L.new .sha512New384)) t

/-- hash/sha.go:86-93 `SHA512` -/
def mSHA512 (L : Lib τ) (t : Facade τ) : Option (Facade τ) := digestWith L.I (some (L.new .sha512New)) t
/-- hash/sha.go:96-100 `NewSHA512` -/
def mNewSHA512 (L : Lib τ) (t : Facade τ) : Option (Facade τ) := newWith (some (L.new .sha512New)) t

/-- hash/sha.go:105-112 `SHA512_224` -/
def mSHA512_224 (L : Lib τ) (t : Facade τ) : Option (Facade τ) := digestWith L.I (some (L.new .sha512New512_224)) t
/-- hash/sha.go:115-119 `NewSHA512_224` -/
def mNewSHA512_224 (L : Lib τ) (t : Facade τ) : Option (Facade τ) := newWith (some (L.new .sha512New512_224)) t

/-- hash/sha.go:124-131 `SHA512_256` -/
def mSHA512_256 (L : Lib τ) (t : Facade τ) : Option (Facade τ) := digestWith L.I (some (L.new .sha512New512_256)) t
/-- hash/sha.go:134-138 `NewSHA512_256` -/
def mNewSHA512_256 (L : Lib τ) (t : Facade τ) : Option (Facade τ) := newWith (some (L.new .sha512New512_256)) t

/-- hash/sha3.go:8-15 `SHA3_224` -/
def mSHA3_224 (L : Lib τ) (t : Facade τ) : Option (Facade τ) := digestWith L.I (some (L.new .sha3New224)) t
/-- hash/sha3.go:18-22 `NewSHA3_224` -/
def mNewSHA3_224 (L : Lib τ) (t : Facade τ) : Option (Facade τ) := newWith (some (L.new .sha3New224)) t

/-- hash/sha3.go:27-34 `SHA3_256` -/
def mSHA3_256 (L : Lib τ) (t : Facade τ) : Option (Facade τ) := digestWith L.I (some (L.new .sha3New256)) t
/-- hash/sha3.go:37-41 `NewSHA3_256` -/
def mNewSHA3_256 (L : Lib τ) (t : Facade τ) : Option (Facade τ) := newWith (some (L.new .sha3New256)) t

/-- hash/sha3.go:46-53 `SHA3_384` -/
def mSHA3_384 (L : Lib τ) (t : Facade τ) : Option (Facade τ) := digestWith L.I (some (L.new .sha3New384)) t
/-- hash/sha3.go:56-60 `NewSHA3_384` -/
def mNewSHA3_384 (L : Lib τ) (t : Facade τ) : Option (Facade τ) := newWith (some (L.new .sha3New384)) t

/-- hash/sha3.go:65-72 `SHA3_512` -/
def mSHA3_512 (L : Lib τ) (t : Facade τ) : Option (Facade τ) := digestWith L.I (some (L.new .sha3New512)) t
/-- hash/sha3.go:75-79 `NewSHA3_512` -/
def mNewSHA3_512 (L : Lib τ) (t : Facade τ) : Option (Facade τ) := newWith (some (L.new .sha3New512)) t

/-- hash/keccak.go:8-15 `Keccak256` -/
def mKeccak256 (L : Lib τ) (t : Facade τ) : Option (Facade τ) := digestWith L.I (some (L.new .sha3NewLegacyKeccak256)) t
/-- hash/keccak.go:18-22 `NewKeccak256` -/
def mNewKeccak256 (L : Lib τ) (t : Facade τ) : Option (Facade τ) := newWith (some (L.new .sha3NewLegacyKeccak256)) t

/-- hash/keccak.go:27-34 `Keccak512` -/
def mKeccak512 (L : Lib τ) (t : Facade τ) : Option (Facade τ) := digestWith L.I (some (L.new .sha3NewLegacyKeccak512)) t
/-- hash/keccak.go:37-41 `NewKeccak512` -/
def mNewKeccak512 (L : Lib τ) (t : Facade τ) : Option (Facade τ) := newWith (some (L.new .sha3NewLegacyKeccak512)) t

/-- hash/ripemd160.go:8-15 `Ripemd160` -/
def mRipemd160 (L : Lib τ) (t : Facade τ) : Option (Facade τ) := digestWith L.I (some (L.new .ripemd160New)) t
/-- hash/ripemd160.go:18-22 `NewRipemd160` -/
def mNewRipemd160 (L : Lib τ) (t : Facade τ) : Option (Facade τ) := newWith (some (L.new .ripemd160New)) t

/-- hash/adler32.go:8-15 `Adler32` -/
def mAdler32 (L : Lib τ) (t : Facade τ) : Option (Facade τ) := digestWith L.I (some (L.new .adler32New)) t
/-- hash/adler32.go:18-22 `NewAdler32` -/
def mNewAdler32 (L : Lib τ) (t : Facade τ) : Option (Facade τ) := newWith (some (L.new .adler32New)) t

/-- hash/crc32.go:8-15 `CRC32_IEEE` -/
def mCRC32_IEEE (L : Lib τ) (t : Facade τ) : Option (Facade τ) := digestWith L.I (some (L.new .crc32NewIEEE)) t
/-- hash/crc32.go:18-22 `NewCRC32_IEEE` -/
def mNewCRC32_IEEE (L : Lib τ) (t : Facade τ) : Option (Facade τ) := newWith (some (L.new .crc32NewIEEE)) t

/-- hash/crc32.go:27-36 `CRC32_Castagnoli` -/
def mCRC32_Castagnoli (L : Lib τ) (t : Facade τ) : Option (Facade τ) := digestWith L.I (some (L.new (.crc32New crc32Castagnoli))) t
/-- hash/crc32.go:39-45 `NewCRC32_Castagnoli` -/
def mNewCRC32_Castagnoli (L : Lib τ) (t : Facade τ) : Option (Facade τ) := newWith (some (L.new (.crc32New crc32Castagnoli))) t

/-- hash/crc32.go:50-59 `CRC32_Koopman` -/
def mCRC32_Koopman (L : Lib τ) (t : Facade τ) : Option (Facade τ) := digestWith L.I (some (L.new (.crc32New crc32Koopman))) t
/-- hash/crc32.go:62-68 `NewCRC32_Koopman` -/
def mNewCRC32_Koopman (L : Lib τ) (t : Facade τ) : Option (Facade τ) := newWith (some (L.new (.crc32New crc32Koopman))) t

/-- hash/crc64.go:8-17 `CRC64_ISO` -/
def mCRC64_ISO (L : Lib τ) (t : Facade τ) : Option (Facade τ) := digestWith L.I (some (L.new (.crc64New crc64ISO))) t
/-- hash/crc64.go:20-26 `NewCRC64_ISO` -/
def mNewCRC64_ISO (L : Lib τ) (t : Facade τ) : Option (Facade τ) := newWith (some (L.new (.crc64New crc64ISO))) t

/-- hash/crc64.go:31-40 `CRC64_ECMA` -/
def mCRC64_ECMA (L : Lib τ) (t : Facade τ) : Option (Facade τ) := digestWith L.I (some (L.new (.crc64New crc64ECMA))) t
/-- hash/crc64.go:43-49 `NewCRC64_ECMA` -/
def mNewCRC64_ECMA (L : Lib τ) (t : Facade τ) : Option (Facade τ) := newWith (some (L.new (.crc64New crc64ECMA))) t

/-- hash/fnv.go:8-15 `Fnv32` -/
def mFnv32 (L : Lib τ) (t : Facade τ) : Option (Facade τ) := digestWith L.I (some (L.new .fnvNew32)) t
/-- hash/fnv.go:18-22 `NewFnv32` -/
def mNewFnv32 (L : Lib τ) (t : Facade τ) : Option (Facade τ) := newWith (some (L.new .fnvNew32)) t

/-- hash/fnv.go:27-34 `Fnv32a` -/
def mFnv32a (L : Lib τ) (t : Facade τ) : Option (Facade τ) := digestWith L.I (some (L.new .fnvNew32a)) t
/-- hash/fnv.go:37-41 `NewFnv32a` -/
def mNewFnv32a (L : Lib τ) (t : Facade τ) : Option (Facade τ) := newWith (some (L.new .fnvNew32a)) t

/-- hash/fnv.go:46-53 `Fnv64` -/
def mFnv64 (L : Lib τ) (t : Facade τ) : Option (Facade τ) := digestWith L.I (some (L.new .fnvNew64)) t
/-- hash/fnv.go:56-60 `NewFnv64` -/
def mNewFnv64 (L : Lib τ) (t : Facade τ) : Option (Facade τ) := newWith (some (L.new .fnvNew64)) t

/-- hash/fnv.go:65-72 `Fnv64a` -/
def mFnv64a (L : Lib τ) (t : Facade τ) : Option (Facade τ) := digestWith L.I (some (L.new .fnvNew64a)) t
/-- hash/fnv.go:75-79 `NewFnv64a` -/
def mNewFnv64a (L : Lib τ) (t : Facade τ) : Option (Facade τ) := newWith (some (L.new .fnvNew64a)) t

/-- hash/fnv.go:84-91 `Fnv128` -/
def mFnv128 (L : Lib τ) (t : Facade τ) : Option (Facade τ) := digestWith L.I (some (L.new .fnvNew128)) t
/-- hash/fnv.go:94-98 `NewFnv128` -/
def mNewFnv128 (L : Lib τ) (t : Facade τ) : Option (Facade τ) := newWith (some (L.new .fnvNew128)) t

/-- hash/fnv.go:103-110 `Fnv128a` -/
def mFnv128a (L : Lib τ) (t : Facade τ) : Option (Facade τ) := digestWith L.I (some (L.new .fnvNew128a)) t
/-- hash/fnv.go:113-117 `NewFnv128a` -/
def mNewFnv128a (L : Lib τ) (t : Facade τ) : Option (Facade τ) := newWith (some (L.new .fnvNew128a)) t

/-- `this.hash, this.Error = pkg.New(key); return this` -/
def newErr (o : Option τ) (t : Facade τ) : Option (Facade τ) :=
  match o with
  | none => some { t with hash := none, err := some (.other 0) }
  | some h => some { t with hash := some h, err := none }

/-- hash/blake.go:9-14 `Blake2b_256` -/
def mBlake2b_256 (L : Lib τ) (t : Facade τ) : Option (Facade τ) := some { t with data := L.blake2bSum 256 t.data }
/-- hash/blake.go:17-21 `NewBlake2b_256` -/
def mNewBlake2b_256 (L : Lib τ) (key : Bytes) (t : Facade τ) : Option (Facade τ) := newErr (L.blake2bNew 256 key) t
/-- hash/blake.go:26-31 `Blake2b_384` -/
def mBlake2b_384 (L : Lib τ) (t : Facade τ) : Option (Facade τ) := some { t with data := L.blake2bSum 384 t.data }
/-- hash/blake.go:34-38 `NewBlake2b_384` -/
def mNewBlake2b_384 (L : Lib τ) (key : Bytes) (t : Facade τ) : Option (Facade τ) := newErr (L.blake2bNew 384 key) t
/-- hash/blake.go:43-48 `Blake2b_512` -/
def mBlake2b_512 (L : Lib τ) (t : Facade τ) : Option (Facade τ) := some { t with data := L.blake2bSum 512 t.data }
/-- hash/blake.go:51-55 `NewBlake2b_512` -/
def mNewBlake2b_512 (L : Lib τ) (key : Bytes) (t : Facade τ) : Option (Facade τ) := newErr (L.blake2bNew 512 key) t
/-- hash/blake.go:60-65 `Blake2s_256` -/
def mBlake2s_256 (L : Lib τ) (t : Facade τ) : Option (Facade τ) := some { t with data := L.blake2sSum256 t.data }
/-- hash/blake.go:68-72 `NewBlake2s_256` -/
def mNewBlake2s_256 (L : Lib τ) (key : Bytes) (t : Facade τ) : Option (Facade τ) := newErr (L.blake2sNew 256 key) t
/-- hash/blake.go:77-89 `Blake2s_128` -/
def mBlake2s_128 (L : Lib τ) (t : Facade τ) : Option (Facade τ) :=
  match L.blake2sNew 128 [] with
  | none => some { t with err := some (.other 0) }
  | some h => digestWith L.I (some h) t
/-- hash/blake.go:92-96 `NewBlake2s_128` -/
def mNewBlake2s_128 (L : Lib τ) (key : Bytes) (t : Facade τ) : Option (Facade τ) := newErr (L.blake2sNew 128 key) t

/-- hash/shake.go:28-35 `Shake128`; `make` panics for a negative length -/
def mShake128 (L : Lib τ) (num : Int) (t : Facade τ) : Option (Facade τ) :=
  if num < 0 then none else some { t with data := L.shakeSum128 num.toNat t.data }
/-- hash/shake.go:38-42 `NewShake128` -/
def mNewShake128 (L : Lib τ) (t : Facade τ) : Option (Facade τ) := newWith (some (L.new .sha3NewShake128)) t

/-- hash/shake.go:47-54 `Shake256`; `make` panics for a negative length -/
def mShake256 (L : Lib τ) (num : Int) (t : Facade τ) : Option (Facade τ) :=
  if num < 0 then none else some { t with data := L.shakeSum256 num.toNat t.data }
/-- hash/shake.go:57-61 `NewShake256` -/
def mNewShake256 (L : Lib τ) (t : Facade τ) : Option (Facade τ) := newWith (some (L.new .sha3NewShake256)) t

/-- hash/shake.go:66-76 `CShake128` -/
def mCShake128 (L : Lib τ) (N S : Bytes) (num : Int) (t : Facade τ) : Option (Facade τ) := do
  let (h, _) ← L.I.write (L.new (.sha3NewCShake128 N S)) t.data
  if num < 0 then none
  else
    let out ← L.read h num.toNat
    some { t with data := out }
/-- hash/shake.go:79-83 `NewCShake128` -/
def mNewCShake128 (L : Lib τ) (N S : Bytes) (t : Facade τ) : Option (Facade τ) := newWith (some (L.new (.sha3NewCShake128 N S))) t

/-- hash/shake.go:88-98 `CShake256` -/
def mCShake256 (L : Lib τ) (N S : Bytes) (num : Int) (t : Facade τ) : Option (Facade τ) := do
  let (h, _) ← L.I.write (L.new (.sha3NewCShake256 N S)) t.data
  if num < 0 then none
  else
    let out ← L.read h num.toNat
    some { t with data := out }
/-- hash/shake.go:101-105 `NewCShake256` -/
def mNewCShake256 (L : Lib τ) (N S : Bytes) (t : Facade τ) : Option (Facade τ) := newWith (some (L.new (.sha3NewCShake256 N S))) t

/-- hash/maphash.go:9-21 `newMaphash`, `Maphash`; the seed is the one the library draws -/
def mMaphash (L : Lib τ) (seed : U64) (t : Facade τ) : Option (Facade τ) := digestWith L.I (some (L.new (.maphash seed))) t
/-- hash/maphash.go:24-28 `NewMaphash` -/
def mNewMaphash (L : Lib τ) (seed : U64) (t : Facade τ) : Option (Facade τ) := newWith (some (L.new (.maphash seed))) t

/-- `h := pkg.New(); h.Write(slice); h.Sum(nil)`, as in hash/md5sha1.go:8-13 `sha1Hash` and :19-22 -/
def libSum (L : Lib τ) (c : Ctor) (slice : Bytes) : Option Bytes := do
  let (h, _) ← L.I.write (L.new c) slice
  let (_, d) ← L.I.sum h []
  some d
/-- hash/md5sha1.go:16-26 `md5Sha1` -/
def md5Sha1 (L : Lib τ) (slice : Bytes) : Option Bytes := do
  let md5sha1 := zeros (16 + 20)
  let d ← libSum L .md5New slice
  let md5sha1 := goCopy md5sha1 0 d
  let e ← libSum L .sha1New slice
  some (goCopy md5sha1 16 e)
/-- hash/md5sha1.go:29-33 `MD5SHA1` -/
def mMD5SHA1 (L : Lib τ) (t : Facade τ) : Option (Facade τ) := do
  let d ← md5Sha1 L t.data
  some { t with data := d }

/-- hash/hash_helper.go:8-12 `MD5_16` (the string as its bytes); slicing panics when the text is short -/
def md5_16 (L : Lib τ) (s : Bytes) : Option Bytes := do
  let u ← mMD5 L { (newFacade : Facade τ) with data := s }
  let data := u.toHexString
  if data.length < 24 then none else some ((data.take 24).drop 8)

end Verif.Facade
