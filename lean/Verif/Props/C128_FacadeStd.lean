import Verif.Model.FacadeStd
import Verif.Props.C120_FacadeAlgos
/-
C128: the facade's methods for algorithms of the Go library and golang.org/x/crypto use the algorithm
they name, given that the libraries do what their documentation says.  C129: the two that do not.
(Generated in part by `tools/gen_facadestd.py`.)
-/
namespace Verif.Props
open Verif.Facade

/-- The algorithms, as their standards name them. -/
inductive Algorithm where
  | MD4 | MD5 | SHA1 | SHA224 | SHA256 | SHA384 | SHA512 | SHA512_224 | SHA512_256
  | SHA3_224 | SHA3_256 | SHA3_384 | SHA3_512 | Keccak256 | Keccak512 | RIPEMD160 | Adler32
  /-- reflected, with the given (reversed) polynomial; IEEE 802.3 is 0xedb88320 -/
  | CRC32 (poly : U32) | CRC64 (poly : U64)
  | FNV1 (bits : Nat) | FNV1a (bits : Nat)
  /-- key, digest length in bytes -/
  | BLAKE2b (key : Bytes) (size : Nat) | BLAKE2s (key : Bytes) (size : Nat)
  /-- output length in bytes -/
  | SHAKE128 (size : Nat) | SHAKE256 (size : Nat)
  | CSHAKE128 (N S : Bytes) (size : Nat) | CSHAKE256 (N S : Bytes) (size : Nat)
  /-- the family of hash/maphash -/
  | Maphash (seed : U64)

/-- The mathematical functions; nothing is used of them but two lengths. -/
structure Digests where
  H : Algorithm → Bytes → Bytes
  md5_length : ∀ m, (H .MD5 m).length = 16
  sha1_length : ∀ m, (H .SHA1 m).length = 20

/-- What the documentation of the libraries says each constructor computes. -/
def Ctor.algorithm : Ctor → Algorithm
  | .md4New => .MD4 | .md5New => .MD5 | .sha1New => .SHA1
  | .sha256New224 => .SHA224 | .sha256New => .SHA256
  | .sha512New384 => .SHA384 | .sha512New => .SHA512
  | .sha512New512_224 => .SHA512_224 | .sha512New512_256 => .SHA512_256
  | .sha3New224 => .SHA3_224 | .sha3New256 => .SHA3_256 | .sha3New384 => .SHA3_384 | .sha3New512 => .SHA3_512
  | .sha3NewLegacyKeccak256 => .Keccak256 | .sha3NewLegacyKeccak512 => .Keccak512
  | .ripemd160New => .RIPEMD160 | .adler32New => .Adler32
  | .crc32NewIEEE => .CRC32 0xedb88320#32 | .crc32New p => .CRC32 p | .crc64New p => .CRC64 p
  | .fnvNew32 => .FNV1 32 | .fnvNew32a => .FNV1a 32 | .fnvNew64 => .FNV1 64 | .fnvNew64a => .FNV1a 64
  | .fnvNew128 => .FNV1 128 | .fnvNew128a => .FNV1a 128
  | .sha3NewShake128 => .SHAKE128 32 | .sha3NewShake256 => .SHAKE256 64
  | .sha3NewCShake128 N S => .CSHAKE128 N S 32 | .sha3NewCShake256 N S => .CSHAKE256 N S 64
  | .maphash s => .Maphash s

/-- The object `h` computes `H`: for every history of calls. -/
def Computes {τ} (I : HashImpl τ) (h : τ) (H : Bytes → Bytes) : Prop := ∃ size blockSize, Refines I h ⟨H, size, blockSize⟩

/-- The libraries do what they document. -/
structure LibOK {τ} (L : Lib τ) (D : Digests) : Prop where
  new : ∀ c, Computes L.I (L.new c) (D.H (Ctor.algorithm c))
  blake2bSum : ∀ bits, bits = 256 ∨ bits = 384 ∨ bits = 512 → ∀ m, L.blake2bSum bits m = D.H (.BLAKE2b [] (bits / 8)) m
  blake2sSum : ∀ m, L.blake2sSum256 m = D.H (.BLAKE2s [] 32) m
  /-- keys of more than 64 bytes are refused -/
  blake2bNew : ∀ bits, bits = 256 ∨ bits = 384 ∨ bits = 512 → ∀ key, match L.blake2bNew bits key with
    | none => 64 < key.length
    | some h => key.length ≤ 64 ∧ Computes L.I h (D.H (.BLAKE2b key (bits / 8)))
  /-- keys of more than 32 bytes are refused -/
  blake2sNew : ∀ key, match L.blake2sNew 256 key with
    | none => 32 < key.length
    | some h => key.length ≤ 32 ∧ Computes L.I h (D.H (.BLAKE2s key 32))
  /-- "a key is required for a 128-bit hash" -/
  blake2sNew128 : ∀ key, match L.blake2sNew 128 key with
    | none => key = [] ∨ 32 < key.length
    | some h => key ≠ [] ∧ key.length ≤ 32 ∧ Computes L.I h (D.H (.BLAKE2s key 16))
  shakeSum128 : ∀ n m, L.shakeSum128 n m = D.H (.SHAKE128 n) m
  shakeSum256 : ∀ n m, L.shakeSum256 n m = D.H (.SHAKE256 n) m
  cread128 : ∀ N S m n, ∃ h k, L.I.write (L.new (.sha3NewCShake128 N S)) m = some (h, k) ∧ L.read h n = some (D.H (.CSHAKE128 N S n) m)
  cread256 : ∀ N S m n, ∃ h k, L.I.write (L.new (.sha3NewCShake256 N S)) m = some (h, k) ∧ L.read h n = some (D.H (.CSHAKE256 N S n) m)

/-- The method succeeds, makes `d` the data and changes nothing else. -/
def mustDigest {τ} (f : Facade τ → Option (Facade τ)) (t : Facade τ) (d : Bytes) : Prop :=
  f t = some { t with data := d }

/-- After the method, `Write(p₁)...Write(pₙ).Sum(b)` leaves `b` and the digest of the bytes written in
the data, and the error as it was before the method; the method itself leaves the data. -/
def mustInstall {τ} (L : Lib τ) (f : Facade τ → Option (Facade τ)) (t : Facade τ) (H : Bytes → Bytes) : Prop :=
  ∃ v, f t = some v ∧ v.data = t.data ∧ v.err = t.err ∧ ∀ ps b, ∃ u, writesThenSum L.I ps b v = some u ∧
    u.data = b ++ H ps.flatten ∧ u.err = t.err

/-- The same for a method that sets the error to nil. -/
def mustInstallNoErr {τ} (L : Lib τ) (f : Facade τ → Option (Facade τ)) (t : Facade τ) (H : Bytes → Bytes) : Prop :=
  ∃ v, f t = some v ∧ v.data = t.data ∧ v.err = none ∧ ∀ ps b, ∃ u, writesThenSum L.I ps b v = some u ∧
    u.data = b ++ H ps.flatten ∧ u.err = none

/-- The method reports an error, keeps the data, and leaves a facade on which every Write panics. -/
def mustRefuse {τ} (L : Lib τ) (f : Facade τ → Option (Facade τ)) (t : Facade τ) : Prop :=
  ∃ v, f t = some v ∧ v.data = t.data ∧ v.err ≠ none ∧ ∀ p, (Call.write p).run L.I (fun _ => none) v = none

variable {τ : Type} {L : Lib τ} {D : Digests}

theorem ctor_digest (ok : LibOK L D) (c : Ctor) (t : Facade τ) :
    mustDigest (digestWith L.I (some (L.new c))) t (D.H (Ctor.algorithm c) t.data) := by
  obtain ⟨a, b, h⟩ := ok.new c
  exact digestWith_of (S := ⟨_, a, b⟩) (h _) rfl

theorem computes_install {h₀ : τ} {H : Bytes → Bytes} (h : Computes L.I h₀ H) (t : Facade τ) (ps : List Bytes) (b : Bytes) :
    ∃ u, writesThenSum L.I ps b { t with hash := some h₀ } = some u ∧ u.data = b ++ H ps.flatten ∧ u.err = t.err := by
  obtain ⟨x, y, h⟩ := h
  exact stream_of (S := ⟨_, x, y⟩) (h _) rfl

theorem ctor_install (ok : LibOK L D) (c : Ctor) (t : Facade τ) :
    mustInstall L (newWith (some (L.new c))) t (D.H (Ctor.algorithm c)) :=
  ⟨_, rfl, rfl, rfl, fun ps b => computes_install (ok.new c) t ps b⟩

theorem newErr_install {o : Option τ} {P : Prop} {H : Bytes → Bytes} (t : Facade τ)
    (h : match o with | none => ¬ P | some h => P ∧ Computes L.I h H) :
    (P → mustInstallNoErr L (newErr o) t H) ∧ (¬ P → mustRefuse L (newErr o) t) := by
  cases o with
  | none =>
    refine ⟨fun p => absurd p h, fun _ => ⟨_, rfl, rfl, by simp, fun p => rfl⟩⟩
  | some x =>
    exact ⟨fun _ => ⟨_, rfl, rfl, rfl, fun ps b => computes_install h.2 { t with err := none } ps b⟩, fun p => absurd h.1 p⟩

theorem C128_MD4 (ok : LibOK L D) : (∀ t, mustDigest (mMD4 L) t (D.H .MD4 t.data)) ∧ ∀ t, mustInstall L (mNewMD4 L) t (D.H .MD4) :=
  ⟨fun t => ctor_digest ok .md4New t, fun t => ctor_install ok .md4New t⟩
theorem C128_MD5 (ok : LibOK L D) : (∀ t, mustDigest (mMD5 L) t (D.H .MD5 t.data)) ∧ ∀ t, mustInstall L (mNewMD5 L) t (D.H .MD5) :=
  ⟨fun t => ctor_digest ok .md5New t, fun t => ctor_install ok .md5New t⟩
theorem C128_SHA1 (ok : LibOK L D) : (∀ t, mustDigest (mSHA1 L) t (D.H .SHA1 t.data)) ∧ ∀ t, mustInstall L (mNewSHA1 L) t (D.H .SHA1) :=
  ⟨fun t => ctor_digest ok .sha1New t, fun t => ctor_install ok .sha1New t⟩
theorem C128_SHA224 (ok : LibOK L D) : (∀ t, mustDigest (mSHA224 L) t (D.H .SHA224 t.data)) ∧ ∀ t, mustInstall L (mNewSHA224 L) t (D.H .SHA224) :=
  ⟨fun t => ctor_digest ok .sha256New224 t, fun t => ctor_install ok .sha256New224 t⟩
theorem C128_SHA256 (ok : LibOK L D) : (∀ t, mustDigest (mSHA256 L) t (D.H .SHA256 t.data)) ∧ ∀ t, mustInstall L (mNewSHA256 L) t (D.H .SHA256) :=
  ⟨fun t => ctor_digest ok .sha256New t, fun t => ctor_install ok .sha256New t⟩
theorem C128_SHA384 (ok : LibOK L D) : (∀ t, mustDigest (mSHA384 L) t (D.H .SHA384 t.data)) ∧ ∀ t, mustInstall L (mNewSHA384 L) t (D.H .SHA384) :=
  ⟨fun t => ctor_digest ok .sha512New384 t, fun t => ctor_install ok .sha512New384 t⟩
theorem C128_SHA512 (ok : LibOK L D) : (∀ t, mustDigest (mSHA512 L) t (D.H .SHA512 t.data)) ∧ ∀ t, mustInstall L (mNewSHA512 L) t (D.H .SHA512) :=
  ⟨fun t => ctor_digest ok .sha512New t, fun t => ctor_install ok .sha512New t⟩
theorem C128_SHA512_224 (ok : LibOK L D) : (∀ t, mustDigest (mSHA512_224 L) t (D.H .SHA512_224 t.data)) ∧ ∀ t, mustInstall L (mNewSHA512_224 L) t (D.H .SHA512_224) :=
  ⟨fun t => ctor_digest ok .sha512New512_224 t, fun t => ctor_install ok .sha512New512_224 t⟩
theorem C128_SHA512_256 (ok : LibOK L D) : (∀ t, mustDigest (mSHA512_256 L) t (D.H .SHA512_256 t.data)) ∧ ∀ t, mustInstall L (mNewSHA512_256 L) t (D.H .SHA512_256) :=
  ⟨fun t => ctor_digest ok .sha512New512_256 t, fun t => ctor_install ok .sha512New512_256 t⟩
theorem C128_SHA3_224 (ok : LibOK L D) : (∀ t, mustDigest (mSHA3_224 L) t (D.H .SHA3_224 t.data)) ∧ ∀ t, mustInstall L (mNewSHA3_224 L) t (D.H .SHA3_224) :=
  ⟨fun t => ctor_digest ok .sha3New224 t, fun t => ctor_install ok .sha3New224 t⟩
theorem C128_SHA3_256 (ok : LibOK L D) : (∀ t, mustDigest (mSHA3_256 L) t (D.H .SHA3_256 t.data)) ∧ ∀ t, mustInstall L (mNewSHA3_256 L) t (D.H .SHA3_256) :=
  ⟨fun t => ctor_digest ok .sha3New256 t, fun t => ctor_install ok .sha3New256 t⟩
theorem C128_SHA3_384 (ok : LibOK L D) : (∀ t, mustDigest (mSHA3_384 L) t (D.H .SHA3_384 t.data)) ∧ ∀ t, mustInstall L (mNewSHA3_384 L) t (D.H .SHA3_384) :=
  ⟨fun t => ctor_digest ok .sha3New384 t, fun t => ctor_install ok .sha3New384 t⟩
theorem C128_SHA3_512 (ok : LibOK L D) : (∀ t, mustDigest (mSHA3_512 L) t (D.H .SHA3_512 t.data)) ∧ ∀ t, mustInstall L (mNewSHA3_512 L) t (D.H .SHA3_512) :=
  ⟨fun t => ctor_digest ok .sha3New512 t, fun t => ctor_install ok .sha3New512 t⟩
theorem C128_Keccak256 (ok : LibOK L D) : (∀ t, mustDigest (mKeccak256 L) t (D.H .Keccak256 t.data)) ∧ ∀ t, mustInstall L (mNewKeccak256 L) t (D.H .Keccak256) :=
  ⟨fun t => ctor_digest ok .sha3NewLegacyKeccak256 t, fun t => ctor_install ok .sha3NewLegacyKeccak256 t⟩
theorem C128_Keccak512 (ok : LibOK L D) : (∀ t, mustDigest (mKeccak512 L) t (D.H .Keccak512 t.data)) ∧ ∀ t, mustInstall L (mNewKeccak512 L) t (D.H .Keccak512) :=
  ⟨fun t => ctor_digest ok .sha3NewLegacyKeccak512 t, fun t => ctor_install ok .sha3NewLegacyKeccak512 t⟩
theorem C128_Ripemd160 (ok : LibOK L D) : (∀ t, mustDigest (mRipemd160 L) t (D.H .RIPEMD160 t.data)) ∧ ∀ t, mustInstall L (mNewRipemd160 L) t (D.H .RIPEMD160) :=
  ⟨fun t => ctor_digest ok .ripemd160New t, fun t => ctor_install ok .ripemd160New t⟩
theorem C128_Adler32 (ok : LibOK L D) : (∀ t, mustDigest (mAdler32 L) t (D.H .Adler32 t.data)) ∧ ∀ t, mustInstall L (mNewAdler32 L) t (D.H .Adler32) :=
  ⟨fun t => ctor_digest ok .adler32New t, fun t => ctor_install ok .adler32New t⟩
theorem C128_CRC32_IEEE (ok : LibOK L D) : (∀ t, mustDigest (mCRC32_IEEE L) t (D.H (.CRC32 0xedb88320#32) t.data)) ∧ ∀ t, mustInstall L (mNewCRC32_IEEE L) t (D.H (.CRC32 0xedb88320#32)) :=
  ⟨fun t => ctor_digest ok .crc32NewIEEE t, fun t => ctor_install ok .crc32NewIEEE t⟩
theorem C128_CRC32_Castagnoli (ok : LibOK L D) : (∀ t, mustDigest (mCRC32_Castagnoli L) t (D.H (.CRC32 0x82f63b78#32) t.data)) ∧ ∀ t, mustInstall L (mNewCRC32_Castagnoli L) t (D.H (.CRC32 0x82f63b78#32)) :=
  ⟨fun t => ctor_digest ok (.crc32New crc32Castagnoli) t, fun t => ctor_install ok (.crc32New crc32Castagnoli) t⟩
theorem C128_CRC32_Koopman (ok : LibOK L D) : (∀ t, mustDigest (mCRC32_Koopman L) t (D.H (.CRC32 0xeb31d82e#32) t.data)) ∧ ∀ t, mustInstall L (mNewCRC32_Koopman L) t (D.H (.CRC32 0xeb31d82e#32)) :=
  ⟨fun t => ctor_digest ok (.crc32New crc32Koopman) t, fun t => ctor_install ok (.crc32New crc32Koopman) t⟩
theorem C128_CRC64_ISO (ok : LibOK L D) : (∀ t, mustDigest (mCRC64_ISO L) t (D.H (.CRC64 0xd800000000000000#64) t.data)) ∧ ∀ t, mustInstall L (mNewCRC64_ISO L) t (D.H (.CRC64 0xd800000000000000#64)) :=
  ⟨fun t => ctor_digest ok (.crc64New crc64ISO) t, fun t => ctor_install ok (.crc64New crc64ISO) t⟩
theorem C128_CRC64_ECMA (ok : LibOK L D) : (∀ t, mustDigest (mCRC64_ECMA L) t (D.H (.CRC64 0xc96c5795d7870f42#64) t.data)) ∧ ∀ t, mustInstall L (mNewCRC64_ECMA L) t (D.H (.CRC64 0xc96c5795d7870f42#64)) :=
  ⟨fun t => ctor_digest ok (.crc64New crc64ECMA) t, fun t => ctor_install ok (.crc64New crc64ECMA) t⟩
theorem C128_Fnv32 (ok : LibOK L D) : (∀ t, mustDigest (mFnv32 L) t (D.H (.FNV1 32) t.data)) ∧ ∀ t, mustInstall L (mNewFnv32 L) t (D.H (.FNV1 32)) :=
  ⟨fun t => ctor_digest ok .fnvNew32 t, fun t => ctor_install ok .fnvNew32 t⟩
theorem C128_Fnv32a (ok : LibOK L D) : (∀ t, mustDigest (mFnv32a L) t (D.H (.FNV1a 32) t.data)) ∧ ∀ t, mustInstall L (mNewFnv32a L) t (D.H (.FNV1a 32)) :=
  ⟨fun t => ctor_digest ok .fnvNew32a t, fun t => ctor_install ok .fnvNew32a t⟩
theorem C128_Fnv64 (ok : LibOK L D) : (∀ t, mustDigest (mFnv64 L) t (D.H (.FNV1 64) t.data)) ∧ ∀ t, mustInstall L (mNewFnv64 L) t (D.H (.FNV1 64)) :=
  ⟨fun t => ctor_digest ok .fnvNew64 t, fun t => ctor_install ok .fnvNew64 t⟩
theorem C128_Fnv64a (ok : LibOK L D) : (∀ t, mustDigest (mFnv64a L) t (D.H (.FNV1a 64) t.data)) ∧ ∀ t, mustInstall L (mNewFnv64a L) t (D.H (.FNV1a 64)) :=
  ⟨fun t => ctor_digest ok .fnvNew64a t, fun t => ctor_install ok .fnvNew64a t⟩
theorem C128_Fnv128 (ok : LibOK L D) : (∀ t, mustDigest (mFnv128 L) t (D.H (.FNV1 128) t.data)) ∧ ∀ t, mustInstall L (mNewFnv128 L) t (D.H (.FNV1 128)) :=
  ⟨fun t => ctor_digest ok .fnvNew128 t, fun t => ctor_install ok .fnvNew128 t⟩
theorem C128_Fnv128a (ok : LibOK L D) : (∀ t, mustDigest (mFnv128a L) t (D.H (.FNV1a 128) t.data)) ∧ ∀ t, mustInstall L (mNewFnv128a L) t (D.H (.FNV1a 128)) :=
  ⟨fun t => ctor_digest ok .fnvNew128a t, fun t => ctor_install ok .fnvNew128a t⟩

theorem C128_Blake2b_256 (ok : LibOK L D) (t : Facade τ) : mustDigest (mBlake2b_256 L) t (D.H (.BLAKE2b [] 32) t.data) ∧
    (∀ key, key.length ≤ 64 → mustInstallNoErr L (mNewBlake2b_256 L key) t (D.H (.BLAKE2b key 32))) ∧
    ∀ key, 64 < key.length → mustRefuse L (mNewBlake2b_256 L key) t := by
  refine ⟨?_, fun key hk => ?_, fun key hk => ?_⟩
  · unfold mustDigest mBlake2b_256
    rw [ok.blake2bSum 256 (by decide)]
  all_goals
    have h := ok.blake2bNew 256 (by decide) key
    have h' : match L.blake2bNew 256 key with | none => ¬ key.length ≤ 64 | some h => key.length ≤ 64 ∧ Computes L.I h (D.H (.BLAKE2b key 32)) := by
      revert h
      cases L.blake2bNew 256 key with
      | none => intro h; exact Nat.not_le.mpr h
      | some x => intro h; exact h
    have h2 := newErr_install t h'
  · exact h2.1 hk
  · exact h2.2 (Nat.not_le.mpr hk)
theorem C128_Blake2b_384 (ok : LibOK L D) (t : Facade τ) : mustDigest (mBlake2b_384 L) t (D.H (.BLAKE2b [] 48) t.data) ∧
    (∀ key, key.length ≤ 64 → mustInstallNoErr L (mNewBlake2b_384 L key) t (D.H (.BLAKE2b key 48))) ∧
    ∀ key, 64 < key.length → mustRefuse L (mNewBlake2b_384 L key) t := by
  refine ⟨?_, fun key hk => ?_, fun key hk => ?_⟩
  · unfold mustDigest mBlake2b_384
    rw [ok.blake2bSum 384 (by decide)]
  all_goals
    have h := ok.blake2bNew 384 (by decide) key
    have h' : match L.blake2bNew 384 key with | none => ¬ key.length ≤ 64 | some h => key.length ≤ 64 ∧ Computes L.I h (D.H (.BLAKE2b key 48)) := by
      revert h
      cases L.blake2bNew 384 key with
      | none => intro h; exact Nat.not_le.mpr h
      | some x => intro h; exact h
    have h2 := newErr_install t h'
  · exact h2.1 hk
  · exact h2.2 (Nat.not_le.mpr hk)
theorem C128_Blake2b_512 (ok : LibOK L D) (t : Facade τ) : mustDigest (mBlake2b_512 L) t (D.H (.BLAKE2b [] 64) t.data) ∧
    (∀ key, key.length ≤ 64 → mustInstallNoErr L (mNewBlake2b_512 L key) t (D.H (.BLAKE2b key 64))) ∧
    ∀ key, 64 < key.length → mustRefuse L (mNewBlake2b_512 L key) t := by
  refine ⟨?_, fun key hk => ?_, fun key hk => ?_⟩
  · unfold mustDigest mBlake2b_512
    rw [ok.blake2bSum 512 (by decide)]
  all_goals
    have h := ok.blake2bNew 512 (by decide) key
    have h' : match L.blake2bNew 512 key with | none => ¬ key.length ≤ 64 | some h => key.length ≤ 64 ∧ Computes L.I h (D.H (.BLAKE2b key 64)) := by
      revert h
      cases L.blake2bNew 512 key with
      | none => intro h; exact Nat.not_le.mpr h
      | some x => intro h; exact h
    have h2 := newErr_install t h'
  · exact h2.1 hk
  · exact h2.2 (Nat.not_le.mpr hk)

theorem C128_Blake2s_256 (ok : LibOK L D) (t : Facade τ) : mustDigest (mBlake2s_256 L) t (D.H (.BLAKE2s [] 32) t.data) ∧
    (∀ key, key.length ≤ 32 → mustInstallNoErr L (mNewBlake2s_256 L key) t (D.H (.BLAKE2s key 32))) ∧
    ∀ key, 32 < key.length → mustRefuse L (mNewBlake2s_256 L key) t := by
  refine ⟨?_, fun key hk => ?_, fun key hk => ?_⟩
  · unfold mustDigest mBlake2s_256
    rw [ok.blake2sSum]
  all_goals
    have h := ok.blake2sNew key
    have h' : match L.blake2sNew 256 key with | none => ¬ key.length ≤ 32 | some h => key.length ≤ 32 ∧ Computes L.I h (D.H (.BLAKE2s key 32)) := by
      revert h
      cases L.blake2sNew 256 key with
      | none => intro h; exact Nat.not_le.mpr h
      | some x => intro h; exact h
    have h2 := newErr_install t h'
  · exact h2.1 hk
  · exact h2.2 (Nat.not_le.mpr hk)

/-- `NewBlake2s_128` works for the keys of 1 to 32 bytes and refuses the others. -/
theorem C128_NewBlake2s_128 (ok : LibOK L D) (t : Facade τ) :
    (∀ key, key ≠ [] → key.length ≤ 32 → mustInstallNoErr L (mNewBlake2s_128 L key) t (D.H (.BLAKE2s key 16))) ∧
    ∀ key, (key = [] ∨ 32 < key.length) → mustRefuse L (mNewBlake2s_128 L key) t := by
  refine ⟨fun key h0 hk => ?_, fun key hk => ?_⟩
  all_goals
    have h := ok.blake2sNew128 key
    have h' : match L.blake2sNew 128 key with | none => ¬ (key ≠ [] ∧ key.length ≤ 32) | some h => (key ≠ [] ∧ key.length ≤ 32) ∧ Computes L.I h (D.H (.BLAKE2s key 16)) := by
      revert h
      cases L.blake2sNew 128 key with
      | none => intro h h2; rcases h with h | h
                · exact h2.1 h
                · exact absurd h (Nat.not_lt.mpr h2.2)
      | some x => intro h; exact ⟨⟨h.1, h.2.1⟩, h.2.2⟩
    have h2 := newErr_install t h'
  · exact h2.1 ⟨h0, hk⟩
  · refine h2.2 (fun h => ?_)
    rcases hk with hk | hk
    · exact h.1 hk
    · exact absurd hk (Nat.not_lt.mpr h.2)

/-- SHAKE: any output length; a negative one panics; the installed object yields 32 bytes. -/
theorem C128_Shake128 (ok : LibOK L D) (t : Facade τ) : (∀ n : Nat, mustDigest (mShake128 L n) t (D.H (.SHAKE128 n) t.data)) ∧
    (∀ num < 0, mShake128 L num t = none) ∧ mustInstall L (mNewShake128 L) t (D.H (.SHAKE128 32)) := by
  refine ⟨fun n => ?_, fun num hn => ?_, ctor_install ok .sha3NewShake128 t⟩
  · unfold mustDigest mShake128
    rw [if_neg (by omega), ok.shakeSum128, Int.toNat_natCast]
  · unfold mShake128
    rw [if_pos hn]
theorem C128_CShake128 (ok : LibOK L D) (t : Facade τ) (N S : Bytes) : (∀ n : Nat, mustDigest (mCShake128 L N S n) t (D.H (.CSHAKE128 N S n) t.data)) ∧
    (∀ num < 0, mCShake128 L N S num t = none) ∧ mustInstall L (mNewCShake128 L N S) t (D.H (.CSHAKE128 N S 32)) := by
  refine ⟨fun n => ?_, fun num hn => ?_, ctor_install ok (.sha3NewCShake128 N S) t⟩
  · obtain ⟨h, k, h1, h2⟩ := ok.cread128 N S t.data n
    unfold mustDigest mCShake128
    rw [h1]
    simp only [Option.bind_eq_bind, Option.bind_some]
    rw [if_neg (by omega), Int.toNat_natCast, h2]
    rfl
  · obtain ⟨h, k, h1, -⟩ := ok.cread128 N S t.data 0
    unfold mCShake128
    rw [h1]
    simp only [Option.bind_eq_bind, Option.bind_some]
    rw [if_pos hn]
/-- SHAKE: any output length; a negative one panics; the installed object yields 64 bytes. -/
theorem C128_Shake256 (ok : LibOK L D) (t : Facade τ) : (∀ n : Nat, mustDigest (mShake256 L n) t (D.H (.SHAKE256 n) t.data)) ∧
    (∀ num < 0, mShake256 L num t = none) ∧ mustInstall L (mNewShake256 L) t (D.H (.SHAKE256 64)) := by
  refine ⟨fun n => ?_, fun num hn => ?_, ctor_install ok .sha3NewShake256 t⟩
  · unfold mustDigest mShake256
    rw [if_neg (by omega), ok.shakeSum256, Int.toNat_natCast]
  · unfold mShake256
    rw [if_pos hn]
theorem C128_CShake256 (ok : LibOK L D) (t : Facade τ) (N S : Bytes) : (∀ n : Nat, mustDigest (mCShake256 L N S n) t (D.H (.CSHAKE256 N S n) t.data)) ∧
    (∀ num < 0, mCShake256 L N S num t = none) ∧ mustInstall L (mNewCShake256 L N S) t (D.H (.CSHAKE256 N S 64)) := by
  refine ⟨fun n => ?_, fun num hn => ?_, ctor_install ok (.sha3NewCShake256 N S) t⟩
  · obtain ⟨h, k, h1, h2⟩ := ok.cread256 N S t.data n
    unfold mustDigest mCShake256
    rw [h1]
    simp only [Option.bind_eq_bind, Option.bind_some]
    rw [if_neg (by omega), Int.toNat_natCast, h2]
    rfl
  · obtain ⟨h, k, h1, -⟩ := ok.cread256 N S t.data 0
    unfold mCShake256
    rw [h1]
    simp only [Option.bind_eq_bind, Option.bind_some]
    rw [if_pos hn]

theorem libSum_eq (ok : LibOK L D) (c : Ctor) (m : Bytes) : libSum L c m = some (D.H (Ctor.algorithm c) m) := by
  have h := ctor_digest ok c { (newFacade : Facade τ) with data := m }
  unfold mustDigest digestWith at h
  unfold libSum
  simp only [Option.bind_eq_bind, Option.bind_some] at h ⊢
  cases e : L.I.write (L.new c) m with
  | none => rw [e] at h; exact absurd h (by simp)
  | some x =>
    rw [e, Option.bind_some] at h
    rw [Option.bind_some]
    cases e2 : L.I.sum x.1 [] with
    | none => rw [e2] at h; exact absurd h (by simp)
    | some y =>
      rw [e2, Option.bind_some, Option.some.injEq, Facade.mk.injEq] at h
      rw [Option.bind_some, h.1]

/-- MD5SHA1: the 36 bytes MD5 || SHA-1 (as in TLS before 1.2). -/
theorem C128_MD5SHA1 (ok : LibOK L D) (t : Facade τ) : mustDigest (mMD5SHA1 L) t (D.H .MD5 t.data ++ D.H .SHA1 t.data) := by
  have h1 := D.md5_length t.data
  have h2 := D.sha1_length t.data
  unfold mustDigest mMD5SHA1 md5Sha1
  rw [libSum_eq ok, libSum_eq ok]
  simp only [Option.bind_eq_bind, Option.bind_some, Ctor.algorithm]
  generalize D.H .MD5 t.data = a at *
  generalize D.H .SHA1 t.data = b at *
  congr 2
  unfold goCopy
  simp [zeros, h1, h2, List.drop_append]
  rw [List.take_of_length_le (l := a) (by omega), List.take_of_length_le (l := b) (by omega)]

/-- MD5_16: the hexadecimal text of the middle 8 bytes of the MD5 digest. -/
theorem C128_MD5_16 (ok : LibOK L D) (s : Bytes) : md5_16 L s = some (hexEncode (((D.H .MD5 s).drop 4).take 8)) := by
  have h := ctor_digest ok .md5New { (newFacade : Facade τ) with data := s }
  unfold mustDigest at h
  unfold md5_16 mMD5
  rw [h]
  simp only [Option.bind_eq_bind, Option.bind_some, Ctor.algorithm]
  unfold Facade.toHexString
  dsimp only
  have h1 := D.md5_length s
  generalize D.H .MD5 s = a at *
  have hl : ∀ b : Bytes, (hexEncode b).length = 2 * b.length := by
    intro b; induction b with
    | nil => rfl
    | cons x b ih => simp only [hexEncode, List.length_cons, ih]; omega
  have hd : ∀ (k : Nat) (b : Bytes), (hexEncode b).drop (2 * k) = hexEncode (b.drop k) := by
    intro k; induction k with
    | zero => intro b; rfl
    | succ k ih =>
      intro b
      cases b with
      | nil => simp [hexEncode]
      | cons x b => rw [show 2 * (k + 1) = 2 * k + 1 + 1 by omega]; simp only [hexEncode, List.drop_succ_cons]; exact ih b
  have ht : ∀ (k : Nat) (b : Bytes), (hexEncode b).take (2 * k) = hexEncode (b.take k) := by
    intro k; induction k with
    | zero => intro b; simp [hexEncode]
    | succ k ih =>
      intro b
      cases b with
      | nil => simp [hexEncode]
      | cons x b => rw [show 2 * (k + 1) = 2 * k + 1 + 1 by omega]; simp only [hexEncode, List.take_succ_cons, ih]
  rw [if_neg (by rw [hl, h1]; decide), ht 12, hd 4, List.drop_take]

/-- An object installed by `NewMaphash` is consistent: it has one seed. -/
theorem C129_NewMaphash_partial (ok : LibOK L D) (seed : U64) (t : Facade τ) : mustInstall L (mNewMaphash L seed) t (D.H (.Maphash seed)) :=
  ctor_install ok (.maphash seed) t

/-- `Maphash()` is not a function of the data: each call draws its own seed. -/
theorem C129_Maphash_violated (ok : LibOK L D) (s₁ s₂ : U64) (m : Bytes) (h : D.H (.Maphash s₁) m ≠ D.H (.Maphash s₂) m) (t : Facade τ) (ht : t.data = m) :
    mMaphash L s₁ t ≠ mMaphash L s₂ t := by
  have h1 := ctor_digest ok (.maphash s₁) t
  have h2 := ctor_digest ok (.maphash s₂) t
  unfold mustDigest at h1 h2
  unfold mMaphash
  rw [h1, h2, ht]
  intro e
  rw [Option.some.injEq, Facade.mk.injEq] at e
  exact h e.1

/-- `Blake2s_128()` computes no digest: it asks for an object without a key, which the library refuses. -/
theorem C129_Blake2s_128_violated (ok : LibOK L D) (t : Facade τ) :
    ∃ u, mBlake2s_128 L t = some u ∧ u.data = t.data ∧ u.err ≠ none := by
  have h := ok.blake2sNew128 []
  unfold mBlake2s_128
  cases e : L.blake2sNew 128 [] with
  | none => exact ⟨_, rfl, rfl, by simp⟩
  | some x => rw [e] at h; exact absurd rfl h.1

/-! ### Some library meets the hypotheses -/

/-- Objects that remember the message. -/
def refLib (D : Digests) : Lib (Algorithm × Bytes) where
  I := { write := fun s p => some ((s.1, s.2 ++ p), p.length), sum := fun s b => some (s, b ++ D.H s.1 s.2),
         reset := fun s => (s.1, []), size := fun _ => 0, blockSize := fun _ => 0 }
  new c := (Ctor.algorithm c, [])
  blake2bSum bits m := D.H (.BLAKE2b [] (bits / 8)) m
  blake2sSum256 m := D.H (.BLAKE2s [] 32) m
  blake2bNew bits key := if key.length ≤ 64 then some (.BLAKE2b key (bits / 8), []) else none
  blake2sNew bits key := if bits = 128 ∧ key = [] then none else if key.length ≤ 32 then some (.BLAKE2s key (bits / 8), []) else none
  shakeSum128 n m := D.H (.SHAKE128 n) m
  shakeSum256 n m := D.H (.SHAKE256 n) m
  read s n := match s.1 with
    | .CSHAKE128 N S _ => some (D.H (.CSHAKE128 N S n) s.2)
    | .CSHAKE256 N S _ => some (D.H (.CSHAKE256 N S n) s.2)
    | _ => none

theorem refLib_computes (D : Digests) (a : Algorithm) : Computes (refLib D).I (a, []) (D.H a) := by
  refine ⟨0, 0, ?_⟩
  suffices h : ∀ (ops : List Op) (m : Bytes), (refLib D).I.run (a, m) ops = HashSpec.run ⟨D.H a, 0, 0⟩ m ops by
    intro ops; exact h ops []
  intro ops
  induction ops with
  | nil => intro m; rfl
  | cons o ops ih =>
    intro m
    cases o <;> simp only [HashImpl.run, HashSpec.run, refLib] <;> exact congrArg _ (ih _)

theorem refLib_ok (D : Digests) : LibOK (refLib D) D where
  new c := refLib_computes D _
  blake2bSum bits _ m := rfl
  blake2sSum m := rfl
  blake2bNew bits _ key := by
    by_cases h : key.length ≤ 64
    · simp only [refLib, if_pos h]; exact ⟨h, refLib_computes D _⟩
    · simp only [refLib, if_neg h]; exact Nat.not_le.mp h
  blake2sNew key := by
    by_cases h : key.length ≤ 32
    · simp only [refLib, if_pos h]; exact ⟨h, refLib_computes D _⟩
    · simp only [refLib, if_neg h]; exact Nat.not_le.mp h
  blake2sNew128 key := by
    by_cases h0 : key = []
    · simp only [refLib, h0, and_self, if_true]; exact Or.inl trivial
    · by_cases h : key.length ≤ 32
      · simp only [refLib, h0, and_false, if_false, if_pos h]; exact ⟨h0, h, refLib_computes D _⟩
      · simp only [refLib, h0, and_false, if_false, if_neg h]; exact Or.inr (Nat.not_le.mp h)
  shakeSum128 n m := rfl
  shakeSum256 n m := rfl
  cread128 N S m n := ⟨_, _, rfl, rfl⟩
  cread256 N S m n := ⟨_, _, rfl, rfl⟩

/-- Functions with the lengths asked for, all different on some message. -/
def someDigests : Digests where
  H a m := match a with
    | .MD5 => zeros 16
    | .SHA1 => List.replicate 20 1#8
    | .Maphash s => [s.setWidth 8]
    | _ => m
  md5_length _ := rfl
  sha1_length _ := rfl

example : LibOK (refLib someDigests) someDigests := refLib_ok someDigests
example : someDigests.H (.Maphash 1) [] ≠ someDigests.H (.Maphash 2) [] := by decide
example : ∃ u, mMD5SHA1 (refLib someDigests) { (newFacade : Facade _) with data := [7#8] } = some u ∧
    u.data = zeros 16 ++ List.replicate 20 1#8 := ⟨_, C128_MD5SHA1 (refLib_ok someDigests) _, rfl⟩

end Verif.Props
