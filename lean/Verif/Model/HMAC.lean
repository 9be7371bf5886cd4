import Verif.Model.Facade
/-
Model of hash/hmac.go.  The package crypto/hmac of the Go library, which hash/hmac.go:98-111, gost/gost34112012256/kdf.go:8-36
and makwa/makwa.go:247-251 call with a hash object of the caller's choice, is modelled from its source (Go 1.20): it is part of
the trusted base, but its use of the hash object (Reset, MarshalBinary, UnmarshalBinary) is what the theorems are about.
-/
namespace Verif.HMAC

/-- The optional methods `MarshalBinary`, `UnmarshalBinary` of a hash object, which crypto/hmac uses when they exist.
`load` gives `none` for an error. -/
structure Saver (σ : Type) where
  save : σ → Bytes
  load : σ → Bytes → Option σ

/-- `type hmac struct` of crypto/hmac; `dead` records that `Reset` has panicked. -/
structure Mac (σ : Type) where
  opad : Bytes
  ipad : Bytes
  outer : σ
  inner : σ
  marshaled : Bool
  dead : Bool

/-- `hmac.New(h, key)` (called from hash/hmac.go:99 and 108), where `h()` gives an object in state `s₀`, distinct at every call. -/
def new {σ} (I : HashImpl σ) (s₀ : σ) (key : Bytes) : Option (Mac σ) := do
  let B := I.blockSize s₀
  let (outer, key) ← if key.length > B then do
      let (o, _) ← I.write s₀ key
      let (o, k) ← I.sum o []
      some (o, k)
    else some (s₀, key)
  let pad := goCopy (zeros B) 0 key
  let ipad := pad.map (· ^^^ 0x36#8)
  let opad := pad.map (· ^^^ 0x5c#8)
  let (inner, _) ← I.write s₀ ipad
  some { opad := opad, ipad := ipad, outer := outer, inner := inner, marshaled := false, dead := false }

/-- `(*hmac).Write` -/
def write {σ} (I : HashImpl σ) (h : Mac σ) (p : Bytes) : Option (Mac σ × Nat) :=
  if h.dead then none
  else do
    let (inner, n) ← I.write h.inner p
    some ({ h with inner := inner }, n)

/-- The outer object, made ready for the inner digest: restored from the saved state, or reset and given the key block. -/
def openOuter {σ} (I : HashImpl σ) (M : Option (Saver σ)) (h : Mac σ) : Option σ :=
  if h.marshaled then M.bind fun M => M.load h.outer h.opad
  else (I.write (I.reset h.outer) h.opad).map (·.1)

/-- `(*hmac).Sum` -/
def sum {σ} (I : HashImpl σ) (M : Option (Saver σ)) (h : Mac σ) (b : Bytes) : Option (Mac σ × Bytes) :=
  if h.dead then none
  else do
    let (inner, r) ← I.sum h.inner b
    let outer ← openOuter I M h
    let (outer, _) ← I.write outer (r.drop b.length)
    let (outer, r) ← I.sum outer (r.take b.length)
    some ({ h with inner := inner, outer := outer }, r)

/-- `(*hmac).Reset`.  The first one saves the two states that follow the key blocks, if the hash object can be saved. -/
def reset {σ} (I : HashImpl σ) (M : Option (Saver σ)) (h : Mac σ) : Mac σ :=
  if h.dead then h
  else if h.marshaled then
    match M.bind fun M => M.load h.inner h.ipad with
    | some inner => { h with inner := inner }
    | none => { h with dead := true }
  else
    match I.write (I.reset h.inner) h.ipad with
    | none => { h with dead := true }
    | some (inner, _) =>
      match M with
      | none => { h with inner := inner }
      | some M =>
        match I.write (I.reset h.outer) h.opad with
        | none => { h with dead := true }
        | some (outer, _) => { h with ipad := M.save inner, opad := M.save outer, inner := inner, outer := outer, marshaled := true }

/-- The object `hmac.New` returns, as a `hash.Hash`; `Size` is the outer object's, `BlockSize` the inner one's. -/
def impl {σ} (I : HashImpl σ) (M : Option (Saver σ)) : HashImpl (Mac σ) where
  write := write I
  sum := sum I M
  reset := reset I M
  size h := I.size h.outer
  blockSize h := I.blockSize h.inner

open Verif.Facade in
/-- hash/hmac.go:98-105 `Hmac` -/
def mHmac {σ τ} (I : HashImpl σ) (M : Option (Saver σ)) (s₀ : σ) (secret : Bytes) (t : Facade τ) : Option (Facade τ) := do
  let mac ← new I s₀ secret
  let (mac, _) ← write I mac t.data
  let (_, d) ← sum I M mac []
  some { t with data := d }

open Verif.Facade in
/-- hash/hmac.go:108-112 `NewHmac` -/
def mNewHmac {σ} (I : HashImpl σ) (s₀ : σ) (secret : Bytes) (t : Facade (Mac σ)) : Option (Facade (Mac σ)) := do
  let mac ← new I s₀ secret
  some { t with hash := some mac }

/-! ### The table of hash functions for HMAC -/

/-- hash/hmac.go:69 `hmacHashes`: a Go map from numbers to functions; `none` is an absent key, `some none` a nil function.
A constructor is an abstract value of type `φ`. -/
abbrev Table (φ : Type) := Nat → Option (Option φ)

/-- hash/hmac.go:80-82 `RegisterHmacHash` -/
def register {φ} (T : Table φ) (h : Nat) (f : Option φ) : Table φ := fun k => if k = h then some f else T k

/-- hash/hmac.go:71-78 `HmacHash.New`: the constructor that is called; `none` is the panic. -/
def lookup {φ} (T : Table φ) (h : Nat) : Option φ := (T h).join

/-- The constructors hash/hmac.go:26-44 registers. -/
inductive Ctor where
  | adler32 | md2 | md4 | md5 | sha1 | sha224 | sha256 | sha384 | sha512 | sha512_224 | sha512_256
  | sha3_224 | sha3_256 | sha3_384 | sha3_512 | ripemd160 | sm3
  deriving DecidableEq, Repr

/-- hash/hmac.go:49-67: the constants `HmacADLER32 = 1`, ..., `HmacSM3 = 17`, in the order of the source. -/
def ids : List Ctor :=
  [.adler32, .md2, .md4, .md5, .sha1, .sha224, .sha256, .sha384, .sha512, .sha512_224, .sha512_256,
   .sha3_224, .sha3_256, .sha3_384, .sha3_512, .ripemd160, .sm3]

/-- The number of a constant (`1 + iota`). -/
def num (c : Ctor) : Nat := 1 + ids.idxOf c

/-- hash/hmac.go:26-44 `init`: the calls of `RegisterHmacHash`, in order. -/
def initTable : Table Ctor :=
  let T : Table Ctor := fun _ => none
  let T := register T (num .adler32) (some .adler32)
  let T := register T (num .md2) (some .md2)
  let T := register T (num .md4) (some .md4)
  let T := register T (num .md5) (some .md5)
  let T := register T (num .sha1) (some .sha1)
  let T := register T (num .sha224) (some .sha224)
  let T := register T (num .sha256) (some .sha256)
  let T := register T (num .sha384) (some .sha384)
  let T := register T (num .sha512) (some .sha512)
  let T := register T (num .sha512_224) (some .sha512_224)
  let T := register T (num .sha512_256) (some .sha512_256)
  let T := register T (num .sha3_224) (some .sha3_224)
  let T := register T (num .sha3_256) (some .sha3_256)
  let T := register T (num .sha3_384) (some .sha3_384)
  let T := register T (num .sha3_512) (some .sha3_512)
  let T := register T (num .ripemd160) (some .ripemd160)
  register T (num .sm3) (some .sm3)

end Verif.HMAC
