import Verif.BufferA
/-
Model of package ascon: ascon.go, aead.go, hash.go, mac.go, utils.go.
-/
namespace Verif.Ascon

/-- ascon/ascon.go:6 `state` -/
structure State where
  s0 : U64
  s1 : U64
  s2 : U64
  s3 : U64
  s4 : U64
  deriving DecidableEq

/-- ascon/ascon.go:119-132 -/
def roundConstant : List Byte := [0xf0, 0xe1, 0xd2, 0xc3, 0xb4, 0xa5, 0x96, 0x87, 0x78, 0x69, 0x5a, 0x4b]

/-- ascon/utils.go:20-22 with a negative count, as it is always used. -/
def rotl_neg (a : U64) (n : Nat) : U64 := a.rotateLeft (64 - n)

/-- ascon/ascon.go:143-176, one iteration. -/
def round (s : State) (r : Byte) : State :=
  let x0 := s.s0
  let x1 := s.s1
  let x2 := s.s2
  let x3 := s.s3
  let x4 := s.s4
  let x2 := x2 ^^^ r.setWidth 64
  let x0 := x0 ^^^ x4
  let x4 := x4 ^^^ x3
  let x2 := x2 ^^^ x1
  let t0 := x4 ^^^ (~~~x0 &&& x1)
  let t1 := x0 ^^^ (~~~x1 &&& x2)
  let t2 := x1 ^^^ (~~~x2 &&& x3)
  let t3 := x2 ^^^ (~~~x3 &&& x4)
  let t4 := x3 ^^^ (~~~x4 &&& x0)
  let x0 := t1
  let x1 := t2
  let x2 := t3
  let x3 := t4
  let x4 := t0
  let x1 := x1 ^^^ x0
  let x3 := x3 ^^^ x2
  let x0 := x0 ^^^ x4
  let x2 := ~~~x2
  let x0 := x0 ^^^ rotl_neg x0 19 ^^^ rotl_neg x0 28
  let x1 := x1 ^^^ rotl_neg x1 61 ^^^ rotl_neg x1 39
  let x2 := x2 ^^^ rotl_neg x2 1 ^^^ rotl_neg x2 6
  let x3 := x3 ^^^ rotl_neg x3 10 ^^^ rotl_neg x3 17
  let x4 := x4 ^^^ rotl_neg x4 7 ^^^ rotl_neg x4 41
  ⟨x0, x1, x2, x3, x4⟩
/-- ascon/ascon.go:134-184 `roundGeneric` (and 110-112 `rounds`), for at most 12 rounds. -/
def rounds (s : State) (numRounds : Nat) : State := (roundConstant.drop (12 - numRounds)).foldl round s

/-- `s[0] ^= w` -/
def State.xor0 (s : State) (w : U64) : State := { s with s0 := s.s0 ^^^ w }

/-- ascon/ascon.go:8-21 `expandKey`; the length of the key is checked by the callers. -/
def expandKey (key : Bytes) (blockSize A B : Nat) (nonce : Bytes) : State :=
  rounds { s0 := (BitVec.ofNat 64 (key.length * 8 % 256) <<< 56) + (BitVec.ofNat 64 blockSize <<< 48) + (BitVec.ofNat 64 A <<< 40) + (BitVec.ofNat 64 (A - B) <<< 32)
           s1 := getBE64 key 0, s2 := getBE64 key 8, s3 := getBE64 nonce 0, s4 := getBE64 nonce 8 } A

/-- ascon/ascon.go:38-41, 62-65: the padded last chunk `buf` (`buf[n] |= 0x80` on a zeroed array). -/
def padBuf (p : Bytes) : Bytes :=
  let buf := goCopy (zeros 8) 0 p
  buf.set p.length (at8 buf p.length ||| 0x80#8)

/-- ascon/ascon.go:23-50 `mixAdditionalData` -/
def mixAdditionalData (s : State) (ad : Bytes) (B : Nat) : State :=
  if ad.length ≤ 0 then s
  else
    let r := eagerLoop 8 (fun s b => rounds (s.xor0 (getBE64 b)) B) ad.length s ad
    if r.2.length > 0 then rounds (r.1.xor0 (getBE64 (padBuf r.2))) B
    else rounds (r.1.xor0 (0x80 <<< 56)) B

/-- ascon/ascon.go:56-62, the loop of `encrypt`: `dst` is written from `off` on. At most as many
iterations as bytes. -/
def encLoop (B : Nat) : Nat → State → Bytes → Bytes → Nat → State × Bytes × Bytes × Nat
  | 0, s, p, dst, off => (s, p, dst, off)
  | fuel + 1, s, p, dst, off =>
    if 8 ≤ p.length then
      let s := s.xor0 (getBE64 p)
      let dst := goCopy dst off (be64 s.s0)
      encLoop B fuel (rounds s B) (p.drop 8) dst (off + 8)
    else (s, p, dst, off)
/-- ascon/ascon.go:52-80 `encrypt`; returns the state, the buffer and the offset of the rest `c`. -/
def encrypt (s : State) (plaintext dst : Bytes) (off B : Nat) : State × Bytes × Nat :=
  let (s, p, dst, off) := encLoop B plaintext.length s plaintext dst off
  if p.length > 0 then
    let s := s.xor0 (getBE64 (padBuf p))
    (s, goCopy dst off (be64 s.s0), off + p.length)
  else (s.xor0 (0x80 <<< 56), dst, off)

/-- ascon/ascon.go:86-93, the loop of `decrypt`. -/
def decLoop (B : Nat) : Nat → State → Bytes → Bytes → Nat → State × Bytes × Bytes × Nat
  | 0, s, c, dst, off => (s, c, dst, off)
  | fuel + 1, s, c, dst, off =>
    if 8 ≤ c.length then
      let x := getBE64 c
      let dst := goCopy dst off (be64 (x ^^^ s.s0))
      let s := { s with s0 := x }
      decLoop B fuel (rounds s B) (c.drop 8) dst (off + 8)
    else (s, c, dst, off)
/-- ascon/ascon.go:82-108 `decrypt`; `p` is `dst[off:]`. -/
def decrypt (s : State) (ciphertext dst : Bytes) (off B : Nat) : State × Bytes :=
  let (s, c, dst, off) := decLoop B ciphertext.length s ciphertext dst off
  if c.length > 0 then
    let n := dst.length - off
    let dst := forLoop 0 n (fun dst i => dst.set (off + i) (at8 c i ^^^ (s.s0 >>> (56 - i * 8)).setWidth 8)) dst
    let x := forLoop 0 n (fun x i => x ||| ((at8 dst (off + i)).setWidth 64 <<< (56 - i * 8))) 0#64
    let x := x ||| ((0x80 : U64) <<< (56 - c.length * 8))
    (s.xor0 x, dst)
  else (s.xor0 (0x80 <<< 56), dst)

/-- ascon/aead.go:54-69 and 110-125: the common start of `Seal` and `Open`. -/
def start (key nonce ad : Bytes) : State :=
  let s := expandKey key 64 12 6 nonce
  let s := { s with s3 := s.s3 ^^^ getBE64 key 0, s4 := s.s4 ^^^ getBE64 key 8 }
  let s := mixAdditionalData s ad 6
  { s with s4 := s.s4 ^^^ 1 }
/-- ascon/aead.go:78-87 and 130-139: the tag words. -/
def tagWords (key : Bytes) (s : State) : U64 × U64 :=
  let s := { s with s1 := s.s1 ^^^ getBE64 key 0, s2 := s.s2 ^^^ getBE64 key 8 }
  let s := rounds s 12
  (s.s3 ^^^ getBE64 key 0, s.s4 ^^^ getBE64 key 8)

/-- ascon/aead.go:49-92 `Seal` on an object with this 16-byte key (`SetKey` enforces the length);
`none` is the panic on a nonce of another length. `dst` does not share storage with the inputs
(see `sealInPlace`). -/
def aeadSeal (key dst nonce pt ad : Bytes) : Option Bytes :=
  if nonce.length ≠ 16 then none
  else
    let s := start key nonce ad
    let buf := dst ++ zeros (pt.length + 16)
    let (s, buf, off) := encrypt s pt buf dst.length 6
    let t := tagWords key s
    let buf := goCopy buf off (be64 t.1)
    some (goCopy buf (off + 8) (be64 t.2))

/-- The standard library's contract for storage reuse: `Seal(plaintext[:0], nonce, plaintext, ad)`, where
the array under `plaintext` has `capacity` bytes. aead.go:73 appends zero bytes first: if they fit into the
capacity, `append` writes them over the plaintext itself, before it is read. (The loop of `encrypt` then reads
each word before overwriting it, so it sees zero bytes throughout.) Otherwise a new array is allocated. -/
def sealInPlace (key nonce pt ad : Bytes) (capacity : Nat) : Option Bytes :=
  if pt.length + 16 ≤ capacity then aeadSeal key [] nonce (zeros pt.length) ad
  else aeadSeal key [] nonce pt ad

/-- ascon/aead.go:94-151 `Open`: the returned slice and whether the error is nil; `none` is the panic. -/
def aeadOpen (key dst nonce ct ad : Bytes) : Option (Bytes × Bool) :=
  if nonce.length ≠ 16 then none
  else if ct.length < 16 then some (dst, false)
  else
    let n := ct.length - 16
    let expected := ct.drop n
    let c := ct.take n
    let buf := dst ++ zeros n
    let s := start key nonce ad
    let (s, buf) := decrypt s c buf dst.length 6
    let t := tagWords key s
    let t0 := t.1 ^^^ getBE64 expected 0
    let t1 := t.2 ^^^ getBE64 expected 8
    let t := (t0 >>> 32).setWidth 32 ||| t0.setWidth 32
    let t : U32 := t ||| ((t1 >>> 32).setWidth 32 ||| t1.setWidth 32)
    -- subtle.ConstantTimeEq(int32(t), 0)
    if t = 0 then some (buf, true) else some (buf, false)

/-- `Open(ciphertext[:0], nonce, ciphertext, ad)`: aead.go:108 zeroes the ciphertext before it is read (its
length is below the capacity); the tag bytes behind it are not touched. -/
def openInPlace (key nonce ct ad : Bytes) : Option (Bytes × Bool) :=
  if ct.length < 16 then aeadOpen key [] nonce ct ad
  else aeadOpen key [] nonce (zeros (ct.length - 16) ++ ct.drop (ct.length - 16)) ad

/-! ### hash.go -/

/-- ascon/hash.go:95-102 -/
structure Digest where
  s : State
  buf : Bytes
  len : Nat
  b : Nat
  doneWriting : Bool

/-- ascon/hash.go:141-149 `initHash` with block size 64 and a = 12, as it is always called: the state. -/
def initHash (b h : Nat) : State :=
  rounds { s0 := ((64#64 <<< 48) + (12#64 <<< 40) + (BitVec.ofNat 64 (12 - b) <<< 32)) + BitVec.ofNat 64 h, s1 := 0, s2 := 0, s3 := 0, s4 := 0 } 12

/-- ascon/hash.go:110-136 `reset` (11-21 `NewHash`, `NewHasha`; 28-30 `Reset`). -/
def reset (b : Nat) : Digest :=
  if b = 0 ∨ b = 12 then
    { s := ⟨0xee9398aadb67f03d, 0x8bb21831c60f1002, 0xb48a92db98d5da62, 0x43189921b8f8e3e8, 0x348fa5c9d525e140⟩
      buf := zeros 8, len := 0, b := 12, doneWriting := false }
  else if b = 8 then
    { s := ⟨0x01470194fc6528a6, 0x738ec38ac0adffa7, 0x2ec8e3296c76384c, 0xd6f6a54d7f52377d, 0xa13c42a223be8d87⟩
      buf := zeros 8, len := 0, b := 8, doneWriting := false }
  else { s := initHash b 256, buf := zeros 8, len := 0, b := b, doneWriting := false }

/-- ascon/hash.go:159-191 `write`; `none` is the panic after a read. -/
def write (d : Digest) (p : Bytes) : Option Digest :=
  if d.doneWriting then none
  else
    let r := aWrite 8 (fun s b => rounds (s.xor0 (getBE64 b)) d.b) d.s d.buf d.len p
    some { d with s := r.1, buf := r.2.1, len := r.2.2 }

/-- ascon/hash.go:193-209 `finish` -/
def finish (d : Digest) : Option Digest :=
  if d.len ≥ 8 then none
  else
    let buf := forLoop d.len 8 (fun buf i => buf.set i 0#8) d.buf
    let buf := buf.set d.len (at8 buf d.len ||| 0x80#8)
    some { d with s := rounds (d.s.xor0 (getBE64 buf)) 12, buf := buf, len := 0 }

/-- ascon/hash.go:211-225 `sum` -/
def sum (d : Digest) (b : Bytes) : Option Bytes :=
  match finish d with
  | none => none
  | some d =>
    some (forLoop 0 4 (fun (st : State × Bytes) i =>
      let s := if i ≠ 0 then rounds st.1 d.b else st.1
      (s, st.2 ++ be64 s.s0)) (d.s, b)).2

/-- ascon/hash.go:11-50 `Hash` as a `hash.Hash`; the object comes from a constructor. -/
def hashImpl : HashImpl Digest where
  write d p := (write (if d.b = 0 then reset d.b else d) p).map fun d => (d, p.length)
  sum d b := (sum d b).map fun r => (d, r)
  reset d := reset d.b
  size _ := 32
  blockSize _ := 8

/-- ascon/hash.go:263-267: whole blocks, at most as many as bytes; returns the state and the output. -/
def readBlocks (b : Nat) : Nat → State → Nat → State × Bytes
  | 0, s, _ => (s, [])
  | fuel + 1, s, n =>
    if 8 ≤ n then
      let s := rounds s b
      let r := readBlocks b fuel s (n - 8)
      (r.1, be64 s.s0 ++ r.2)
    else (s, [])

/-- ascon/hash.go:263-279, the end of `read`: whole blocks but the first, then a partial block. -/
def readRest (d : Digest) (n : Nat) : Digest × Bytes :=
  let r := readBlocks d.b n d.s n
  let k := n % 8
  if k > 0 then
    let s := if d.len = 8 then rounds r.1 d.b else r.1
    ({ d with s := s, buf := be64 s.s0, len := k }, r.2 ++ (be64 s.s0).take k)
  else ({ d with s := r.1 }, r.2)

/-- ascon/hash.go:256-279, the second part of `read`, for the remaining `n` bytes. -/
def readTail (d : Digest) (n : Nat) : Digest × Bytes :=
  if n ≥ 8 ∧ d.len = 0 then
    let r := readRest { d with len := 8 } (n - 8)
    (r.1, be64 d.s.s0 ++ r.2)
  else readRest d n

/-- ascon/hash.go:233-279 `read` after the call of `finish`: the bytes put into a slice of length `n`. -/
def readOut (d : Digest) (n : Nat) : Digest × Bytes :=
  if n ≤ 0 then (d, [])
  else if d.len > 0 ∧ d.len < 8 then
    let k := min n (8 - d.len)
    let out := (d.buf.drop d.len).take k
    let d := { d with len := d.len + k }
    if d.len < 8 ∨ n = k then (d, out)
    else
      let r := readTail d (n - k)
      (r.1, out ++ r.2)
  else readTail d n

/-- ascon/hash.go:228-232 `read` -/
def read (d : Digest) (n : Nat) : Option (Digest × Bytes) :=
  if d.doneWriting then some (readOut d n)
  else match finish d with
    | none => none
    | some d => some (readOut { d with doneWriting := true } n)

/-- ascon/hash.go:70-74 `Xof.Reset`: the buffer is kept. -/
def xofReset (d : Digest) : Digest := { s := initHash 12 0, buf := d.buf, len := 0, b := 12, doneWriting := false }
/-- ascon/hash.go:58-62 `NewXof` (`new(Xof)` is all zero). -/
def newXof : Digest := xofReset { s := ⟨0, 0, 0, 0, 0⟩, buf := zeros 8, len := 0, b := 0, doneWriting := false }

/-- Calls on an `Xof`. -/
inductive XOp where
  | write (p : Bytes)
  | read (n : Nat)
  | reset

/-- ascon/hash.go:76-92: the calls on an `Xof`. -/
def xofRun : Digest → List XOp → List Out
  | _, [] => []
  | d, .write p :: ops => match write (if d.b = 0 then xofReset d else d) p with
    | some d => .wrote p.length :: xofRun d ops
    | none => [.panicked]
  | d, .read n :: ops => match read (if d.b = 0 then xofReset d else d) n with
    | some (d, out) => .bytes out :: xofRun d ops
    | none => [.panicked]
  | d, .reset :: ops => .done :: xofRun (xofReset d) ops

/-! ### mac.go -/

/-- ascon/mac.go:9-13 -/
structure Mac where
  s : State
  buf : Bytes
  len : Nat

/-- ascon/mac.go:51-55: one block of 32 bytes. -/
def macBlock (s : State) (b : Bytes) : State :=
  rounds { s with s0 := s.s0 ^^^ getBE64 b 0, s1 := s.s1 ^^^ getBE64 b 8, s2 := s.s2 ^^^ getBE64 b 16, s3 := s.s3 ^^^ getBE64 b 24 } 12

/-- ascon/mac.go:15-19 `NewMAC`, 141-158 `expandKey`; `none` is the panic. -/
def newMac (key : Bytes) : Option Mac :=
  if key.length ≠ 16 then none
  else
    let k := key.length * 8 % 256
    some { s := rounds { s0 := (BitVec.ofNat 64 k <<< 56) + (128#64 <<< 48) + ((0x80#64 ||| 12#64) <<< 40) + 128#64
                         s1 := getBE64 key 0, s2 := getBE64 key 8, s3 := 0, s4 := 0 } 12
           buf := zeros 32, len := 0 }

/-- ascon/mac.go:42-75 `write` -/
def macWrite (d : Mac) (p : Bytes) : Mac :=
  let r := aWrite 32 macBlock d.s d.buf d.len p
  { s := r.1, buf := r.2.1, len := r.2.2 }

/-- ascon/mac.go:77-102 `finish`: the state. -/
def macFinish (d : Mac) : Option State :=
  if d.len ≥ 32 then none
  else
    let s :=
      if d.len = 0 then d.s.xor0 (0x80 <<< 56)
      else
        let buf := forLoop d.len 32 (fun buf i => buf.set i 0#8) d.buf
        let buf := buf.set d.len (at8 buf d.len ||| 0x80#8)
        { d.s with s0 := d.s.s0 ^^^ getBE64 buf 0, s1 := d.s.s1 ^^^ getBE64 buf 8, s2 := d.s.s2 ^^^ getBE64 buf 16, s3 := d.s.s3 ^^^ getBE64 buf 24 }
    let s := { s with s4 := s.s4 ^^^ 1 }
    some (rounds s 12)

/-- ascon/mac.go:104-113 `Sum` -/
def macSum (d : Mac) (b : Bytes) : Option Bytes := (macFinish d).map fun s => b ++ be64 s.s0 ++ be64 s.s1

/-- ascon/mac.go:117-135 `Verify` -/
def macVerify (d : Mac) (mac : Bytes) : Option Bool :=
  if mac.length ≠ 16 then some false
  else (macFinish d).map fun s =>
    let t0 := s.s0 ^^^ getBE64 mac 0
    let t1 := s.s1 ^^^ getBE64 mac 8
    let t : U32 := (t0 >>> 32).setWidth 32 ||| t0.setWidth 32
    let t := t ||| ((t1 >>> 32).setWidth 32 ||| t1.setWidth 32)
    decide (t = 0)

/-- The methods of `MAC`. It has no `Reset`; the model's entry for it is never used (histories of a
`MAC` contain no `Reset`). -/
def macImpl : HashImpl Mac where
  write d p := some (macWrite d p, p.length)
  sum d b := (macSum d b).map fun r => (d, r)
  reset d := d
  size _ := 16
  blockSize _ := 32

end Verif.Ascon
