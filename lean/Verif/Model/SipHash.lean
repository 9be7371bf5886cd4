import Verif.BufDigest
/-
Model of package siphash: digest.go, utils.go, siphash.go.
-/
namespace Verif.SipHash

/-- `s [4]uint64`, siphash/digest.go:23 -/
structure S where
  (s0 s1 s2 s3 : U64)

/-- siphash/utils.go:20-39 `sipround`, with `ROTL` of utils.go:16-18 -/
def sipround (s : S) : S :=
  let v0 := s.s0 + s.s1
  let v1 := s.s1.rotateLeft 13
  let v1 := v1 ^^^ v0
  let v0 := v0.rotateLeft 32
  let v2 := s.s2 + s.s3
  let v3 := s.s3.rotateLeft 16
  let v3 := v3 ^^^ v2
  let v0 := v0 + v3
  let v3 := v3.rotateLeft 21
  let v3 := v3 ^^^ v0
  let v2 := v2 + v1
  let v1 := v1.rotateLeft 17
  let v1 := v1 ^^^ v2
  let v2 := v2.rotateLeft 32
  ⟨v0, v1, v2, v3⟩

/-- `for i = 0; i < n; i++ { sipround(..) }` (siphash/digest.go:139-142, 152-154, 224-227). -/
def rounds (n : Nat) (s : S) : S := forLoop 0 n (fun s _ => sipround s) s

/-- siphash/digest.go:219-230 `transform` -/
def transform (crounds : U32) (s : S) (x : Bytes) : S :=
  let m := getLE64 x
  let s := { s with s3 := s.s3 ^^^ m }
  let s := rounds crounds.toNat s
  { s with s0 := s.s0 ^^^ m }

/-- siphash/digest.go:22-31; `hs`, `crounds`, `drounds` are set by the constructor only and are
parameters of `impl`. -/
abbrev Digest := BufDigest S

/-- siphash/digest.go:183-189 `adjustHashSize` -/
def adjustHashSize (n : Int) : Int := if n = 0 then 16 else n

/-- The value of `hs` after `setHashSize` (siphash/digest.go:165-181) on a fresh digest (`hs = 0`)
and the `adjustHashSize` of `expandKey` (line 195). -/
def hsOf (hashSize : Int) : Int :=
  let h := adjustHashSize hashSize
  let hs0 : Int := 0
  let hs := if h ≠ 8 ∧ h ≠ 16 then hs0
    else
      let hs := adjustHashSize hs0
      if hs ≠ h then h else hs
  adjustHashSize hs

/-- siphash/digest.go:197-202: a round count of 0 means the default. -/
def defaultRounds (n : U32) (dflt : U32) : U32 := if n = 0 then dflt else n

/-- siphash/digest.go:191-217 `expandKey`: the initial `s`. -/
def keyState (hs : Int) (k : Bytes) : S :=
  let k0 := getLE64 k
  let k1 := getLE64 (k.drop 8)
  let s : S := ⟨0x736f6d6570736575#64 ^^^ k0, 0x646f72616e646f6d#64 ^^^ k1,
    0x6c7967656e657261#64 ^^^ k0, 0x7465646279746573#64 ^^^ k1⟩
  if hs = 16 then { s with s1 := s.s1 ^^^ 0xee#64 } else s

/-- siphash/digest.go:34-45 `newDigest`; `none` is the error.  Together with `hsOf` and
`defaultRounds` (the other fields). -/
def new (k : Bytes) (hashSize : Int) : Option Digest :=
  if k.length ≠ 16 then none
  else some { s := keyState (hsOf hashSize) k, x := zeros 8, nx := 0, len := 0 }

/-- siphash/digest.go:55-60 `Reset`: `s` is left as it is. -/
def reset (d : Digest) : Digest := { d with x := zeros 8, nx := 0, len := 0 }

/-- siphash/digest.go:62-85 `Write`.  `len` is increased piece by piece, in total by `len(p)`. -/
def write (c : U32) (d : Digest) (p : Bytes) : Digest := d.absorb 8 (transform c) p

/-- `b |= v`, executed when the `switch` reaches this case. -/
def orIf (c : Bool) (b v : U64) : U64 := if c then b ||| v else b

/-- siphash/digest.go:99-122: the last word; the `switch` with its fallthroughs: case `k` is
executed when `k ≤ nx ≤ 7`. -/
def lastWord (len : U64) (x : Bytes) (nx : Nat) : U64 :=
  let on (k : Nat) : Bool := k ≤ nx && nx ≤ 7
  let b := len <<< 56
  let b := orIf (on 7) b ((at8 x 6).setWidth 64 <<< 48)
  let b := orIf (on 6) b ((at8 x 5).setWidth 64 <<< 40)
  let b := orIf (on 5) b ((at8 x 4).setWidth 64 <<< 32)
  let b := orIf (on 4) b ((at8 x 3).setWidth 64 <<< 24)
  let b := orIf (on 3) b ((at8 x 2).setWidth 64 <<< 16)
  let b := orIf (on 2) b ((at8 x 1).setWidth 64 <<< 8)
  orIf (on 1) b ((at8 x 0).setWidth 64)

/-- siphash/digest.go:94-163 `checkSum`.  `crounds` is never 0 here (line 95 returns nil). -/
def checkSum (hs : Int) (c dr : U32) (d : Digest) : Bytes :=
  if c = 0 then []
  else
    let b := lastWord d.len d.x d.nx
    let s := transform c d.s (le64 b)
    let s := if hs = 16 then { s with s2 := s.s2 ^^^ 0xee#64 } else { s with s2 := s.s2 ^^^ 0xff#64 }
    let s := rounds dr.toNat s
    let out := le64 (s.s0 ^^^ s.s1 ^^^ s.s2 ^^^ s.s3)
    if hs = 8 then out
    else
      let s := { s with s1 := s.s1 ^^^ 0xdd#64 }
      let s := rounds dr.toNat s
      out ++ le64 (s.s0 ^^^ s.s1 ^^^ s.s2 ^^^ s.s3)

/-- The methods of `NewWithCDroundsAndHashSize(k, crounds, drounds, hashSize)`; `crounds`,
`drounds` are the `int32` arguments as bit patterns (`uint32(crounds)`).  `Sum` works on a copy. -/
def impl (crounds drounds : U32) (hashSize : Int) : HashImpl Digest where
  write d p := some (write (defaultRounds crounds 2) d p, p.length)
  sum d b := some (d, b ++ checkSum (hsOf hashSize) (defaultRounds crounds 2) (defaultRounds drounds 4) d)
  reset := reset
  size _ := (hsOf hashSize).toNat
  blockSize _ := 8

end Verif.SipHash
