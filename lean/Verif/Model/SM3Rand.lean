import Verif.Model.SM3
/-
sm3/rand.go, sm3/rand_df.go
-/
namespace Verif.SM3Rand
open SM3 (Digest)

/-- sm3/rand_df.go:13-15 `DF` -/
structure DF where
  (a b : Digest)

/-- sm3/rand_df.go:24-37 `Reset` -/
def DF.reset (_ : DF) : DF :=
  let counter : Bytes := [0#8, 0#8, 0#8, 1#8]
  let seedlen : Bytes := [0#8, 0#8, BitVec.ofNat 8 (440 / 256), BitVec.ofNat 8 (440 % 256)]
  let a := SM3.write (SM3.write SM3.new counter) seedlen
  let counter := goCopy counter 3 [2#8]
  let b := SM3.write (SM3.write SM3.new counter) seedlen
  ⟨a, b⟩
/-- sm3/rand_df.go:17-22 `NewDF` -/
def newDF : DF := DF.reset ⟨SM3.new, SM3.new⟩
/-- sm3/rand_df.go:47-52 `Write` -/
def DF.write (d : DF) (p : Bytes) : DF := if p.length > 0 then ⟨SM3.write d.a p, SM3.write d.b p⟩ else d
/-- sm3/rand_df.go:61-69 `checkSum`; `copy(out[:SizeDF - 32], buf)` copies into the first 23 bytes -/
def DF.checkSum (d : DF) : Bytes :=
  let o := SM3.sum d.a []
  let buf := SM3.sum d.b []
  let out := goCopy (zeros 55) 0 o
  goCopy (out.take (55 - 32)) 0 buf ++ out.drop (55 - 32)
/-- sm3/rand_df.go:54-59 `Sum`; the copy shares the two hash objects, whose `Sum` leaves them as they are -/
def DF.sum (d : DF) (b : Bytes) : Bytes := b ++ d.checkSum
/-- The methods of `DF` (sm3/rand_df.go:39-45 for the sizes). The Go `Write` returns nothing; here it returns the length as in `hash.Hash`. -/
def implDF : HashImpl DF where
  write d p := some (d.write p, p.length)
  sum d b := some (d, d.sum b)
  reset := DF.reset
  size _ := 55
  blockSize _ := 64

/-- sm3/rand.go:14-19 `Rand`; the time in seconds -/
structure Rand where
  (V C : Bytes) (reseedCounter : U32) (lastReseedTime : Nat)

/-- The int32 loops of `beAdd`: position `i` gets `carry + x`; the carry keeps the upper bits. -/
def addAt (st : Bytes × BitVec 32) (i : Nat) (x : BitVec 32) : Bytes × BitVec 32 :=
  let carry := st.2 + x
  (st.1.set i (carry.setWidth 8), carry.sshiftRight 8)
/-- sm3/rand.go:143-156 `beAdd`; the loops count up here: `i = 54 - t`, `j = len(a) - 1 - t`. The sum `r[i] + a[j]` is a byte. -/
def beAdd (r a : Bytes) : Bytes :=
  let st := forLoop 0 a.length (fun st t => addAt st (54 - t) ((at8 st.1 (54 - t) + at8 a (a.length - 1 - t)).setWidth 32)) (r, 0#32)
  let st := forLoop a.length 55 (fun st t => addAt st (54 - t) ((at8 st.1 (54 - t)).setWidth 32)) st
  st.1

/-- sm3/rand.go:160 `charset` -/
def charset : Bytes := ascii "abcdefghijklmnopqrstuvwxyzABCDEFGHIJKLMNOPQRSTUVWXYZ1234567890"
/-- sm3/rand.go:158-171 `randomBytes`; `draws` are the values of `rand.Int63()` -/
def randomBytes (draws : List Nat) : Bytes := draws.map fun x => at8 charset (x % charset.length)
/-- sm3/rand.go:34-37 and 116-119: 512 bytes, two calls of `randomBytes` -/
def entropy (draws : List Nat) : Bytes :=
  let e := goCopy (zeros 512) 0 (randomBytes (draws.take 256))
  goCopy e 256 (randomBytes ((draws.drop 256).take 256))

/-- `df.Write(..)` a few times and `df.Sum(nil)`, the pattern of sm3/rand.go:39-50 -/
def dfOf (ps : List Bytes) : Bytes := DF.sum (ps.foldl DF.write newDF) []

/-- sm3/rand.go:21-55 `NewRand`, `init` -/
def newRand (draws : List Nat) (now : Nat) (nonce label : Bytes) : Rand :=
  let V := dfOf [entropy draws, nonce, label]
  { V := V, C := dfOf [[0#8], V], reseedCounter := 1#32, lastReseedTime := now }
/-- sm3/rand.go:112-141 `reseed` -/
def Rand.reseed (r : Rand) (draws : List Nat) (now : Nat) (addin : Bytes) : Rand :=
  let V := dfOf [[1#8], entropy draws, r.V, addin]
  { V := V, C := dfOf [[0#8], V], reseedCounter := 1#32, lastReseedTime := now }

/-- `sm3.New`, some `Write`s and `Sum(nil)` -/
def sm3Of (ps : List Bytes) : Bytes := SM3.sum (ps.foldl SM3.write SM3.new) []

/-- `time.Time.Second`: the second within the minute -/
def second (t : Nat) : Nat := t % 60

/-- sm3/rand.go:72-109, `Generate` after the reseeding -/
def Rand.step (r : Rand) (out addin : Bytes) : Rand × Bytes :=
  let V := if addin.length > 0 then beAdd r.V (sm3Of [[2#8], r.V, addin]) else r.V
  let buf := sm3Of [V]
  let out := if out.length < 32 then goCopy out 0 (buf.take out.length) else goCopy out 0 buf
  let H := sm3Of [[3#8], V]
  let V := beAdd V H
  let V := beAdd V r.C
  let counter := [(r.reseedCounter >>> 24).setWidth 8, (r.reseedCounter >>> 16).setWidth 8, (r.reseedCounter >>> 8).setWidth 8, r.reseedCounter.setWidth 8]
  let V := beAdd V counter
  ({ r with V := V, reseedCounter := r.reseedCounter + 1#32 }, out)

/-- sm3/rand.go:57-110 `Generate`: the generator and `out` after the call. `now` and `now'` are the results of `time.Now()` in `Generate` and in `reseed`. -/
def Rand.generate (r : Rand) (draws : List Nat) (now now' : Nat) (out addin : Bytes) : Rand × Bytes :=
  if r.reseedCounter.toNat > 2 ^ 20 ∨ (second now : Int) - (second r.lastReseedTime : Int) > 600 then
    (r.reseed draws now' addin).step out (if addin.length > 0 then [] else addin)
  else r.step out addin

end Verif.SM3Rand
