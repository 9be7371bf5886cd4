import Verif.Model.Big
import Mathlib.Data.Int.GCD
/-
Package makwa.

HMAC over the caller's hash function (crypto/hmac, makwa.go:247-251) is the parameter `mac`; `size` is what alg().Size() returns.  math/big integers are Nat
(Int where a subtraction can be negative); `Exp`, `ModInverse`, `Mod`, `BitLen`, `Bytes`, `SetBytes` are written by their documented meaning.
Byte slices are values: that `append(salt, …)` may write into spare capacity of the caller's salt (makwa.go:127, 167) is in Verif/Model/MakwaMem.lean.
-/
namespace Verif.Makwa
open Verif.Spec (beNat)

structure Alg where
  mac : Bytes → Bytes → Bytes
  size : Nat

/-- The errors of the package (makwa.go:21-29); `other` are the anonymous ones. -/
inductive Err where
  | badPassword | wrongParams | invalidWorkFactor | other
deriving DecidableEq

/-- makwa.go:232-241: the loop that collects output; every turn appends `size` bytes, so `fuel` = outLen turns are enough when size > 0. -/
def kdfLoop (A : Alg) (k : Bytes) (outLen : Nat) : Nat → Bytes → Bytes → Bytes
  | 0, _, t => t
  | fuel + 1, v, t => if t.length < outLen then let v := A.mac k v; kdfLoop A k outLen fuel v (t ++ v) else t
/-- makwa.go:206-245 -/
def kdf (A : Alg) (data : Bytes) (outLen : Nat) : Bytes :=
  let r := A.size
  let v := List.replicate r 0x01
  let k := zeros r
  let k := A.mac k (v ++ [0x00] ++ data)
  let v := A.mac k v
  let k := A.mac k (v ++ [0x01] ++ data)
  let v := A.mac k v
  (kdfLoop A k outLen outLen v []).take outLen

/-- math/big.Int.BitLen -/
def bitLen (n : Nat) : Nat := if n = 0 then 0 else Nat.log2 n + 1

/-- makwa.go:197-204 -/
def pad (N x : Nat) : Bytes :=
  let modLen := (bitLen N + 7) >>> 3
  let out := Big.bytes x
  let out := if out.length < modLen then zeros (modLen - out.length) ++ out else out
  out.take modLen

/-- makwa.go:255-258: `wf > 3 && (wf&1) == 0`; each turn halves, 32 turns are enough. -/
def wfLoop : Nat → U32 → Nat → U32 × Nat
  | 0, wf, j => (wf, j)
  | fuel + 1, wf, j => if wf > 3 ∧ wf &&& 1 = 0 then wfLoop fuel ((wf >>> 1) ||| (wf <<< 31)) (j + 1) else (wf, j)
/-- makwa.go:253-266 -/
def wfMant (wf : U32) : Option (U32 × Nat) :=
  let r := wfLoop 32 wf 0
  if r.1 = 2 ∨ r.1 = 3 then some r else none
/-- The conversion uint32(workFactor) of an int. -/
def u32 (w : Int) : U32 := BitVec.ofInt 32 w

/-- digest.go:11-18 -/
structure Digest where
  modulusID : Bytes
  hash : Bytes
  salt : Bytes
  workFactor : Int
  preHash : Bool
  postHashLen : Int
deriving DecidableEq

/-- params.go:11-14 -/
structure Params where
  N : Nat
  A : Alg

/-- params.go:17-19 -/
def Params.modulusID (P : Params) : Bytes := kdf P.A (Big.bytes P.N) 8

/-- new(big.Int).Exp(x, two, N), n times. -/
def squares (N : Nat) : Nat → Nat → Nat
  | 0, x => x
  | n + 1, x => squares N n (x ^ 2 % N)

/-- makwa.go:163-168: the padded password. -/
def block (A : Alg) (k : Nat) (salt password : Bytes) : Bytes :=
  let u := password.length
  let sb := kdf A (salt ++ password ++ [BitVec.ofNat 8 u]) (k - 2 - u)
  [0x00] ++ sb ++ password ++ [BitVec.ofNat 8 u]

/-- makwa.go:140-190, with a salt given (a nil salt is replaced by 16 random bytes, makwa.go:145-150, which are then the salt here). -/
def Hash (P : Params) (password salt : Bytes) (workFactor : Int) (preHash : Bool) (postHashLen : Int) : Except Err Digest :=
  match wfMant (u32 workFactor) with
  | none => .error .invalidWorkFactor
  | some _ =>
    let password := if preHash then kdf P.A password 64 else password
    let k := bitLen P.N / 8
    if k < 160 then .error .other else
    let u := password.length
    if u > 255 ∨ (u : Int) > k - 32 then .error .other else
    let xb := block P.A k salt password
    let x := squares P.N (workFactor + 1).toNat (beNat xb)
    let out := pad P.N x
    let out := if postHashLen > 0 then kdf P.A out postHashLen.toNat else out
    .ok { modulusID := P.modulusID, hash := out, salt := salt, workFactor := workFactor, preHash := preHash, postHashLen := postHashLen }

/-- makwa.go:32-53; subtle.ConstantTimeCompare is 1 exactly for equal contents. -/
def CheckPassword (P : Params) (digest : Digest) (password : Bytes) : Except Err Unit :=
  if digest.modulusID ≠ P.modulusID then .error .wrongParams else
  match Hash P password digest.salt digest.workFactor digest.preHash digest.postHashLen with
  | .error e => .error e
  | .ok d => if digest.hash ≠ d.hash then .error .badPassword else .ok ()

/-- makwa.go:56-73 -/
def Extend (P : Params) (digest : Digest) (workFactor : Int) : Except Err Digest :=
  if digest.modulusID ≠ P.modulusID then .error .wrongParams else
  if digest.postHashLen > 0 then .error .other else
  let x := squares P.N (workFactor - digest.workFactor).toNat (beNat digest.hash)
  .ok { digest with hash := Big.bytes x, workFactor := workFactor }

/-- makwa.go:268-274; the exponent is an int ≥ 0 here (a negative work factor is not modelled). -/
def sqrtExp (p w : Nat) : Nat := ((p + 1) >>> 2) ^ w % (p - 1)
/-- math/big.Int.ModInverse; nil if there is none. -/
def modInverse (g n : Nat) : Option Nat := if Nat.gcd g n = 1 then some ((Nat.gcdA g n) % (n : Int)).toNat else none
/-- makwa.go:276-283 -/
def crt (p q iq zp zq : Nat) : Nat :=
  let h : Int := (zp : Int) - zq
  let h := h * iq
  let h := h % p
  (zq + q * h).toNat

/-- makwa.go:108-132: the test of one candidate. -/
def tryRoot (P : Params) (salt : Bytes) (v : Nat) : Option Bytes :=
  let buf := pad P.N v
  if at8 buf 0 ≠ 0x00 then none else
  let k := buf.length
  let u := (at8 buf (k - 1)).toNat
  if (u : Int) > (k : Int) - 32 then none else
  let password := (buf.drop (k - u - 1)).take u
  let x := kdf P.A (salt ++ password ++ [BitVec.ofNat 8 u]) (k - 2 - u)
  let x := [0x00] ++ x ++ password ++ [BitVec.ofNat 8 u]
  if x = buf then some password else none

/-- What Recover returns; `panics`: iq is nil. -/
inductive Recovered where
  | password (p : Bytes) | error (e : Err) | panics
deriving DecidableEq

/-- makwa.go:77-136.  p and q are the private factors. -/
def Recover (P : Params) (p q : Nat) (digest : Digest) : Recovered :=
  if digest.preHash ∨ digest.postHashLen > 0 then .error .other else
  if digest.modulusID ≠ P.modulusID then .error .wrongParams else
  let y := beNat digest.hash
  match modInverse q p with
  | none => .panics
  | some iq =>
    let ep := sqrtExp p (digest.workFactor + 1).toNat
    let eq := sqrtExp q (digest.workFactor + 1).toNat
    let x1p := (y % p) ^ ep % p
    let x1q := (y % q) ^ eq % q
    let x2p := (p - x1p) % p
    let x2q := (q - x1q) % q
    let xc := [crt p q iq x1p x1q, crt p q iq x1p x2q, crt p q iq x2p x1q, crt p q iq x2p x2q]
    match xc.findSome? (tryRoot P digest.salt) with
    | some pw => .password pw
    | none => .error .other

/-! ## The text format -/

/-- digest.go:117 -/
def alphabet : Bytes :=
  ['A', 'B', 'C', 'D', 'E', 'F', 'G', 'H', 'I', 'J', 'K', 'L', 'M', 'N', 'O', 'P', 'Q', 'R', 'S', 'T', 'U', 'V', 'W', 'X', 'Y', 'Z', 'a', 'b', 'c', 'd', 'e', 'f', 'g', 'h', 'i', 'j', 'k', 'l', 'm', 'n', 'o', 'p', 'q', 'r', 's', 't', 'u', 'v', 'w', 'x', 'y', 'z', '0', '1', '2', '3', '4', '5', '6', '7', '8', '9', '+', '/'].map (fun c => BitVec.ofNat 8 c.toNat)
/-- digest.go:119-147; the uint w stays below 2^24. -/
def b64Encode : Bytes → Bytes
  | b0 :: b1 :: b2 :: rest =>
    let w := b0.toNat
    let w := (w <<< 8) + b1.toNat
    let w := (w <<< 8) + b2.toNat
    [at8 alphabet (w >>> 18), at8 alphabet ((w >>> 12) &&& 0x3F), at8 alphabet ((w >>> 6) &&& 0x3F), at8 alphabet (w &&& 0x3F)] ++ b64Encode rest
  | [b0, b1] =>
    let w := b0.toNat <<< 8
    let w := w + b1.toNat
    [at8 alphabet (w >>> 10), at8 alphabet ((w >>> 4) &&& 0x3F), at8 alphabet ((w <<< 2) &&& 0x3F)]
  | [b0] =>
    let w := b0.toNat
    [at8 alphabet (w >>> 2), at8 alphabet ((w <<< 4) &&& 0x3F)]
  | [] => []

/-- digest.go:156-169.  (The tests `d < 0` and `numEq != 0` that follow, 171-177, are never true.) -/
def b64Digit (b : Byte) : Option Nat :=
  let d := b.toNat
  if d ≥ 65 ∧ d ≤ 90 then some (d - 65)
  else if d ≥ 97 ∧ d ≤ 122 then some (d - (97 - 26))
  else if d ≥ 48 ∧ d ≤ 57 then some (d + 52 - 48)
  else if d = 43 then some 62
  else if d = 47 then some 63
  else none
/-- digest.go:155-187; the int32 acc stays below 2^24 before it is shifted left to the top (bits that byte() drops). -/
def b64Loop : Bytes → Nat → Nat → Bytes → Option (Nat × Nat × Bytes)
  | [], acc, k, out => some (acc, k, out)
  | b :: rest, acc, k, out =>
    match b64Digit b with
    | none => none
    | some d =>
      let acc := (acc <<< 6) + d
      let k := k + 1
      if k = 4 then
        b64Loop rest 0 0 (out ++ [BitVec.ofNat 8 ((acc >>> 16) ||| (acc <<< 16)), BitVec.ofNat 8 ((acc >>> 8) ||| (acc <<< 24)), BitVec.ofNat 8 acc])
      else b64Loop rest acc k out
/-- digest.go:152-205 -/
def b64Decode (b : Bytes) : Option Bytes :=
  match b64Loop b 0 0 [] with
  | none => none
  | some (acc, k, out) =>
    if k = 1 then none
    else if k = 2 then some (out ++ [BitVec.ofNat 8 ((acc >>> 4) ||| (acc <<< 28))])
    else if k = 3 then some (out ++ [BitVec.ofNat 8 ((acc >>> 10) ||| (acc <<< 22)), BitVec.ofNat 8 ((acc >>> 2) ||| (acc <<< 30))])
    else some out

/-- The byte of an ASCII character. -/
def ch (c : Char) : Byte := BitVec.ofNat 8 c.toNat
/-- fmt.Sprintf("%1d%02d", man, log): man is 2 or 3, log is below 32. -/
def wfText (man : U32) (log : Nat) : Bytes := [BitVec.ofNat 8 (48 + man.toNat), BitVec.ofNat 8 (48 + log / 10), BitVec.ofNat 8 (48 + log % 10)]

/-- digest.go:26-62 -/
def Digest.marshalText (d : Digest) : Except Err Bytes :=
  let b := b64Encode d.modulusID ++ [ch '_']
  let b := b ++ [if d.preHash then (if d.postHashLen > 0 then ch 'b' else ch 'r') else (if d.postHashLen > 0 then ch 's' else ch 'n')]
  match wfMant (u32 d.workFactor) with
  | none => .error .invalidWorkFactor
  | some (man, log) => .ok (b ++ wfText man log ++ [ch '_'] ++ b64Encode d.salt ++ [ch '_'] ++ b64Encode d.hash)

/-- bytes.Split(text, "_") -/
def split (sep : Byte) : Bytes → List Bytes
  | [] => [[]]
  | b :: rest => if b = sep then [] :: split sep rest else
    match split sep rest with
    | p :: ps => (b :: p) :: ps
    | [] => [[b]]

/-- The digits of strconv.Atoi, most significant first. -/
def digits : Bytes → Nat → Option Nat
  | [], n => some n
  | b :: rest, n => if 48 ≤ b.toNat ∧ b.toNat ≤ 57 then digits rest (10 * n + (b.toNat - 48)) else none
/-- strconv.Atoi: an optional sign, digits, and the result must fit into 64 bits. -/
def atoi (s : Bytes) : Option Int :=
  let neg := s.head? = some (ch '-')
  let s := if s.head? = some (ch '-') ∨ s.head? = some (ch '+') then s.drop 1 else s
  if s = [] then none else
  match digits s 0 with
  | none => none
  | some n => if neg then (if n ≤ 2 ^ 63 then some (-(n : Int)) else none) else (if n < 2 ^ 63 then some n else none)

/-- What UnmarshalText does. -/
inductive Parsed where
  | ok (d : Digest) | error | panics
deriving DecidableEq

/-- digest.go:65-115.  The fields left behind when an error is returned are not modelled. -/
def Digest.unmarshalText (d : Digest) (text : Bytes) : Parsed :=
  let parts := split (ch '_') text
  match parts[0]? with
  | none => .panics
  | some p0 =>
  match b64Decode p0 with
  | none => .error
  | some modulusID =>
  match parts[1]? with
  | none => .panics
  | some p1 =>
  if p1.length < 2 then .panics else
  match atoi ((p1.drop 1).take 1) with
  | none => .error
  | some mantissa =>
  match atoi (p1.drop 2) with
  | none => .error
  | some log =>
  let workFactor : U64 := BitVec.ofInt 64 mantissa ^ (log + 1).toNat
  match parts[2]? with
  | none => .panics
  | some p2 =>
  match b64Decode p2 with
  | none => .error
  | some salt =>
  match parts[3]? with
  | none => .panics
  | some p3 =>
  match b64Decode p3 with
  | none => .error
  | some hash =>
  let d := { d with modulusID := modulusID, workFactor := workFactor.toInt, salt := salt, hash := hash }
  let c := at8 p1 0
  .ok (if c = ch 'b' then { d with preHash := true, postHashLen := hash.length }
    else if c = ch 'r' then { d with preHash := true, postHashLen := 0 }
    else if c = ch 's' then { d with preHash := false, postHashLen := hash.length }
    else if c = ch 'n' then { d with preHash := false, postHashLen := 0 }
    else d)

end Verif.Makwa
