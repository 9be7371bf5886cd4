import Verif.Basic
import Verif.HashAPI
/-
Model of the fluent facade, hash/hash.go, hash_from.go, hash_to.go, hash_use.go, hash_sum.go.
The standard library's encoding/hex and encoding/base64 (which hash.go:44-61 calls) are modelled
from their documented behaviour: they are part of the trusted base.
-/
namespace Verif.Facade

/-- The errors that appear in `Hash.Error` (only their presence and origin are observable). -/
inductive Err where
  | invalidByte (c : Byte)
  | oddLength
  | corruptInput
  | unknownMode (name : Nat)
  | other (n : Nat)
  deriving DecidableEq, Repr

/-! ### encoding/hex, called from hash/hash.go:54-61 -/

/-- `hex.fromHexChar`: the value of a digit. -/
def fromHexChar (c : Byte) : Option Nat :=
  let n := c.toNat
  if 48 ≤ n ∧ n ≤ 57 then some (n - 48)
  else if 97 ≤ n ∧ n ≤ 102 then some (n - 97 + 10)
  else if 65 ≤ n ∧ n ≤ 70 then some (n - 65 + 10)
  else none

/-- `hex.hextable`. -/
def hexChar (v : Nat) : Byte := (ascii "0123456789abcdef").getD v 0#8

/-- `hex.EncodeToString` (hash/hash.go:54-56). -/
def hexEncode : Bytes → Bytes
  | [] => []
  | v :: r => hexChar (v.toNat / 16) :: hexChar (v.toNat % 16) :: hexEncode r

/-- `hex.DecodeString` (hash/hash.go:59-61): on an error it returns the bytes decoded so far. -/
def hexDecode : Bytes → Bytes × Option Err
  | p :: q :: r => match fromHexChar p with
    | none => ([], some (.invalidByte p))
    | some a => match fromHexChar q with
      | none => ([], some (.invalidByte q))
      | some b => (BitVec.ofNat 8 (a * 16 + b) :: (hexDecode r).1, (hexDecode r).2)
  | [p] => match fromHexChar p with
    | none => ([], some (.invalidByte p))
    | some _ => ([], some .oddLength)
  | [] => ([], none)

/-! ### encoding/base64.StdEncoding, called from hash/hash.go:44-51 -/

/-- `encodeStd`. -/
def encodeStd : Bytes := ascii "ABCDEFGHIJKLMNOPQRSTUVWXYZabcdefghijklmnopqrstuvwxyz0123456789+/"
/-- `enc.encode[v]`. -/
def b64Char (v : Nat) : Byte := encodeStd.getD v 0#8
/-- `enc.decodeMap[c]` (`none` is 0xff). -/
def b64Val (c : Byte) : Option Nat :=
  let n := c.toNat
  if 65 ≤ n ∧ n ≤ 90 then some (n - 65)
  else if 97 ≤ n ∧ n ≤ 122 then some (n - 97 + 26)
  else if 48 ≤ n ∧ n ≤ 57 then some (n - 48 + 52)
  else if n = 43 then some 62
  else if n = 47 then some 63
  else none

/-- `base64.StdEncoding.EncodeToString` (hash/hash.go:44-46). -/
def b64Encode : Bytes → Bytes
  | [] => []
  | [a] =>
    let val := a.toNat * 65536
    [b64Char (val / 262144), b64Char (val / 4096 % 64), 0x3d#8, 0x3d#8]
  | [a, b] =>
    let val := a.toNat * 65536 + b.toNat * 256
    [b64Char (val / 262144), b64Char (val / 4096 % 64), b64Char (val / 64 % 64), 0x3d#8]
  | a :: b :: c :: r =>
    let val := a.toNat * 65536 + b.toNat * 256 + c.toNat
    b64Char (val / 262144) :: b64Char (val / 4096 % 64) :: b64Char (val / 64 % 64) :: b64Char (val % 64) :: b64Encode r

/-- `decodeQuantum` repeated (padding required, not strict about unused bits), on input from which
CR and LF have been dropped; on an error the bytes decoded so far are returned. -/
def b64DecodeClean : Bytes → Bytes × Option Err
  | [] => ([], none)
  | c :: d :: e :: f :: r => match b64Val c, b64Val d with
    | some x, some y => match b64Val e with
      | none =>
        if e = 0x3d#8 then
          if f = 0x3d#8 then
            ([BitVec.ofNat 8 ((x * 262144 + y * 4096) / 65536)], if r = [] then none else some .corruptInput)
          else ([], some .corruptInput)
        else ([], some .corruptInput)
      | some z => match b64Val f with
        | none =>
          if f = 0x3d#8 then
            ([BitVec.ofNat 8 ((x * 262144 + y * 4096 + z * 64) / 65536),
              BitVec.ofNat 8 ((x * 262144 + y * 4096 + z * 64) / 256)], if r = [] then none else some .corruptInput)
          else ([], some .corruptInput)
        | some w =>
          (BitVec.ofNat 8 ((x * 262144 + y * 4096 + z * 64 + w) / 65536) ::
            BitVec.ofNat 8 ((x * 262144 + y * 4096 + z * 64 + w) / 256) ::
            BitVec.ofNat 8 (x * 262144 + y * 4096 + z * 64 + w) :: (b64DecodeClean r).1, (b64DecodeClean r).2)
    | _, _ => ([], some .corruptInput)
  | _ => ([], some .corruptInput)

/-- `base64.StdEncoding.DecodeString` (hash/hash.go:49-51). -/
def b64Decode (s : Bytes) : Bytes × Option Err :=
  b64DecodeClean (s.filter fun c => c != 0x0d#8 && c != 0x0a#8)

/-! ### The facade -/

/-- `Hash` (hash/hash.go:22-31).  `hash` is an interface value, `none` when nil; the digest object is
a reference, but along one chain of calls it has one owner, so its state is kept in the value
(two chains that share one digest object are in FacadeVars.lean). -/
structure Facade (σ : Type) where
  data : Bytes
  hash : Option σ
  err : Option Err

/-- `NewHash` (hash/hash.go:34-36). -/
def newFacade {σ} : Facade σ := { data := [], hash := none, err := none }

/-- A registered algorithm, `IHash` (hash/hash_use.go:33-39), with its `cfg` arguments applied. -/
structure Algo (σ : Type) where
  sum : Bytes → Bytes × Option Err
  new : Option σ × Option Err

/-- The chained calls of the facade. -/
inductive Call (σ : Type) where
  | fromBytes (p : Bytes)
  | fromHexString (s : Bytes)
  | fromBase64String (s : Bytes)
  /-- the bytes the reader yields, and its error if it is not `io.EOF` -/
  | fromReader (p : Bytes) (e : Option Err)
  /-- `MD5()`, `SHA1()`, ... : hash/md5.go:8-15 and its siblings -/
  | digest (f : Bytes → Bytes)
  /-- `CRC16_X25()`, `CRC16_Modbus()`: hash/crc16.go:9-24 -/
  | digestHex (f : Bytes → Bytes)
  /-- `Blake2s_128`, `Siphash`: hash/blake.go:76-89, hash/siphash.go:43-57 -/
  | digestErr (f : Except Err (Bytes → Bytes))
  | checksum (h : σ)
  | funcHash (f : Bytes → Bytes × Option Err)
  | sumBy (name : Nat)
  | newHash (h : σ)
  | newBy (name : Nat)
  /-- `NewBlake2b_256` and its siblings: hash/blake.go:16-20 -/
  | newErr (h : Option σ) (e : Option Err)
  | write (p : Bytes)
  | writeReader (p : Bytes) (e : Option Err)
  | sum (b : Bytes)
  | reset

/-- One chained call; `none` is a panic. -/
def Call.run {σ} (I : HashImpl σ) (reg : Nat → Option (Algo σ)) : Call σ → Facade σ → Option (Facade σ)
  /- hash/hash_from.go:9-25 -/
  | .fromBytes p, t => some { t with data := p }
  /- hash/hash_from.go:40-44 -/
  | .fromHexString s, t => some { t with data := (hexDecode s).1, err := (hexDecode s).2 }
  /- hash/hash_from.go:28-32 -/
  | .fromBase64String s, t => some { t with data := (b64Decode s).1, err := (b64Decode s).2 }
  /- hash/hash_from.go:52-64 -/
  | .fromReader p e, t => match e with
    | some x => some { t with err := some x }
    | none => some { t with data := p }
  /- hash/md5.go:8-15 -/
  | .digest f, t => some { t with data := f t.data }
  /- hash/crc16.go:9-15 -/
  | .digestHex f, t => some { t with data := (hexDecode (f t.data)).1, err := (hexDecode (f t.data)).2 }
  /- hash/blake.go:76-89 -/
  | .digestErr f, t => match f with
    | .error x => some { t with err := some x }
    | .ok g => some { t with data := g t.data }
  /- hash/hash.go:71-77 -/
  | .checksum h, t => do
    let (h, _) ← I.write h t.data
    let (_, d) ← I.sum h []
    some { t with data := d }
  /- hash/hash.go:80-84 -/
  | .funcHash f, t => some { t with data := (f t.data).1, err := (f t.data).2 }
  /- hash/hash_use.go:57-67 -/
  | .sumBy name, t => match reg name with
    | none => some { t with err := some (.unknownMode name) }
    | some a => some { t with data := (a.sum t.data).1, err := (a.sum t.data).2 }
  /- hash/hash.go:64-68 -/
  | .newHash h, t => some { t with hash := some h }
  /- hash/hash_use.go:70-80 -/
  | .newBy name, t => match reg name with
    | none => some { t with err := some (.unknownMode name) }
    | some a => some { t with hash := a.new.1, err := a.new.2 }
  /- hash/blake.go:16-20 -/
  | .newErr h e, t => some { t with hash := h, err := e }
  /- hash/hash_sum.go:9-21 (a nil interface panics) -/
  | .write p, t => do
    let (h, _) ← I.write (← t.hash) p
    some { t with hash := some h }
  /- hash/hash_sum.go:24-37: what was read before the error has been written -/
  | .writeReader p e, t => do
    let (h, _) ← I.write (← t.hash) p
    match e with
    | some x => some { t with hash := some h, err := some x }
    | none => some { t with hash := some h }
  /- hash/hash_sum.go:40-44 -/
  | .sum b, t => do
    let (h, d) ← I.sum (← t.hash) b
    some { t with hash := some h, data := d }
  /- hash/hash_sum.go:65-69 -/
  | .reset, t => do
    let h ← t.hash
    some { t with hash := some (I.reset h) }

/-- A chain of calls. -/
def chain {σ} (I : HashImpl σ) (reg : Nat → Option (Algo σ)) : List (Call σ) → Facade σ → Option (Facade σ)
  | [], t => some t
  | c :: cs, t => (c.run I reg t).bind (chain I reg cs)

/-- `ToBytes` (hash/hash_to.go:14-16). -/
def Facade.toBytes {σ} (t : Facade σ) : Bytes := t.data
/-- `ToHexString` (hash/hash_to.go:29-31). -/
def Facade.toHexString {σ} (t : Facade σ) : Bytes := hexEncode t.data
/-- `ToBase64String` (hash/hash_to.go:24-26). -/
def Facade.toBase64String {σ} (t : Facade σ) : Bytes := b64Encode t.data

end Verif.Facade
