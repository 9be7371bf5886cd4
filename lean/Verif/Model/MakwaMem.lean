import Verif.Model.Makwa
import Verif.Model.GoSlice
/-
Package makwa with the caller's memory: `Hash` builds the input of the KDF by `append(append(salt, password...), byte(u))`
(makwa/makwa.go:167), which writes behind the salt when its slice has spare capacity.  `CheckPassword` (makwa/makwa.go:37-44) passes the
slice `digest.Salt`.
-/
namespace Verif.MakwaMem
open Verif.Makwa Verif.GoSlice
open Verif.Spec (beNat)

/-- makwa/makwa.go:152-154: the password after the optional pre-hash. -/
def entered (P : Params) (pre : Bool) (mem : Bytes) (password : Buf) : Buf :=
  if pre then .own (kdf P.A (password.get mem) 64) else password

/-- makwa/makwa.go:142-144, 156-164: the error Hash returns before it uses the salt. -/
def refused (P : Params) (wf : Int) (u : Nat) : Option Err := match wfMant (u32 wf) with
  | none => some .invalidWorkFactor
  | some _ => if bitLen P.N / 8 < 160 then some .other
    else if u > 255 ∨ (u : Int) > (bitLen P.N / 8 : Nat) - 32 then some .other else none

/-- makwa/makwa.go:167-189: the digest, from the contents of the KDF input, the password and the salt at the time of their use. -/
def finish (P : Params) (data pw salt : Bytes) (u : Nat) (wf : Int) (pre : Bool) (post : Int) : Digest :=
  let sb := kdf P.A data (bitLen P.N / 8 - 2 - u)
  let xb := [0x00] ++ sb ++ pw ++ [BitVec.ofNat 8 u]
  let out := pad P.N (squares P.N (wf + 1).toNat (beNat xb))
  let out := if post > 0 then kdf P.A out post.toNat else out
  { modulusID := P.modulusID, hash := out, salt := salt, workFactor := wf, preHash := pre, postHashLen := post }

/-- makwa/makwa.go:140-190 with a salt given: the caller's memory afterwards and the result (its field Salt is the caller's slice; the
contents at the return are recorded here). -/
def hash (P : Params) (mem : Bytes) (password : Buf) (salt : Slice) (wf : Int) (pre : Bool) (post : Int) :
    Bytes × Except Err Digest :=
  let password := entered P pre mem password
  let u := (password.get mem).length
  match refused P wf u with
  | some e => (mem, .error e)
  | none =>
    let r := append mem (.ref salt) (password.get mem)
    let r := append r.1 r.2 [BitVec.ofNat 8 u]
    (r.1, .ok (finish P (r.2.get r.1) (password.get r.1) (salt.get r.1) u wf pre post))

/-- makwa/makwa.go:182-189, `Salt: salt`: the digest keeps the caller's slice, so this is the digest `d` that Hash returned as it is when the
memory is `mem`. -/
def held (salt : Slice) (d : Digest) (mem : Bytes) : Digest := { d with salt := salt.get mem }

/-- `mem[i] = v` for the pairs in `ws`, by the caller. -/
def stores (mem : Bytes) (ws : List (Nat × Byte)) : Bytes := ws.foldl (fun m w => m.set w.1 w.2) mem

/-- makwa/makwa.go:113-132: the test of one candidate, with the memory of the caller's digest.Salt.  The candidate password is a slice of
storage nobody else has. -/
def tryRoot (P : Params) (mem : Bytes) (salt : Slice) (v : Nat) : Bytes × Option Bytes :=
  let buf := pad P.N v
  if at8 buf 0 ≠ 0x00 then (mem, none) else
  let k := buf.length
  let u := (at8 buf (k - 1)).toNat
  if (u : Int) > (k : Int) - 32 then (mem, none) else
  let password := (buf.drop (k - u - 1)).take u
  let r := append mem (.ref salt) password
  let r := append r.1 r.2 [BitVec.ofNat 8 u]
  let x := kdf P.A (r.2.get r.1) (k - 2 - u)
  let x := [0x00] ++ x ++ password ++ [BitVec.ofNat 8 u]
  (r.1, if x = buf then some password else none)

/-- makwa/makwa.go:112-133: the loop over the candidates. -/
def tryRoots (P : Params) (salt : Slice) : Bytes → List Nat → Bytes × Option Bytes
  | mem, [] => (mem, none)
  | mem, v :: vs => match tryRoot P mem salt v with
    | (mem, some pw) => (mem, some pw)
    | (mem, none) => tryRoots P salt mem vs

/-- makwa/makwa.go:77-136 `Recover`, with the digest's salt in the caller's memory; the field `salt` of `digest` is not used. -/
def recover (P : Params) (p q : Nat) (mem : Bytes) (salt : Slice) (digest : Digest) : Bytes × Recovered :=
  if digest.preHash ∨ digest.postHashLen > 0 then (mem, .error .other) else
  if digest.modulusID ≠ P.modulusID then (mem, .error .wrongParams) else
  let y := beNat digest.hash
  match modInverse q p with
  | none => (mem, .panics)
  | some iq =>
    let ep := sqrtExp p (digest.workFactor + 1).toNat
    let eq := sqrtExp q (digest.workFactor + 1).toNat
    let x1p := (y % p) ^ ep % p
    let x1q := (y % q) ^ eq % q
    let x2p := (p - x1p) % p
    let x2q := (q - x1q) % q
    let xc := [crt p q iq x1p x1q, crt p q iq x1p x2q, crt p q iq x2p x1q, crt p q iq x2p x2q]
    match tryRoots P salt mem xc with
    | (mem, some pw) => (mem, .password pw)
    | (mem, none) => (mem, .error .other)

/-- makwa/digest.go:153, 204: the slice `b64Decode` returns for the text `b` and a result of `n` bytes, in memory of its own: the
capacity is that of `make([]byte, 0, len(b))`, which is never outgrown. -/
def decoded (b : Bytes) (n : Nat) : Slice := { off := 0, len := n, cap := b.length }

/-! ### Several goroutines that hash with one salt slice -/

/-- A goroutine in `Hash`, with a password of its own: before line 167, after the inner append, after the outer append, at the end. -/
inductive Thread where
  | entry (pw : Bytes)
  | grown (pw : Bytes) (b : Buf)
  | built (pw : Bytes) (b : Buf)
  | finished (d : Digest)

/-- The step of one goroutine (makwa/makwa.go:167-189) on the shared memory: the two appends and the KDF's reading are one step
each.  (The optional pre-hash, on storage of the goroutine, is done.) -/
def stepThread (P : Params) (salt : Slice) (wf : Int) (pre : Bool) (post : Int) (mem : Bytes) (t : Thread) : Bytes × Thread := match t with
  | .entry pw => let r := append mem (.ref salt) pw; (r.1, .grown pw r.2)
  | .grown pw b => let r := append mem b [BitVec.ofNat 8 pw.length]; (r.1, .built pw r.2)
  | .built pw b => (mem, .finished (finish P (b.get mem) pw (salt.get mem) pw.length wf pre post))
  | .finished d => (mem, .finished d)

/-- A schedule (makwa/makwa.go:167-189). -/
def runThreads (P : Params) (salt : Slice) (wf : Int) (pre : Bool) (post : Int) : Bytes × List Thread → List Nat → Bytes × List Thread
  | s, [] => s
  | s, i :: is => match s.2[i]? with
    | none => runThreads P salt wf pre post s is
    | some t => let r := stepThread P salt wf pre post s.1 t; runThreads P salt wf pre post (r.1, s.2.set i r.2) is

end Verif.MakwaMem
