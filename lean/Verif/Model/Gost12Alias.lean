import Verif.Model.Gost12
import Verif.HashAPI
/-
Model of gost/gost34112012/hash.go with the storage of the buffer: `UnmarshalBinary` keeps the tail of the slice it is given.
The caller has one array `arr`; the data it writes is elsewhere.
-/
namespace Verif.Gost12Alias

/-- `h.buf`: storage of the object, or `arr[off:off+len]`, whose capacity reaches to the end of `arr`. -/
inductive Buf where
  | own (b : Bytes)
  | at (off len : Nat)

/-- The caller's array and the fields of the object (hash.go:282-295). -/
structure World where
  arr : Bytes
  size : Nat
  n : U64
  hsh : Bytes
  chk : Bytes
  buf : Buf

/-- The bytes of `h.buf`. -/
def World.content (w : World) : Bytes :=
  match w.buf with
  | .own b => b
  | .at off len => (w.arr.drop off).take len
/-- `append(h.buf, p...)`, hash.go:344: in place if the capacity suffices. -/
def append (w : World) (p : Bytes) : World :=
  match w.buf with
  | .own b => { w with buf := .own (b ++ p) }
  | .at off len =>
    if off + len + p.length ≤ w.arr.length then { w with arr := goCopy w.arr (off + len) p, buf := .at off (len + p.length) }
    else { w with buf := .own (w.content ++ p) }
/-- `h.buf[64:]`, hash.go:352 -/
def tail64 : Buf → Buf
  | .own b => .own (b.drop 64)
  | .at off len => .at (off + 64) (len - 64)
/-- hash.go:346-353, the loop of `Write`. -/
def writeLoop : Nat → World → World
  | 0, w => w
  | fuel + 1, w =>
    if w.content.length ≥ 64 then
      let tmp := w.content.take 64
      writeLoop fuel { w with hsh := Gost12.g w.n w.hsh tmp, chk := Gost12.add512bit w.chk tmp, n := w.n + 64 * 8, buf := tail64 w.buf }
    else w
/-- hash.go:343-356 `Write` -/
def write (w : World) (p : Bytes) : World :=
  let w := append w p
  writeLoop w.content.length w
/-- The object on values, as the methods that only read see it (hash.go:358-386, 458-476). -/
def World.view (w : World) : Gost12.Digest := ⟨w.size, w.content, w.n, w.hsh, w.chk⟩
/-- hash.go:328-341 `Reset` -/
def reset (w : World) : World :=
  let d := Gost12.reset w.view
  { w with n := d.n, hsh := d.hsh, chk := d.chk, buf := .own [] }
/-- hash.go:478-501 `UnmarshalBinary(arr[lo:hi])` for `lo ≤ hi ≤ len(arr)`; `none` is an error. -/
def unmarshal (w : World) (lo hi : Nat) : Option World :=
  match Gost12.unmarshal w.view ((w.arr.take hi).drop lo) with
  | none => none
  | some d => some { w with size := d.size, n := d.n, hsh := d.hsh, chk := d.chk, buf := .at (lo + 145) (hi - lo - 145) }

/-- What the program does: calls of the hash interface, `MarshalBinary`, `UnmarshalBinary(arr[lo:hi])`, `arr[i] = v`, and reading `arr`. -/
inductive Act where
  | call (o : Op)
  | marshal
  | unmarshal (lo hi : Nat)
  | store (i : Nat) (v : Byte)
  | load

/-- A run of the program and what it sees; an error of `UnmarshalBinary` is `num 1`. -/
def run : World → List Act → List Out
  | _, [] => []
  | w, .call (.write p) :: as => .wrote p.length :: run (write w p) as
  | w, .call (.sum b) :: as => match Gost12.checkSum w.view with
    | some r => .bytes (b ++ r) :: run w as
    | none => [.panicked]
  | w, .call .reset :: as => .done :: run (reset w) as
  | w, .call .size :: as => .num w.size :: run w as
  | w, .call .blockSize :: as => .num 64 :: run w as
  | w, .marshal :: as => .bytes (Gost12.marshal w.view) :: run w as
  | w, .unmarshal lo hi :: as => match unmarshal w lo hi with
    | some w' => .done :: run w' as
    | none => .num 1 :: run w as
  | w, .store i v :: as => .done :: run { w with arr := w.arr.set i v } as
  | w, .load :: as => .bytes w.arr :: run w as

end Verif.Gost12Alias
