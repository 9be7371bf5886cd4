import Verif.Model.MD6
import Verif.Model.GoSlice
/-
The constructor of package md6 with the caller's memory: it pads the key by `append(key, 0x00)` (md6/digest.go:41-43), which writes
behind the caller's key when its slice has spare capacity.
-/
namespace Verif.MD6Mem
open Verif.MD6 Verif.GoSlice

/-- md6/digest.go:32-34 `key = key[:KeySize]`, which keeps the capacity. -/
def cut (key : Slice) : Slice := if key.len > 64 then { key with len := 64 } else key

/-- md6/digest.go:41-43, `n` turns of `key = append(key, 0x00)`. -/
def padKey : Nat → Bytes → Buf → Bytes × Buf
  | 0, mem, b => (mem, b)
  | n + 1, mem, b => let r := append mem b [0x00]; padKey n r.1 r.2

/-- md6/digest.go:31-59 `newDigest` (md6/md6.go:33-45 `NewWithKey`, `NewMD6`) for sizes ≥ 0: the caller's memory afterwards and the object,
which copies the key. -/
def newDigest (mem : Bytes) (size : Nat) (key : Slice) (levels : Int) : Bytes × Digest :=
  let key := cut key
  let k := key.len
  let b := padKey (64 - key.len) mem (.ref key)
  let K := toWord (b.2.get b.1)
  let r := if k > 0 then max 80 (40 + size / 4) else max 0 (40 + size / 4)
  (b.1, Digest.reset ⟨zeros 512, 0, 0, size, K, k, r, levels, 0, []⟩)

end Verif.MD6Mem
