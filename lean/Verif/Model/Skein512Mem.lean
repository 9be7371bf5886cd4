import Verif.Model.Skein512
import Verif.Model.GoSlice
/-
`XORKeyStream` of skein512/hash.go:265-297 in the caller's memory: `dst` and `src` are slices of one memory, which may be the same, apart or
overlap; each byte of `dst` is stored right after the byte of `src` has been read, and an index or slice bound out of range panics (`none`).
-/
namespace Verif.Skein512Mem
open Verif.Skein512 Verif.GoSlice

/-- `for i, v := range ... { dst[i] = src[i] ^ ks[i] }` (hash.go:269-272, 276-278, 284-286, 292-295), from index `i` on, one pass for each byte of
`ks`.  A range over a slice reads its elements pass by pass, so later passes see earlier stores. -/
def loop (mem : Bytes) (dst src : Slice) : Nat → Bytes → Option Bytes
  | _, [] => some mem
  | i, k :: ks =>
    if i < src.len then
      if i < dst.len then loop (mem.set (dst.off + i) (mem.getD (src.off + i) 0 ^^^ k)) dst src (i + 1) ks else none
    else none

/-- `s[n:]` (hash.go:279-280, 287-288) -/
def from' (s : Slice) (n : Nat) : Option Slice := if n ≤ s.len then some { off := s.off + n, len := s.len - n, cap := s.cap - n } else none

/-- hash.go:283-290: the loop over whole blocks. -/
def blocks : Nat → Reader → Bytes → Slice → Slice → Option (Reader × Bytes × Slice × Slice)
  | 0, r, mem, dst, src => some (r, mem, dst, src)
  | fuel + 1, r, mem, dst, src =>
    if 64 ≤ src.len then
      (loop mem dst src 0 r.x).bind fun mem =>
      (from' dst 64).bind fun dst =>
      (from' src 64).bind fun src => blocks fuel (nextBlock r) mem dst src
    else some (r, mem, dst, src)

/-- `XORKeyStream` (hash.go:265-297): the new state and the memory afterwards, or a panic.  (Each pass of the loop over blocks shortens `src`, so
`src.len` passes suffice.) -/
def xorKeyStream (r : Reader) (mem : Bytes) (dst src : Slice) : Option (Reader × Bytes) :=
  let left := 64 - r.nx
  if src.len < left then
    (loop mem dst src 0 ((r.x.drop r.nx).take src.len)).map fun mem => ({ r with nx := r.nx + src.len }, mem)
  else
    (loop mem dst src 0 (r.x.drop r.nx)).bind fun mem =>
    (from' dst left).bind fun dst =>
    (from' src left).bind fun src =>
    (blocks (left + src.len) (nextBlock r) mem dst src).bind fun q =>
      if 0 < q.2.2.2.len then
        (loop q.2.1 q.2.2.1 q.2.2.2 0 (q.1.x.take q.2.2.2.len)).map fun mem => ({ q.1 with nx := q.1.nx + q.2.2.2.len }, mem)
      else some (q.1, q.2.1)

/-- A history of calls, each with its slices. -/
def run (r : Reader) (mem : Bytes) : List (Slice × Slice) → Option (Reader × Bytes)
  | [] => some (r, mem)
  | c :: cs => (xorKeyStream r mem c.1 c.2).bind fun q => run q.1 q.2 cs

end Verif.Skein512Mem
