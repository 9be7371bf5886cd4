import Verif.Spec.Threefish
/-
Skein, as in "The Skein Hash Function Family" (version 1.3), sections 3.4 and 3.5, for byte
strings and without tree hashing.  `n` is the number of 64-bit words of a block (4, 8 or 16).
-/
namespace Verif.Spec.Skein

/-- The words of a block. -/
def words (n : Nat) (b : Bytes) : List U64 := (List.range n).map fun i => getLE64 b (8 * i)

/-- The 128-bit tweak (table 5): position, type, first and final flags. -/
def tweak (pos ty : Nat) (first final : Bool) : Nat :=
  pos + ty * 2 ^ 120 + first.toNat * 2 ^ 126 + final.toNat * 2 ^ 127

/-- One step of UBI chaining. -/
def ubiBlock (n : Nat) (H : List U64) (t : Nat) (b : Bytes) : List U64 :=
  let m := words n b
  List.zipWith (· ^^^ ·) (Threefish.encrypt n H (BitVec.ofNat 64 t) (BitVec.ofNat 64 (t / 2 ^ 64)) m) m

/-- `UBI(G, M, ty * 2^120)`: at least one block, the last one filled up with zeros. -/
def ubi (n : Nat) (G : List U64) (M : Bytes) (ty : Nat) : List U64 :=
  let bs := 8 * n
  let k := max 1 ((M.length + bs - 1) / bs)
  let P := M ++ zeros (k * bs - M.length)
  (List.range k).foldl (fun H i =>
    ubiBlock n H (tweak (min M.length ((i + 1) * bs)) ty (decide (i = 0)) (decide (i + 1 = k))) ((P.drop (i * bs)).take bs)) G

/-- The configuration string: "SHA3", version 1, the output length in bits. -/
def config (size : Nat) : Bytes := [0x53, 0x48, 0x41, 0x33, 1, 0, 0, 0] ++ le64 (BitVec.ofNat 64 (8 * size)) ++ zeros 16

/-- The chaining value after the key (if there is one), the configuration and the optional arguments. -/
def init (n size : Nat) (key : Option Bytes) (args : List (Nat × Bytes)) : List U64 :=
  let z := List.replicate n 0#64
  let K := match key with | some k => ubi n z k 0 | none => z
  args.foldl (fun G a => ubi n G a.2 a.1) (ubi n K (config size) 4)

/-- The output function. -/
def output (n : Nat) (G : List U64) (size : Nat) : Bytes :=
  ((List.range ((size + 8 * n - 1) / (8 * n))).flatMap fun i => (ubi n G (le64 (BitVec.ofNat 64 i)) 63).flatMap le64).take size

/-- Skein with `size` bytes of output. -/
def skein (n size : Nat) (key : Option Bytes) (args : List (Nat × Bytes)) (msg : Bytes) : Bytes :=
  output n (ubi n (init n size key args) msg 48) size

end Verif.Spec.Skein
