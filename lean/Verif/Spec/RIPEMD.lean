import Verif.Padding
/-
RIPEMD-128, -160, -256 and -320, written from Dobbertin, Bosselaers and Preneel, "RIPEMD-160: a
strengthened version of RIPEMD" (1996), Section 3 and Appendices A and B, and for the
double-length variants from the pseudo-code of the authors' RIPEMD-160 page.
-/
namespace Verif.Spec.RIPEMD

/-- Section 3, functions at bit level: `f 0 .. f 4` are the paper's f1 .. f5. -/
def f (k : Nat) (x y z : U32) : U32 :=
  match k with
  | 0 => x ^^^ y ^^^ z
  | 1 => (x &&& y) ||| (~~~x &&& z)
  | 2 => (x ||| ~~~y) ^^^ z
  | 3 => (x &&& z) ||| (y &&& ~~~z)
  | _ => x ^^^ (y ||| ~~~z)

/-- Added constants: integer parts of 2^30 times the square roots of 2, 3, 5, 7. -/
def K (k : Nat) : U32 := [0x00000000#32, 0x5a827999#32, 0x6ed9eba1#32, 0x8f1bbcdc#32, 0xa953fd4e#32].getD k 0
/-- Added constants of the parallel line (cube roots); 160 and 320 bits. -/
def K5' (k : Nat) : U32 := [0x50a28be6#32, 0x5c4dd124#32, 0x6d703ef3#32, 0x7a6d76e9#32, 0x00000000#32].getD k 0
/-- The same for 128 and 256 bits. -/
def K4' (k : Nat) : U32 := [0x50a28be6#32, 0x5c4dd124#32, 0x6d703ef3#32, 0x00000000#32].getD k 0

/-- The permutation ρ of the message words. -/
def rho (i : Nat) : Nat := [7, 4, 13, 1, 10, 6, 15, 3, 12, 0, 9, 5, 2, 14, 11, 8].getD i 0
/-- The permutation π of the parallel line. -/
def pi (i : Nat) : Nat := (9 * i + 5) % 16
/-- ρ applied `k` times. -/
def rhoPow : Nat → Nat → Nat
  | 0, i => i
  | k+1, i => rho (rhoPow k i)

/-- Message word of step `i` of round `k`: id, ρ, ρ², ρ³, ρ⁴. -/
def r (k i : Nat) : Nat := rhoPow k i
/-- The same on the parallel line: π, ρπ, ρ²π, ρ³π, ρ⁴π. -/
def r' (k i : Nat) : Nat := rhoPow k (pi i)

/-- Rotation amounts, indexed by round and message word. -/
def shifts : List (List Nat) :=
  [[11, 14, 15, 12, 5, 8, 7, 9, 11, 13, 14, 15, 6, 7, 9, 8],
   [12, 13, 11, 15, 6, 9, 9, 7, 12, 15, 11, 13, 7, 8, 7, 7],
   [13, 15, 14, 11, 7, 7, 6, 8, 13, 14, 13, 12, 5, 5, 6, 9],
   [14, 11, 12, 14, 8, 6, 5, 5, 15, 12, 15, 14, 9, 9, 8, 6],
   [15, 12, 13, 13, 9, 5, 8, 6, 14, 11, 12, 11, 8, 6, 5, 5]]
def sh (k w : Nat) : Nat := (shifts.getD k []).getD w 0

/-- Message word `w` of a block. -/
def X (blk : Bytes) (w : Nat) : U32 := getLE32 blk (4 * w)

/-- Four chaining variables (128 and 256 bits). -/
structure L4 where
  (A B C D : U32)
/-- Five chaining variables (160 and 320 bits). -/
structure L5 where
  (A B C D E : U32)

/-- One step of a line of RIPEMD-128 with function `fk`, constant `k`, message word `x`, rotation `s`. -/
def step4 (fk : U32 → U32 → U32 → U32) (k x : U32) (s : Nat) (v : L4) : L4 :=
  { A := v.D, B := (v.A + fk v.B v.C v.D + x + k).rotateLeft s, C := v.B, D := v.C }
/-- One step of a line of RIPEMD-160. -/
def step5 (fk : U32 → U32 → U32 → U32) (k x : U32) (s : Nat) (v : L5) : L5 :=
  { A := v.E, B := (v.A + fk v.B v.C v.D + x + k).rotateLeft s + v.E, C := v.B,
    D := v.C.rotateLeft 10, E := v.D }

/-- The first `n` steps of round `k` on both lines; the parallel line takes the functions in
reverse order. -/
def steps4 (blk : Bytes) (k : Nat) (st : L4 × L4) : Nat → L4 × L4
  | 0 => st
  | n+1 =>
    let v := steps4 blk k st n
    (step4 (f k) (K k) (X blk (r k n)) (sh k (r k n)) v.1,
     step4 (f (3 - k)) (K4' k) (X blk (r' k n)) (sh k (r' k n)) v.2)
def steps5 (blk : Bytes) (k : Nat) (st : L5 × L5) : Nat → L5 × L5
  | 0 => st
  | n+1 =>
    let v := steps5 blk k st n
    (step5 (f k) (K k) (X blk (r k n)) (sh k (r k n)) v.1,
     step5 (f (4 - k)) (K5' k) (X blk (r' k n)) (sh k (r' k n)) v.2)

/-- The first `n` rounds, `sw k` being done after round `k`. -/
def rounds4 (sw : Nat → L4 × L4 → L4 × L4) (blk : Bytes) (st : L4 × L4) : Nat → L4 × L4
  | 0 => st
  | k+1 => sw k (steps4 blk k (rounds4 sw blk st k) 16)
def rounds5 (sw : Nat → L5 × L5 → L5 × L5) (blk : Bytes) (st : L5 × L5) : Nat → L5 × L5
  | 0 => st
  | k+1 => sw k (steps5 blk k (rounds5 sw blk st k) 16)

/-- RIPEMD-256 exchanges one chaining variable after each round: A, B, C, D. -/
def swap256 (k : Nat) (v : L4 × L4) : L4 × L4 :=
  match k with
  | 0 => (⟨v.2.A, v.1.B, v.1.C, v.1.D⟩, ⟨v.1.A, v.2.B, v.2.C, v.2.D⟩)
  | 1 => (⟨v.1.A, v.2.B, v.1.C, v.1.D⟩, ⟨v.2.A, v.1.B, v.2.C, v.2.D⟩)
  | 2 => (⟨v.1.A, v.1.B, v.2.C, v.1.D⟩, ⟨v.2.A, v.2.B, v.1.C, v.2.D⟩)
  | _ => (⟨v.1.A, v.1.B, v.1.C, v.2.D⟩, ⟨v.2.A, v.2.B, v.2.C, v.1.D⟩)
/-- RIPEMD-320 exchanges B, D, A, C, E. -/
def swap320 (k : Nat) (v : L5 × L5) : L5 × L5 :=
  match k with
  | 0 => (⟨v.1.A, v.2.B, v.1.C, v.1.D, v.1.E⟩, ⟨v.2.A, v.1.B, v.2.C, v.2.D, v.2.E⟩)
  | 1 => (⟨v.1.A, v.1.B, v.1.C, v.2.D, v.1.E⟩, ⟨v.2.A, v.2.B, v.2.C, v.1.D, v.2.E⟩)
  | 2 => (⟨v.2.A, v.1.B, v.1.C, v.1.D, v.1.E⟩, ⟨v.1.A, v.2.B, v.2.C, v.2.D, v.2.E⟩)
  | 3 => (⟨v.1.A, v.1.B, v.2.C, v.1.D, v.1.E⟩, ⟨v.2.A, v.2.B, v.1.C, v.2.D, v.2.E⟩)
  | _ => (⟨v.1.A, v.1.B, v.1.C, v.1.D, v.2.E⟩, ⟨v.2.A, v.2.B, v.2.C, v.2.D, v.1.E⟩)

def compress128 (h : List U32) (blk : Bytes) : List U32 :=
  let v : L4 := ⟨h.getD 0 0, h.getD 1 0, h.getD 2 0, h.getD 3 0⟩
  let o := rounds4 (fun _ v => v) blk (v, v) 4
  [v.B + o.1.C + o.2.D, v.C + o.1.D + o.2.A, v.D + o.1.A + o.2.B, v.A + o.1.B + o.2.C]

def compress160 (h : List U32) (blk : Bytes) : List U32 :=
  let v : L5 := ⟨h.getD 0 0, h.getD 1 0, h.getD 2 0, h.getD 3 0, h.getD 4 0⟩
  let o := rounds5 (fun _ v => v) blk (v, v) 5
  [v.B + o.1.C + o.2.D, v.C + o.1.D + o.2.E, v.D + o.1.E + o.2.A, v.E + o.1.A + o.2.B,
   v.A + o.1.B + o.2.C]

def compress256 (h : List U32) (blk : Bytes) : List U32 :=
  let v : L4 := ⟨h.getD 0 0, h.getD 1 0, h.getD 2 0, h.getD 3 0⟩
  let w : L4 := ⟨h.getD 4 0, h.getD 5 0, h.getD 6 0, h.getD 7 0⟩
  let o := rounds4 swap256 blk (v, w) 4
  [v.A + o.1.A, v.B + o.1.B, v.C + o.1.C, v.D + o.1.D,
   w.A + o.2.A, w.B + o.2.B, w.C + o.2.C, w.D + o.2.D]

def compress320 (h : List U32) (blk : Bytes) : List U32 :=
  let v : L5 := ⟨h.getD 0 0, h.getD 1 0, h.getD 2 0, h.getD 3 0, h.getD 4 0⟩
  let w : L5 := ⟨h.getD 5 0, h.getD 6 0, h.getD 7 0, h.getD 8 0, h.getD 9 0⟩
  let o := rounds5 swap320 blk (v, w) 5
  [v.A + o.1.A, v.B + o.1.B, v.C + o.1.C, v.D + o.1.D, v.E + o.1.E,
   w.A + o.2.A, w.B + o.2.B, w.C + o.2.C, w.D + o.2.D, w.E + o.2.E]

/-- Initial values. -/
def iv128 : List U32 := [0x67452301#32, 0xefcdab89#32, 0x98badcfe#32, 0x10325476#32]
def iv160 : List U32 := iv128 ++ [0xc3d2e1f0#32]
def iv256 : List U32 := iv128 ++ [0x76543210#32, 0xfedcba98#32, 0x89abcdef#32, 0x01234567#32]
def iv320 : List U32 := iv160 ++ [0x76543210#32, 0xfedcba98#32, 0x89abcdef#32, 0x01234567#32, 0x3c2d1e0f#32]

/-- MD4 padding: bit 1, zeros, 64-bit little-endian bit count. -/
def pad (m : Bytes) : Bytes := mdPad 64 0x80#8 (le64 (BitVec.ofNat 64 (8 * m.length))) m

def hashWith (c : List U32 → Bytes → List U32) (iv : List U32) (m : Bytes) : Bytes :=
  (((fullBlocks 64 (pad m)).foldl c iv).map le32).flatten

def hash128 := hashWith compress128 iv128
def hash160 := hashWith compress160 iv160
def hash256 := hashWith compress256 iv256
def hash320 := hashWith compress320 iv320

end Verif.Spec.RIPEMD
