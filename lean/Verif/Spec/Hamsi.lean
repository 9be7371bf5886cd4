import Verif.Padding
import Verif.Spec.HamsiCode
/-
Hamsi (Küçük: The Hash Function Hamsi, 2009), written from the specification.
A state is a list of 16 or 32 words s_0, s_1, ...
-/
namespace Verif.Spec.Hamsi

def g (a : List U32) (i : Nat) : U32 := a.getD i 0

/-- The S-box. -/
def S : List Nat := [8, 6, 7, 9, 3, 12, 10, 15, 13, 1, 14, 4, 0, 11, 5, 2]
/-- The positions at which the four words have the bits of x (bit j of x in the word j). -/
def minterm (a : List U32) (x : Nat) : U32 := ((List.range 4).map fun j => if x.testBit j then g a j else ~~~ g a j).foldl (· &&& ·) (BitVec.allOnes 32)
/-- The S-box on the 32 columns of four words. -/
def sub4 (a : List U32) : List U32 :=
  (List.range 4).map fun k => ((List.range 16).map fun x => if (S.getD x 0).testBit k then minterm a x else 0).foldl (· ||| ·) 0

/-- The linear map L of the diffusion layer. -/
def L (x : List U32) : List U32 :=
  let a := (g x 0).rotateLeft 13
  let c := (g x 2).rotateLeft 3
  let b := g x 1 ^^^ a ^^^ c
  let d := g x 3 ^^^ c ^^^ (a <<< 3)
  let b := b.rotateLeft 1
  let d := d.rotateLeft 7
  let a := a ^^^ b ^^^ d
  let c := c ^^^ d ^^^ (b <<< 7)
  [a.rotateLeft 5, b, c.rotateLeft 22, d]

/-- (s_i, s_j, s_k, s_l) := f (s_i, s_j, s_k, s_l) -/
def app (f : List U32 → List U32) (s : List U32) (p : Nat × Nat × Nat × Nat) : List U32 :=
  let y := f [g s p.1, g s p.2.1, g s p.2.2.1, g s p.2.2.2]
  (((s.set p.1 (g y 0)).set p.2.1 (g y 1)).set p.2.2.1 (g y 2)).set p.2.2.2 (g y 3)

structure Variant where
  /-- bytes of a block -/
  B : Nat
  /-- generator matrix -/
  G : List (List U32)
  iv : List U32
  /-- where the words of the expanded message (first list) and of the chaining value (second list) go -/
  posM : List Nat
  posC : List Nat
  /-- the constant added to s_i has this number -/
  alpha : List Nat
  cols : List (Nat × Nat × Nat × Nat)
  diags : List (Nat × Nat × Nat × Nat)
  /-- words kept by the truncation -/
  keep : List Nat
  rounds : Nat
  roundsF : Nat
  /-- words of the output -/
  out : List Nat

/-- The constants of P and of P_f. -/
def alphaN : List U32 := [0xff00f0f0, 0xccccaaaa, 0xf0f0cccc, 0xff00aaaa, 0xccccaaaa, 0xf0f0ff00, 0xaaaacccc, 0xf0f0ff00, 0xf0f0cccc, 0xaaaaff00, 0xccccff00, 0xaaaaf0f0, 0xaaaaf0f0, 0xff00cccc, 0xccccf0f0, 0xff00aaaa, 0xccccaaaa, 0xff00f0f0, 0xff00aaaa, 0xf0f0cccc, 0xf0f0ff00, 0xccccaaaa, 0xf0f0ff00, 0xaaaacccc, 0xaaaaff00, 0xf0f0cccc, 0xaaaaf0f0, 0xccccff00, 0xff00cccc, 0xaaaaf0f0, 0xff00aaaa, 0xccccf0f0]
def alphaF : List U32 := [0xcaf9639c, 0x0ff0f9c0, 0x639c0ff0, 0xcaf9f9c0, 0x0ff0f9c0, 0x639ccaf9, 0xf9c00ff0, 0x639ccaf9, 0x639c0ff0, 0xf9c0caf9, 0x0ff0caf9, 0xf9c0639c, 0xf9c0639c, 0xcaf90ff0, 0x0ff0639c, 0xcaf9f9c0, 0x0ff0f9c0, 0xcaf9639c, 0xcaf9f9c0, 0x639c0ff0, 0x639ccaf9, 0x0ff0f9c0, 0x639ccaf9, 0xf9c00ff0, 0xf9c0caf9, 0x639c0ff0, 0xf9c0639c, 0x0ff0caf9, 0xcaf90ff0, 0xf9c0639c, 0xcaf9f9c0, 0x0ff0639c]

/-- Bit i of a block, the most significant bit of the first byte first. -/
def bit (b : Bytes) (i : Nat) : Bool := (at8 b (i / 8)).getLsbD (7 - i % 8)
/-- Word z of the expanded message: the rows of the generator matrix for the set bits are added. -/
def expand (v : Variant) (b : Bytes) (z : Nat) : U32 :=
  (List.range (8 * v.B)).foldl (fun a i => if bit b i then a ^^^ g (v.G.getD i []) z else a) 0

/-- The words put where the positions say. -/
def place (pos : List Nat) (f : Nat → U32) (s : List U32) : List U32 := (List.range pos.length).foldl (fun s z => s.set (pos.getD z 0) (f z)) s
/-- Concatenation of the expanded message and the chaining value. -/
def concat (v : Variant) (b : Bytes) (h : List U32) : List U32 :=
  place v.posC (g h) (place v.posM (expand v b) (List.replicate (v.posM.length + v.posC.length) 0))

/-- Addition of constants and of the number of the round. -/
def addConst (v : Variant) (al : List U32) (r : Nat) (s : List U32) : List U32 :=
  (List.range v.alpha.length).map fun i => g s i ^^^ g al (v.alpha.getD i 0) ^^^ (if i = 1 then BitVec.ofNat 32 r else 0)

def round (v : Variant) (al : List U32) (s : List U32) (r : Nat) : List U32 :=
  v.diags.foldl (app L) (v.cols.foldl (app sub4) (addConst v al r s))

/-- The compression function with n rounds and constants al. -/
def compress (v : Variant) (al : List U32) (n : Nat) (h : List U32) (b : Bytes) : List U32 :=
  let s := (List.range n).foldl (round v al) (concat v b h)
  (List.range v.keep.length).map fun z => g h z ^^^ g s (v.keep.getD z 0)

/-- The message with its padding and length; the last block goes through P_f. -/
def padded (v : Variant) (m : Bytes) : List Bytes := fullBlocks v.B (mdPad v.B 0x80 [] m ++ be64 (BitVec.ofNat 64 (8 * m.length)))
def hash (v : Variant) (m : Bytes) : Bytes :=
  let h := (padded v m).dropLast.foldl (compress v alphaN v.rounds) v.iv
  let h := compress v alphaF v.roundsF h ((padded v m).getLastD [])
  v.out.flatMap fun i => be32 (g h i)

def iv224 : List U32 := [0xc3967a67, 0xc3bc6c20, 0x4bc3bcc3, 0xa7c3bc6b, 0x2c204b61, 0x74686f6c, 0x69656b65, 0x20556e69]
def iv256 : List U32 := [0x76657273, 0x69746569, 0x74204c65, 0x7576656e, 0x2c204465, 0x70617274, 0x656d656e, 0x7420456c]
def iv384 : List U32 := [0x656b7472, 0x6f746563, 0x686e6965, 0x6b2c2043, 0x6f6d7075, 0x74657220, 0x53656375, 0x72697479, 0x20616e64, 0x20496e64, 0x75737472, 0x69616c20, 0x43727970, 0x746f6772, 0x61706879, 0x2c204b61]
def iv512 : List U32 := [0x73746565, 0x6c706172, 0x6b204172, 0x656e6265, 0x72672031, 0x302c2062, 0x75732032, 0x3434362c, 0x20422d33, 0x30303120, 0x4c657576, 0x656e2d48, 0x65766572, 0x6c65652c, 0x2042656c, 0x6769756d]

def small (iv : List U32) (out : List Nat) : Variant where
  B := 4
  G := G256
  iv := iv
  posM := [0, 1, 6, 7, 8, 9, 14, 15]
  posC := [2, 3, 4, 5, 10, 11, 12, 13]
  alpha := [0, 1, 2, 3, 8, 9, 10, 11, 16, 17, 18, 19, 24, 25, 26, 27]
  cols := [(0, 4, 8, 12), (1, 5, 9, 13), (2, 6, 10, 14), (3, 7, 11, 15)]
  diags := [(0, 5, 10, 15), (1, 6, 11, 12), (2, 7, 8, 13), (3, 4, 9, 14)]
  keep := [0, 1, 2, 3, 8, 9, 10, 11]
  rounds := 3
  roundsF := 6
  out := out

def large (iv : List U32) (out : List Nat) : Variant where
  B := 8
  G := G512
  iv := iv
  posM := [0, 1, 4, 5, 10, 11, 14, 15, 16, 17, 20, 21, 26, 27, 30, 31]
  posC := [2, 3, 6, 7, 8, 9, 12, 13, 18, 19, 22, 23, 24, 25, 28, 29]
  alpha := List.range 32
  cols := (List.range 8).map fun i => (i, i + 8, i + 16, i + 24)
  diags := (List.range 8).map (fun i => (i, 8 + (i + 1) % 8, 16 + (i + 2) % 8, 24 + (i + 3) % 8)) ++ [(0, 2, 5, 7), (16, 19, 21, 22), (9, 11, 12, 14), (25, 26, 28, 31)]
  keep := [0, 1, 2, 3, 4, 5, 6, 7, 16, 17, 18, 19, 20, 21, 22, 23]
  rounds := 6
  roundsF := 12
  out := out

def hamsi224 : Bytes → Bytes := hash (small iv224 [0, 1, 2, 3, 4, 5, 6])
def hamsi256 : Bytes → Bytes := hash (small iv256 [0, 1, 2, 3, 4, 5, 6, 7])
def hamsi384 : Bytes → Bytes := hash (large iv384 [0, 1, 3, 4, 5, 6, 8, 9, 10, 12, 13, 15])
def hamsi512 : Bytes → Bytes := hash (large iv512 [0, 1, 2, 3, 4, 5, 6, 7, 8, 9, 10, 11, 12, 13, 14, 15])

end Verif.Spec.Hamsi
