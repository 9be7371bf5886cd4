import Verif.Lazy
/-
BLAKE3, from "BLAKE3: one function, fast everywhere" (section 2): the compression function with the
message permutation applied between rounds, chunks of 1024 bytes, the left-balanced binary tree and
the extendable root output.  Independent of the code.
-/
namespace Verif.Spec.BLAKE3

def IV : List U32 := [0x6A09E667, 0xBB67AE85, 0x3C6EF372, 0xA54FF53A, 0x510E527F, 0x9B05688C, 0x1F83D9AB, 0x5BE0CD19]
/-- Table 2: the permutation of the message words between rounds. -/
def perm : List Nat := [2, 6, 3, 10, 7, 0, 4, 13, 1, 11, 12, 5, 9, 14, 15, 8]

/-- The quarter round of 2.2. -/
def G (a b c d x y : U32) : U32 × U32 × U32 × U32 :=
  let a := a + b + x
  let d := (d ^^^ a).rotateRight 16
  let c := c + d
  let b := (b ^^^ c).rotateRight 12
  let a := a + b + y
  let d := (d ^^^ a).rotateRight 8
  let c := c + d
  let b := (b ^^^ c).rotateRight 7
  (a, b, c, d)

/-- The quarter round applied to four of the sixteen words. -/
def mix (v : List U32) (a b c d : Nat) (x y : U32) : List U32 :=
  let r := G (v.getD a 0) (v.getD b 0) (v.getD c 0) (v.getD d 0) x y
  (((v.set a r.1).set b r.2.1).set c r.2.2.1).set d r.2.2.2

/-- A round: the four columns, then the four diagonals. -/
def round (m : List U32) (v : List U32) : List U32 :=
  let w i := m.getD i 0
  let v := mix v 0 4 8 12 (w 0) (w 1)
  let v := mix v 1 5 9 13 (w 2) (w 3)
  let v := mix v 2 6 10 14 (w 4) (w 5)
  let v := mix v 3 7 11 15 (w 6) (w 7)
  let v := mix v 0 5 10 15 (w 8) (w 9)
  let v := mix v 1 6 11 12 (w 10) (w 11)
  let v := mix v 2 7 8 13 (w 12) (w 13)
  mix v 3 4 9 14 (w 14) (w 15)

def permute (m : List U32) : List U32 := perm.map fun i => m.getD i 0

/-- Seven rounds; the message words are permuted between them. -/
def rounds (m v : List U32) : Nat → List U32 × List U32
  | 0 => (m, v)
  | n + 1 => let r := rounds m v n; (permute r.1, round r.1 r.2)

/-- The sixteen little-endian words of a block, which is padded with zeros. -/
def words (b : Bytes) : List U32 := (List.range 16).map fun i => getLE32 b (4 * i)

/-- The compression function: block `b` of `len` bytes, counter `t`, flags `f`. -/
def compress (h : List U32) (b : Bytes) (len : Nat) (t : U64) (f : Byte) : List U32 :=
  let v := (rounds (words b) (h ++ IV.take 4 ++ [t.setWidth 32, (t >>> 32).setWidth 32, BitVec.ofNat 32 len, f.setWidth 32]) 7).2
  List.zipWith (· ^^^ ·) (v.take 8) (v.drop 8) ++ List.zipWith (· ^^^ ·) (v.drop 8) h

def CHUNK_START : Byte := 1
def CHUNK_END : Byte := 2
def PARENT : Byte := 4
def ROOT : Byte := 8
def KEYED_HASH : Byte := 16
def DERIVE_KEY_CONTEXT : Byte := 32
def DERIVE_KEY_MATERIAL : Byte := 64

/-- A node of the tree: the input of its (last) compression. -/
structure Node where
  h : List U32
  block : Bytes
  t : Nat
  f : Byte

/-- The chaining value of a node. -/
def Node.cv (n : Node) : Bytes :=
  ((compress n.h n.block n.block.length (BitVec.ofNat 64 n.t) n.f).take 8).flatMap le32
/-- The `i`-th block of 64 bytes of the output of the root. -/
def Node.rootBlock (n : Node) (i : Nat) : Bytes :=
  (compress n.h n.block n.block.length (BitVec.ofNat 64 i) (n.f ||| ROOT)).flatMap le32

def startFlag (i : Nat) : Byte := if i = 0 then CHUNK_START else 0

/-- The chaining value after the given first blocks of chunk `t`. -/
def chunkBlocks (key : List U32) (fl : Byte) (t : Nat) (bs : List Bytes) : List U32 :=
  bs.zipIdx.foldl (fun h b => (compress h b.1 64 (BitVec.ofNat 64 t) (fl ||| startFlag b.2)).take 8) key

/-- Chunk number `t`: at most 1024 bytes in blocks of 64 bytes, the last of which may be shorter. -/
def chunk (key : List U32) (fl : Byte) (t : Nat) (m : Bytes) : Node :=
  { h := chunkBlocks key fl t (initBlocks 64 m), block := lastBlock 64 m, t := t,
    f := fl ||| startFlag (initBlocks 64 m).length ||| CHUNK_END }

def parent (key : List U32) (fl : Byte) (l r : Bytes) : Node :=
  { h := key, block := l ++ r, t := 0, f := fl ||| PARENT }

/-- The number of bytes in the left subtree: the largest power of two of chunks that leaves at least
one byte to the right. -/
def leftLen (n : Nat) : Nat := 1024 * 2 ^ Nat.log2 ((n - 1) / 1024)

theorem leftLen_lt (n : Nat) (h : 1024 < n) : 0 < leftLen n ∧ leftLen n < n := by
  have h0 : (n - 1) / 1024 ≠ 0 := by omega
  have := Nat.log2_self_le h0
  have h2 := Nat.two_pow_pos (Nat.log2 ((n - 1) / 1024))
  unfold leftLen
  omega

/-- The tree over a message whose first chunk has number `t`. -/
def tree (key : List U32) (fl : Byte) (t : Nat) (m : Bytes) : Node :=
  if h : m.length ≤ 1024 then chunk key fl t m
  else parent key fl (tree key fl t (m.take (leftLen m.length))).cv
    (tree key fl (t + leftLen m.length / 1024) (m.drop (leftLen m.length))).cv
termination_by m.length
decreasing_by
  all_goals
    have := leftLen_lt m.length (by omega)
    simp only [List.length_take, List.length_drop]
    omega

/-- The first `n` bytes of the output of the root. -/
def output (nd : Node) (n : Nat) : Bytes := ((List.range ((n + 63) / 64)).flatMap nd.rootBlock).take n

/-- BLAKE3 with a key and the flags of its mode, `n` bytes of output. -/
def hashMode (key : List U32) (fl : Byte) (n : Nat) (m : Bytes) : Bytes := output (tree key fl 0 m) n

def keyWords (k : Bytes) : List U32 := (List.range 8).map fun i => getLE32 k (4 * i)

def hash (n : Nat) (m : Bytes) : Bytes := hashMode IV 0 n m
def keyed (k : Bytes) (n : Nat) (m : Bytes) : Bytes := hashMode (keyWords k) KEYED_HASH n m
def deriveKey (context : Bytes) (n : Nat) (m : Bytes) : Bytes :=
  hashMode (keyWords (hashMode IV DERIVE_KEY_CONTEXT 32 context)) DERIVE_KEY_MATERIAL n m

end Verif.Spec.BLAKE3
