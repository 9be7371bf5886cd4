import Verif.Spec.GFBlock
/-
VMAC (T. Krovetz, W. Dai, draft-krovetz-vmac-01), over a block cipher `E` with 16-byte blocks, in arithmetic on natural numbers.
-/
namespace Verif.Spec.VMAC

/-- Block `i` of the key derivation function with the given index (§3.2). -/
def kdf (E : Bytes → Bytes) (index : Byte) (i : Nat) : Bytes := E ([index] ++ zeros 14 ++ [BitVec.ofNat 8 i])
/-- The L1 key of an iteration: eight KDF blocks, shifted by one block per iteration (§4.2). -/
def l1Key (E : Bytes → Bytes) (iter : Nat) : Bytes := ((List.range 8).map fun i => kdf E 128 (iter + i)).flatten
/-- Big- and little-endian 64-bit words at a byte offset. -/
def be (b : Bytes) (o : Nat) : Nat := beNat ((b.drop o).take 8)
def le (b : Bytes) (o : Nat) : Nat := beNat ((b.drop o).take 8).reverse
/-- NH (§4.3) of a string whose length is a multiple of 16. -/
def nh (k m : Bytes) : Nat :=
  ((List.range (m.length / 16)).map fun i => ((le m (16 * i) + be k (16 * i)) % 2 ^ 64) * ((le m (16 * i + 8) + be k (16 * i + 8)) % 2 ^ 64)).sum % 2 ^ 126
/-- Zeros up to a multiple of 16 bytes. -/
def pad16 (m : Bytes) : Bytes := m ++ zeros ((16 - m.length % 16) % 16)
/-- The L1 hash: one number per started 128 bytes (§4.2). -/
def l1 (E : Bytes → Bytes) (iter : Nat) (m : Bytes) : List Nat :=
  (List.range ((m.length + 127) / 128)).map fun i => nh (l1Key E iter) (pad16 ((m.drop (128 * i)).take 128))
/-- The L2 key: a KDF block, three bits of each 32-bit word cleared (§4.4). -/
def l2Key (E : Bytes → Bytes) (iter : Nat) : Nat :=
  beNat (List.zipWith (· &&& ·) (kdf E 192 iter) [31, 255, 255, 255, 31, 255, 255, 255, 31, 255, 255, 255, 31, 255, 255, 255])
/-- The L2 hash: a polynomial modulo 2^127 - 1; `k` if there is no block; plus 2^64 times the bit length modulo 1024 (§4.4). -/
def l2 (k : Nat) (ms : List Nat) (bytes : Nat) : Nat :=
  ((if ms = [] then k else ms.foldl (fun y m => (y * k + m) % (2 ^ 127 - 1)) 1) + (8 * bytes % 1024) * 2 ^ 64) % (2 ^ 127 - 1)
/-- The L3 keys: of the pairs of 64-bit numbers in the KDF output, those below 2^64 - 257, the pair number `iter` (§4.5). -/
def l3Pair (E : Bytes → Bytes) (i : Nat) : Nat × Nat := (be (kdf E 224 i) 0, be (kdf E 224 i) 8)
def l3Ok (p : Nat × Nat) : Bool := p.1 < 2 ^ 64 - 257 && p.2 < 2 ^ 64 - 257
def l3Key (E : Bytes → Bytes) (iter : Nat) : Option (Nat × Nat) := (((List.range 512).map (l3Pair E)).filter l3Ok)[iter]?
/-- The L3 hash (§4.5). -/
def l3 (k : Nat × Nat) (m : Nat) : Nat := ((m / (2 ^ 64 - 2 ^ 32) + k.1) * (m % (2 ^ 64 - 2 ^ 32) + k.2)) % (2 ^ 64 - 257)
/-- One 64-bit word of VHASH. -/
def vhash (E : Bytes → Bytes) (iter : Nat) (m : Bytes) : Nat :=
  l3 ((l3Key E iter).getD (0, 0)) (l2 (l2Key E iter) (l1 E iter m) m.length)
/-- The pad derivation function (§3.3): a slice of an encrypted nonce. -/
def pdf (E : Bytes → Bytes) (nonce : Bytes) (size : Nat) : Bytes :=
  let tags := 16 / size
  let index := beNat nonce % tags
  ((E (beBytes 16 (beNat nonce - index))).drop (index * size)).take size
/-- The tag of `size` = 8 or 16 bytes (§5). -/
def vmac (E : Bytes → Bytes) (nonce : Bytes) (size : Nat) (m : Bytes) : Bytes :=
  ((List.range (size / 8)).map fun i => beBytes 8 ((be (pdf E nonce size) (8 * i) + vhash E i m) % 2 ^ 64)).flatten

end Verif.Spec.VMAC
