import Verif.Spec.Streebog
/-
RFC 2104 HMAC over GOST R 34.11-2012 (256 bits), KDF_GOSTR3411_2012_256 of RFC 7836 and the key trees built on it
(TLSTREE of RFC 9189 and ESPTREE of RFC 9227).
-/
namespace Verif.Spec.KeyTree

/-- RFC 2104 for a hash with blocks of 64 bytes. -/
def hmac (H : Bytes → Bytes) (key msg : Bytes) : Bytes :=
  let k := if key.length > 64 then H key else key
  let k := k ++ zeros (64 - k.length)
  H (k.map (· ^^^ 0x5c#8) ++ H (k.map (· ^^^ 0x36#8) ++ msg))
/-- RFC 7836, 4.5 -/
def kdf (key label seed : Bytes) : Bytes :=
  hmac (Spec.Streebog.hash 32) key ([0x01#8] ++ label ++ [0x00#8] ++ seed ++ [0x01#8, 0x00#8])
/-- The key of a tree of three levels with the given seeds. -/
def derive (root seed1 seed2 seed3 : Bytes) : Bytes :=
  kdf (kdf (kdf root (ascii "level1") seed1) (ascii "level2") seed2) (ascii "level3") seed3
/-- TLSTREE: the key for record number `n`, with masks `C1`, `C2`, `C3`. -/
def tls (C1 C2 C3 : U64) (root : Bytes) (n : U64) : Bytes := derive root (be64 (n &&& C1)) (be64 (n &&& C2)) (be64 (n &&& C3))
/-- ESPTREE: the key for `(i1, i2, i3)` of 1, 2 and 2 bytes. -/
def esp (root : Bytes) (i1 : Byte) (i2 i3 : Bytes) : Bytes := derive root [0#8, i1] i2 i3

end Verif.Spec.KeyTree
