import Verif.Basic
/-
RFC 2104: HMAC over a hash function `H` with blocks of `B` bytes.
-/
namespace Verif.Spec.HMAC

/-- The key, hashed when it is longer than a block, then filled with zeros to the length of a block. -/
def block (B : Nat) (H : Bytes → Bytes) (key : Bytes) : Bytes :=
  let k := if key.length > B then H key else key
  k ++ zeros (B - k.length)

/-- H(K XOR opad, H(K XOR ipad, text)), ipad = 0x36 repeated, opad = 0x5C repeated. -/
def hmac (B : Nat) (H : Bytes → Bytes) (key text : Bytes) : Bytes :=
  let K := block B H key
  H (K.map (· ^^^ 0x5c#8) ++ H (K.map (· ^^^ 0x36#8) ++ text))

end Verif.Spec.HMAC
