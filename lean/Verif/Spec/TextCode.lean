import Verif.Basic
/-
Hexadecimal and base64 text (RFC 4648), as a user reads the RFC; independent of the model.
-/
namespace Verif.Spec.TextCode

/-- The value of a hexadecimal digit (either case). -/
def hexValue (c : Byte) : Option Nat :=
  (List.idxOf? c (ascii "0123456789abcdef")) <|> (List.idxOf? c (ascii "0123456789ABCDEF"))

/-- `s` is hexadecimal text for the bytes `b`: two digits per byte, the high digit first. -/
inductive HexText : Bytes → Bytes → Prop
  | nil : HexText [] []
  | cons {p q : Byte} {hi lo : Nat} {s b : Bytes} (hp : hexValue p = some hi) (hq : hexValue q = some lo)
      (h : HexText s b) : HexText (p :: q :: s) (BitVec.ofNat 8 (16 * hi + lo) :: b)

/-- RFC 4648, table 1. -/
def alphabet : Bytes := ascii "ABCDEFGHIJKLMNOPQRSTUVWXYZabcdefghijklmnopqrstuvwxyz0123456789+/"
/-- The padding character. -/
def pad : Byte := 0x3d#8
/-- The value of a character of the alphabet. -/
def b64Value (c : Byte) : Option Nat := List.idxOf? c alphabet

/-- The bytes of a big-endian number. -/
def beBytes (k : Nat) (n : Nat) : Bytes := (List.range k).map fun i => BitVec.ofNat 8 (n / 256 ^ (k - 1 - i))

/-- `s` (without line breaks) is padded base64 text for `b`: groups of four characters carrying three
bytes; a last group may carry one or two bytes and is padded with `=`.  The unused low bits of a
last group are not constrained (RFC 4648, section 3.5, leaves this to the decoder). -/
inductive B64Text : Bytes → Bytes → Prop
  | nil : B64Text [] []
  | one {c d : Byte} {x y : Nat} (hc : b64Value c = some x) (hd : b64Value d = some y) :
      B64Text [c, d, pad, pad] (beBytes 1 ((64 * x + y) / 16))
  | two {c d e : Byte} {x y z : Nat} (hc : b64Value c = some x) (hd : b64Value d = some y) (he : b64Value e = some z) :
      B64Text [c, d, e, pad] (beBytes 2 ((4096 * x + 64 * y + z) / 4))
  | three {c d e f : Byte} {x y z w : Nat} {s b : Bytes} (hc : b64Value c = some x) (hd : b64Value d = some y)
      (he : b64Value e = some z) (hf : b64Value f = some w) (h : B64Text s b) :
      B64Text (c :: d :: e :: f :: s) (beBytes 3 (262144 * x + 4096 * y + 64 * z + w) ++ b)

/-- Line breaks are ignored. -/
def unfold64 (s : Bytes) : Bytes := s.filter fun c => !(c == 0x0a#8 || c == 0x0d#8)

end Verif.Spec.TextCode
