import Verif.Basic
/-
Reflected 16-bit cyclic redundancy checks, defined bit by bit (a shift register fed with the bits of
the message, least significant bit of each byte first), and polynomial language for the same thing.
-/
namespace Verif.Spec.CRC16

/-- The bits of a byte string in transmission order. -/
def bits (m : Bytes) : List Bool := m.flatMap fun b => (List.range 8).map fun i => b.getLsbD i
/-- One clock of the register with generator `P` (reflected). -/
def clock (P reg : BitVec 16) (bit : Bool) : BitVec 16 :=
  if (reg.getLsbD 0 ^^ bit) then (reg >>> 1) ^^^ P else reg >>> 1
def serial (P init : BitVec 16) (bs : List Bool) : BitVec 16 := bs.foldl (clock P) init

/-- CRC-16/MODBUS: generator x^16+x^15+x^2+1 (reflected 0xA001), initial value 0xFFFF. -/
def modbus (m : Bytes) : BitVec 16 := serial 0xA001#16 0xFFFF#16 (bits m)
/-- CRC-16/X.25: generator x^16+x^12+x^5+1 (reflected 0x8408), initial value 0xFFFF, complemented. -/
def x25 (m : Bytes) : BitVec 16 := ~~~ serial 0x8408#16 0xFFFF#16 (bits m)

/-- The two bytes of a checksum, high byte first. -/
def be16 (c : BitVec 16) : Bytes := [(c >>> 8).setWidth 8, c.setWidth 8]
/-- Four lower-case hexadecimal digits. -/
def hex4 (c : BitVec 16) : Bytes :=
  [12, 8, 4, 0].map fun s => (ascii "0123456789abcdef").getD (((c >>> s) &&& 15).toNat) 0

end Verif.Spec.CRC16
