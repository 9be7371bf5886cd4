import Verif.Lemmas.CRC16
/-
C14: the table-driven checksums are the bit-serial cyclic codes, and have the properties cyclic
codes are used for.  C15: the text and the bytes handed to the user.
-/
namespace Verif.Props
open Spec.CRC16 (bits be16 hex4)

theorem C14_modbus (m : Bytes) : CRC16.modbus m = Spec.CRC16.modbus m := by
  rw [CRC16.modbus_eq, Spec.CRC16.modbus, CRC16.serial_bits]
theorem C14_x25 (m : Bytes) : CRC16.x25 m = Spec.CRC16.x25 m := by
  rw [CRC16.x25_eq, Spec.CRC16.x25, CRC16.serial_bits]

theorem bits_append (a b : Bytes) : bits (a ++ b) = bits a ++ bits b := by simp [bits]

/-- A receiver that checks message followed by checksum (low byte first) always sees the residue 0. -/
theorem C14_modbus_residue (m : Bytes) :
    CRC16.modbus (m ++ [(CRC16.modbus m).setWidth 8, (CRC16.modbus m >>> 8).setWidth 8]) = 0#16 := by
  rw [C14_modbus, C14_modbus, Spec.CRC16.modbus, bits_append, CRC16.serial_append]
  have e := CRC16.serial_eq 0xA001#16 (bits [(Spec.CRC16.modbus m).setWidth 8, (Spec.CRC16.modbus m >>> 8).setWidth 8])
    (Spec.CRC16.modbus m) (by simp [bits])
  rw [CRC16.ofBits_two, BitVec.xor_self] at e
  refine e.trans ?_
  rw [show (bits [(Spec.CRC16.modbus m).setWidth 8, (Spec.CRC16.modbus m >>> 8).setWidth 8]).length = 16 by simp [bits]]
  decide +kernel

/-- For X.25 the residue is 0xF0B8 before complementing, 0x0F47 after. -/
theorem C14_x25_residue (m : Bytes) :
    CRC16.x25 (m ++ [(CRC16.x25 m).setWidth 8, (CRC16.x25 m >>> 8).setWidth 8]) = ~~~ 0xF0B8#16 := by
  rw [C14_x25, C14_x25, Spec.CRC16.x25, bits_append, CRC16.serial_append]
  have e := CRC16.serial_eq 0x8408#16 (bits [(Spec.CRC16.x25 m).setWidth 8, (Spec.CRC16.x25 m >>> 8).setWidth 8])
    (Spec.CRC16.serial 0x8408#16 0xffff#16 (bits m)) (by simp [bits])
  have hx : ∀ c : BitVec 16, c ^^^ ~~~c = 0xffff#16 := by
    intro c
    apply BitVec.eq_of_getLsbD_eq
    intro i hi
    have : ∀ i, i < 16 → (0xffff#16).getLsbD i = true := by decide
    rw [this i hi]
    simp [hi]
  rw [CRC16.ofBits_two, Spec.CRC16.x25, hx] at e
  unfold Spec.CRC16.x25 at *
  rw [e]
  rw [show (bits [(~~~ Spec.CRC16.serial 0x8408#16 0xffff#16 (bits m)).setWidth 8,
    ((~~~ Spec.CRC16.serial 0x8408#16 0xffff#16 (bits m)) >>> 8).setWidth 8]).length = 16 by simp [bits]]
  decide +kernel

/-- Any change confined to 16 consecutive bits of the message changes the checksum. -/
theorem C14_modbus_burst (m m' : Bytes) (a x y b : List Bool) (hm : bits m = a ++ x ++ b)
    (hm' : bits m' = a ++ y ++ b) (hl : x.length = y.length) (h16 : x.length ≤ 16) (hne : x ≠ y) :
    CRC16.modbus m ≠ CRC16.modbus m' := by
  rw [C14_modbus, C14_modbus, Spec.CRC16.modbus, Spec.CRC16.modbus, hm, hm']
  exact CRC16.serial_burst (by decide) _ a x y b hl h16 hne
theorem C14_x25_burst (m m' : Bytes) (a x y b : List Bool) (hm : bits m = a ++ x ++ b)
    (hm' : bits m' = a ++ y ++ b) (hl : x.length = y.length) (h16 : x.length ≤ 16) (hne : x ≠ y) :
    CRC16.x25 m ≠ CRC16.x25 m' := by
  rw [C14_x25, C14_x25, Spec.CRC16.x25, Spec.CRC16.x25, hm, hm']
  intro h
  have h := congrArg (~~~ ·) h
  simp only [BitVec.not_not] at h
  exact CRC16.serial_burst (by decide) _ a x y b hl h16 hne h

-- the hypotheses of the burst theorems can be met
example : bits [1#8, 7#8] = [] ++ [true] ++ (bits [1#8, 7#8]).drop 1 ∧
    bits [0#8, 7#8] = [] ++ [false] ++ (bits [1#8, 7#8]).drop 1 := by decide
-- tests: the check values of the catalogue
set_option maxRecDepth 10000 in
example : CRC16.modbus (ascii "123456789") = 0x4B37#16 ∧ CRC16.x25 (ascii "123456789") = 0x906E#16 := by decide +kernel

/-! ### C15 -/

/-- Removal of leading zero digits; the last digit stays. -/
def stripZeros : Bytes → Bytes
  | [] => []
  | [a] => [a]
  | a :: b :: l => if a = 48#8 then stripZeros (b :: l) else a :: b :: l

theorem dg_ne_zero : ∀ k, 1 ≤ k → k < 16 → CRC16.dg k ≠ 48#8 := by
  have : ∀ k, k < 16 → 1 ≤ k → CRC16.dg k ≠ 48#8 := by decide
  intro k h1 h2; exact this k h2 h1

theorem format_strip (c : BitVec 16) : CRC16.formatInt16 c.toNat = stripZeros (hex4 c) := by
  have hl := c.isLt
  have z : CRC16.dg 0 = 48#8 := by decide
  rw [CRC16.hex4_eq]
  generalize hn : c.toNat = n at hl
  by_cases h1 : n < 16
  · rw [CRC16.format1 h1, show n / 16 / 16 / 16 = 0 by omega, show n / 16 / 16 % 16 = 0 by omega, show n / 16 % 16 = 0 by omega,
      show n % 16 = n by omega, z]
    simp only [stripZeros, if_pos]
  · by_cases h2 : n < 256
    · rw [CRC16.format2 (by omega) h2, show n / 16 / 16 / 16 = 0 by omega, show n / 16 / 16 % 16 = 0 by omega,
        show n / 16 % 16 = n / 16 by omega, z]
      simp only [stripZeros, if_pos]
      rw [if_neg (dg_ne_zero _ (by omega) (by omega))]
    · by_cases h3 : n < 4096
      · rw [CRC16.format3 (by omega) h3, show n / 16 / 16 / 16 = 0 by omega, show n / 16 / 16 % 16 = n / 16 / 16 by omega, z]
        simp only [stripZeros, if_pos]
        rw [if_neg (dg_ne_zero _ (by omega) (by omega))]
      · rw [CRC16.format4 (by omega) hl, stripZeros, if_neg (dg_ne_zero _ (by omega) (by omega))]

/-- What the text actually is: the four digits without their leading zeros. -/
theorem C15_modbus_text_partial (m : Bytes) :
    CRC16.modbusChecksum m = stripZeros (hex4 (Spec.CRC16.modbus m)) := by
  rw [CRC16.modbusChecksum, C14_modbus, format_strip]
theorem C15_x25_text_partial (m : Bytes) :
    CRC16.x25Checksum m = stripZeros (hex4 (Spec.CRC16.x25 m)) := by
  rw [CRC16.x25Checksum, C14_x25, format_strip]

theorem pad_format (c : BitVec 16) : CRC16.leftCRCPadding (CRC16.formatInt16 c.toNat) 4 = hex4 c := by
  have hl := c.isLt
  have z : CRC16.dg 0 = 48#8 := by decide
  rw [CRC16.hex4_eq]
  generalize hn : c.toNat = n at hl
  by_cases h1 : n < 16
  · rw [CRC16.format1 h1, show n / 16 / 16 / 16 = 0 by omega, show n / 16 / 16 % 16 = 0 by omega, show n / 16 % 16 = 0 by omega,
      show n % 16 = n by omega, z]
    rfl
  · by_cases h2 : n < 256
    · rw [CRC16.format2 (by omega) h2, show n / 16 / 16 / 16 = 0 by omega, show n / 16 / 16 % 16 = 0 by omega,
        show n / 16 % 16 = n / 16 by omega, z]
      rfl
    · by_cases h3 : n < 4096
      · rw [CRC16.format3 (by omega) h3, show n / 16 / 16 / 16 = 0 by omega, show n / 16 / 16 % 16 = n / 16 / 16 by omega, z]
        rfl
      · rw [CRC16.format4 (by omega) hl]
        simp [CRC16.leftCRCPadding]

/-- `LeftCRCPadding(Checksum(s), 4)` is the four digits, for every message. -/
theorem C15_modbus_padded (m : Bytes) : CRC16.leftCRCPadding (CRC16.modbusChecksum m) 4 = hex4 (Spec.CRC16.modbus m) := by
  rw [CRC16.modbusChecksum, C14_modbus, pad_format]
theorem C15_x25_padded (m : Bytes) : CRC16.leftCRCPadding (CRC16.x25Checksum m) 4 = hex4 (Spec.CRC16.x25 m) := by
  rw [CRC16.x25Checksum, C14_x25, pad_format]

/-- What decoding the text gives, for every checksum. -/
theorem decode_format (c : BitVec 16) : CRC16.hexDecode (CRC16.formatInt16 c.toNat) =
    if 0x1000 ≤ c.toNat then (be16 c, none)
    else if 0x100 ≤ c.toNat then ([BitVec.ofNat 8 (c.toNat / 16)], some .length)
    else if 0x10 ≤ c.toNat then ([c.setWidth 8], none)
    else ([], some .length) := by
  have hl := c.isLt
  by_cases h3 : 0x1000 ≤ c.toNat
  · rw [if_pos h3, CRC16.format4 (by omega) hl, CRC16.decode2 (by omega) (by omega), CRC16.decode2 (by omega) (by omega),
      CRC16.be16_eq]
    rfl
  · rw [if_neg h3]
    by_cases h2 : 0x100 ≤ c.toNat
    · rw [if_pos h2, CRC16.format3 (by omega) (by omega), CRC16.decode2 (by omega) (by omega), CRC16.decode1 (by omega)]
      simp only
      rw [show 16 * (c.toNat / 16 / 16) + c.toNat / 16 % 16 = c.toNat / 16 by omega]
    · rw [if_neg h2]
      by_cases h1 : 0x10 ≤ c.toNat
      · rw [if_pos h1, CRC16.format2 (by omega) (by omega), CRC16.decode2 (by omega) (by omega)]
        simp only [CRC16.hexDecode]
        rw [show 16 * (c.toNat / 16) + c.toNat % 16 = c.toNat by omega]
        congr 2
      · rw [if_neg h1, CRC16.format1 (by omega), CRC16.decode1 (by omega)]

/-- The facade returns the two bytes without error exactly when the checksum is at least 0x1000. -/
theorem C15_modbus_facade_partial (m : Bytes) :
    CRC16.facadeModbus m = (be16 (Spec.CRC16.modbus m), none) ↔ 0x1000 ≤ (Spec.CRC16.modbus m).toNat := by
  rw [CRC16.facadeModbus, CRC16.modbusChecksum, C14_modbus, decode_format]
  constructor
  · intro h
    split at h
    · assumption
    · split at h
      · simp at h
      · split at h <;> simp [be16] at h
  · intro h; rw [if_pos h]
theorem C15_x25_facade_partial (m : Bytes) :
    CRC16.facadeX25 m = (be16 (Spec.CRC16.x25 m), none) ↔ 0x1000 ≤ (Spec.CRC16.x25 m).toNat := by
  rw [CRC16.facadeX25, CRC16.x25Checksum, C14_x25, decode_format]
  constructor
  · intro h
    split at h
    · assumption
    · split at h
      · simp at h
      · split at h <;> simp [be16] at h
  · intro h; rw [if_pos h]

/-- The property fails: the text of `X25("")` is the single digit 0, and the facade then reports an
error; `Modbus("123123")` is the two digits 36 and the facade returns one byte with no error. -/
theorem C15_violated :
    (∃ m, CRC16.x25Checksum m ≠ hex4 (Spec.CRC16.x25 m)) ∧
    (∃ m, (CRC16.facadeX25 m).2 = some .length) ∧
    (∃ m, (CRC16.facadeX25 m).2 = none ∧ (CRC16.facadeX25 m).1 ≠ be16 (Spec.CRC16.x25 m)) ∧
    (∃ m, CRC16.modbusChecksum m ≠ hex4 (Spec.CRC16.modbus m)) ∧
    (∃ m, (CRC16.facadeModbus m).2 = some .length) ∧
    (∃ m, (CRC16.facadeModbus m).2 = none ∧ (CRC16.facadeModbus m).1 ≠ be16 (Spec.CRC16.modbus m)) :=
  ⟨⟨[], by decide +kernel⟩, ⟨[], by decide +kernel⟩, ⟨[0x87#8], by decide +kernel⟩,
   ⟨ascii "123123", by decide +kernel⟩, ⟨[0xe1#8], by decide +kernel⟩, ⟨ascii "123123", by decide +kernel⟩⟩

-- the property does hold for some inputs (tests of crc16_test.go)
set_option maxRecDepth 10000 in
example : CRC16.facadeX25 (ascii "sdfgsdgfsdfg123132") = (hex "fa73", none) := by decide +kernel

end Verif.Props
