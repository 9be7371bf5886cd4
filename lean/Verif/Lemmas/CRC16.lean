import Verif.Spec.CRC16
import Verif.Model.CRC16
namespace Verif.CRC16
open Spec.CRC16 (clock serial bits)

/-- One clock with input 0. -/
def f (P x : BitVec 16) : BitVec 16 := clock P x false
/-- `n` clocks with input 0. -/
def fn (P : BitVec 16) : Nat → BitVec 16 → BitVec 16
  | 0, x => x
  | n+1, x => fn P n (f P x)

def bit1 (b : Bool) : BitVec 16 := if b then 1#16 else 0#16
/-- The number whose binary digits, least significant first, are `l`. -/
def ofBits : List Bool → BitVec 16
  | [] => 0#16
  | b :: l => bit1 b ^^^ (ofBits l <<< 1)

theorem clock_eq (P c : BitVec 16) (b : Bool) : clock P c b = f P (c ^^^ bit1 b) := by
  have hs : (c ^^^ bit1 b) >>> 1 = c >>> 1 := by
    apply BitVec.eq_of_getLsbD_eq
    intro i hi
    cases b <;> simp [bit1, BitVec.getLsbD_one]
  have h0 : (c ^^^ bit1 b).getLsbD 0 = (c.getLsbD 0 ^^ b) := by
    cases b <;> simp [bit1]
  unfold f clock
  rw [hs, h0]
  simp

/-- The register is linear; the high bits only move down. -/
theorem f_shift (P x y : BitVec 16) (hy : y.getLsbD 15 = false) : f P (x ^^^ (y <<< 1)) = f P x ^^^ y := by
  have hs : (x ^^^ (y <<< 1)) >>> 1 = x >>> 1 ^^^ y := by
    apply BitVec.eq_of_getLsbD_eq
    intro i hi
    simp only [BitVec.getLsbD_ushiftRight, BitVec.getLsbD_xor, BitVec.getLsbD_shiftLeft]
    by_cases h : i = 15
    · subst h; rw [hy]; simp
    · simp [show 1 + i < 16 by omega]
  have h0 : (x ^^^ (y <<< 1)).getLsbD 0 = x.getLsbD 0 := by simp
  unfold f clock
  rw [hs, h0]
  split
  · rw [BitVec.xor_assoc, BitVec.xor_comm y, ← BitVec.xor_assoc]
  · rfl

theorem f_inj {P x y : BitVec 16} (hP : P.getLsbD 15 = true) (h : f P x = f P y) : x = y := by
  have hb : ∀ z : BitVec 16, (f P z).getLsbD 15 = z.getLsbD 0 := by
    intro z
    unfold f clock
    cases hz : z.getLsbD 0 <;> simp [hP]
  have h0 : x.getLsbD 0 = y.getLsbD 0 := by rw [← hb, ← hb, h]
  have hr : x >>> 1 = y >>> 1 := by
    unfold f clock at h
    rw [h0] at h
    split at h
    · have := congrArg (· ^^^ P) h
      simpa [BitVec.xor_assoc] using this
    · exact h
  apply BitVec.eq_of_getLsbD_eq
  intro i hi
  match i with
  | 0 => exact h0
  | i+1 =>
    have := congrArg (fun z => z.getLsbD i) hr
    simpa [BitVec.getLsbD_ushiftRight, Nat.add_comm] using this

theorem fn_inj {P : BitVec 16} (hP : P.getLsbD 15 = true) (n : Nat) : ∀ {x y}, fn P n x = fn P n y → x = y := by
  induction n with
  | zero => intro x y h; exact h
  | succ n ih => intro x y h; exact f_inj hP (ih h)

theorem ofBits_high (l : List Bool) : ∀ i, l.length ≤ i → (ofBits l).getLsbD i = false := by
  induction l with
  | nil => intro i _; simp [ofBits]
  | cons b l ih =>
    intro i hi
    rw [List.length_cons] at hi
    have h1 : (bit1 b).getLsbD i = false := by
      unfold bit1
      split <;> simp [BitVec.getLsbD_one]
      omega
    rw [ofBits, BitVec.getLsbD_xor, h1, BitVec.getLsbD_shiftLeft, ih (i - 1) (by omega)]
    simp

theorem ofBits_getLsbD (l : List Bool) : ∀ i, i < l.length → i < 16 → (ofBits l).getLsbD i = l.getD i false := by
  induction l with
  | nil => intro i h; simp at h
  | cons b l ih =>
    intro i hi h16
    match i with
    | 0 => cases b <;> simp [ofBits, bit1]
    | i+1 =>
      have h1 : (bit1 b).getLsbD (i+1) = false := by
        unfold bit1
        split <;> simp [BitVec.getLsbD_one]
      rw [List.length_cons] at hi
      rw [ofBits, BitVec.getLsbD_xor, h1, BitVec.getLsbD_shiftLeft]
      simp [h16, ih i (by omega) (by omega)]

/-- Feeding up to 16 bits is the same as adding them to the register first. -/
theorem serial_eq (P : BitVec 16) (l : List Bool) : ∀ c, l.length ≤ 16 → serial P c l = fn P l.length (c ^^^ ofBits l) := by
  induction l with
  | nil => intro c _; simp [serial, fn, ofBits]
  | cons b l ih =>
    intro c h
    rw [List.length_cons] at h
    have e : serial P c (b :: l) = serial P (clock P c b) l := rfl
    rw [e, ih _ (by omega), clock_eq, List.length_cons, fn, ofBits, ← BitVec.xor_assoc,
      f_shift _ _ _ (ofBits_high l 15 (by omega))]

theorem serial_append (P c : BitVec 16) (a b : List Bool) : serial P c (a ++ b) = serial P (serial P c a) b := by
  unfold serial; rw [List.foldl_append]

theorem serial_inj_state {P : BitVec 16} (hP : P.getLsbD 15 = true) (l : List Bool) :
    ∀ {c d}, serial P c l = serial P d l → c = d := by
  induction l with
  | nil => intro c d h; exact h
  | cons b l ih =>
    intro c d h
    have := ih (c := clock P c b) (d := clock P d b) h
    rw [clock_eq, clock_eq] at this
    have := f_inj hP this
    have := congrArg (· ^^^ bit1 b) this
    simpa [BitVec.xor_assoc] using this

/-- A burst of at most 16 bits changes the register. -/
theorem serial_burst {P : BitVec 16} (hP : P.getLsbD 15 = true) (c : BitVec 16) (a x y b : List Bool)
    (hl : x.length = y.length) (h16 : x.length ≤ 16) (hne : x ≠ y) :
    serial P c (a ++ x ++ b) ≠ serial P c (a ++ y ++ b) := by
  intro h
  rw [serial_append, serial_append P c (a ++ y)] at h
  have h := serial_inj_state hP b h
  rw [serial_append, serial_append, serial_eq P x _ h16, serial_eq P y _ (by omega), hl] at h
  have h := fn_inj hP _ h
  have h : ofBits x = ofBits y := by
    have := congrArg (serial P c a ^^^ ·) h
    simpa [← BitVec.xor_assoc] using this
  apply hne
  apply List.ext_getElem hl
  intro i h1 h2
  have e1 := ofBits_getLsbD x i h1 (by omega)
  have e2 := ofBits_getLsbD y i h2 (by omega)
  rw [h] at e1
  rw [e1, List.getD_eq_getElem?_getD, List.getD_eq_getElem?_getD, List.getElem?_eq_getElem h1, List.getElem?_eq_getElem h2] at e2
  simpa using e2

theorem fn_shift (P : BitVec 16) (n : Nat) : ∀ (x y : BitVec 16), y.toNat < 2 ^ (16 - n) → n ≤ 16 →
    fn P n (x ^^^ (y <<< n)) = fn P n x ^^^ y := by
  induction n with
  | zero => intro x y _ _; simp [fn]
  | succ n ih =>
    intro x y hy hn
    have h1 : y <<< (n + 1) = (y <<< n) <<< 1 := by rw [← BitVec.shiftLeft_add]
    have hlt : y.toNat < 2 ^ (16 - n) := by
      refine Nat.lt_of_lt_of_le hy (Nat.pow_le_pow_right (by decide) (by omega))
    have h15 : (y <<< n).getLsbD 15 = false := by
      rw [BitVec.getLsbD_shiftLeft]
      have : y.getLsbD (15 - n) = false := by
        rw [BitVec.getLsbD, Nat.testBit_lt_two_pow]
        rw [show 15 - n = 16 - (n + 1) by omega]; exact hy
      rw [this]; simp
    rw [fn, fn, h1, f_shift _ _ _ h15, ih _ _ hlt (by omega)]

theorem ofBits_byte : ∀ b : Byte, ofBits ((List.range 8).map fun i => b.getLsbD i) = b.setWidth 16 := by
  intro b
  apply BitVec.eq_of_getLsbD_eq
  intro i hi
  by_cases h : i < 8
  · rw [ofBits_getLsbD _ i (by simpa using h) hi, List.getD_eq_getElem?_getD, List.getElem?_map,
      List.getElem?_range h]
    simp [hi]
  · rw [ofBits_high _ i (by simp; omega), BitVec.getLsbD_setWidth, BitVec.getLsbD_of_ge b i (by omega)]
    simp

/-- A byte at a time. -/
def byteStep (P c : BitVec 16) (b : Byte) : BitVec 16 := fn P 8 (c ^^^ b.setWidth 16)

theorem serial_bits (P : BitVec 16) (m : Bytes) : ∀ c, serial P c (bits m) = m.foldl (byteStep P) c := by
  induction m with
  | nil => intro c; rfl
  | cons b m ih =>
    intro c
    rw [List.foldl_cons, ← ih]
    have e : bits (b :: m) = ((List.range 8).map fun i => b.getLsbD i) ++ bits m := rfl
    have e2 := serial_eq P ((List.range 8).map fun i => b.getLsbD i) c (by simp)
    rw [e, serial_append, e2, ofBits_byte]
    rfl

theorem lo_hi (x : BitVec 16) : x = (x &&& 0xff#16) ^^^ ((x >>> 8) <<< 8) := by
  apply BitVec.eq_of_getLsbD_eq
  intro i hi
  have hff : ∀ i, i < 16 → (0xff#16).getLsbD i = decide (i < 8) := by decide
  simp only [BitVec.getLsbD_xor, BitVec.getLsbD_and, BitVec.getLsbD_shiftLeft, BitVec.getLsbD_ushiftRight, hff i hi]
  by_cases h : i < 8
  · simp [h, hi]
  · simp [h, hi, show 8 + (i - 8) = i by omega]

/-- The table-driven step, for a table with the right 256 entries. -/
theorem table_step (P : BitVec 16) (T : List (BitVec 16)) (hT : ∀ i, i < 256 → T.getD i 0 = fn P 8 (BitVec.ofNat 16 i))
    (x : BitVec 16) : (x >>> 8) ^^^ T.getD (x &&& 0xff#16).toNat 0 = fn P 8 x := by
  have hlt : (x &&& 0xff#16).toNat < 256 := by
    rw [BitVec.toNat_and]
    exact Nat.lt_of_le_of_lt Nat.and_le_right (by decide)
  have hy : (x >>> 8).toNat < 2 ^ (16 - 8) := by
    rw [BitVec.toNat_ushiftRight, Nat.shiftRight_eq_div_pow]
    have := x.isLt
    omega
  conv => rhs; rw [lo_hi x]
  rw [fn_shift P 8 _ _ hy (by decide), hT _ hlt, BitVec.ofNat_toNat, BitVec.setWidth_eq, BitVec.xor_comm]

theorem sbox_ok : ∀ i, i < 256 → sbox.getD i 0 = fn 0x8408#16 8 (BitVec.ofNat 16 i) := by decide +kernel
theorem mbTable_ok : ∀ i, i < 256 → mbTable.getD i 0 = fn 0xA001#16 8 (BitVec.ofNat 16 i) := by decide +kernel

theorem shr8_xor_byte (c : BitVec 16) (b : Byte) : (c ^^^ b.setWidth 16) >>> 8 = c >>> 8 := by
  apply BitVec.eq_of_getLsbD_eq
  intro i hi
  simp only [BitVec.getLsbD_xor, BitVec.getLsbD_ushiftRight, BitVec.getLsbD_setWidth,
    BitVec.getLsbD_of_ge b (8 + i) (by omega)]
  simp

theorem x25Step_eq (c : BitVec 16) (b : Byte) : x25Step c b = byteStep 0x8408#16 c b := by
  unfold byteStep
  rw [← table_step _ sbox sbox_ok, shr8_xor_byte]
  rfl

theorem low8_toNat (x : BitVec 16) : (x.setWidth 8).toNat = (x &&& 0xff#16).toNat := by
  rw [BitVec.toNat_setWidth, BitVec.toNat_and]
  exact (Nat.and_two_pow_sub_one_eq_mod x.toNat 8).symm

theorem modbusStep_eq (c : BitVec 16) (b : Byte) : modbusStep c b = byteStep 0xA001#16 c b := by
  unfold byteStep modbusStep
  rw [← table_step _ mbTable mbTable_ok, shr8_xor_byte]
  simp only
  rw [low8_toNat, BitVec.xor_comm c]

theorem x25_eq (m : Bytes) : x25 m = ~~~ m.foldl (byteStep 0x8408#16) 0xffff#16 := by
  unfold x25
  simp only
  have := foldl_eq_forLoop m 0#8 x25Step 0xffff#16
  have e : forLoop 0 m.length (fun fcs i => x25Step fcs (at8 m i)) 0xffff#16 = m.foldl x25Step 0xffff#16 := by
    rw [this]; rfl
  rw [e]
  have : x25Step = byteStep 0x8408#16 := by funext c b; exact x25Step_eq c b
  rw [this]

theorem modbus_eq (m : Bytes) : modbus m = m.foldl (byteStep 0xA001#16) 0xffff#16 := by
  unfold modbus
  have : modbusStep = byteStep 0xA001#16 := by funext c b; exact modbusStep_eq c b
  rw [this]

theorem ofBits_two (c : BitVec 16) : ofBits (bits [c.setWidth 8, (c >>> 8).setWidth 8]) = c := by
  apply BitVec.eq_of_getLsbD_eq
  intro i hi
  rw [ofBits_getLsbD _ i (by simp [bits]; omega) hi]
  have h : i = 0 ∨ i = 1 ∨ i = 2 ∨ i = 3 ∨ i = 4 ∨ i = 5 ∨ i = 6 ∨ i = 7 ∨ i = 8 ∨ i = 9 ∨ i = 10 ∨ i = 11 ∨ i = 12 ∨
    i = 13 ∨ i = 14 ∨ i = 15 := by omega
  rcases h with rfl | rfl | rfl | rfl | rfl | rfl | rfl | rfl | rfl | rfl | rfl | rfl | rfl | rfl | rfl | rfl <;>
    simp [bits, List.range_succ]

/-! ### Text -/

def dg (k : Nat) : Byte := digits.getD k 0

theorem format1 {n : Nat} (h : n < 16) : formatInt16 n = [dg n] := by
  show (if 16 ≤ n then _ else _) = _
  rw [if_neg (by omega)]; rfl
theorem format2 {n : Nat} (h : 16 ≤ n) (h2 : n < 256) : formatInt16 n = [dg (n / 16), dg (n % 16)] := by
  show (if 16 ≤ n then (if 16 ≤ n / 16 then _ else _) ++ _ else _) = _
  rw [if_pos h, if_neg (by omega)]; rfl
theorem format3 {n : Nat} (h : 256 ≤ n) (h2 : n < 4096) :
    formatInt16 n = [dg (n / 16 / 16), dg (n / 16 % 16), dg (n % 16)] := by
  show (if 16 ≤ n then (if 16 ≤ n / 16 then (if 16 ≤ n / 16 / 16 then _ else _) ++ _ else _) ++ _ else _) = _
  rw [if_pos (show 16 ≤ n by omega), if_pos (show 16 ≤ n / 16 by omega), if_neg (by omega)]; rfl
theorem format4 {n : Nat} (h : 4096 ≤ n) (h2 : n < 65536) :
    formatInt16 n = [dg (n / 16 / 16 / 16), dg (n / 16 / 16 % 16), dg (n / 16 % 16), dg (n % 16)] := by
  show (if 16 ≤ n then (if 16 ≤ n / 16 then (if 16 ≤ n / 16 / 16 then (if 16 ≤ n / 16 / 16 / 16 then _ else _) ++ _ else _) ++ _ else _) ++ _ else _) = _
  rw [if_pos (show 16 ≤ n by omega), if_pos (show 16 ≤ n / 16 by omega), if_pos (show 16 ≤ n / 16 / 16 by omega),
    if_neg (by omega)]; rfl

theorem unhex_dg : ∀ k, k < 16 → unhex (dg k) = some (BitVec.ofNat 4 k) := by decide
theorem byte_of_nibbles (a b : Nat) (ha : a < 16) (hb : b < 16) :
    (BitVec.ofNat 4 a ++ BitVec.ofNat 4 b : Byte) = BitVec.ofNat 8 (16 * a + b) := by
  have : ∀ a, a < 16 → ∀ b, b < 16 → (BitVec.ofNat 4 a ++ BitVec.ofNat 4 b : Byte) = BitVec.ofNat 8 (16 * a + b) := by
    decide +kernel
  exact this a ha b hb

theorem decode1 {a : Nat} (ha : a < 16) : hexDecode [dg a] = ([], some .length) := by
  simp only [hexDecode, unhex_dg a ha]
theorem decode2 {a b : Nat} (ha : a < 16) (hb : b < 16) (l : Bytes) :
    hexDecode (dg a :: dg b :: l) = (BitVec.ofNat 8 (16 * a + b) :: (hexDecode l).1, (hexDecode l).2) := by
  rw [hexDecode.eq_def]
  simp only [unhex_dg a ha, unhex_dg b hb, byte_of_nibbles a b ha hb]

theorem hex4_eq (c : BitVec 16) : Spec.CRC16.hex4 c =
    [dg (c.toNat / 16 / 16 / 16), dg (c.toNat / 16 / 16 % 16), dg (c.toNat / 16 % 16), dg (c.toNat % 16)] := by
  have h : ∀ s : Nat, ((c >>> s) &&& 15#16).toNat = c.toNat / 2 ^ s % 16 := by
    intro s
    rw [BitVec.toNat_and, BitVec.toNat_ushiftRight, Nat.shiftRight_eq_div_pow]
    exact Nat.and_two_pow_sub_one_eq_mod _ 4
  have hl := c.isLt
  unfold Spec.CRC16.hex4
  simp only [List.map_cons, List.map_nil]
  have e : ∀ s : Nat, ((c >>> s) &&& 15).toNat = c.toNat / 2 ^ s % 16 := h
  rw [e, e, e, e]
  have e1 : c.toNat / 2 ^ 12 % 16 = c.toNat / 16 / 16 / 16 := by omega
  have e2 : c.toNat / 2 ^ 8 % 16 = c.toNat / 16 / 16 % 16 := by omega
  have e3 : c.toNat / 2 ^ 4 % 16 = c.toNat / 16 % 16 := by omega
  have e4 : c.toNat / 2 ^ 0 % 16 = c.toNat % 16 := by omega
  rw [e1, e2, e3, e4]
  rfl

theorem be16_eq (c : BitVec 16) : Spec.CRC16.be16 c =
    [BitVec.ofNat 8 (16 * (c.toNat / 16 / 16 / 16) + c.toNat / 16 / 16 % 16), BitVec.ofNat 8 (16 * (c.toNat / 16 % 16) + c.toNat % 16)] := by
  have hl := c.isLt
  unfold Spec.CRC16.be16
  congr 1
  · apply BitVec.eq_of_toNat_eq
    rw [BitVec.toNat_setWidth, BitVec.toNat_ushiftRight, Nat.shiftRight_eq_div_pow, BitVec.toNat_ofNat]
    omega
  · congr 1
    apply BitVec.eq_of_toNat_eq
    rw [BitVec.toNat_setWidth, BitVec.toNat_ofNat]
    omega

end Verif.CRC16
