import Verif.Model.GCMOut
import Verif.Props.C131_GCM
/-
C134: `DeriveCounter` and `Auth` of gmac/gcm and the former contents of their output.
-/
namespace Verif.Props
open Verif.Spec

/-- `Auth` in Go: the tag, whatever `out` held; the bytes behind it stay. -/
theorem C134_auth_go (E : Bytes → Bytes) (out C A mask : Bytes) (hm : mask.length = 16) (ho : 16 ≤ out.length) :
    GCMOut.authInto (GMAC.gcmInit (E (zeros 16))) out C A mask = GCM.tag (GCM.block (E (zeros 16))) A C mask ++ out.drop 16 := by
  unfold GCMOut.authInto
  rw [C131_auth]
  have hl : (GCM.tag (GCM.block (E (zeros 16))) A C mask).length = 16 := by
    unfold GCM.tag; rw [List.length_zipWith, hm]; rfl
  unfold goCopy
  rw [hl, List.take_of_length_le (l := GCM.tag _ _ _ _) (by omega)]
  rfl

theorem set15 (nonce c : Bytes) (hn : nonce.length = 12) (hc : c.length = 16) :
    (goCopy c 0 nonce).set 15 1#8 = nonce ++ ((c.drop 12).take 3 ++ [1#8]) := by
  have h3 : ((c.drop 12).take 3).length = 3 := by rw [List.length_take, List.length_drop]; omega
  have hd : c.drop 12 = (c.drop 12).take 3 ++ (c.drop 12).drop 3 := (List.take_append_drop _ _).symm
  have h1 : ((c.drop 12).drop 3).length = 1 := by rw [List.length_drop, List.length_drop]; omega
  unfold goCopy
  rw [List.take_zero, List.nil_append, List.take_of_length_le (by omega), hn, Nat.zero_add, hd]
  generalize (c.drop 12).take 3 = x at *
  generalize (c.drop 12).drop 3 = y at *
  match y, h1 with
  | [z], _ =>
    rw [List.set_append_right _ _ (by omega), hn, List.set_append_right _ _ (by omega), h3, List.take_left' h3]
    rfl

/-- `DeriveCounter` in Go gives the pre-counter block exactly when the nonce has not 12 bytes or the bytes 12 to 14 of the
caller's array were zero. -/
theorem C134_deriveCounter_partial (E : Bytes → Bytes) (c nonce : Bytes) (hc : c.length = 16) :
    GCMOut.deriveCounterInto (GMAC.gcmInit (E (zeros 16))) c nonce = GCM.J0 (GCM.block (E (zeros 16))) nonce ↔
      (nonce.length = 12 → (c.drop 12).take 3 = zeros 3) := by
  by_cases hn : nonce.length = 12
  · unfold GCMOut.deriveCounterInto GCM.J0
    rw [if_pos hn, if_pos hn, set15 _ _ hn hc]
    constructor
    · intro h _
      have := List.append_cancel_left h
      have h2 : (c.drop 12).take 3 ++ [1#8] = zeros 3 ++ [1#8] := this
      exact List.append_cancel_right h2
    · intro h
      rw [h hn]; rfl
  · refine ⟨fun _ h => absurd h hn, fun _ => ?_⟩
    have := GMAC.deriveCounter_eq (E (zeros 16)) nonce
    rw [← this]
    unfold GCMOut.deriveCounterInto GMAC.deriveCounter
    rw [if_neg hn, if_neg hn]

/-- The property is false: with a standard nonce and an array that is not zero, `DeriveCounter` returns another block. -/
theorem C134_deriveCounter_violated : ∃ (E : Bytes → Bytes) (c nonce : Bytes), c.length = 16 ∧ nonce.length = 12 ∧
    GCMOut.deriveCounterInto (GMAC.gcmInit (E (zeros 16))) c nonce ≠ GCM.J0 (GCM.block (E (zeros 16))) nonce := by
  refine ⟨id, List.replicate 16 7#8, zeros 12, by decide, by decide, fun h => ?_⟩
  have := (C134_deriveCounter_partial id (List.replicate 16 7#8) (zeros 12) (by decide)).1 h (by decide)
  exact absurd this (by decide)

theorem enc_dec (y : BitVec 128) : GCMOut.dec (GCMOut.enc y) = y := by
  unfold GCMOut.dec GCMOut.enc
  rw [List.reverse_reverse]
  unfold GCM.bytes
  rw [GMAC.lenBlock]
  apply BitVec.eq_of_getLsbD_eq
  intro i hi
  rw [BitVec.getLsbD_append]
  by_cases h : i < 64
  · simp [h]
  · have : i - 64 < 64 := by omega
    simp [h, this, show 64 + (i - 64) = i by omega]

theorem dec_zeros : GCMOut.dec (zeros 16) = 0#128 := by decide

theorem shl3 (n : Nat) : BitVec.ofNat 64 n <<< 3 = BitVec.ofNat 64 (8 * n) := by
  apply BitVec.eq_of_toNat_eq
  rw [BitVec.toNat_shiftLeft, BitVec.toNat_ofNat, BitVec.toNat_ofNat, Nat.shiftLeft_eq, Nat.mod_mul_mod, Nat.mul_comm n]

/-- `Auth` around the assembly, in general: GHASH starts from what `out` held. -/
theorem C134_auth_asm (H : BitVec 128) (out C A mask : Bytes) :
    GCMOut.authAsm H out C A mask = List.zipWith (· ^^^ ·)
      (GCM.bytes ((fullBlocks 16 (GCM.pad16 A ++ GCM.pad16 C ++ GCM.bitLen A ++ GCM.bitLen C)).foldl
        (fun Y X => GCM.mul (Y ^^^ GCM.block X) H) (GCMOut.dec out))) mask := by
  unfold GCMOut.authAsm GCMOut.asmFinish GCMOut.asmData
  dsimp only
  rw [enc_dec, enc_dec, shl3, shl3, List.append_assoc (_ ++ _), fullBlocks_append _ _ _ (by omega) (by
      have h1 := GMAC.pad16_mod A
      have h2 := GMAC.pad16_mod C
      rw [List.length_append]; omega), fullBlocks_append _ _ _ (by omega) (GMAC.pad16_mod A), List.foldl_append, List.foldl_append,
    fullBlocks_one 16 (GCM.bitLen A ++ GCM.bitLen C) (by omega) rfl]
  rw [show Spec.GCM.bitLen A ++ Spec.GCM.bitLen C = be64 (BitVec.ofNat 64 (8 * A.length)) ++ be64 (BitVec.ofNat 64 (8 * C.length)) from rfl,
    List.foldl_cons, List.foldl_nil, GMAC.lenBlock]

/-- `Auth` around the assembly with a zero `out`: the tag. -/
theorem C134_auth_asm_partial (H : BitVec 128) (C A mask : Bytes) : GCMOut.authAsm H (zeros 16) C A mask = GCM.tag H A C mask := by
  rw [C134_auth_asm, dec_zeros]; rfl

/-- `DeriveCounter` around the assembly with a zero array: the pre-counter block. -/
theorem C134_deriveCounter_asm_partial (H : BitVec 128) (nonce : Bytes) : GCMOut.deriveCounterAsm H (zeros 16) nonce = GCM.J0 H nonce := by
  unfold GCMOut.deriveCounterAsm GCM.J0
  by_cases hn : nonce.length = 12
  · rw [if_pos hn, if_pos hn, set15 _ _ hn (by decide)]; rfl
  · rw [if_neg hn, if_neg hn]
    unfold GCMOut.asmFinish GCMOut.asmData
    dsimp only
    rw [enc_dec, dec_zeros, shl3, shl3, zipWith_xor_comm, zipWith_xor_zeros _ 16 rfl, List.append_assoc,
      GMAC.ghash_len _ _ _ (GMAC.pad16_mod nonce) (by rw [List.length_append, zeros_length]; rfl)]
    unfold GCM.bitLen GMAC.gstep
    rw [GMAC.zeros8, GMAC.lenBlock]
    rfl

set_option maxRecDepth 20000 in
/-- The property is false of the code used on amd64: with an `out` that is not zero, `Auth` writes another tag. -/
theorem C134_auth_asm_violated : ∃ (H : BitVec 128) (out C A mask : Bytes), out.length = 16 ∧ mask.length = 16 ∧
    GCMOut.authAsm H out C A mask ≠ GCM.tag H A C mask := by
  refine ⟨GCM.block (0x80#8 :: zeros 15), 1#8 :: zeros 15, [], [], zeros 16, by decide, by decide, ?_⟩
  decide +kernel

/- The hypotheses are met. -/
example : (List.replicate 16 7#8).length = 16 ∧ (zeros 12).length = 12 ∧ (zeros 13).length ≠ 12 := by decide

end Verif.Props
