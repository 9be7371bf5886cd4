import Verif.Lemmas.FSB
import Verif.Props.C32_Whirlpool
/-
FSB: finalisation.
-/
namespace Verif.FSB
variable {pi : Nat → Byte} {c : Cfg}

theorem whirlpool_sum (x : Bytes) (h : x.length < 2 ^ 60) :
    (Whirlpool.reset.write Whirlpool.tables x).checkSum Whirlpool.tables = Spec.Whirlpool.hash Spec.Whirlpool.final x := by
  have hi := Whirlpool.write_inv Whirlpool.reset [] x (Whirlpool.Inv.init (T := Whirlpool.tables)) h
  rw [Whirlpool.checkSum_eq _ _ hi, List.nil_append, Whirlpool.foldl_bytes Props.WhirlpoolTables.fits_final _ (fun b hb => mem_fullBlocks_length 64 _ b hb) _ (by simp)]
  rfl

theorem zeros_set0 (n : Nat) (h : 0 < n) (b : Byte) : (zeros n).set 0 b = b :: zeros (n - 1) := by
  obtain ⟨k, rfl⟩ : ∃ k, n = k + 1 := ⟨n - 1, by omega⟩
  rfl

theorem checkSum_eq (hg : Good c) (d : Digest) (m : Bytes) (h : Rep pi c d m) (hl : d.databitlen = BitVec.ofNat 64 (8 * m.length)) :
    d.checkSum pi c = some ((Spec.Whirlpool.hash Spec.Whirlpool.final
      ((fullBlocks c.B (mdPad c.B 0x80 (be64 (BitVec.ofNat 64 (8 * m.length))) m)).foldl (comp pi c) (zeros (c.r / 8)))).take (c.hashbitlen / 8)) := by
  have hi8 := hg.inp8
  have him := hg.inpmax
  have hin := hg.inpmin
  have hB0 : 0 < c.B := by unfold Cfg.B; omega
  have hIB : c.inputsize = 8 * c.B := by unfold Cfg.B; omega
  have hrlm : (restBlock c.B m).length = m.length % c.B := restBlock_length _ _
  have hrl : (restBlock c.B m).length < c.B := by rw [hrlm]; exact Nat.mod_lt _ hB0
  have hBm : c.B < 256 := by omega
  have hB10 : 10 ≤ c.B := by omega
  have hcnt := h.cnt
  have hencl : (be64 (BitVec.ofNat 64 (8 * m.length))).length = 8 := by simp [be64]
  have hIs : c.inputsize >>> 3 = c.B := by rw [Nat.shiftRight_eq_div_pow]; rfl
  generalize hnx : (restBlock c.B m).length = nx at *
  have hct : d.count.toNat = 8 * nx := by rw [hcnt, BitVec.toNat_ofNat, Nat.mod_eq_of_lt (by simp only [Nat.reducePow]; omega)]
  have hI : (BitVec.ofNat 32 c.inputsize).toNat = 8 * c.B := by rw [BitVec.toNat_ofNat, Nat.mod_eq_of_lt (by simp only [Nat.reducePow]; omega), hIB]
  have htmp : BitVec.ofNat 32 c.inputsize - d.count = BitVec.ofNat 32 (8 * (c.B - nx)) := by
    apply BitVec.eq_of_toNat_eq
    rw [BitVec.toNat_sub_of_le (by rw [BitVec.le_def, hct, hI]; omega), hI, hct, BitVec.toNat_ofNat, Nat.mod_eq_of_lt (by simp only [Nat.reducePow]; omega)]; omega
  have hcond : (d.count + 65 > BitVec.ofNat 32 c.inputsize) ↔ c.B < nx + 9 := by
    rw [gt_iff_lt, BitVec.lt_def, BitVec.toNat_add, hI, hct, show (65 : U32).toNat = 65 from rfl, Nat.mod_eq_of_lt (by simp only [Nat.reducePow]; omega)]; omega
  -- the end, once the padded message is known
  have fin : ∀ d' M', Rep pi c d' M' → fullBlocks c.B M' = fullBlocks c.B (mdPad c.B 0x80 (be64 (BitVec.ofNat 64 (8 * m.length))) m) →
      (Whirlpool.reset.write Whirlpool.tables (d'.syndrome.take (c.r >>> 3))).checkSum Whirlpool.tables =
      Spec.Whirlpool.hash Spec.Whirlpool.final ((fullBlocks c.B (mdPad c.B 0x80 (be64 (BitVec.ofNat 64 (8 * m.length))) m)).foldl (comp pi c) (zeros (c.r / 8))) := by
    intro d' M' hr he
    have hs : d'.syndrome.take (c.r >>> 3) = d'.syndrome := by
      rw [List.take_of_length_le]; rw [hr.synl, Nat.shiftRight_eq_div_pow]; exact Nat.le_refl _
    have hw : c.r < 2 ^ 60 := by
      have := hg.rw'; have := hg.inp; have := hg.bfm
      have hwb : c.w ≤ c.inputsize := by
        rw [hg.inp]; rcases hg.bfm with e | e <;> rw [e] <;> omega
      simp only [Nat.reducePow]; omega
    rw [hs, whirlpool_sum _ (by rw [hr.synl]; omega), hr.syn, he]
  unfold Digest.checkSum
  dsimp only
  by_cases hc : c.B < nx + 9
  · rw [if_pos (hcond.2 hc), hIs, htmp, zeros_set0 _ hB0]
    obtain ⟨d1, w1, r1, -⟩ := writeBits_rep hg (8 * c.inputsize + 2) d m ((1 <<< 7 : Byte) :: zeros (c.B - 1)) (c.B - nx) h (by omega) (by simp; omega) (by omega)
    rw [w1]
    dsimp only
    have hp2 : goCopy (((1 <<< 7 : Byte) :: zeros (c.B - 1)).set 0 0) (c.B - 8) (lenBytes d.databitlen) = zeros (c.B - 8) ++ be64 (BitVec.ofNat 64 (8 * m.length)) := by
      have : ((1 <<< 7 : Byte) :: zeros (c.B - 1)).set 0 0 = zeros c.B := by
        rw [List.set_cons_zero, ← zeros_set0 c.B hB0 0]
        obtain ⟨k, hk⟩ : ∃ k, c.B = k + 1 := ⟨c.B - 1, by omega⟩
        rw [hk]; rfl
      rw [this, hl]
      unfold lenBytes
      rw [goCopy_end _ _ _ (by rw [hencl, zeros_length]; omega), take_zeros _ _ (by omega)]
    rw [hp2]
    obtain ⟨d2, w2, r2, -⟩ := writeBits_rep hg (8 * c.inputsize + 2) d1 _ (zeros (c.B - 8) ++ be64 (BitVec.ofNat 64 (8 * m.length))) c.B r1 (by omega)
      (by rw [List.length_append, zeros_length, hencl]; omega) (by omega)
    rw [← hIB] at w2
    rw [w2]
    dsimp only
    rw [fin d2 _ r2 ?_]
    · rw [Nat.shiftRight_eq_div_pow]
    · have t1 : ((1 <<< 7 : Byte) :: zeros (c.B - 1)).take (c.B - nx) = 0x80 :: zeros (c.B - 1 - nx) := by
        rw [show c.B - nx = (c.B - 1 - nx) + 1 by omega, List.take_succ_cons, take_zeros _ _ (by omega)]; rfl
      have t2 : (zeros (c.B - 8) ++ be64 (BitVec.ofNat 64 (8 * m.length))).take c.B = zeros (c.B - 8) ++ be64 (BitVec.ofNat 64 (8 * m.length)) :=
        List.take_of_length_le (by rw [List.length_append, zeros_length, hencl]; omega)
      rw [t1, t2]
      rw [fullBlocks_mdPad_two c.B 0x80 _ m hB0 (by omega) (by rw [hencl, ← hrlm]; omega), hencl, ← hrlm, List.append_assoc]
      obtain ⟨e1, -⟩ := K12.fullBlocks_rest m (0x80 :: zeros (c.B - 1 - nx) ++ (zeros (c.B - 8) ++ be64 (BitVec.ofNat 64 (8 * m.length)))) c.B hB0
      rw [e1, ← List.append_assoc (restBlock c.B m), fullBlocks_two c.B _ _ hB0 (by simp; omega) (by rw [List.length_append, zeros_length, hencl]; omega)]
  · rw [if_neg (fun h => hc (hcond.1 h)), htmp]
    have hsh : (BitVec.ofNat 32 (8 * (c.B - nx)) >>> 3).toNat = c.B - nx := by
      rw [BitVec.toNat_ushiftRight, BitVec.toNat_ofNat, Nat.mod_eq_of_lt (by simp only [Nat.reducePow]; omega), Nat.shiftRight_eq_div_pow]; omega
    have hsub : BitVec.ofNat 32 (8 * (c.B - nx)) - 64 = BitVec.ofNat 32 (8 * (c.B - nx - 8)) := by
      apply BitVec.eq_of_toNat_eq
      have e : (BitVec.ofNat 32 (8 * (c.B - nx))).toNat = 8 * (c.B - nx) := by rw [BitVec.toNat_ofNat, Nat.mod_eq_of_lt (by simp only [Nat.reducePow]; omega)]
      rw [BitVec.toNat_sub_of_le (by rw [BitVec.le_def, e]; show 64 ≤ _; omega), e, BitVec.toNat_ofNat, Nat.mod_eq_of_lt (by simp only [Nat.reducePow]; omega)]
      show _ - 64 = _; omega
    rw [hsh, hsub, zeros_set0 _ (by omega), Nat.add_sub_cancel]
    obtain ⟨d1, w1, r1, -⟩ := writeBits_rep hg (8 * c.inputsize + 2) d m ((1 <<< 7 : Byte) :: zeros (c.B - nx)) (c.B - nx - 8) h (by omega) (by simp; omega) (by omega)
    rw [w1]
    dsimp only
    have hp2 : (goCopy ((1 <<< 7 : Byte) :: zeros (c.B - nx)) 0 (lenBytes d.databitlen)).take 8 = be64 (BitVec.ofNat 64 (8 * m.length)) := by
      rw [hl]
      unfold lenBytes
      have := goCopy_take ((1 <<< 7 : Byte) :: zeros (c.B - nx)) 0 (be64 (BitVec.ofNat 64 (8 * m.length))) (by rw [hencl]; simp; omega)
      rw [hencl] at this
      simpa using this
    obtain ⟨d2, w2, r2, -⟩ := writeBits_rep hg (8 * c.inputsize + 2) d1 _ (goCopy ((1 <<< 7 : Byte) :: zeros (c.B - nx)) 0 (lenBytes d.databitlen)) 8 r1 (by omega)
      (by rw [goCopy_length _ _ _ (by omega)]; simp; omega) (by omega)
    rw [show BitVec.ofNat 32 (8 * 8) = (64 : U32) from rfl] at w2
    rw [w2]
    dsimp only
    rw [fin d2 _ r2 ?_]
    · rw [Nat.shiftRight_eq_div_pow]
    · have t1 : ((1 <<< 7 : Byte) :: zeros (c.B - nx)).take (c.B - nx - 8) = 0x80 :: zeros (c.B - 1 - nx - 8) := by
        rw [show c.B - nx - 8 = (c.B - 1 - nx - 8) + 1 by omega, List.take_succ_cons, take_zeros _ _ (by omega)]; rfl
      rw [t1, hp2]
      rw [fullBlocks_mdPad_one c.B 0x80 _ m hB0 (by rw [hencl, ← hrlm]; omega), hencl, ← hrlm, List.append_assoc]
      obtain ⟨e1, -⟩ := K12.fullBlocks_rest m (0x80 :: zeros (c.B - 1 - nx - 8) ++ be64 (BitVec.ofNat 64 (8 * m.length))) c.B hB0
      rw [e1, ← List.append_assoc (restBlock c.B m)]
      rw [fullBlocks_one _ (restBlock c.B m ++ 0x80 :: zeros (c.B - 1 - nx - 8) ++ be64 (BitVec.ofNat 64 (8 * m.length))) hB0 (by rw [List.length_append, List.length_append, List.length_cons, zeros_length, hencl]; omega)]

end Verif.FSB
