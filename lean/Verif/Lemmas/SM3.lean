import Verif.Spec.SM3
import Verif.Model.SM3
import Verif.Bits
/-
Lemmas connecting the sm3 model with the standard.
-/
namespace Verif.SM3
open Verif.Spec

theorem expand_spec (data : Bytes) :
    (expand data).length = 68 ∧ ∀ k, k < 68 → (expand data).getD k 0 = SM3.W data k := by
  unfold expand
  simp only
  have h1 := forLoop_inv (a := 0) (b := 16)
    (body := fun W j => W.set j (getBE32 data (j*4))) (s := List.replicate 68 0#32)
    (fun j W => W.length = 68 ∧ ∀ k, k < j → W.getD k 0 = SM3.W data k) (by omega)
    (by simp) (by
      intro j W _ hj ⟨hl, ih⟩
      refine ⟨by simpa using hl, fun k hk => ?_⟩
      rw [getD_set]
      by_cases e : j = k
      · subst e; rw [if_pos (by omega), SM3.W, if_pos hj, Nat.mul_comm]
      · rw [if_neg (by omega), ih k (by omega)])
  generalize forLoop 0 16 _ _ = W16 at h1 ⊢
  exact forLoop_inv (a := 16) (b := 68) (s := W16)
    (fun j (W : List U32) => W.length = 68 ∧ ∀ k, k < j → W.getD k 0 = SM3.W data k)
    (by omega) h1 (by
      intro j W hj0 hj ⟨hl, ih⟩
      refine ⟨by simpa using hl, fun k hk => ?_⟩
      rw [getD_set]
      by_cases e : j = k
      · subst e
        rw [if_pos (by omega), SM3.W, if_neg (by omega), ih _ (by omega), ih _ (by omega),
          ih _ (by omega), ih _ (by omega), ih _ (by omega)]
        rfl
      · rw [if_neg (by omega), ih k (by omega)])

theorem tSbox_spec : ∀ j, j < 64 → tSbox.getD j 0 = (SM3.T j).rotateLeft (j % 32) := by
  decide +kernel

theorem GG16_eq (x y z : U32) : GG16 x y z = (x &&& y) ||| (~~~ x &&& z) := by
  unfold GG16
  bitwise

/-- The model's variables as the registers of the standard. -/
def Vars.toReg (v : Vars) : SM3.Reg := ⟨v.A, v.B, v.C, v.D, v.E, v.F, v.G, v.H⟩

theorem body0_eq (data : Bytes) (v : Vars) (j : Nat) (h : j < 16) :
    (body0 (expand data) v j).toReg = SM3.step data v.toReg j := by
  have e := (expand_spec data).2
  simp only [body0, SM3.step, Vars.toReg, SM3.W', SM3.FF, SM3.GG, if_pos h, e j (by omega),
    e (j+4) (by omega), tSbox_spec j (by omega)]
  rfl

theorem body16_eq (data : Bytes) (v : Vars) (j : Nat) (h : 16 ≤ j) (h2 : j < 64) :
    (body16 (expand data) v j).toReg = SM3.step data v.toReg j := by
  have e := (expand_spec data).2
  simp only [body16, SM3.step, Vars.toReg, SM3.W', SM3.FF, SM3.GG, if_neg (Nat.not_lt.mpr h),
    e j (by omega), e (j+4) (by omega), tSbox_spec j (by omega), GG16_eq]
  rfl

/-- The block function of the code is the compression function of the standard. -/
theorem block_eq (s : List U32) (data : Bytes) : block s data = SM3.CF s data := by
  unfold block SM3.CF
  simp only
  have h1 := forLoop_inv (a := 0) (b := 16) (body := body0 (expand data))
    (s := Vars.mk (s.getD 0 0) (s.getD 1 0) (s.getD 2 0) (s.getD 3 0) (s.getD 4 0) (s.getD 5 0)
      (s.getD 6 0) (s.getD 7 0))
    (fun j v => v.toReg = SM3.steps data (SM3.Reg.ofList s) j) (by omega) rfl (by
      intro j v _ hj ih
      rw [body0_eq data v j hj, ih, SM3.steps])
  have h2 := forLoop_inv (body := body16 (expand data))
    (fun j v => v.toReg = SM3.steps data (SM3.Reg.ofList s) j) (b := 64) (by omega) h1 (by
      intro j v hj0 hj ih
      rw [body16_eq data v j hj0 hj, ih, SM3.steps])
  rw [← h2]
  simp only [SM3.Reg.toList, SM3.Reg.ofList, Vars.toReg, List.zipWith, BitVec.xor_comm]

/-- The two 32-bit halves written by `checkSum` are the 64-bit bit count. -/
theorem length_field (n : Nat) :
    be32 (((BitVec.ofNat 64 n / 64#64) >>> 23).setWidth 32) ++
      be32 ((((BitVec.ofNat 64 n / 64#64) <<< 9) + (BitVec.ofNat 64 (n % 64) <<< 3)).setWidth 32)
    = be64 (BitVec.ofNat 64 (8 * n)) := by
  rw [be64_ofNat]
  congr 2
  · apply BitVec.eq_of_toNat_eq
    simp [Nat.shiftRight_eq_div_pow]
    omega
  · apply BitVec.eq_of_toNat_eq
    simp [Nat.shiftLeft_eq]
    omega

/-- What `checkSum` returns for a digest that represents `m`. -/
theorem checkSum_eq (d : Digest) (m : Bytes) (h : d.Repr 64 block iv m) :
    checkSum d = SM3.hash m := by
  have hb := h.buf
  have hnx := hb.nx_lt (by omega)
  have hf := mdFinal_eq block (by omega : 0 < 64) 0x80#8 iv d.s d.x d.nx m
    (be64 (BitVec.ofNat 64 (8 * m.length))) (by simp) hb
  have hblk : (block : List U32 → Bytes → List U32) = SM3.CF := by
    funext s x; exact block_eq s x
  have hspec : SM3.hash m = ((mdFinal 64 block 0x80#8 d.s d.x d.nx
      (be64 (BitVec.ofNat 64 (8 * m.length)))).map be32).flatten := by
    rw [hf, hblk]; rfl
  rw [hspec]
  unfold checkSum mdFinal
  simp only [Nat.mod_eq_of_lt hnx, h.len_eq]
  have hl := length_field m.length
  rw [← hb.nx_eq] at hl
  have hml := markBuf_length d.x d.nx 0x80#8 64 (by rw [hb.xlen]; omega)
  simp only [be64_length, Nat.reduceAdd, Nat.reduceSub]
  by_cases hc : 64 - d.nx < 9
  · simp only [hc, if_true]
    rw [goCopy_end2 _ _ _ _ _ (by simp) (by
      rw [goCopy_length _ _ _ (by omega), hml, hb.xlen]; simp), hl]
  · simp only [hc, if_false]
    rw [goCopy_end2 _ _ _ _ _ (by simp) (by rw [hml, hb.xlen]; simp), hl]

end Verif.SM3
