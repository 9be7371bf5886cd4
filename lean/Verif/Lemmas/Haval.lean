import Mathlib.Tactic.IntervalCases
import Verif.Model.Haval
import Verif.Spec.Haval
import Verif.Words32
/-
HAVAL: the lines of the passes (generated) and the passes.
-/
namespace Verif.Haval
open Spec.Haval (Reg step)

theorem rotl25 (x : U32) : circularLeft x 25 = x.rotateRight 7 := by
  unfold circularLeft
  apply BitVec.eq_of_getLsbD_eq
  intro i hi
  simp only [BitVec.getLsbD_rotateLeft, BitVec.getLsbD_rotateRight]
theorem rotl21 (x : U32) : circularLeft x 21 = x.rotateRight 11 := by
  unfold circularLeft
  apply BitVec.eq_of_getLsbD_eq
  intro i hi
  simp only [BitVec.getLsbD_rotateLeft, BitVec.getLsbD_rotateRight]

theorem F1_eq (x6 x5 x4 x3 x2 x1 x0 : U32) : F1 x6 x5 x4 x3 x2 x1 x0 = Spec.Haval.f 1 x6 x5 x4 x3 x2 x1 x0 := by
  unfold F1 Spec.Haval.f
  apply BitVec.eq_of_getLsbD_eq
  intro i hi
  simp only [BitVec.getLsbD_xor, BitVec.getLsbD_and, BitVec.getLsbD_or, BitVec.getLsbD_not, hi, decide_true, Bool.true_and]

theorem F2_eq (x6 x5 x4 x3 x2 x1 x0 : U32) : F2 x6 x5 x4 x3 x2 x1 x0 = Spec.Haval.f 2 x6 x5 x4 x3 x2 x1 x0 := by
  unfold F2 Spec.Haval.f
  apply BitVec.eq_of_getLsbD_eq
  intro i hi
  simp only [BitVec.getLsbD_xor, BitVec.getLsbD_and, BitVec.getLsbD_or, BitVec.getLsbD_not, hi, decide_true, Bool.true_and]
  generalize x0.getLsbD i = b0
  generalize x1.getLsbD i = b1
  generalize x2.getLsbD i = b2
  generalize x3.getLsbD i = b3
  generalize x4.getLsbD i = b4
  generalize x5.getLsbD i = b5
  generalize x6.getLsbD i = b6
  revert b0 b1 b2 b3 b4 b5 b6
  decide

theorem F3_eq (x6 x5 x4 x3 x2 x1 x0 : U32) : F3 x6 x5 x4 x3 x2 x1 x0 = Spec.Haval.f 3 x6 x5 x4 x3 x2 x1 x0 := by
  unfold F3 Spec.Haval.f
  apply BitVec.eq_of_getLsbD_eq
  intro i hi
  simp only [BitVec.getLsbD_xor, BitVec.getLsbD_and, BitVec.getLsbD_or, BitVec.getLsbD_not, hi, decide_true, Bool.true_and]
  generalize x0.getLsbD i = b0
  generalize x1.getLsbD i = b1
  generalize x2.getLsbD i = b2
  generalize x3.getLsbD i = b3
  generalize x4.getLsbD i = b4
  generalize x5.getLsbD i = b5
  generalize x6.getLsbD i = b6
  revert b0 b1 b2 b3 b4 b5 b6
  decide

theorem F4_eq (x6 x5 x4 x3 x2 x1 x0 : U32) : F4 x6 x5 x4 x3 x2 x1 x0 = Spec.Haval.f 4 x6 x5 x4 x3 x2 x1 x0 := by
  unfold F4 Spec.Haval.f
  apply BitVec.eq_of_getLsbD_eq
  intro i hi
  simp only [BitVec.getLsbD_xor, BitVec.getLsbD_and, BitVec.getLsbD_or, BitVec.getLsbD_not, hi, decide_true, Bool.true_and]
  generalize x0.getLsbD i = b0
  generalize x1.getLsbD i = b1
  generalize x2.getLsbD i = b2
  generalize x3.getLsbD i = b3
  generalize x4.getLsbD i = b4
  generalize x5.getLsbD i = b5
  generalize x6.getLsbD i = b6
  revert b0 b1 b2 b3 b4 b5 b6
  decide

theorem F5_eq (x6 x5 x4 x3 x2 x1 x0 : U32) : F5 x6 x5 x4 x3 x2 x1 x0 = Spec.Haval.f 5 x6 x5 x4 x3 x2 x1 x0 := by
  unfold F5 Spec.Haval.f
  apply BitVec.eq_of_getLsbD_eq
  intro i hi
  simp only [BitVec.getLsbD_xor, BitVec.getLsbD_and, BitVec.getLsbD_or, BitVec.getLsbD_not, hi, decide_true, Bool.true_and]
  generalize x0.getLsbD i = b0
  generalize x1.getLsbD i = b1
  generalize x2.getLsbD i = b2
  generalize x3.getLsbD i = b3
  generalize x4.getLsbD i = b4
  generalize x5.getLsbD i = b5
  generalize x6.getLsbD i = b6
  revert b0 b1 b2 b3 b4 b5 b6
  decide

/-- The register when 0 lines of a group are done. -/
def reg0 (s : S8) : Reg := ⟨s.x7, s.x6, s.x5, s.x4, s.x3, s.x2, s.x1, s.x0⟩
/-- The register when 1 lines of a group are done. -/
def reg1 (s : S8) : Reg := ⟨s.x6, s.x5, s.x4, s.x3, s.x2, s.x1, s.x0, s.x7⟩
/-- The register when 2 lines of a group are done. -/
def reg2 (s : S8) : Reg := ⟨s.x5, s.x4, s.x3, s.x2, s.x1, s.x0, s.x7, s.x6⟩
/-- The register when 3 lines of a group are done. -/
def reg3 (s : S8) : Reg := ⟨s.x4, s.x3, s.x2, s.x1, s.x0, s.x7, s.x6, s.x5⟩
/-- The register when 4 lines of a group are done. -/
def reg4 (s : S8) : Reg := ⟨s.x3, s.x2, s.x1, s.x0, s.x7, s.x6, s.x5, s.x4⟩
/-- The register when 5 lines of a group are done. -/
def reg5 (s : S8) : Reg := ⟨s.x2, s.x1, s.x0, s.x7, s.x6, s.x5, s.x4, s.x3⟩
/-- The register when 6 lines of a group are done. -/
def reg6 (s : S8) : Reg := ⟨s.x1, s.x0, s.x7, s.x6, s.x5, s.x4, s.x3, s.x2⟩
/-- The register when 7 lines of a group are done. -/
def reg7 (s : S8) : Reg := ⟨s.x0, s.x7, s.x6, s.x5, s.x4, s.x3, s.x2, s.x1⟩
/-- The register when 8 lines of a group are done. -/
def reg8 (s : S8) : Reg := ⟨s.x7, s.x6, s.x5, s.x4, s.x3, s.x2, s.x1, s.x0⟩
theorem p31_0_eq (w : U32) (s : S8) : reg1 (p31_0 w s) = step 3 1 (reg0 s) w 0 := by
  unfold p31_0 step
  rw [rotl25, rotl21, F1_eq]
  dsimp only
  rw [show ∀ a : U32, a + 0 = a from fun a => BitVec.add_zero a]; rfl
theorem p31_1_eq (w : U32) (s : S8) : reg2 (p31_1 w s) = step 3 1 (reg1 s) w 0 := by
  unfold p31_1 step
  rw [rotl25, rotl21, F1_eq]
  dsimp only
  rw [show ∀ a : U32, a + 0 = a from fun a => BitVec.add_zero a]; rfl
theorem p31_2_eq (w : U32) (s : S8) : reg3 (p31_2 w s) = step 3 1 (reg2 s) w 0 := by
  unfold p31_2 step
  rw [rotl25, rotl21, F1_eq]
  dsimp only
  rw [show ∀ a : U32, a + 0 = a from fun a => BitVec.add_zero a]; rfl
theorem p31_3_eq (w : U32) (s : S8) : reg4 (p31_3 w s) = step 3 1 (reg3 s) w 0 := by
  unfold p31_3 step
  rw [rotl25, rotl21, F1_eq]
  dsimp only
  rw [show ∀ a : U32, a + 0 = a from fun a => BitVec.add_zero a]; rfl
theorem p31_4_eq (w : U32) (s : S8) : reg5 (p31_4 w s) = step 3 1 (reg4 s) w 0 := by
  unfold p31_4 step
  rw [rotl25, rotl21, F1_eq]
  dsimp only
  rw [show ∀ a : U32, a + 0 = a from fun a => BitVec.add_zero a]; rfl
theorem p31_5_eq (w : U32) (s : S8) : reg6 (p31_5 w s) = step 3 1 (reg5 s) w 0 := by
  unfold p31_5 step
  rw [rotl25, rotl21, F1_eq]
  dsimp only
  rw [show ∀ a : U32, a + 0 = a from fun a => BitVec.add_zero a]; rfl
theorem p31_6_eq (w : U32) (s : S8) : reg7 (p31_6 w s) = step 3 1 (reg6 s) w 0 := by
  unfold p31_6 step
  rw [rotl25, rotl21, F1_eq]
  dsimp only
  rw [show ∀ a : U32, a + 0 = a from fun a => BitVec.add_zero a]; rfl
theorem p31_7_eq (w : U32) (s : S8) : reg8 (p31_7 w s) = step 3 1 (reg7 s) w 0 := by
  unfold p31_7 step
  rw [rotl25, rotl21, F1_eq]
  dsimp only
  rw [show ∀ a : U32, a + 0 = a from fun a => BitVec.add_zero a]; rfl
theorem p32_0_eq (w k : U32) (s : S8) : reg1 (p32_0 w k s) = step 3 2 (reg0 s) w k := by
  unfold p32_0
  rw [rotl25, rotl21, F2_eq]; rfl
theorem p32_1_eq (w k : U32) (s : S8) : reg2 (p32_1 w k s) = step 3 2 (reg1 s) w k := by
  unfold p32_1
  rw [rotl25, rotl21, F2_eq]; rfl
theorem p32_2_eq (w k : U32) (s : S8) : reg3 (p32_2 w k s) = step 3 2 (reg2 s) w k := by
  unfold p32_2
  rw [rotl25, rotl21, F2_eq]; rfl
theorem p32_3_eq (w k : U32) (s : S8) : reg4 (p32_3 w k s) = step 3 2 (reg3 s) w k := by
  unfold p32_3
  rw [rotl25, rotl21, F2_eq]; rfl
theorem p32_4_eq (w k : U32) (s : S8) : reg5 (p32_4 w k s) = step 3 2 (reg4 s) w k := by
  unfold p32_4
  rw [rotl25, rotl21, F2_eq]; rfl
theorem p32_5_eq (w k : U32) (s : S8) : reg6 (p32_5 w k s) = step 3 2 (reg5 s) w k := by
  unfold p32_5
  rw [rotl25, rotl21, F2_eq]; rfl
theorem p32_6_eq (w k : U32) (s : S8) : reg7 (p32_6 w k s) = step 3 2 (reg6 s) w k := by
  unfold p32_6
  rw [rotl25, rotl21, F2_eq]; rfl
theorem p32_7_eq (w k : U32) (s : S8) : reg8 (p32_7 w k s) = step 3 2 (reg7 s) w k := by
  unfold p32_7
  rw [rotl25, rotl21, F2_eq]; rfl
theorem p33_0_eq (w k : U32) (s : S8) : reg1 (p33_0 w k s) = step 3 3 (reg0 s) w k := by
  unfold p33_0
  rw [rotl25, rotl21, F3_eq]; rfl
theorem p33_1_eq (w k : U32) (s : S8) : reg2 (p33_1 w k s) = step 3 3 (reg1 s) w k := by
  unfold p33_1
  rw [rotl25, rotl21, F3_eq]; rfl
theorem p33_2_eq (w k : U32) (s : S8) : reg3 (p33_2 w k s) = step 3 3 (reg2 s) w k := by
  unfold p33_2
  rw [rotl25, rotl21, F3_eq]; rfl
theorem p33_3_eq (w k : U32) (s : S8) : reg4 (p33_3 w k s) = step 3 3 (reg3 s) w k := by
  unfold p33_3
  rw [rotl25, rotl21, F3_eq]; rfl
theorem p33_4_eq (w k : U32) (s : S8) : reg5 (p33_4 w k s) = step 3 3 (reg4 s) w k := by
  unfold p33_4
  rw [rotl25, rotl21, F3_eq]; rfl
theorem p33_5_eq (w k : U32) (s : S8) : reg6 (p33_5 w k s) = step 3 3 (reg5 s) w k := by
  unfold p33_5
  rw [rotl25, rotl21, F3_eq]; rfl
theorem p33_6_eq (w k : U32) (s : S8) : reg7 (p33_6 w k s) = step 3 3 (reg6 s) w k := by
  unfold p33_6
  rw [rotl25, rotl21, F3_eq]; rfl
theorem p33_7_eq (w k : U32) (s : S8) : reg8 (p33_7 w k s) = step 3 3 (reg7 s) w k := by
  unfold p33_7
  rw [rotl25, rotl21, F3_eq]; rfl
theorem p41_0_eq (w : U32) (s : S8) : reg1 (p41_0 w s) = step 4 1 (reg0 s) w 0 := by
  unfold p41_0 step
  rw [rotl25, rotl21, F1_eq]
  dsimp only
  rw [show ∀ a : U32, a + 0 = a from fun a => BitVec.add_zero a]; rfl
theorem p41_1_eq (w : U32) (s : S8) : reg2 (p41_1 w s) = step 4 1 (reg1 s) w 0 := by
  unfold p41_1 step
  rw [rotl25, rotl21, F1_eq]
  dsimp only
  rw [show ∀ a : U32, a + 0 = a from fun a => BitVec.add_zero a]; rfl
theorem p41_2_eq (w : U32) (s : S8) : reg3 (p41_2 w s) = step 4 1 (reg2 s) w 0 := by
  unfold p41_2 step
  rw [rotl25, rotl21, F1_eq]
  dsimp only
  rw [show ∀ a : U32, a + 0 = a from fun a => BitVec.add_zero a]; rfl
theorem p41_3_eq (w : U32) (s : S8) : reg4 (p41_3 w s) = step 4 1 (reg3 s) w 0 := by
  unfold p41_3 step
  rw [rotl25, rotl21, F1_eq]
  dsimp only
  rw [show ∀ a : U32, a + 0 = a from fun a => BitVec.add_zero a]; rfl
theorem p41_4_eq (w : U32) (s : S8) : reg5 (p41_4 w s) = step 4 1 (reg4 s) w 0 := by
  unfold p41_4 step
  rw [rotl25, rotl21, F1_eq]
  dsimp only
  rw [show ∀ a : U32, a + 0 = a from fun a => BitVec.add_zero a]; rfl
theorem p41_5_eq (w : U32) (s : S8) : reg6 (p41_5 w s) = step 4 1 (reg5 s) w 0 := by
  unfold p41_5 step
  rw [rotl25, rotl21, F1_eq]
  dsimp only
  rw [show ∀ a : U32, a + 0 = a from fun a => BitVec.add_zero a]; rfl
theorem p41_6_eq (w : U32) (s : S8) : reg7 (p41_6 w s) = step 4 1 (reg6 s) w 0 := by
  unfold p41_6 step
  rw [rotl25, rotl21, F1_eq]
  dsimp only
  rw [show ∀ a : U32, a + 0 = a from fun a => BitVec.add_zero a]; rfl
theorem p41_7_eq (w : U32) (s : S8) : reg8 (p41_7 w s) = step 4 1 (reg7 s) w 0 := by
  unfold p41_7 step
  rw [rotl25, rotl21, F1_eq]
  dsimp only
  rw [show ∀ a : U32, a + 0 = a from fun a => BitVec.add_zero a]; rfl
theorem p42_0_eq (w k : U32) (s : S8) : reg1 (p42_0 w k s) = step 4 2 (reg0 s) w k := by
  unfold p42_0
  rw [rotl25, rotl21, F2_eq]; rfl
theorem p42_1_eq (w k : U32) (s : S8) : reg2 (p42_1 w k s) = step 4 2 (reg1 s) w k := by
  unfold p42_1
  rw [rotl25, rotl21, F2_eq]; rfl
theorem p42_2_eq (w k : U32) (s : S8) : reg3 (p42_2 w k s) = step 4 2 (reg2 s) w k := by
  unfold p42_2
  rw [rotl25, rotl21, F2_eq]; rfl
theorem p42_3_eq (w k : U32) (s : S8) : reg4 (p42_3 w k s) = step 4 2 (reg3 s) w k := by
  unfold p42_3
  rw [rotl25, rotl21, F2_eq]; rfl
theorem p42_4_eq (w k : U32) (s : S8) : reg5 (p42_4 w k s) = step 4 2 (reg4 s) w k := by
  unfold p42_4
  rw [rotl25, rotl21, F2_eq]; rfl
theorem p42_5_eq (w k : U32) (s : S8) : reg6 (p42_5 w k s) = step 4 2 (reg5 s) w k := by
  unfold p42_5
  rw [rotl25, rotl21, F2_eq]; rfl
theorem p42_6_eq (w k : U32) (s : S8) : reg7 (p42_6 w k s) = step 4 2 (reg6 s) w k := by
  unfold p42_6
  rw [rotl25, rotl21, F2_eq]; rfl
theorem p42_7_eq (w k : U32) (s : S8) : reg8 (p42_7 w k s) = step 4 2 (reg7 s) w k := by
  unfold p42_7
  rw [rotl25, rotl21, F2_eq]; rfl
theorem p43_0_eq (w k : U32) (s : S8) : reg1 (p43_0 w k s) = step 4 3 (reg0 s) w k := by
  unfold p43_0
  rw [rotl25, rotl21, F3_eq]; rfl
theorem p43_1_eq (w k : U32) (s : S8) : reg2 (p43_1 w k s) = step 4 3 (reg1 s) w k := by
  unfold p43_1
  rw [rotl25, rotl21, F3_eq]; rfl
theorem p43_2_eq (w k : U32) (s : S8) : reg3 (p43_2 w k s) = step 4 3 (reg2 s) w k := by
  unfold p43_2
  rw [rotl25, rotl21, F3_eq]; rfl
theorem p43_3_eq (w k : U32) (s : S8) : reg4 (p43_3 w k s) = step 4 3 (reg3 s) w k := by
  unfold p43_3
  rw [rotl25, rotl21, F3_eq]; rfl
theorem p43_4_eq (w k : U32) (s : S8) : reg5 (p43_4 w k s) = step 4 3 (reg4 s) w k := by
  unfold p43_4
  rw [rotl25, rotl21, F3_eq]; rfl
theorem p43_5_eq (w k : U32) (s : S8) : reg6 (p43_5 w k s) = step 4 3 (reg5 s) w k := by
  unfold p43_5
  rw [rotl25, rotl21, F3_eq]; rfl
theorem p43_6_eq (w k : U32) (s : S8) : reg7 (p43_6 w k s) = step 4 3 (reg6 s) w k := by
  unfold p43_6
  rw [rotl25, rotl21, F3_eq]; rfl
theorem p43_7_eq (w k : U32) (s : S8) : reg8 (p43_7 w k s) = step 4 3 (reg7 s) w k := by
  unfold p43_7
  rw [rotl25, rotl21, F3_eq]; rfl
theorem p44_0_eq (w k : U32) (s : S8) : reg1 (p44_0 w k s) = step 4 4 (reg0 s) w k := by
  unfold p44_0
  rw [rotl25, rotl21, F4_eq]; rfl
theorem p44_1_eq (w k : U32) (s : S8) : reg2 (p44_1 w k s) = step 4 4 (reg1 s) w k := by
  unfold p44_1
  rw [rotl25, rotl21, F4_eq]; rfl
theorem p44_2_eq (w k : U32) (s : S8) : reg3 (p44_2 w k s) = step 4 4 (reg2 s) w k := by
  unfold p44_2
  rw [rotl25, rotl21, F4_eq]; rfl
theorem p44_3_eq (w k : U32) (s : S8) : reg4 (p44_3 w k s) = step 4 4 (reg3 s) w k := by
  unfold p44_3
  rw [rotl25, rotl21, F4_eq]; rfl
theorem p44_4_eq (w k : U32) (s : S8) : reg5 (p44_4 w k s) = step 4 4 (reg4 s) w k := by
  unfold p44_4
  rw [rotl25, rotl21, F4_eq]; rfl
theorem p44_5_eq (w k : U32) (s : S8) : reg6 (p44_5 w k s) = step 4 4 (reg5 s) w k := by
  unfold p44_5
  rw [rotl25, rotl21, F4_eq]; rfl
theorem p44_6_eq (w k : U32) (s : S8) : reg7 (p44_6 w k s) = step 4 4 (reg6 s) w k := by
  unfold p44_6
  rw [rotl25, rotl21, F4_eq]; rfl
theorem p44_7_eq (w k : U32) (s : S8) : reg8 (p44_7 w k s) = step 4 4 (reg7 s) w k := by
  unfold p44_7
  rw [rotl25, rotl21, F4_eq]; rfl
theorem p51_0_eq (w : U32) (s : S8) : reg1 (p51_0 w s) = step 5 1 (reg0 s) w 0 := by
  unfold p51_0 step
  rw [rotl25, rotl21, F1_eq]
  dsimp only
  rw [show ∀ a : U32, a + 0 = a from fun a => BitVec.add_zero a]; rfl
theorem p51_1_eq (w : U32) (s : S8) : reg2 (p51_1 w s) = step 5 1 (reg1 s) w 0 := by
  unfold p51_1 step
  rw [rotl25, rotl21, F1_eq]
  dsimp only
  rw [show ∀ a : U32, a + 0 = a from fun a => BitVec.add_zero a]; rfl
theorem p51_2_eq (w : U32) (s : S8) : reg3 (p51_2 w s) = step 5 1 (reg2 s) w 0 := by
  unfold p51_2 step
  rw [rotl25, rotl21, F1_eq]
  dsimp only
  rw [show ∀ a : U32, a + 0 = a from fun a => BitVec.add_zero a]; rfl
theorem p51_3_eq (w : U32) (s : S8) : reg4 (p51_3 w s) = step 5 1 (reg3 s) w 0 := by
  unfold p51_3 step
  rw [rotl25, rotl21, F1_eq]
  dsimp only
  rw [show ∀ a : U32, a + 0 = a from fun a => BitVec.add_zero a]; rfl
theorem p51_4_eq (w : U32) (s : S8) : reg5 (p51_4 w s) = step 5 1 (reg4 s) w 0 := by
  unfold p51_4 step
  rw [rotl25, rotl21, F1_eq]
  dsimp only
  rw [show ∀ a : U32, a + 0 = a from fun a => BitVec.add_zero a]; rfl
theorem p51_5_eq (w : U32) (s : S8) : reg6 (p51_5 w s) = step 5 1 (reg5 s) w 0 := by
  unfold p51_5 step
  rw [rotl25, rotl21, F1_eq]
  dsimp only
  rw [show ∀ a : U32, a + 0 = a from fun a => BitVec.add_zero a]; rfl
theorem p51_6_eq (w : U32) (s : S8) : reg7 (p51_6 w s) = step 5 1 (reg6 s) w 0 := by
  unfold p51_6 step
  rw [rotl25, rotl21, F1_eq]
  dsimp only
  rw [show ∀ a : U32, a + 0 = a from fun a => BitVec.add_zero a]; rfl
theorem p51_7_eq (w : U32) (s : S8) : reg8 (p51_7 w s) = step 5 1 (reg7 s) w 0 := by
  unfold p51_7 step
  rw [rotl25, rotl21, F1_eq]
  dsimp only
  rw [show ∀ a : U32, a + 0 = a from fun a => BitVec.add_zero a]; rfl
theorem p52_0_eq (w k : U32) (s : S8) : reg1 (p52_0 w k s) = step 5 2 (reg0 s) w k := by
  unfold p52_0
  rw [rotl25, rotl21, F2_eq]; rfl
theorem p52_1_eq (w k : U32) (s : S8) : reg2 (p52_1 w k s) = step 5 2 (reg1 s) w k := by
  unfold p52_1
  rw [rotl25, rotl21, F2_eq]; rfl
theorem p52_2_eq (w k : U32) (s : S8) : reg3 (p52_2 w k s) = step 5 2 (reg2 s) w k := by
  unfold p52_2
  rw [rotl25, rotl21, F2_eq]; rfl
theorem p52_3_eq (w k : U32) (s : S8) : reg4 (p52_3 w k s) = step 5 2 (reg3 s) w k := by
  unfold p52_3
  rw [rotl25, rotl21, F2_eq]; rfl
theorem p52_4_eq (w k : U32) (s : S8) : reg5 (p52_4 w k s) = step 5 2 (reg4 s) w k := by
  unfold p52_4
  rw [rotl25, rotl21, F2_eq]; rfl
theorem p52_5_eq (w k : U32) (s : S8) : reg6 (p52_5 w k s) = step 5 2 (reg5 s) w k := by
  unfold p52_5
  rw [rotl25, rotl21, F2_eq]; rfl
theorem p52_6_eq (w k : U32) (s : S8) : reg7 (p52_6 w k s) = step 5 2 (reg6 s) w k := by
  unfold p52_6
  rw [rotl25, rotl21, F2_eq]; rfl
theorem p52_7_eq (w k : U32) (s : S8) : reg8 (p52_7 w k s) = step 5 2 (reg7 s) w k := by
  unfold p52_7
  rw [rotl25, rotl21, F2_eq]; rfl
theorem p53_0_eq (w k : U32) (s : S8) : reg1 (p53_0 w k s) = step 5 3 (reg0 s) w k := by
  unfold p53_0
  rw [rotl25, rotl21, F3_eq]; rfl
theorem p53_1_eq (w k : U32) (s : S8) : reg2 (p53_1 w k s) = step 5 3 (reg1 s) w k := by
  unfold p53_1
  rw [rotl25, rotl21, F3_eq]; rfl
theorem p53_2_eq (w k : U32) (s : S8) : reg3 (p53_2 w k s) = step 5 3 (reg2 s) w k := by
  unfold p53_2
  rw [rotl25, rotl21, F3_eq]; rfl
theorem p53_3_eq (w k : U32) (s : S8) : reg4 (p53_3 w k s) = step 5 3 (reg3 s) w k := by
  unfold p53_3
  rw [rotl25, rotl21, F3_eq]; rfl
theorem p53_4_eq (w k : U32) (s : S8) : reg5 (p53_4 w k s) = step 5 3 (reg4 s) w k := by
  unfold p53_4
  rw [rotl25, rotl21, F3_eq]; rfl
theorem p53_5_eq (w k : U32) (s : S8) : reg6 (p53_5 w k s) = step 5 3 (reg5 s) w k := by
  unfold p53_5
  rw [rotl25, rotl21, F3_eq]; rfl
theorem p53_6_eq (w k : U32) (s : S8) : reg7 (p53_6 w k s) = step 5 3 (reg6 s) w k := by
  unfold p53_6
  rw [rotl25, rotl21, F3_eq]; rfl
theorem p53_7_eq (w k : U32) (s : S8) : reg8 (p53_7 w k s) = step 5 3 (reg7 s) w k := by
  unfold p53_7
  rw [rotl25, rotl21, F3_eq]; rfl
theorem p54_0_eq (w k : U32) (s : S8) : reg1 (p54_0 w k s) = step 5 4 (reg0 s) w k := by
  unfold p54_0
  rw [rotl25, rotl21, F4_eq]; rfl
theorem p54_1_eq (w k : U32) (s : S8) : reg2 (p54_1 w k s) = step 5 4 (reg1 s) w k := by
  unfold p54_1
  rw [rotl25, rotl21, F4_eq]; rfl
theorem p54_2_eq (w k : U32) (s : S8) : reg3 (p54_2 w k s) = step 5 4 (reg2 s) w k := by
  unfold p54_2
  rw [rotl25, rotl21, F4_eq]; rfl
theorem p54_3_eq (w k : U32) (s : S8) : reg4 (p54_3 w k s) = step 5 4 (reg3 s) w k := by
  unfold p54_3
  rw [rotl25, rotl21, F4_eq]; rfl
theorem p54_4_eq (w k : U32) (s : S8) : reg5 (p54_4 w k s) = step 5 4 (reg4 s) w k := by
  unfold p54_4
  rw [rotl25, rotl21, F4_eq]; rfl
theorem p54_5_eq (w k : U32) (s : S8) : reg6 (p54_5 w k s) = step 5 4 (reg5 s) w k := by
  unfold p54_5
  rw [rotl25, rotl21, F4_eq]; rfl
theorem p54_6_eq (w k : U32) (s : S8) : reg7 (p54_6 w k s) = step 5 4 (reg6 s) w k := by
  unfold p54_6
  rw [rotl25, rotl21, F4_eq]; rfl
theorem p54_7_eq (w k : U32) (s : S8) : reg8 (p54_7 w k s) = step 5 4 (reg7 s) w k := by
  unfold p54_7
  rw [rotl25, rotl21, F4_eq]; rfl
theorem p55_0_eq (w k : U32) (s : S8) : reg1 (p55_0 w k s) = step 5 5 (reg0 s) w k := by
  unfold p55_0
  rw [rotl25, rotl21, F5_eq]; rfl
theorem p55_1_eq (w k : U32) (s : S8) : reg2 (p55_1 w k s) = step 5 5 (reg1 s) w k := by
  unfold p55_1
  rw [rotl25, rotl21, F5_eq]; rfl
theorem p55_2_eq (w k : U32) (s : S8) : reg3 (p55_2 w k s) = step 5 5 (reg2 s) w k := by
  unfold p55_2
  rw [rotl25, rotl21, F5_eq]; rfl
theorem p55_3_eq (w k : U32) (s : S8) : reg4 (p55_3 w k s) = step 5 5 (reg3 s) w k := by
  unfold p55_3
  rw [rotl25, rotl21, F5_eq]; rfl
theorem p55_4_eq (w k : U32) (s : S8) : reg5 (p55_4 w k s) = step 5 5 (reg4 s) w k := by
  unfold p55_4
  rw [rotl25, rotl21, F5_eq]; rfl
theorem p55_5_eq (w k : U32) (s : S8) : reg6 (p55_5 w k s) = step 5 5 (reg5 s) w k := by
  unfold p55_5
  rw [rotl25, rotl21, F5_eq]; rfl
theorem p55_6_eq (w k : U32) (s : S8) : reg7 (p55_6 w k s) = step 5 5 (reg6 s) w k := by
  unfold p55_6
  rw [rotl25, rotl21, F5_eq]; rfl
theorem p55_7_eq (w k : U32) (s : S8) : reg8 (p55_7 w k s) = step 5 5 (reg7 s) w k := by
  unfold p55_7
  rw [rotl25, rotl21, F5_eq]; rfl

theorem group8 {σ} (g : σ → Nat → σ) (T : σ) : (List.range 32).foldl g T =
    [0, 8, 16, 24].foldl (fun T i => g (g (g (g (g (g (g (g T (i + 0)) (i + 1)) (i + 2)) (i + 3)) (i + 4)) (i + 5)) (i + 6)) (i + 7)) T := rfl

theorem fold_reg (F : S8 → Nat → S8) (G : Reg → Nat → Reg) (l : List Nat) (h : ∀ i ∈ l, ∀ s, reg0 (F s i) = G (reg0 s) i) (s : S8) : reg0 (l.foldl F s) = l.foldl G (reg0 s) := by
  induction l generalizing s with
  | nil => rfl
  | cons a l ih => rw [List.foldl_cons, List.foldl_cons, ih (fun i hi => h i (List.mem_cons_of_mem _ hi)), h a List.mem_cons_self]

theorem ord1 (i : Nat) (h : i < 32) : (Spec.Haval.ord 1).getD i 0 = i := by
  interval_cases i <;> rfl
theorem K1 (i : Nat) : (Spec.Haval.K 1).getD i 0 = 0 := by
  show (List.replicate 32 (0 : U32)).getD i 0 = 0
  rw [List.getD_eq_getElem?_getD, List.getElem?_replicate]
  split <;> rfl

theorem pass31_eq (inw : List U32) (s : S8) : reg0 (pass31 inw s) = Spec.Haval.pass 3 1 (fun i => inw.getD i 0) (reg0 s) := by
  unfold pass31 Spec.Haval.pass
  rw [group8]
  apply fold_reg
  intro i hi s
  dsimp only
  show reg8 _ = _
  rw [p31_7_eq, p31_6_eq, p31_5_eq, p31_4_eq, p31_3_eq, p31_2_eq, p31_1_eq, p31_0_eq]
  have hi : i < 25 := by simp at hi; omega
  rw [ord1 (i + 0) (by omega), ord1 (i + 1) (by omega), ord1 (i + 2) (by omega), ord1 (i + 3) (by omega), ord1 (i + 4) (by omega), ord1 (i + 5) (by omega), ord1 (i + 6) (by omega), ord1 (i + 7) (by omega)]
  simp only [K1]
theorem pass32_eq (inw : List U32) (s : S8) : reg0 (pass32 inw s) = Spec.Haval.pass 3 2 (fun i => inw.getD i 0) (reg0 s) := by
  unfold pass32 Spec.Haval.pass
  rw [group8]
  apply fold_reg
  intro i hi s
  dsimp only
  show reg8 _ = _
  rw [p32_7_eq, p32_6_eq, p32_5_eq, p32_4_eq, p32_3_eq, p32_2_eq, p32_1_eq, p32_0_eq]
  rfl
theorem pass33_eq (inw : List U32) (s : S8) : reg0 (pass33 inw s) = Spec.Haval.pass 3 3 (fun i => inw.getD i 0) (reg0 s) := by
  unfold pass33 Spec.Haval.pass
  rw [group8]
  apply fold_reg
  intro i hi s
  dsimp only
  show reg8 _ = _
  rw [p33_7_eq, p33_6_eq, p33_5_eq, p33_4_eq, p33_3_eq, p33_2_eq, p33_1_eq, p33_0_eq]
  rfl
theorem pass41_eq (inw : List U32) (s : S8) : reg0 (pass41 inw s) = Spec.Haval.pass 4 1 (fun i => inw.getD i 0) (reg0 s) := by
  unfold pass41 Spec.Haval.pass
  rw [group8]
  apply fold_reg
  intro i hi s
  dsimp only
  show reg8 _ = _
  rw [p41_7_eq, p41_6_eq, p41_5_eq, p41_4_eq, p41_3_eq, p41_2_eq, p41_1_eq, p41_0_eq]
  have hi : i < 25 := by simp at hi; omega
  rw [ord1 (i + 0) (by omega), ord1 (i + 1) (by omega), ord1 (i + 2) (by omega), ord1 (i + 3) (by omega), ord1 (i + 4) (by omega), ord1 (i + 5) (by omega), ord1 (i + 6) (by omega), ord1 (i + 7) (by omega)]
  simp only [K1]
theorem pass42_eq (inw : List U32) (s : S8) : reg0 (pass42 inw s) = Spec.Haval.pass 4 2 (fun i => inw.getD i 0) (reg0 s) := by
  unfold pass42 Spec.Haval.pass
  rw [group8]
  apply fold_reg
  intro i hi s
  dsimp only
  show reg8 _ = _
  rw [p42_7_eq, p42_6_eq, p42_5_eq, p42_4_eq, p42_3_eq, p42_2_eq, p42_1_eq, p42_0_eq]
  rfl
theorem pass43_eq (inw : List U32) (s : S8) : reg0 (pass43 inw s) = Spec.Haval.pass 4 3 (fun i => inw.getD i 0) (reg0 s) := by
  unfold pass43 Spec.Haval.pass
  rw [group8]
  apply fold_reg
  intro i hi s
  dsimp only
  show reg8 _ = _
  rw [p43_7_eq, p43_6_eq, p43_5_eq, p43_4_eq, p43_3_eq, p43_2_eq, p43_1_eq, p43_0_eq]
  rfl
theorem pass44_eq (inw : List U32) (s : S8) : reg0 (pass44 inw s) = Spec.Haval.pass 4 4 (fun i => inw.getD i 0) (reg0 s) := by
  unfold pass44 Spec.Haval.pass
  rw [group8]
  apply fold_reg
  intro i hi s
  dsimp only
  show reg8 _ = _
  rw [p44_7_eq, p44_6_eq, p44_5_eq, p44_4_eq, p44_3_eq, p44_2_eq, p44_1_eq, p44_0_eq]
  rfl
theorem pass51_eq (inw : List U32) (s : S8) : reg0 (pass51 inw s) = Spec.Haval.pass 5 1 (fun i => inw.getD i 0) (reg0 s) := by
  unfold pass51 Spec.Haval.pass
  rw [group8]
  apply fold_reg
  intro i hi s
  dsimp only
  show reg8 _ = _
  rw [p51_7_eq, p51_6_eq, p51_5_eq, p51_4_eq, p51_3_eq, p51_2_eq, p51_1_eq, p51_0_eq]
  have hi : i < 25 := by simp at hi; omega
  rw [ord1 (i + 0) (by omega), ord1 (i + 1) (by omega), ord1 (i + 2) (by omega), ord1 (i + 3) (by omega), ord1 (i + 4) (by omega), ord1 (i + 5) (by omega), ord1 (i + 6) (by omega), ord1 (i + 7) (by omega)]
  simp only [K1]
theorem pass52_eq (inw : List U32) (s : S8) : reg0 (pass52 inw s) = Spec.Haval.pass 5 2 (fun i => inw.getD i 0) (reg0 s) := by
  unfold pass52 Spec.Haval.pass
  rw [group8]
  apply fold_reg
  intro i hi s
  dsimp only
  show reg8 _ = _
  rw [p52_7_eq, p52_6_eq, p52_5_eq, p52_4_eq, p52_3_eq, p52_2_eq, p52_1_eq, p52_0_eq]
  rfl
theorem pass53_eq (inw : List U32) (s : S8) : reg0 (pass53 inw s) = Spec.Haval.pass 5 3 (fun i => inw.getD i 0) (reg0 s) := by
  unfold pass53 Spec.Haval.pass
  rw [group8]
  apply fold_reg
  intro i hi s
  dsimp only
  show reg8 _ = _
  rw [p53_7_eq, p53_6_eq, p53_5_eq, p53_4_eq, p53_3_eq, p53_2_eq, p53_1_eq, p53_0_eq]
  rfl
theorem pass54_eq (inw : List U32) (s : S8) : reg0 (pass54 inw s) = Spec.Haval.pass 5 4 (fun i => inw.getD i 0) (reg0 s) := by
  unfold pass54 Spec.Haval.pass
  rw [group8]
  apply fold_reg
  intro i hi s
  dsimp only
  show reg8 _ = _
  rw [p54_7_eq, p54_6_eq, p54_5_eq, p54_4_eq, p54_3_eq, p54_2_eq, p54_1_eq, p54_0_eq]
  rfl
theorem pass55_eq (inw : List U32) (s : S8) : reg0 (pass55 inw s) = Spec.Haval.pass 5 5 (fun i => inw.getD i 0) (reg0 s) := by
  unfold pass55 Spec.Haval.pass
  rw [group8]
  apply fold_reg
  intro i hi s
  dsimp only
  show reg8 _ = _
  rw [p55_7_eq, p55_6_eq, p55_5_eq, p55_4_eq, p55_3_eq, p55_2_eq, p55_1_eq, p55_0_eq]
  rfl

end Verif.Haval
