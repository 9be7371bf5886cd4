import Verif.Spec.SHA0
import Verif.Model.SHA0
import Verif.Bits
/-
Lemmas connecting the sha0 model with FIPS 180.
-/
namespace Verif.SHA0
open Verif.Spec

/-- The regular pattern behind the 80 unrolled groups. -/
def pat (j : Nat) : Instr :=
  ⟨j % 16, if j < 16 then .load (4 * j) else .mix ((j+13) % 16) ((j+8) % 16) ((j+2) % 16) (j % 16),
   (4 + 4*j) % 5, (4*j) % 5, (1 + 4*j) % 5, (2 + 4*j) % 5, (3 + 4*j) % 5,
   if j < 20 then 0 else if j < 40 then 1 else if j < 60 then 2 else 1, j / 20⟩

theorem prog_pat : ∀ j, j < 80 → prog.getD j ⟨0, .load 0, 0, 0, 0, 0, 0, 0, 0⟩ = pat j := by
  decide +kernel

theorem fn_pat (j : Nat) (b c d : U32) : fn (pat j).f b c d = SHA0.f j b c d := by
  simp only [pat, SHA0.f]
  split
  · rfl
  · split
    · rfl
    · split <;> rfl

theorem sbox_pat (j : Nat) (h : j < 80) : sbox.getD (j / 20) 0 = SHA0.K j := by
  unfold SHA0.K
  split
  · rw [show j / 20 = 0 by omega]; rfl
  · split
    · rw [show j / 20 = 1 by omega]; rfl
    · split
      · rw [show j / 20 = 2 by omega]; rfl
      · rw [show j / 20 = 3 by omega]; rfl

/-- Registers and schedule after `j` groups. -/
structure Inv (data : Bytes) (r0 : SHA0.Reg) (j : Nat) (st : List U32 × List U32) : Prop where
  hl : st.1.length = 5
  wl : st.2.length = 16
  A : st.1.getD ((4*j) % 5) 0 = (SHA0.steps data r0 j).A
  B : st.1.getD ((1 + 4*j) % 5) 0 = (SHA0.steps data r0 j).B
  C : st.1.getD ((2 + 4*j) % 5) 0 = (SHA0.steps data r0 j).C
  D : st.1.getD ((3 + 4*j) % 5) 0 = (SHA0.steps data r0 j).D
  E : st.1.getD ((4 + 4*j) % 5) 0 = (SHA0.steps data r0 j).E
  w : ∀ t, t < j → j ≤ t + 16 → st.2.getD (t % 16) 0 = SHA0.W data t

theorem exec_inv (data : Bytes) (r0 : SHA0.Reg) (j : Nat) (hj : j < 80)
    (st : List U32 × List U32) (h : Inv data r0 j st) : Inv data r0 (j+1) (exec data st (pat j)) := by
  obtain ⟨hh, W⟩ := st
  have hw : (pat j).src.val data W = SHA0.W data j := by
    rw [SHA0.W]
    simp only [pat]
    by_cases h16 : j < 16
    · simp only [h16, if_true, WSrc.val]
    · simp only [h16, if_false, WSrc.val]
      have h1 := h.w (j-3) (by omega) (by omega)
      have h2 := h.w (j-8) (by omega) (by omega)
      have h3 := h.w (j-14) (by omega) (by omega)
      have h4 := h.w (j-16) (by omega) (by omega)
      simp only at h1 h2 h3 h4
      rw [show (j+13) % 16 = (j-3) % 16 by omega, show (j+8) % 16 = (j-8) % 16 by omega,
        show (j+2) % 16 = (j-14) % 16 by omega, show j % 16 = (j-16) % 16 by omega, h1, h2, h3, h4]
  have hA := h.A; have hB := h.B; have hC := h.C; have hD := h.D; have hE := h.E
  have hl := h.hl; have wl := h.wl
  simp only at hA hB hC hD hE hl wl
  unfold exec
  simp only [hw, fn_pat]
  simp only [pat, hA, hB, hC, hD, hE, sbox_pat j hj]
  constructor
  · simpa using hl
  · simpa using wl
  · simp only [getD_set, List.length_set, hl]
    rw [if_neg (by omega), if_pos (by omega)]; rfl
  · simp only [getD_set, List.length_set, hl]
    rw [if_neg (by omega), if_neg (by omega), show (1 + 4*(j+1)) % 5 = (4*j) % 5 by omega, hA]; rfl
  · simp only [getD_set, List.length_set, hl]
    rw [if_pos (by omega)]; rfl
  · simp only [getD_set, List.length_set, hl]
    rw [if_neg (by omega), if_neg (by omega), show (3 + 4*(j+1)) % 5 = (2 + 4*j) % 5 by omega, hC]; rfl
  · simp only [getD_set, List.length_set, hl]
    rw [if_neg (by omega), if_neg (by omega), show (4 + 4*(j+1)) % 5 = (3 + 4*j) % 5 by omega, hD]; rfl
  · intro t ht1 ht2
    simp only [getD_set, wl]
    by_cases e : t = j
    · subst e; rw [if_pos (by omega)]
    · rw [if_neg (by omega)]; exact h.w t (by omega) (by omega)

/-- The registers as the five-element array of the code. -/
def toReg (s : List U32) : SHA0.Reg := ⟨s.getD 0 0, s.getD 1 0, s.getD 2 0, s.getD 3 0, s.getD 4 0⟩

theorem processBlock_eq (s : List U32) (data : Bytes) :
    toReg (processBlock s data) = SHA0.compress (toReg s) data := by
  have h : Inv data (toReg s) 80 (prog.foldl (exec data)
      ([s.getD 0 0, s.getD 1 0, s.getD 2 0, s.getD 3 0, s.getD 4 0], List.replicate 16 0#32)) := by
    rw [foldl_eq_forLoop prog ⟨0, .load 0, 0, 0, 0, 0, 0, 0, 0⟩]
    refine forLoop_inv (a := 0) (b := 80) (Inv data (toReg s)) (by omega) ?_ ?_
    · constructor <;> first | rfl | (intro t ht; omega)
    · intro j st _ hj ih
      rw [prog_pat j hj]
      exact exec_inv data _ j hj st ih
  obtain ⟨hl, _, A, B, C, D, E, _⟩ := h
  unfold processBlock SHA0.compress
  simp only
  rw [← A, ← B, ← C, ← D, ← E]
  rfl

theorem foldl_processBlock (l : List Bytes) (s : List U32) :
    toReg (l.foldl processBlock s) = l.foldl SHA0.compress (toReg s) := by
  induction l generalizing s with
  | nil => rfl
  | cons b l ih => rw [List.foldl_cons, List.foldl_cons, ih, processBlock_eq]

theorem checkSum_eq (d : Digest) (m : Bytes) (h : d.Repr 64 processBlock initVal m) :
    checkSum d = SHA0.hash m := by
  have hnx := h.buf.nx_lt (by omega)
  have hnm := h.buf.nx_eq
  have hle : d.nx + 1 ≤ (d.nx + 8 + 64) / 64 * 64 - 8 := by omega
  have h1 := h.absorb (by omega) [0x80#8]
  have h2 := h1.absorb_zeros (by omega) (d.nx + 1) ((d.nx + 8 + 64) / 64 * 64 - 8) hle
  have hcount : be32 (((d.len * 8) >>> 32).setWidth 32) ++ be32 ((d.len * 8).setWidth 32) =
      be64 (BitVec.ofNat 64 (8 * m.length)) := by
    rw [h.len_eq, be64_ofNat]
    congr 2
    · apply BitVec.eq_of_toNat_eq
      simp [Nat.shiftRight_eq_div_pow]; omega
    · apply BitVec.eq_of_toNat_eq
      simp; omega
  have h3 := h2.absorb (by omega) (be64 (BitVec.ofNat 64 (8 * m.length)))
  have hz : m ++ [0x80#8] ++ zeros ((d.nx + 8 + 64) / 64 * 64 - 8 - (d.nx + 1)) ++
      be64 (BitVec.ofNat 64 (8 * m.length)) = SHA0.pad m := by
    have : (d.nx + 8 + 64) / 64 * 64 - 8 - (d.nx + 1) = (64 - (m.length + 1 + 8) % 64) % 64 := by
      omega
    rw [this]
    simp [SHA0.pad, mdPad]
  rw [hz] at h3
  have hs := h3.buf.state
  unfold checkSum
  simp only [write, hcount]
  have key := foldl_processBlock (fullBlocks 64 (SHA0.pad m)) initVal
  rw [← hs] at key
  have h0 : toReg initVal = SHA0.H0 := rfl
  rw [h0] at key
  unfold SHA0.hash
  simp only
  rw [← key]
  rfl

end Verif.SHA0
