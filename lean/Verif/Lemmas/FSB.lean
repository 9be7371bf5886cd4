import Verif.Model.FSB
import Verif.Spec.FSB
import Verif.LoopBuf
import Verif.Lemmas.Whirlpool
/-
FSB: the buffer.
-/
namespace Verif.FSB

/-- The properties of the parameter sets that the proofs use. -/
structure Good (c : Cfg) : Prop where
  r32 : c.r % 32 = 0
  rw' : c.r = 8 * c.w
  rpos : 0 < c.r
  bfm : c.bfm = 5 ∨ c.bfm = 6
  bpc : c.bpc = 8 + c.bfm
  nw : c.n = c.w * 2 ^ c.bpc
  nr : c.n = c.b * c.r
  inp : c.inputsize = c.w * c.bfm
  inp8 : c.inputsize % 8 = 0
  inpmin : 80 ≤ c.inputsize
  inpmax : c.inputsize < 2048
  pr : c.r < c.p
  p8 : c.p % 8 ≠ 0

theorem parameters_good : ∀ c ∈ parameters, Good c := by
  intro c hc
  have : c = ⟨48, 3 <<< 17, 24, 192, 197⟩ ∨ c = ⟨160, 5 <<< 18, 80, 640, 653⟩ ∨ c = ⟨224, 7 <<< 18, 112, 896, 907⟩ ∨ c = ⟨256, 1 <<< 21, 1 <<< 7, 1 <<< 10, 1061⟩ ∨
      c = ⟨384, 23 <<< 16, 184, 1472, 1483⟩ ∨ c = ⟨512, 31 <<< 16, 248, 1984, 1987⟩ := by
    simpa [parameters] using hc
  rcases this with rfl | rfl | rfl | rfl | rfl | rfl <;> constructor <;> decide +kernel

/-- Bytes of message per compression. -/
def Cfg.B (c : Cfg) : Nat := c.inputsize / 8

/-- The compression function as performHash computes it. -/
def comp (pi : Nat → Byte) (c : Cfg) (s blk : Bytes) : Bytes :=
  uintsToBytes (forLoop 0 c.w (hashStep pi c s blk) (List.replicate (c.r / 32) 0))

theorem hashStep_length (pi : Nat → Byte) (c : Cfg) (s blk : Bytes) (ns : List U32) (i : Nat) : (hashStep pi c s blk ns i).length = ns.length := by
  unfold hashStep
  dsimp only
  refine forLoop_inv (P := fun _ (x : List U32) => x.length = ns.length) (Nat.zero_le _) rfl ?_
  intro k s _ _ hs
  rw [List.length_set]; exact hs

theorem uintsToBytes_length (w : List U32) : (uintsToBytes w).length = 4 * w.length := by
  unfold uintsToBytes
  induction w with
  | nil => rfl
  | cons a l ih => rw [List.flatMap_cons, List.length_append, ih]; simp [be32]; omega

theorem comp_length (pi : Nat → Byte) (c : Cfg) (hg : Good c) (s blk : Bytes) : (comp pi c s blk).length = c.r / 8 := by
  unfold comp
  rw [uintsToBytes_length]
  have : (forLoop 0 c.w (hashStep pi c s blk) (List.replicate (c.r / 32) 0)).length = c.r / 32 := by
    refine forLoop_inv (P := fun _ (x : List U32) => x.length = c.r / 32) (Nat.zero_le _) (by simp) ?_
    intro k s _ _ hs
    rw [hashStep_length]; exact hs
  rw [this]
  have := hg.r32
  omega

structure Rep (pi : Nat → Byte) (c : Cfg) (d : Digest) (m : Bytes) : Prop where
  syn : d.syndrome = (fullBlocks c.B m).foldl (comp pi c) (zeros (c.r / 8))
  synl : d.syndrome.length = c.r / 8
  ns : d.newSyndrome.length = c.r / 32
  bl : d.buffer.length = c.B
  cnt : d.count = BitVec.ofNat 32 (8 * (restBlock c.B m).length)
  pend : d.buffer.take (restBlock c.B m).length = restBlock c.B m

variable {pi : Nat → Byte} {c : Cfg}

theorem reset_rep (hg : Good c) : Rep pi c (reset c) [] := by
  have hr := hg.r32
  have hp := hg.rpos
  have hL : LUI c.r = c.r / 32 := by unfold LUI; simp only [Nat.reduceShiftLeft]; omega
  refine ⟨?_, ?_, ?_, ?_, ?_, ?_⟩
  · show zeros (LUI c.r * 4) = _
    rw [hL, show c.r / 32 * 4 = c.r / 8 by omega, fullBlocks_nil]; rfl
  · show (zeros (LUI c.r * 4)).length = _; rw [zeros_length, hL]; omega
  · show (List.replicate (LUI c.r) 0).length = _; rw [List.length_replicate, hL]
  · show (zeros (c.inputsize >>> 3)).length = _; rw [zeros_length, Nat.shiftRight_eq_div_pow]; rfl
  · simp [restBlock]; rfl
  · simp [restBlock]

theorem and7 (n : Nat) : (BitVec.ofNat 32 (8 * n)) &&& 7 = (0 : U32) := by
  apply BitVec.eq_of_toNat_eq
  rw [BitVec.toNat_and, BitVec.toNat_ofNat]
  rw [show (7 : U32).toNat = 2 ^ 3 - 1 from rfl, Nat.and_two_pow_sub_one_eq_mod]
  show _ = 0
  omega

theorem writeBits_rep (hg : Good c) (fuel : Nat) : ∀ (d : Digest) (m data : Bytes) (nb : Nat), Rep pi c d m → 8 * nb + 2048 ≤ 2 ^ 32 → nb ≤ data.length → nb < fuel →
    ∃ d', d.writeBits pi c fuel data (BitVec.ofNat 32 (8 * nb)) = some d' ∧ Rep pi c d' (m ++ data.take nb) ∧ d'.databitlen = d.databitlen + BitVec.ofNat 64 (8 * nb) := by
  induction fuel with
  | zero => intros; omega
  | succ fuel ih =>
    intro d m data nb h hov hd hf
    obtain ⟨hsyn, hsl, hns, hbl, hcnt, hp⟩ := h
    have hi8 := hg.inp8
    have him := hg.inpmax
    have hin := hg.inpmin
    have hB0 : 0 < c.B := by unfold Cfg.B; omega
    have hIB : c.inputsize = 8 * c.B := by unfold Cfg.B; omega
    have hrl : (restBlock c.B m).length < c.B := by rw [restBlock_length]; exact Nat.mod_lt _ hB0
    have hBm : c.B < 256 := by omega
    generalize hnx : (restBlock c.B m).length = nx at *
    have hct : d.count.toNat = 8 * nx := by rw [hcnt, BitVec.toNat_ofNat, Nat.mod_eq_of_lt (by simp only [Nat.reducePow]; omega)]
    have hsh : (d.count >>> 3).toNat = nx := by rw [BitVec.toNat_ushiftRight, hct, Nat.shiftRight_eq_div_pow]; omega
    have hnb : (BitVec.ofNat 32 (8 * nb)).toNat = 8 * nb := by rw [BitVec.toNat_ofNat, Nat.mod_eq_of_lt (by simp only [Nat.reducePow] at *; omega)]
    have hI : (BitVec.ofNat 32 c.inputsize).toNat = 8 * c.B := by rw [BitVec.toNat_ofNat, Nat.mod_eq_of_lt (by simp only [Nat.reducePow]; omega), hIB]
    have hc7 : d.count &&& 7 = 0 := by rw [hcnt]; exact and7 _
    have hlt : (BitVec.ofNat 32 (8 * nb) + d.count < BitVec.ofNat 32 c.inputsize) ↔ nb + nx < c.B := by
      rw [BitVec.lt_def, BitVec.toNat_add, hnb, hct, hI, Nat.mod_eq_of_lt (by simp only [Nat.reducePow] at *; omega)]; omega
    have htkl : (data.take nb).length = nb := by rw [List.length_take]; omega
    obtain ⟨e1, e2⟩ := K12.fullBlocks_rest m (data.take nb) c.B hB0
    unfold Digest.writeBits
    by_cases hc : nb + nx < c.B
    · rw [if_pos (hlt.2 hc), if_pos hc7]
      refine ⟨_, rfl, ?_, ?_⟩
      · have hl : (restBlock c.B m ++ data.take nb).length < c.B := by rw [List.length_append, htkl]; omega
        rw [fullBlocks_lt _ _ hl, List.append_nil] at e1
        rw [restBlock_lt _ _ hl] at e2
        have hlen2 : (restBlock c.B (m ++ data.take nb)).length = nx + nb := by rw [e2, List.length_append, htkl, hnx]
        have hbuf : (if BitVec.ofNat 32 (8 * nb) > 0 then goCopy d.buffer (d.count >>> 3).toNat (data.take (((BitVec.ofNat 32 (8 * nb) - 1) >>> 3).toNat + 1)) else d.buffer) =
            goCopy d.buffer nx (data.take nb) := by
          rw [hsh]
          by_cases h0 : nb = 0
          · subst h0
            rw [if_neg (by decide)]
            unfold goCopy
            simp
          · have hgt : BitVec.ofNat 32 (8 * nb) > 0 := by rw [gt_iff_lt, BitVec.lt_def, hnb]; show 0 < _; omega
            rw [if_pos hgt]
            have : ((BitVec.ofNat 32 (8 * nb) - 1) >>> 3).toNat = nb - 1 := by
              rw [BitVec.toNat_ushiftRight, BitVec.toNat_sub_of_le (by rw [BitVec.le_def, hnb]; show 1 ≤ _; omega), hnb, Nat.shiftRight_eq_div_pow]
              show (8 * nb - 1) / 2 ^ 3 = _
              omega
            rw [this, show nb - 1 + 1 = nb by omega]
        rw [hbuf]
        refine ⟨?_, hsl, hns, ?_, ?_, ?_⟩
        · rw [e1]; exact hsyn
        · dsimp only; rw [goCopy_length _ _ _ (by omega)]; exact hbl
        · dsimp only
          rw [hlen2, hcnt, ← BitVec.ofNat_add, Nat.mul_add]
        · dsimp only
          rw [hlen2, e2]
          have := goCopy_take d.buffer nx (data.take nb) (by rw [htkl]; omega)
          rw [htkl] at this
          rw [this, hp]
      · dsimp only
        congr 1
        apply BitVec.eq_of_toNat_eq
        rw [BitVec.toNat_setWidth, hnb, BitVec.toNat_ofNat]
    · rw [if_neg (fun h => hc (hlt.1 h)), if_pos hc7]
      dsimp only
      have htmp : (BitVec.ofNat 32 c.inputsize - d.count).toNat = 8 * (c.B - nx) := by
        rw [BitVec.toNat_sub_of_le (by rw [BitVec.le_def, hct, hI]; omega), hI, hct]; omega
      have hts : ((BitVec.ofNat 32 c.inputsize - d.count) >>> 3).toNat = c.B - nx := by
        rw [BitVec.toNat_ushiftRight, htmp, Nat.shiftRight_eq_div_pow]; omega
      have hsub : BitVec.ofNat 32 (8 * nb) - (BitVec.ofNat 32 c.inputsize - d.count) = BitVec.ofNat 32 (8 * (nb - (c.B - nx))) := by
        apply BitVec.eq_of_toNat_eq
        rw [BitVec.toNat_sub_of_le (by rw [BitVec.le_def, hnb, htmp]; omega), hnb, htmp, BitVec.toNat_ofNat, Nat.mod_eq_of_lt (by simp only [Nat.reducePow] at *; omega)]; omega
      rw [hts, hsub, hsh]
      have hpl : (data.take (c.B - nx)).length = c.B - nx := by rw [List.length_take]; omega
      obtain ⟨f1, f2⟩ := K12.fullBlocks_rest m (data.take (c.B - nx)) c.B hB0
      have hfl : (restBlock c.B m ++ data.take (c.B - nx)).length = c.B := by rw [List.length_append, hpl]; omega
      rw [fullBlocks_one _ _ hB0 hfl] at f1
      have f3 : restBlock c.B (restBlock c.B m ++ data.take (c.B - nx)) = [] := by
        apply List.eq_nil_of_length_eq_zero; rw [restBlock_length, hfl, Nat.mod_self]
      rw [f3] at f2
      have hbuf : goCopy d.buffer nx (data.take (c.B - nx)) = restBlock c.B m ++ data.take (c.B - nx) := by
        rw [goCopy_end _ _ _ (by rw [hpl]; omega), hp]
      rw [hbuf]
      have hR : Rep pi c (Digest.performHash pi c { d with buffer := restBlock c.B m ++ data.take (c.B - nx), databitlen := d.databitlen + (BitVec.ofNat 32 c.inputsize - d.count).setWidth 64, count := d.count + (BitVec.ofNat 32 c.inputsize - d.count) }) (m ++ data.take (c.B - nx)) := by
        unfold Digest.performHash
        dsimp only
        rw [hns]
        refine ⟨?_, ?_, ?_, ?_, ?_, ?_⟩
        · dsimp only
          rw [f1, List.foldl_append, ← hsyn]; rfl
        · exact comp_length pi c hg _ _
        · dsimp only; unfold bytesToUints; rw [List.length_map, List.length_range, hsl]; have := hg.r32; omega
        · dsimp only; exact hfl
        · dsimp only; rw [f2]; rfl
        · dsimp only; rw [f2]; rfl
      obtain ⟨d', w1, w2, w3⟩ := ih _ (m ++ data.take (c.B - nx)) (data.drop (c.B - nx)) (nb - (c.B - nx)) hR (by omega) (by rw [List.length_drop]; omega) (by omega)
      refine ⟨d', w1, ?_, ?_⟩
      · have : m ++ data.take (c.B - nx) ++ (data.drop (c.B - nx)).take (nb - (c.B - nx)) = m ++ data.take nb := by
          rw [List.append_assoc]
          congr 1
          have := (List.take_add (l := data) (i := c.B - nx) (j := nb - (c.B - nx)))
          rw [show c.B - nx + (nb - (c.B - nx)) = nb by omega] at this
          exact this.symm
        rw [this] at w2
        exact w2
      · rw [w3]
        unfold Digest.performHash
        dsimp only
        rw [BitVec.add_assoc]
        congr 1
        apply BitVec.eq_of_toNat_eq
        rw [BitVec.toNat_add, BitVec.toNat_setWidth, htmp, BitVec.toNat_ofNat, BitVec.toNat_ofNat]
        simp only [Nat.reducePow] at *
        omega

end Verif.FSB
