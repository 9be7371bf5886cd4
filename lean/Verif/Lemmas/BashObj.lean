import Verif.Lemmas.Bash
import Verif.Lemmas.K12Sponge
import Verif.HistAuto
import Verif.Padding
/-
The digest object of package bash.
-/
namespace Verif.Bash
open Spec.Bash (absorbXor)

def BS (hs : Nat) : Nat := 192 - 2 * hs

structure Rep (hs : Nat) (d : Digest) (m : Bytes) : Prop where
  hhs : d.hs = hs
  hbs : d.bs = BS hs
  sl : d.s.length = 24
  st : uint64sToBytes d.s = (fullBlocks (BS hs) m).foldl absorbXor (Spec.Bash.init hs)
  hnx : d.nx = (restBlock (BS hs) m).length
  buf : ∃ B : Bytes, d.x = restBlock (BS hs) m ++ (B ++ zeros (192 - BS hs)) ∧ d.nx + B.length = BS hs

theorem Rep.xl {hs : Nat} {d : Digest} {m : Bytes} (h : Rep hs d m) : d.x.length = 192 := by
  obtain ⟨B, hx, hB⟩ := h.buf
  have := h.hnx
  rw [hx, List.length_append, List.length_append, zeros_length]
  unfold BS at *; omega

theorem Rep.nx_lt {hs : Nat} {d : Digest} {m : Bytes} (h : Rep hs d m) (hh : hs ≤ 64) : d.nx < BS hs := by
  rw [h.hnx, restBlock_length]; apply Nat.mod_lt; unfold BS; omega

theorem reset_rep (hs : Nat) (h1 : hs ≤ 64) (d : Digest) (h : d.hs = hs) (hb : d.bs = BS hs) : Rep hs d.reset [] := by
  have e : (uint64sToBytes (List.replicate 24 0)).set 184 (BitVec.ofInt 8 d.hs) = Spec.Bash.init hs := by
    rw [h]
    have : ∀ n, n < 65 → (uint64sToBytes (List.replicate 24 0)).set 184 (BitVec.ofInt 8 ((n : Nat) : Int)) = Spec.Bash.init n := by decide +kernel
    exact this hs (by omega)
  have hl : (Spec.Bash.init hs).length = 192 := by unfold Spec.Bash.init; rw [List.length_append, zeros_length, le64_length]
  have hs' : d.reset.s = bytesToUint64s (Spec.Bash.init hs) := by rw [← e]; rfl
  refine ⟨h, hb, ?_, ?_, by simp [restBlock, Digest.reset], ⟨zeros (BS hs), ?_, ?_⟩⟩
  · rw [hs', bw_length _ hl]
  · rw [hs', tb_bw _ hl, fullBlocks_nil]; rfl
  · show zeros 192 = restBlock _ [] ++ _
    rw [show restBlock (BS hs) ([] : Bytes) = [] by simp [restBlock], List.nil_append, ← zeros_add]; congr 1; unfold BS; omega
  · rw [zeros_length]; show 0 + _ = _; omega

/-- A Write that does not reach past the end of the current block. -/
theorem write_rep (hs : Nat) (hh : hs ≤ 64) (d : Digest) (m p : Bytes) (h : Rep hs d m) (hp : d.nx + p.length ≤ BS hs) :
    ∃ d', d.write p = some (d', p.length) ∧ Rep hs d' (m ++ p) ∧ d'.nx = (d.nx + p.length) % BS hs := by
  have hpos : 0 < BS hs := by unfold BS; omega
  have hxl := h.xl
  have hlt := h.nx_lt hh
  obtain ⟨B, hx, hB⟩ := h.buf
  have hnx := h.hnx
  obtain ⟨f1, f2⟩ := K12.fullBlocks_rest m p (BS hs) hpos
  have hle : BS hs ≤ 192 := by unfold BS; omega
  -- the copy
  have hcopy : goCopy d.x d.nx p = restBlock (BS hs) m ++ (p ++ (B.drop p.length ++ zeros (192 - BS hs))) := by
    rw [hx, hnx, ← List.take_append_drop p.length B, List.append_assoc (B.take p.length)]
    rw [goCopy_mid _ _ _ _ (by rw [List.length_take]; omega), List.take_append_drop]
  unfold Digest.write
  rw [h.hbs]
  by_cases hc : d.nx + p.length = BS hs
  · have hBd : B.drop p.length = [] := List.drop_eq_nil_of_le (by omega)
    rw [hBd, List.nil_append] at hcopy
    have hlen : (restBlock (BS hs) m ++ p).length = BS hs := by rw [List.length_append]; omega
    have hcl : (goCopy d.x d.nx p).length = 192 := by rw [goCopy_length _ _ _ (by omega)]; exact hxl
    obtain ⟨p1, p2⟩ := processBlock_eq d.s (goCopy d.x d.nx p) h.sl hcl
    have hw : writeLoop (BS hs) (p.length + 2) d.s d.x d.nx p = some (processBlock d.s (goCopy d.x d.nx p), goCopy d.x d.nx p, 0) := by
      unfold writeLoop
      rw [if_neg (by omega), if_pos (by omega)]
      dsimp only
      rw [show ((BS hs : Int) - d.nx).toNat = p.length by omega, List.drop_length]
      unfold writeLoop
      rw [if_neg (by omega), if_neg (by simp; omega)]
      congr 2
      unfold goCopy; simp
    rw [hw]
    dsimp only
    have hr : restBlock (BS hs) (m ++ p) = [] := by
      rw [f2]; generalize restBlock (BS hs) m ++ p = q at hlen; unfold restBlock; rw [hlen, Nat.div_self hpos, Nat.one_mul]; exact List.drop_eq_nil_of_le (by omega)
    refine ⟨_, rfl, ⟨h.hhs, h.hbs.symm ▸ rfl, p2, ?_, ?_, ⟨restBlock (BS hs) m ++ p, ?_, ?_⟩⟩, ?_⟩
    · show uint64sToBytes (processBlock _ _) = _
      rw [p1, f1, fullBlocks_one _ _ hpos hlen, List.foldl_append, ← h.st]
      show _ = Spec.Bash.f _
      rw [hlen, hcopy, List.append_assoc]
    · show 0 = _; rw [hr]; rfl
    · show goCopy _ _ _ = _; rw [hr, hcopy, List.nil_append, List.append_assoc]
    · show 0 + _ = _; rw [hlen]; omega
    · show 0 = _; rw [hc, Nat.mod_self]
  · have hw : writeLoop (BS hs) (p.length + 2) d.s d.x d.nx p = some (d.s, goCopy d.x d.nx p, d.nx + p.length) := by
      unfold writeLoop
      rw [if_neg (by omega), if_neg (by omega)]
    rw [hw]
    dsimp only
    have hlen : (restBlock (BS hs) m ++ p).length < BS hs := by rw [List.length_append]; omega
    have e1 : fullBlocks (BS hs) (restBlock (BS hs) m ++ p) = [] := by unfold fullBlocks; rw [Nat.div_eq_of_lt hlen]; rfl
    have e2 : restBlock (BS hs) (m ++ p) = restBlock (BS hs) m ++ p := by rw [f2]; generalize restBlock (BS hs) m ++ p = q at hlen; unfold restBlock; rw [Nat.div_eq_of_lt hlen]; simp
    refine ⟨_, rfl, ⟨h.hhs, h.hbs.symm ▸ rfl, h.sl, ?_, ?_, ⟨B.drop p.length, ?_, ?_⟩⟩, ?_⟩
    · rw [f1, e1, List.append_nil]; exact h.st
    · show d.nx + _ = _; rw [e2, List.length_append]; omega
    · show goCopy _ _ _ = _; rw [e2, hcopy, List.append_assoc]
    · show d.nx + _ + _ = _; rw [List.length_drop]; omega
    · show d.nx + _ = _; rw [Nat.mod_eq_of_lt (by omega)]

theorem checkSum_eq (hs : Nat) (hh : hs ≤ 64) (d : Digest) (m : Bytes) (h : Rep hs d m) : d.checkSum = some (Spec.Bash.hashXor hs m) := by
  have hpos : 0 < BS hs := by unfold BS; omega
  have hle : BS hs ≤ 192 := by unfold BS; omega
  have hxl := h.xl
  have hlt := h.nx_lt hh
  obtain ⟨B, hx, hB⟩ := h.buf
  have hnx := h.hnx
  have hnm : d.nx = m.length % BS hs := by rw [hnx, restBlock_length]
  have hcopy : goCopy d.x d.nx (zeros (BS hs)) = restBlock (BS hs) m ++ zeros (192 - d.nx) := by
    have hz : zeros (192 - BS hs) = zeros (min d.nx (192 - BS hs)) ++ zeros (192 - BS hs - d.nx) := by rw [← zeros_add]; congr 1; omega
    unfold goCopy
    rw [hx]
    have t1 : (restBlock (BS hs) m ++ (B ++ zeros (192 - BS hs))).take d.nx = restBlock (BS hs) m := by rw [hnx]; exact List.take_left
    have t2 : (restBlock (BS hs) m ++ (B ++ zeros (192 - BS hs))).drop (d.nx + (zeros (BS hs)).length) = zeros (192 - BS hs - d.nx) := by
      rw [zeros_length, List.drop_append, List.drop_eq_nil_of_le (by omega), List.nil_append, List.drop_append, List.drop_eq_nil_of_le (by omega), List.nil_append]
      unfold zeros; rw [List.drop_replicate]; congr 1; omega
    have t3 : (zeros (BS hs)).take ((restBlock (BS hs) m ++ (B ++ zeros (192 - BS hs))).length - d.nx) = zeros (min (192 - d.nx) (BS hs)) := by
      rw [← hx, hxl]; unfold zeros; rw [List.take_replicate]
    rw [t1, t2, t3, List.append_assoc, ← zeros_add]
    congr 2; omega
  have hset : (goCopy d.x d.nx (zeros (BS hs))).set d.nx 0x40 = (restBlock (BS hs) m ++ 0x40 :: zeros (BS hs - d.nx - 1)) ++ zeros (192 - BS hs) := by
    rw [hcopy, hnx, List.set_append_right _ _ (Nat.le_refl _), Nat.sub_self, ← hnx]
    rw [show 192 - d.nx = (BS hs - d.nx - 1 + (192 - BS hs)) + 1 by omega]
    rw [show zeros ((BS hs - d.nx - 1 + (192 - BS hs)) + 1) = 0#8 :: zeros (BS hs - d.nx - 1 + (192 - BS hs)) from List.replicate_succ]
    rw [List.set_cons_zero, zeros_add]
    simp
  have hlen : (restBlock (BS hs) m ++ 0x40 :: zeros (BS hs - d.nx - 1)).length = BS hs := by
    rw [List.length_append, List.length_cons, zeros_length]; omega
  unfold Digest.checkSum
  rw [if_neg (by omega), h.hbs, h.hhs]
  dsimp only
  rw [show ((BS hs : Nat) : Int).toNat = BS hs by omega, hset, if_neg (by omega), show ((hs : Nat) : Int).toNat = hs by omega]
  obtain ⟨p1, _⟩ := processBlock_eq d.s ((restBlock (BS hs) m ++ 0x40 :: zeros (BS hs - d.nx - 1)) ++ zeros (192 - BS hs)) h.sl
    (by rw [List.length_append, hlen, zeros_length]; omega)
  rw [p1]
  unfold Spec.Bash.hashXor Spec.Bash.pad
  dsimp only
  change _ = some (List.take hs (List.foldl absorbXor (Spec.Bash.init hs) (fullBlocks (BS hs) (m ++ 0x40 :: zeros ((BS hs - (m.length + 1) % BS hs) % BS hs)))))
  have epad : (BS hs - (m.length + 1) % BS hs) % BS hs = BS hs - d.nx - 1 := by
    rw [Nat.add_mod, ← hnm]
    have hB2 : 64 ≤ BS hs := by unfold BS; omega
    rw [Nat.mod_eq_of_lt (show 1 < BS hs by omega)]
    by_cases c : d.nx + 1 = BS hs
    · rw [c, Nat.mod_self, Nat.sub_zero, Nat.mod_self]; omega
    · rw [Nat.mod_eq_of_lt (show d.nx + 1 < BS hs by omega), Nat.mod_eq_of_lt (by omega)]; omega
  rw [epad, (K12.fullBlocks_rest m _ (BS hs) hpos).1, fullBlocks_one _ _ hpos hlen, List.foldl_append, ← h.st]
  show _ = some (List.take hs (absorbXor _ _))
  unfold absorbXor
  rw [hlen]

/-- Histories in which no Write reaches past the end of the block that is being filled. -/
def Aligned (hs : Nat) : List Op → Prop :=
  Permits (fun t o => match o with | .write p => t + p.length ≤ BS hs | _ => True)
    (fun t o => match o with | .write p => (t + p.length) % BS hs | .reset => 0 | _ => t) 0

theorem new_eq (hs : Nat) (h0 : 0 < hs) (hh : hs ≤ 64) :
    ∃ d : Digest, newDigest (8 * hs : Nat) = some d.reset ∧ d.hs = hs ∧ d.bs = BS hs := by
  refine ⟨{ s := [], x := [], nx := 0, len := 0, hs := hs, bs := BS hs }, ?_, rfl, rfl⟩
  unfold newDigest
  have e1 : ((8 * hs : Nat) : Int).tmod 8 = 0 := by rw [Int.tmod_eq_emod_of_nonneg (by omega)]; omega
  have e2 : ((8 * hs : Nat) : Int).tdiv 8 = hs := by rw [Int.tdiv_eq_ediv_of_nonneg (by omega)]; omega
  rw [if_neg (by omega), e1, if_neg (by omega), if_neg (by omega), e2]
  dsimp only
  rw [show (192 : Int) - 2 * (hs : Nat) = ((BS hs : Nat) : Int) by unfold BS; omega]

end Verif.Bash
