import Verif.Model.Haraka
import Verif.Spec.Haraka
import Verif.Lemmas.AES
namespace Verif.Haraka
open Verif.Spec.AES (Col4 add)
open Verif.Spec.Haraka (aesenc key)

theorem t0_eq : t0 = Shavite.AES0 := by decide +kernel
theorem t1_eq : t1 = Shavite.AES1 := by decide +kernel
theorem t2_eq : t2 = Shavite.AES2 := by decide +kernel
theorem t3_eq : t3 = Shavite.AES3 := by decide +kernel

theorem key_eq : ∀ k < 40, (rc.getD (4 * k) 0, rc.getD (4 * k + 1) 0, rc.getD (4 * k + 2) 0, rc.getD (4 * k + 3) 0) = key k := by decide +kernel

theorem b0 (x : U32) : ((x >>> 0).setWidth 8 : Byte).toNat = (x &&& 0xFF).toNat := by
  rw [Shavite.idx0, BitVec.toNat_setWidth, BitVec.extractLsb'_toNat, BitVec.toNat_ushiftRight]
theorem b1 (x : U32) : ((x >>> 8).setWidth 8 : Byte).toNat = ((x >>> 8) &&& 0xFF).toNat := by
  rw [Shavite.idx1, BitVec.toNat_setWidth, BitVec.extractLsb'_toNat, BitVec.toNat_ushiftRight]
theorem b2 (x : U32) : ((x >>> 16).setWidth 8 : Byte).toNat = ((x >>> 16) &&& 0xFF).toNat := by
  rw [Shavite.idx2, BitVec.toNat_setWidth, BitVec.extractLsb'_toNat, BitVec.toNat_ushiftRight]
theorem b3 (x : U32) : ((x >>> 24).setWidth 8 : Byte).toNat = (x >>> 24).toNat := by
  rw [Shavite.idx3, BitVec.toNat_setWidth, BitVec.extractLsb'_toNat, BitVec.toNat_ushiftRight]

/-- The four words of the list at o, replaced. -/
def put4 (o : Nat) (q : Col4) (s : List U32) : List U32 := (((s.set o q.1).set (o + 1) q.2.1).set (o + 2) q.2.2.1).set (o + 3) q.2.2.2

theorem aesRound_eq (k : Nat) (hk : k < 40) (o : Nat) (s : List U32) :
    aesRound (4 * k) o s = put4 o (aesenc (s.getD o 0, s.getD (o + 1) 0, s.getD (o + 2) 0, s.getD (o + 3) 0) (key k)) s := by
  unfold aesenc
  rw [← Shavite.aes_eq, ← key_eq k hk]
  unfold aesRound put4 Shavite.aes add
  simp only [b0, b1, b2, b3, t0_eq, t1_eq, t2_eq, t3_eq]

abbrev L (q : Col4) : List U32 := [q.1, q.2.1, q.2.2.1, q.2.2.2]

theorem a20 (k : Nat) (hk : k < 40) (p q : Col4) : aesRound (4 * k) 0 (L p ++ L q) = L (aesenc p (key k)) ++ L q := by rw [aesRound_eq k hk]; rfl
theorem a24 (k : Nat) (hk : k < 40) (p q : Col4) : aesRound (4 * k) 4 (L p ++ L q) = L p ++ L (aesenc q (key k)) := by rw [aesRound_eq k hk]; rfl
theorem a40 (k : Nat) (hk : k < 40) (p q r s : Col4) : aesRound (4 * k) 0 (L p ++ L q ++ L r ++ L s) = L (aesenc p (key k)) ++ L q ++ L r ++ L s := by rw [aesRound_eq k hk]; rfl
theorem a44 (k : Nat) (hk : k < 40) (p q r s : Col4) : aesRound (4 * k) 4 (L p ++ L q ++ L r ++ L s) = L p ++ L (aesenc q (key k)) ++ L r ++ L s := by rw [aesRound_eq k hk]; rfl
theorem a48 (k : Nat) (hk : k < 40) (p q r s : Col4) : aesRound (4 * k) 8 (L p ++ L q ++ L r ++ L s) = L p ++ L q ++ L (aesenc r (key k)) ++ L s := by rw [aesRound_eq k hk]; rfl
theorem a4c (k : Nat) (hk : k < 40) (p q r s : Col4) : aesRound (4 * k) 12 (L p ++ L q ++ L r ++ L s) = L p ++ L q ++ L r ++ L (aesenc s (key k)) := by rw [aesRound_eq k hk]; rfl

def L2 (s : Col4 × Col4) : List U32 := L s.1 ++ L s.2
def L4 (s : Spec.Haraka.S4) : List U32 := L s.s0 ++ L s.s1 ++ L s.s2 ++ L s.s3

theorem mix256_eq (s : Col4 × Col4) : mix256 (L2 s) = L2 (Spec.Haraka.mix2 s) := rfl
theorem mix512_eq (s : Spec.Haraka.S4) : mix512 (L4 s) = L4 (Spec.Haraka.mix4 s) := rfl

theorem round256 (i : Nat) (hi : i < 5) (s : Col4 × Col4) :
    mix256 (aesRound (16 * i + 12) 4 (aesRound (16 * i + 8) 0 (aesRound (16 * i + 4) 4 (aesRound (16 * i) 0 (L2 s))))) =
      L2 (Spec.Haraka.mix2 (Spec.Haraka.aes2 (4 * i + 2) (Spec.Haraka.aes2 (4 * i) s))) := by
  unfold L2
  rw [show 16 * i = 4 * (4 * i) by omega, show 4 * (4 * i) + 4 = 4 * (4 * i + 1) by omega, show 4 * (4 * i) + 8 = 4 * (4 * i + 2) by omega, show 4 * (4 * i) + 12 = 4 * (4 * i + 3) by omega,
    a20 _ (by omega), a24 _ (by omega), a20 _ (by omega), a24 _ (by omega)]
  exact mix256_eq (Spec.Haraka.aes2 (4 * i + 2) (Spec.Haraka.aes2 (4 * i) s))

theorem round512 (i : Nat) (hi : i < 5) (s : Spec.Haraka.S4) :
    mix512 (aesRound (32 * i + 28) 12 (aesRound (32 * i + 24) 8 (aesRound (32 * i + 20) 4 (aesRound (32 * i + 16) 0
      (aesRound (32 * i + 12) 12 (aesRound (32 * i + 8) 8 (aesRound (32 * i + 4) 4 (aesRound (32 * i) 0 (L4 s))))))))) =
      L4 (Spec.Haraka.mix4 (Spec.Haraka.aes4 (8 * i + 4) (Spec.Haraka.aes4 (8 * i) s))) := by
  unfold L4
  rw [show 32 * i = 4 * (8 * i) by omega, show 4 * (8 * i) + 4 = 4 * (8 * i + 1) by omega, show 4 * (8 * i) + 8 = 4 * (8 * i + 2) by omega, show 4 * (8 * i) + 12 = 4 * (8 * i + 3) by omega,
    show 4 * (8 * i) + 16 = 4 * (8 * i + 4) by omega, show 4 * (8 * i) + 20 = 4 * (8 * i + 5) by omega, show 4 * (8 * i) + 24 = 4 * (8 * i + 6) by omega, show 4 * (8 * i) + 28 = 4 * (8 * i + 7) by omega,
    a40 _ (by omega), a44 _ (by omega), a48 _ (by omega), a4c _ (by omega), a40 _ (by omega), a44 _ (by omega), a48 _ (by omega), a4c _ (by omega)]
  exact mix512_eq (Spec.Haraka.aes4 (8 * i + 4) (Spec.Haraka.aes4 (8 * i) s))

theorem getLE32_drop (m : Bytes) (a b : Nat) : getLE32 (m.drop a) b = getLE32 m (a + b) := by
  simp only [Shavite.getLE32_w4, at8, List.getD_eq_getElem?_getD, List.getElem?_drop, Nat.add_assoc]

theorem load256 (m : Bytes) : load 8 m = L2 (Spec.AES.cols m, Spec.AES.cols (m.drop 16)) := by
  unfold load L2 L Spec.AES.cols
  simp only [getLE32_drop]
  rfl
theorem load512 (m : Bytes) : load 16 m = L4 ⟨Spec.AES.cols m, Spec.AES.cols (m.drop 16), Spec.AES.cols (m.drop 32), Spec.AES.cols (m.drop 48)⟩ := by
  unfold load L4 L Spec.AES.cols
  simp only [getLE32_drop]
  rfl

theorem haraka256_eq (m : Bytes) : haraka256 m = Spec.Haraka.haraka256 m := by
  unfold haraka256 haraka256Ref Spec.Haraka.haraka256
  dsimp only
  have hx : ∀ i, i < 8 → getLE32 m (4 * i) = (load 8 m).getD i 0 := by
    intro i hi
    unfold load
    rw [List.getD_eq_getElem?_getD, List.getElem?_map, List.getElem?_range hi]; rfl
  have hmap : ∀ st : List U32, ((List.range 8).map fun i => st.getD i 0 ^^^ getLE32 m (4 * i)) = (List.range 8).map fun i => st.getD i 0 ^^^ (load 8 m).getD i 0 := by
    intro st
    apply List.map_congr_left
    intro i hi
    rw [hx i (List.mem_range.mp hi)]
  rw [hmap, load256]
  generalize Spec.AES.cols m = c0
  generalize Spec.AES.cols (m.drop 16) = c1
  have key : forLoop 0 5 (fun s i => mix256 (aesRound (16 * i + 12) 4 (aesRound (16 * i + 8) 0 (aesRound (16 * i + 4) 4 (aesRound (16 * i) 0 s))))) (L2 (c0, c1)) =
      L2 ((List.range 5).foldl (fun s r => Spec.Haraka.mix2 (Spec.Haraka.aes2 (4 * r + 2) (Spec.Haraka.aes2 (4 * r) s))) (c0, c1)) := by
    refine forLoop_inv (P := fun k s => s = L2 ((List.range k).foldl (fun s r => Spec.Haraka.mix2 (Spec.Haraka.aes2 (4 * r + 2) (Spec.Haraka.aes2 (4 * r) s))) (c0, c1))) (Nat.zero_le 5) rfl ?_
    intro k s _ hk hs
    rw [hs, round256 k hk, List.range_succ, List.foldl_append]
    rfl
  rw [key]
  generalize (List.range 5).foldl (fun s r => Spec.Haraka.mix2 (Spec.Haraka.aes2 (4 * r + 2) (Spec.Haraka.aes2 (4 * r) s))) (c0, c1) = s
  unfold L2 L Spec.AES.bytes add
  simp [show List.range 8 = [0, 1, 2, 3, 4, 5, 6, 7] from rfl]

theorem haraka512_eq (m : Bytes) : haraka512 m = Spec.Haraka.haraka512 m := by
  unfold haraka512 haraka512Ref Spec.Haraka.haraka512
  dsimp only
  have hx : ∀ i, i < 16 → getLE32 m (4 * i) = (load 16 m).getD i 0 := by
    intro i hi
    unfold load
    rw [List.getD_eq_getElem?_getD, List.getElem?_map, List.getElem?_range hi]; rfl
  have hmap : ∀ st : List U32, ((List.range 16).map fun i => st.getD i 0 ^^^ getLE32 m (4 * i)) = (List.range 16).map fun i => st.getD i 0 ^^^ (load 16 m).getD i 0 := by
    intro st
    apply List.map_congr_left
    intro i hi
    rw [hx i (List.mem_range.mp hi)]
  rw [hmap, load512]
  generalize Spec.AES.cols m = c0
  generalize Spec.AES.cols (m.drop 16) = c1
  generalize Spec.AES.cols (m.drop 32) = c2
  generalize Spec.AES.cols (m.drop 48) = c3
  have key : forLoop 0 5 (fun s i => mix512 (aesRound (32 * i + 28) 12 (aesRound (32 * i + 24) 8 (aesRound (32 * i + 20) 4 (aesRound (32 * i + 16) 0
      (aesRound (32 * i + 12) 12 (aesRound (32 * i + 8) 8 (aesRound (32 * i + 4) 4 (aesRound (32 * i) 0 s))))))))) (L4 ⟨c0, c1, c2, c3⟩) =
      L4 ((List.range 5).foldl (fun s r => Spec.Haraka.mix4 (Spec.Haraka.aes4 (8 * r + 4) (Spec.Haraka.aes4 (8 * r) s))) ⟨c0, c1, c2, c3⟩) := by
    refine forLoop_inv (P := fun k s => s = L4 ((List.range k).foldl (fun s r => Spec.Haraka.mix4 (Spec.Haraka.aes4 (8 * r + 4) (Spec.Haraka.aes4 (8 * r) s))) ⟨c0, c1, c2, c3⟩)) (Nat.zero_le 5) rfl ?_
    intro k s _ hk hs
    rw [hs, round512 k hk, List.range_succ, List.foldl_append]
    rfl
  rw [key]
  generalize (List.range 5).foldl (fun s r => Spec.Haraka.mix4 (Spec.Haraka.aes4 (8 * r + 4) (Spec.Haraka.aes4 (8 * r) s))) ⟨c0, c1, c2, c3⟩ = s
  unfold L4 L Spec.AES.bytes add
  simp [show List.range 16 = [0, 1, 2, 3, 4, 5, 6, 7, 8, 9, 10, 11, 12, 13, 14, 15] from rfl, le32]

end Verif.Haraka
