import Verif.Spec.Groestl
import Verif.Model.Groestl
import Verif.SetLoop
import Verif.Words
namespace Verif.Groestl
open Spec.Groestl (B mul addConst subBytes shiftBytes mixBytes)

/-! ### Words and bytes -/

theorem tb_length (w : List U64) : (uint64sToBytes w).length = 8 * w.length := by
  unfold uint64sToBytes
  induction w with
  | nil => rfl
  | cons a w ih => rw [List.map_cons, List.flatten_cons, List.length_append, ih, le64_length, List.length_cons]; omega

theorem tb_append (a b : List U64) : uint64sToBytes (a ++ b) = uint64sToBytes a ++ uint64sToBytes b := by
  unfold uint64sToBytes; rw [List.map_append, List.flatten_append]

theorem tb_cons (a : U64) (w : List U64) : uint64sToBytes (a :: w) = le64 a ++ uint64sToBytes w := by
  unfold uint64sToBytes; rw [List.map_cons, List.flatten_cons]

theorem tb_take (w : List U64) (n : Nat) : uint64sToBytes (w.take n) = (uint64sToBytes w).take (8 * n) := by
  by_cases h : n ≤ w.length
  · have := tb_append (w.take n) (w.drop n)
    rw [List.take_append_drop] at this
    rw [this, List.take_left']
    rw [tb_length, List.length_take]; omega
  · rw [List.take_of_length_le (by omega), List.take_of_length_le (by rw [tb_length]; omega)]

theorem tb_at : ∀ (w : List U64) (j i : Nat), j < w.length → i < 8 → at8 (uint64sToBytes w) (8 * j + i) = at8 (le64 (w.getD j 0)) i
  | [], _, _, h, _ => by simp at h
  | a :: w, 0, i, _, hi => by
    rw [tb_cons]; unfold at8
    rw [List.getD_eq_getElem?_getD, List.getElem?_append_left (by rw [le64_length]; omega)]; simp
  | a :: w, j + 1, i, h, hi => by
    have := tb_at w j i (by simpa using h) hi
    rw [tb_cons]
    unfold at8 at *
    rw [List.getD_eq_getElem?_getD, List.getElem?_append_right (by rw [le64_length]; omega), ← List.getD_eq_getElem?_getD, le64_length, show 8 * (j + 1) + i - 8 = 8 * j + i by omega, this]
    rfl

theorem tb_xor : ∀ (a b : List U64), a.length = b.length → uint64sToBytes (xorW a b) = Spec.Groestl.xor (uint64sToBytes a) (uint64sToBytes b)
  | [], [], _ => rfl
  | a :: as, b :: bs, h => by
    have ih := tb_xor as bs (by simpa using h)
    unfold xorW Spec.Groestl.xor at *
    rw [List.zipWith_cons_cons, tb_cons, tb_cons, tb_cons, ih, le64_xor, List.zipWith_append (by rw [le64_length, le64_length])]

theorem tb_bu (b : Bytes) (n : Nat) (h : b.length = 8 * n) : uint64sToBytes (bytesToUint64s b) = b := by
  unfold uint64sToBytes bytesToUint64s
  have hp : ∀ k, 8 * k ≤ b.length → (((List.range k).map fun i => getLE64 b (8 * i)).map le64).flatten = b.take (8 * k) := by
    intro k
    induction k with
    | zero => intro _; rfl
    | succ k ih =>
      intro hk
      rw [List.range_succ, List.map_append, List.map_append, List.flatten_append, ih (by omega)]
      simp only [List.map_cons, List.map_nil, List.flatten_cons, List.flatten_nil, List.append_nil]
      rw [le64_getLE64_at _ _ (by omega), show 8 * (k + 1) = 8 * k + 8 by omega, List.take_add]
  rw [hp _ (by omega), List.take_of_length_le (by omega)]

theorem bu_length (b : Bytes) : (bytesToUint64s b).length = b.length / 8 := by unfold bytesToUint64s; simp

theorem byteAt_eq (w : U64) (k : Nat) (h : k < 8) : byteAt w k = at8 (le64 w) k := by
  rw [le64_get h]; unfold byteAt
  apply BitVec.eq_of_getLsbD_eq
  intro i hi
  simp [hi]

theorem at_xor (a b : U64) (r : Nat) (h : r < 8) : at8 (le64 (a ^^^ b)) r = at8 (le64 a) r ^^^ at8 (le64 b) r := by
  rw [le64_xor, at8_zipWith _ _ _ _ (by rw [le64_length]; exact h) (by rw [le64_length]; exact h)]

/-! ### The tables -/

def TOk (k : Nat) : Prop := ∀ v : Byte, ∀ r : Fin 8, at8 (le64 (t k v)) r.val = mul (B r.val k) (at8 Spec.Groestl.sbox v.toNat)
theorem t0_ok : TOk 0 := by unfold TOk; decide +kernel
theorem t1_ok : TOk 1 := by unfold TOk; decide +kernel
theorem t2_ok : TOk 2 := by unfold TOk; decide +kernel
theorem t3_ok : TOk 3 := by unfold TOk; decide +kernel
theorem t4_ok : TOk 4 := by unfold TOk; decide +kernel
theorem t5_ok : TOk 5 := by unfold TOk; decide +kernel
theorem t6_ok : TOk 6 := by unfold TOk; decide +kernel
theorem t7_ok : TOk 7 := by unfold TOk; decide +kernel
theorem TOk.at {k : Nat} (h : TOk k) (v : Byte) {r : Nat} (hr : r < 8) : at8 (le64 (t k v)) r = mul (B r k) (at8 Spec.Groestl.sbox v.toNat) := h v ⟨r, hr⟩

/-! ### Rounds -/

theorem addK_getD (n : Nat) (k : Nat → U64) (x : List U64) (j : Nat) (h : j < n) : (addK n k x).getD j 0 = x.getD j 0 ^^^ k j := by
  unfold addK
  rw [List.getD_eq_getElem?_getD, List.getElem?_map, List.getElem?_range h]; rfl

theorem addK_byte (n : Nat) (k : Nat → U64) (rc : Nat → Nat → Byte) (hk : ∀ j i, j < n → i < 8 → at8 (le64 (k j)) i = rc j i) (x : List U64) (hx : x.length = n)
    (j i : Nat) (hj : j < n) (hi : i < 8) : byteAt ((addK n k x).getD j 0) i = at8 (addConst n rc (uint64sToBytes x)) (8 * j + i) := by
  rw [byteAt_eq _ _ hi, addK_getD _ _ _ _ hj, at_xor _ _ _ hi, hk j i hj hi, ← tb_at x j i (by omega) hi]
  unfold addConst
  rw [at8_map_range _ _ _ (by omega), show (8 * j + i) / 8 = j by omega, show (8 * j + i) % 8 = i by omega]

theorem round_eq (n : Nat) (hn : 0 < n) (k : Nat → U64) (rc : Nat → Nat → Byte) (hk : ∀ j i, j < n → i < 8 → at8 (le64 (k j)) i = rc j i)
    (o0 o1 o2 o3 o4 o5 o6 o7 : Nat) (x : List U64) (hx : x.length = n) :
    uint64sToBytes ((List.range n).map fun c => t 0 (byteAt ((addK n k x).getD ((c + o0) % n) 0) 0) ^^^
      t 1 (byteAt ((addK n k x).getD ((c + o1) % n) 0) 1) ^^^ t 2 (byteAt ((addK n k x).getD ((c + o2) % n) 0) 2) ^^^
      t 3 (byteAt ((addK n k x).getD ((c + o3) % n) 0) 3) ^^^ t 4 (byteAt ((addK n k x).getD ((c + o4) % n) 0) 4) ^^^
      t 5 (byteAt ((addK n k x).getD ((c + o5) % n) 0) 5) ^^^ t 6 (byteAt ((addK n k x).getD ((c + o6) % n) 0) 6) ^^^
      t 7 (byteAt ((addK n k x).getD ((c + o7) % n) 0) 7)) =
    Spec.Groestl.round n rc [o0, o1, o2, o3, o4, o5, o6, o7] (uint64sToBytes x) := by
  have hl1 : ((List.range n).map fun c => t 0 (byteAt ((addK n k x).getD ((c + o0) % n) 0) 0) ^^^
      t 1 (byteAt ((addK n k x).getD ((c + o1) % n) 0) 1) ^^^ t 2 (byteAt ((addK n k x).getD ((c + o2) % n) 0) 2) ^^^
      t 3 (byteAt ((addK n k x).getD ((c + o3) % n) 0) 3) ^^^ t 4 (byteAt ((addK n k x).getD ((c + o4) % n) 0) 4) ^^^
      t 5 (byteAt ((addK n k x).getD ((c + o5) % n) 0) 5) ^^^ t 6 (byteAt ((addK n k x).getD ((c + o6) % n) 0) 6) ^^^
      t 7 (byteAt ((addK n k x).getD ((c + o7) % n) 0) 7)).length = n := by rw [List.length_map, List.length_range]
  have hal : (addConst n rc (uint64sToBytes x)).length = 8 * n := by unfold addConst; rw [List.length_map, List.length_range]
  have hsh : ∀ (c q : Nat) (sh : List Nat), c < n → q < 8 → at8 (shiftBytes n sh (subBytes (addConst n rc (uint64sToBytes x)))) (8 * c + q) =
      at8 Spec.Groestl.sbox (byteAt ((addK n k x).getD ((c + sh.getD q 0) % n) 0) q).toNat := by
    intro c q sh hc hq
    unfold shiftBytes subBytes
    have hm := Nat.mod_lt (c + sh.getD q 0) hn
    rw [at8_map_range _ _ _ (by omega), show (8 * c + q) / 8 = c by omega, show (8 * c + q) % 8 = q by omega, at8_map _ _ _ (by rw [hal]; omega),
      addK_byte n k rc hk x hx _ _ hm hq]
  have hrl : (Spec.Groestl.round n rc [o0, o1, o2, o3, o4, o5, o6, o7] (uint64sToBytes x)).length = 8 * n := by
    unfold Spec.Groestl.round mixBytes; rw [List.length_map, List.length_range]
  apply ext_at8
  · rw [tb_length, hl1, hrl]
  · intro p hp
    rw [tb_length, hl1] at hp
    obtain ⟨c, r, hc, hr, rfl⟩ : ∃ c r, c < n ∧ r < 8 ∧ p = 8 * c + r := ⟨p / 8, p % 8, by omega, by omega, by omega⟩
    rw [tb_at _ c r (by rw [hl1]; exact hc) hr]
    rw [List.getD_eq_getElem?_getD, List.getElem?_map, List.getElem?_range hc]
    simp only [Option.map_some, Option.getD_some]
    rw [at_xor _ _ _ hr, at_xor _ _ _ hr, at_xor _ _ _ hr, at_xor _ _ _ hr, at_xor _ _ _ hr, at_xor _ _ _ hr, at_xor _ _ _ hr,
      t0_ok.at _ hr, t1_ok.at _ hr, t2_ok.at _ hr, t3_ok.at _ hr, t4_ok.at _ hr, t5_ok.at _ hr, t6_ok.at _ hr, t7_ok.at _ hr]
    unfold Spec.Groestl.round mixBytes
    rw [at8_map_range _ _ _ (by omega), show (8 * c + r) / 8 = c by omega, show (8 * c + r) % 8 = r by omega]
    rw [show List.range 8 = [0, 1, 2, 3, 4, 5, 6, 7] from rfl]
    simp only [List.foldl_cons, List.foldl_nil]
    rw [hsh c 0 _ hc (by omega), hsh c 1 _ hc (by omega), hsh c 2 _ hc (by omega), hsh c 3 _ hc (by omega), hsh c 4 _ hc (by omega), hsh c 5 _ hc (by omega),
      hsh c 6 _ hc (by omega), hsh c 7 _ hc (by omega), show (0 : Byte) = 0#8 from rfl, BitVec.zero_xor]
    rfl

end Verif.Groestl
