import Verif.Words
import Verif.Spec.Streebog
/-
Facts about the standard's functions, used for both implementations of Streebog.
-/
namespace Verif.Spec.Streebog

theorem natLE_length : ∀ k n, (natLE k n).length = k
  | 0, _ => rfl
  | k + 1, n => by rw [natLE, List.length_cons, natLE_length k]
theorem leNat_lt : ∀ b : Bytes, leNat b < 256 ^ b.length
  | [] => by decide
  | b :: bs => by
    have := leNat_lt bs
    have hb := b.isLt
    rw [leNat, List.length_cons, Nat.pow_succ]
    omega
theorem leNat_natLE : ∀ k n, leNat (natLE k n) = n % 256 ^ k
  | 0, n => by rw [natLE, leNat, Nat.pow_zero, Nat.mod_one]
  | k + 1, n => by
    rw [natLE, leNat, leNat_natLE k, BitVec.toNat_ofNat, Nat.pow_succ (n := 256), Nat.mul_comm (256 ^ k) 256, Nat.mod_mul]
theorem natLE_leNat : ∀ b : Bytes, natLE b.length (leNat b) = b
  | [] => rfl
  | b :: bs => by
    have hb := b.isLt
    rw [leNat, List.length_cons, natLE]
    rw [show (b.toNat + 256 * leNat bs) / 256 = leNat bs by omega, natLE_leNat bs]
    congr 1
    apply BitVec.eq_of_toNat_eq
    rw [BitVec.toNat_ofNat]; omega
theorem leNat_append : ∀ a b : Bytes, leNat (a ++ b) = leNat a + 256 ^ a.length * leNat b
  | [], b => by simp [leNat]
  | a :: as, b => by
    rw [List.cons_append, leNat, leNat, leNat_append as b, List.length_cons, Nat.pow_succ, Nat.mul_add, Nat.mul_comm (256 ^ as.length) 256,
      Nat.mul_assoc, Nat.add_assoc]

theorem xor_length (a b : Bytes) : (xor a b).length = min a.length b.length := by unfold xor; rw [List.length_zipWith]
theorem xor64 {a b : Bytes} (ha : a.length = 64) (hb : b.length = 64) : (xor a b).length = 64 := by rw [xor_length, ha, hb]; rfl
theorem L_length (x : Bytes) : (L x).length = 64 := by
  unfold L
  rw [List.length_flatten, List.map_map]
  rfl
theorem LPS_length (x : Bytes) : (LPS x).length = 64 := L_length _
theorem E_length {k m : Bytes} (hk : k.length = 64) (hm : m.length = 64) : (E k m).length = 64 := by
  unfold E
  suffices h : ∀ (cs : List Nat) (st : Bytes × Bytes), st.1.length = 64 ∧ st.2.length = 64 →
      (cs.foldl (fun (st : Bytes × Bytes) c => (LPS (xor st.1 (natLE 64 c)), LPS (xor st.1 st.2))) st).1.length = 64 ∧
      (cs.foldl (fun (st : Bytes × Bytes) c => (LPS (xor st.1 (natLE 64 c)), LPS (xor st.1 st.2))) st).2.length = 64 by
    obtain ⟨h1, h2⟩ := h C (k, m) ⟨hk, hm⟩
    exact xor64 h1 h2
  intro cs
  induction cs with
  | nil => intro st h; exact h
  | cons c cs ih => intro st h; exact ih _ ⟨LPS_length _, LPS_length _⟩
theorem g_length {N : Nat} {h m : Bytes} (hh : h.length = 64) (hm : m.length = 64) : (g N h m).length = 64 := by
  unfold g
  exact xor64 (xor64 (E_length (LPS_length _) hm) hh) hm

/-! ### The linear transformation by bytes -/

/-- The eight rows `8r`, …, `8r + 7`, selected by the bits of `v` from the top. -/
def rows8 (r : Nat) (v : Byte) : U64 :=
  (List.range 8).foldl (fun acc i => acc ^^^ (if v.getLsbD (7 - i) then A.getD (8 * r + i) 0 else 0)) 0

theorem foldl_xor (c : Nat → U64) (l : List Nat) (s : U64) : l.foldl (fun acc i => acc ^^^ c i) s = s ^^^ l.foldl (fun acc i => acc ^^^ c i) 0 := by
  induction l generalizing s with
  | nil => simp
  | cons a l ih => rw [List.foldl_cons, List.foldl_cons, ih, ih (0 ^^^ c a), BitVec.xor_assoc]; simp

theorem range64 : List.range 64 = (List.range 8).map (fun i => 8 * 0 + i) ++ ((List.range 8).map (fun i => 8 * 1 + i) ++ ((List.range 8).map (fun i => 8 * 2 + i) ++
    ((List.range 8).map (fun i => 8 * 3 + i) ++ ((List.range 8).map (fun i => 8 * 4 + i) ++ ((List.range 8).map (fun i => 8 * 5 + i) ++
    ((List.range 8).map (fun i => 8 * 6 + i) ++ (List.range 8).map (fun i => 8 * 7 + i))))))) := by decide

theorem rows8_word (w : U64) (r : Nat) (hr : r < 8) :
    ((List.range 8).map (fun i => 8 * r + i)).foldl (fun acc i => acc ^^^ (if w.getLsbD (63 - i) then A.getD i 0 else 0)) 0 =
      rows8 r (w.extractLsb' (56 - 8 * r) 8) := by
  rw [List.foldl_map]
  unfold rows8
  have : ∀ i, i < 8 → w.getLsbD (63 - (8 * r + i)) = (w.extractLsb' (56 - 8 * r) 8).getLsbD (7 - i) := by
    intro i hi
    rw [BitVec.getLsbD_extractLsb', show 56 - 8 * r + (7 - i) = 63 - (8 * r + i) by omega]
    simp; omega
  have hfold : ∀ (l : List Nat), (∀ i ∈ l, i < 8) → ∀ s : U64, l.foldl (fun acc i => acc ^^^ (if w.getLsbD (63 - (8 * r + i)) then A.getD (8 * r + i) 0 else 0)) s =
      l.foldl (fun acc i => acc ^^^ (if (w.extractLsb' (56 - 8 * r) 8).getLsbD (7 - i) then A.getD (8 * r + i) 0 else 0)) s := by
    intro l
    induction l with
    | nil => intros; rfl
    | cons a l ih =>
      intro hl s
      rw [List.foldl_cons, List.foldl_cons, this a (hl a (List.mem_cons_self ..)), ih (fun i hi => hl i (List.mem_cons_of_mem _ hi))]
  exact hfold _ (fun i hi => List.mem_range.mp hi) 0

theorem lin_rows (w : U64) : lin w = rows8 0 (w.extractLsb' 56 8) ^^^ rows8 1 (w.extractLsb' 48 8) ^^^ rows8 2 (w.extractLsb' 40 8) ^^^
    rows8 3 (w.extractLsb' 32 8) ^^^ rows8 4 (w.extractLsb' 24 8) ^^^ rows8 5 (w.extractLsb' 16 8) ^^^ rows8 6 (w.extractLsb' 8 8) ^^^
    rows8 7 (w.extractLsb' 0 8) := by
  unfold lin
  rw [range64]
  simp only [List.foldl_append]
  rw [rows8_word w 0 (by decide)]
  rw [foldl_xor _ _ (rows8 0 _), rows8_word w 1 (by decide)]
  rw [foldl_xor _ _ (rows8 0 _ ^^^ _), rows8_word w 2 (by decide)]
  rw [foldl_xor _ _ (rows8 0 _ ^^^ _ ^^^ _), rows8_word w 3 (by decide)]
  rw [foldl_xor _ _ (rows8 0 _ ^^^ _ ^^^ _ ^^^ _), rows8_word w 4 (by decide)]
  rw [foldl_xor _ _ (rows8 0 _ ^^^ _ ^^^ _ ^^^ _ ^^^ _), rows8_word w 5 (by decide)]
  rw [foldl_xor _ _ (rows8 0 _ ^^^ _ ^^^ _ ^^^ _ ^^^ _ ^^^ _), rows8_word w 6 (by decide)]
  rw [foldl_xor _ _ (rows8 0 _ ^^^ _ ^^^ _ ^^^ _ ^^^ _ ^^^ _ ^^^ _), rows8_word w 7 (by decide)]

/-- The linear transformation of a word of eight bytes. -/
theorem lin_bytes (b : Bytes) (k : Nat) : lin (getLE64 b k) = rows8 0 (at8 b (k + 7)) ^^^ rows8 1 (at8 b (k + 6)) ^^^ rows8 2 (at8 b (k + 5)) ^^^
    rows8 3 (at8 b (k + 4)) ^^^ rows8 4 (at8 b (k + 3)) ^^^ rows8 5 (at8 b (k + 2)) ^^^ rows8 6 (at8 b (k + 1)) ^^^ rows8 7 (at8 b k) := by
  rw [lin_rows]
  rw [getLE64_extract b k 7 (by decide), getLE64_extract b k 6 (by decide), getLE64_extract b k 5 (by decide), getLE64_extract b k 4 (by decide),
    getLE64_extract b k 3 (by decide), getLE64_extract b k 2 (by decide), getLE64_extract b k 1 (by decide), getLE64_extract b k 0 (by decide)]
  rfl

end Verif.Spec.Streebog
