import Verif.Lemmas.XXH3
import Verif.Words
import Verif.Padding
/-
xxh3: stripes and blocks.
-/
namespace Verif.XXH3

theorem hi32 (k : U64) : ((k >>> 32).setWidth 32).setWidth 64 = k >>> 32 := by
  apply BitVec.eq_of_toNat_eq
  rw [BitVec.toNat_setWidth, BitVec.toNat_setWidth, BitVec.toNat_ushiftRight, Nat.shiftRight_eq_div_pow]
  have := k.isLt
  omega

theorem list8 {α} (A : List α) (h : A.length = 8) : ∃ a b c d e f g i, A = [a, b, c, d, e, f, g, i] := by
  match A, h with
  | [a, b, c, d, e, f, g, i], _ => exact ⟨a, b, c, d, e, f, g, i, rfl⟩

theorem acc512_eq (A : List U64) (hA : A.length = 8) (b sec : Bytes) (j : Nat) : accumulate_512 A b (sec.drop j) = Spec.XXH3.accumulate A b sec j := by
  obtain ⟨a0, a1, a2, a3, a4, a5, a6, a7, rfl⟩ := list8 A hA
  unfold accumulate_512 Spec.XXH3.accumulate forLoop scalarRound mult32to64_add64 mult32to64
  simp only [getLE64_drop, hi32]
  simp [List.range_succ, List.range'_succ, Nat.mul_comm]
  refine ⟨?_, ?_, ?_, ?_, ?_, ?_, ?_, ?_⟩ <;> ac_rfl

theorem acc_length (A : List U64) (b sec : Bytes) (j : Nat) : (Spec.XXH3.accumulate A b sec j).length = 8 := by simp [Spec.XXH3.accumulate]
theorem scramble_length (A : List U64) (sec : Bytes) : (Spec.XXH3.scramble A sec).length = 8 := by simp [Spec.XXH3.scramble]

theorem scramble_eq (A : List U64) (hA : A.length = 8) (sec : Bytes) : scrambleAcc A (sec.drop (sec.length - 64)) = Spec.XXH3.scramble A sec := by
  obtain ⟨a0, a1, a2, a3, a4, a5, a6, a7, rfl⟩ := list8 A hA
  unfold scrambleAcc Spec.XXH3.scramble forLoop scalarScrambleRound xorshift64
  simp only [getLE64_drop]
  simp [List.range_succ, List.range'_succ, PRIME32_1, Spec.XXH3.P32_1]

theorem merge_eq (A : List U64) (sec : Bytes) (j : Nat) (start : U64) : mergeAccs A (sec.drop j) start = Spec.XXH3.merge A sec j start := by
  unfold mergeAccs Spec.XXH3.merge mix2Accs
  rw [loop_sum, avalanche_eq]
  simp only [getLE64_drop, List.drop_drop, fold_eq, Nat.add_zero, Nat.sub_zero, List.getD_eq_getElem?_getD, List.getElem?_drop]

theorem acc_take (A : List U64) (b sec : Bytes) (j : Nat) : Spec.XXH3.accumulate A (b.take 64) sec j = Spec.XXH3.accumulate A b sec j := by
  unfold Spec.XXH3.accumulate
  apply List.map_congr_left
  intro l hl
  rw [List.mem_range] at hl
  have h := getLE64_block b 64 0 (8 * l) (by omega)
  have h2 := getLE64_block b 64 0 (8 * (l ^^^ 1)) (by have : l ^^^ 1 < 8 := Nat.xor_lt_two_pow (n := 3) hl (by decide); omega)
  rw [Nat.zero_mul, List.drop_zero, Nat.zero_add] at h h2
  rw [h, h2]

/-- The first `n` stripes of `p`. -/
def stripes (p : Bytes) (n : Nat) : List Bytes := (List.range n).map fun i => (p.drop (i * 64)).take 64

theorem stripes_succ (p : Bytes) (n : Nat) : stripes p (n + 1) = stripes p n ++ [(p.drop (n * 64)).take 64] := by
  unfold stripes; rw [List.range_succ, List.map_append]; rfl

theorem stripes_add (p : Bytes) (a b : Nat) : stripes p (a + b) = stripes p a ++ stripes (p.drop (a * 64)) b := by
  unfold stripes
  rw [List.range_add, List.map_append, List.map_map]
  congr 1
  apply List.map_congr_left
  intro i _
  show (p.drop ((a + i) * 64)).take 64 = _
  rw [List.drop_drop, Nat.add_mul]

theorem stripes_full (p : Bytes) (n : Nat) (h : 64 * n ≤ p.length) : stripes p n = fullBlocks 64 (p.take (64 * n)) := by
  unfold stripes fullBlocks
  rw [List.length_take, Nat.min_eq_left h, Nat.mul_div_cancel_left n (by decide)]
  apply List.map_congr_left
  intro i hi
  rw [List.mem_range] at hi
  rw [List.drop_take, List.take_take, Nat.min_eq_left (by omega)]

/-- Model state and specification state. -/
theorem run_in (sec p : Bytes) (pos : Nat) (A : List U64) (hA : A.length = 8) : ∀ n, pos + n < Spec.XXH3.perBlock sec →
    (stripes p n).foldl (Spec.XXH3.stripe sec) (A, pos) = (accumulate A p (sec.drop (pos * 8)) n, pos + n) ∧ (accumulate A p (sec.drop (pos * 8)) n).length = 8
  | 0, _ => ⟨rfl, hA⟩
  | n + 1, h => by
    obtain ⟨e, l⟩ := run_in sec p pos A hA n (by omega)
    have h1 : accumulate A p (sec.drop (pos * 8)) (n + 1) = Spec.XXH3.accumulate (accumulate A p (sec.drop (pos * 8)) n) ((p.drop (n * 64)).take 64) sec (8 * (pos + n)) := by
      unfold accumulate at *
      rw [forLoop_succ _ _ _ _ (Nat.zero_le _), List.drop_drop, acc512_eq _ l, acc_take, show pos * 8 + n * 8 = 8 * (pos + n) by omega]
    rw [stripes_succ, List.foldl_append, e, h1]
    refine ⟨?_, acc_length _ _ _ _⟩
    show Spec.XXH3.stripe sec _ _ = _
    unfold Spec.XXH3.stripe
    rw [if_neg (by simp only; omega)]; rfl

/-- To the end of the block. -/
theorem run_end (sec p : Bytes) (pos : Nat) (A : List U64) (hA : A.length = 8) (n : Nat) (hn : 0 < n) (h : pos + n = Spec.XXH3.perBlock sec) :
    (stripes p n).foldl (Spec.XXH3.stripe sec) (A, pos) = (scrambleAcc (accumulate A p (sec.drop (pos * 8)) n) (sec.drop (sec.length - 64)), 0) ∧
      (scrambleAcc (accumulate A p (sec.drop (pos * 8)) n) (sec.drop (sec.length - 64))).length = 8 := by
  obtain ⟨n, rfl⟩ : ∃ k, n = k + 1 := ⟨n - 1, by omega⟩
  obtain ⟨e, l⟩ := run_in sec p pos A hA n (by omega)
  have h1 : accumulate A p (sec.drop (pos * 8)) (n + 1) = Spec.XXH3.accumulate (accumulate A p (sec.drop (pos * 8)) n) ((p.drop (n * 64)).take 64) sec (8 * (pos + n)) := by
    unfold accumulate at *
    rw [forLoop_succ _ _ _ _ (Nat.zero_le _), List.drop_drop, acc512_eq _ l, acc_take, show pos * 8 + n * 8 = 8 * (pos + n) by omega]
  rw [h1, scramble_eq _ (acc_length _ _ _ _), stripes_succ, List.foldl_append, e]
  refine ⟨?_, scramble_length _ _⟩
  show Spec.XXH3.stripe sec _ _ = _
  unfold Spec.XXH3.stripe
  rw [if_pos (by simp only; omega)]

/-- `consumeStripes` does one stripe after the other. -/
theorem consume_eq (sec p : Bytes) (pos : Nat) (A : List U64) (hA : A.length = 8) (n : Nat) (hpos : pos < Spec.XXH3.perBlock sec) (hn : n < Spec.XXH3.perBlock sec) :
    consumeStripes A pos (Spec.XXH3.perBlock sec) p n sec (sec.length - 64) = (stripes p n).foldl (Spec.XXH3.stripe sec) (A, pos) ∧
      ((stripes p n).foldl (Spec.XXH3.stripe sec) (A, pos)).1.length = 8 ∧ ((stripes p n).foldl (Spec.XXH3.stripe sec) (A, pos)).2 < Spec.XXH3.perBlock sec := by
  unfold consumeStripes
  by_cases h : Spec.XXH3.perBlock sec - pos ≤ n
  · rw [if_pos h]
    obtain ⟨e1, l1⟩ := run_end sec p pos A hA (Spec.XXH3.perBlock sec - pos) (by omega) (by omega)
    obtain ⟨e2, l2⟩ := run_in sec (p.drop ((Spec.XXH3.perBlock sec - pos) * 64)) 0 _ l1 (n - (Spec.XXH3.perBlock sec - pos)) (by omega)
    have hs : stripes p n = stripes p (Spec.XXH3.perBlock sec - pos) ++ stripes (p.drop ((Spec.XXH3.perBlock sec - pos) * 64)) (n - (Spec.XXH3.perBlock sec - pos)) := by
      rw [← stripes_add]; congr 1; omega
    rw [hs, List.foldl_append, e1, e2, Nat.zero_add]
    refine ⟨rfl, l2, ?_⟩
    show n - (Spec.XXH3.perBlock sec - pos) < _
    omega
  · rw [if_neg h]
    obtain ⟨e2, l2⟩ := run_in sec p pos A hA n (by omega)
    rw [e2]
    exact ⟨rfl, l2, by show pos + n < _; omega⟩

/-- The loop of the one-shot functions, before the last stripe. -/
theorem long_loop (m sec : Bytes) (A : List U64) (hA : A.length = 8) (hsec : 72 ≤ sec.length) :
    let L := 64 * ((sec.length - 64) / 8)
    let nb := (m.length - 1) / L
    let A1 := forLoop 0 nb (fun acc n => scrambleAcc (accumulate acc (m.drop (n * L)) sec ((sec.length - 64) / 8)) (sec.drop (sec.length - 64))) A
    let A2 := accumulate A1 (m.drop (nb * L)) sec (((m.length - 1) - L * nb) / 64)
    A2 = ((fullBlocks 64 (m.take (m.length - 1))).foldl (Spec.XXH3.stripe sec) (A, 0)).1 ∧ A2.length = 8 := by
  intro L nb A1 A2
  have hpb : Spec.XXH3.perBlock sec = (sec.length - 64) / 8 := rfl
  have hp : 0 < Spec.XXH3.perBlock sec := by rw [hpb]; omega
  have hL : L = 64 * Spec.XXH3.perBlock sec := rfl
  have h1 : ∀ n, (stripes m (n * Spec.XXH3.perBlock sec)).foldl (Spec.XXH3.stripe sec) (A, 0) =
      (forLoop 0 n (fun acc n => scrambleAcc (accumulate acc (m.drop (n * L)) sec ((sec.length - 64) / 8)) (sec.drop (sec.length - 64))) A, 0) ∧
      (forLoop 0 n (fun acc n => scrambleAcc (accumulate acc (m.drop (n * L)) sec ((sec.length - 64) / 8)) (sec.drop (sec.length - 64))) A).length = 8 := by
    intro n
    induction n with
    | zero => rw [Nat.zero_mul]; exact ⟨rfl, hA⟩
    | succ n ih =>
      rw [forLoop_succ _ _ _ _ (Nat.zero_le _), Nat.succ_mul, stripes_add, List.foldl_append, ih.1]
      have := run_end sec (m.drop (n * Spec.XXH3.perBlock sec * 64)) 0 _ ih.2 (Spec.XXH3.perBlock sec) hp (by omega)
      rw [Nat.zero_mul, List.drop_zero, show n * Spec.XXH3.perBlock sec * 64 = n * L by rw [hL, Nat.mul_assoc, Nat.mul_comm 64]] at this
      rw [show n * Spec.XXH3.perBlock sec * 64 = n * L by rw [hL, Nat.mul_assoc, Nat.mul_comm 64]]
      exact this
  obtain ⟨e1, l1⟩ := h1 nb
  have hmod : (m.length - 1) - L * nb = (m.length - 1) % L := by
    have := Nat.div_add_mod (m.length - 1) L
    show _ - L * ((m.length - 1) / L) = _
    omega
  have hlt : ((m.length - 1) - L * nb) / 64 < Spec.XXH3.perBlock sec := by
    rw [hmod, Nat.div_lt_iff_lt_mul (by decide), Nat.mul_comm, ← hL]
    exact Nat.mod_lt _ (by omega)
  obtain ⟨e2, l2⟩ := run_in sec (m.drop (nb * L)) 0 A1 l1 (((m.length - 1) - L * nb) / 64) (by omega)
  rw [Nat.zero_mul, List.drop_zero] at e2 l2
  refine ⟨?_, l2⟩
  have hcount : nb * Spec.XXH3.perBlock sec + ((m.length - 1) - L * nb) / 64 = (m.length - 1) / 64 := by
    have h := Nat.div_add_mod (m.length - 1) L
    rw [hmod]
    have hle : L * nb + (m.length - 1) % L = m.length - 1 := h
    generalize (m.length - 1) % L = r at *
    have : m.length - 1 = 64 * (nb * Spec.XXH3.perBlock sec) + r := by rw [← hle, hL, Nat.mul_assoc, Nat.mul_comm nb]
    rw [this]; omega
  have hall : fullBlocks 64 (m.take (m.length - 1)) = stripes m (nb * Spec.XXH3.perBlock sec + ((m.length - 1) - L * nb) / 64) := by
    rw [hcount]
    unfold fullBlocks stripes
    rw [List.length_take, Nat.min_eq_left (by omega)]
    apply List.map_congr_left
    intro i hi
    rw [List.mem_range] at hi
    rw [List.drop_take, List.take_take, Nat.min_eq_left (by omega)]
  rw [hall, stripes_add, List.foldl_append, e1, show nb * Spec.XXH3.perBlock sec * 64 = nb * L by rw [hL, Nat.mul_assoc, Nat.mul_comm 64]]
  exact (congrArg Prod.fst e2).symm

/-- What the one-shot loop computes: the last stripe is left out when the length is a multiple of 64. -/
theorem hashLong_loop_eq (m sec : Bytes) (hsec : 136 ≤ sec.length) :
    hashLong_internal_loop INIT_ACC m sec = if m.length % 64 ≠ 0 then Spec.XXH3.longAcc sec m
      else ((fullBlocks 64 (m.take (m.length - 1))).foldl (Spec.XXH3.stripe sec) (Spec.XXH3.init, 0)).1 := by
  have h := long_loop m sec INIT_ACC rfl (by omega)
  unfold hashLong_internal_loop
  dsimp only at h ⊢
  split
  · rw [acc512_eq _ h.2, h.1]; rfl
  · rw [h.1]; rfl

end Verif.XXH3
