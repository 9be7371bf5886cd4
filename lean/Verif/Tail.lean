import Verif.Bits
/-
Loops over the pending bytes of a buffer.
-/
namespace Verif

theorem forLoop_congr {σ} (a b : Nat) (f g : σ → Nat → σ) (s : σ)
    (h : ∀ s j, a ≤ j → j < b → f s j = g s j) : forLoop a b f s = forLoop a b g s := by
  by_cases hab : a ≤ b
  · refine Eq.symm (forLoop_inv (a := a) (b := b)
      (fun j (t : σ) => forLoop a j f s = t) hab (forLoop_nil _ _ _ _ (Nat.le_refl _)) ?_) |>.symm
    intro j t h1 h2 ih
    rw [forLoop_succ _ _ _ _ h1, ih, h t j h1 h2]
  · rw [forLoop_nil _ _ _ _ (by omega), forLoop_nil _ _ _ _ (by omega)]

/-- `x` starts with `r`. -/
theorem at8_prefix {x r : Bytes} (h : x.take r.length = r) (i : Nat) (hi : i < r.length) :
    at8 x i = at8 r i := by
  conv => rhs; rw [← h]
  unfold at8
  rw [List.getD_eq_getElem?_getD, List.getD_eq_getElem?_getD, List.getElem?_take_of_lt hi]

theorem getLE32_prefix {x r : Bytes} (h : x.take r.length = r) (i : Nat) (hi : i + 4 ≤ r.length) :
    getLE32 x i = getLE32 r i := by
  simp only [getLE32, at8_prefix h i (by omega), at8_prefix h (i+1) (by omega), at8_prefix h (i+2) (by omega),
    at8_prefix h (i+3) (by omega)]

theorem getLE64_prefix {x r : Bytes} (h : x.take r.length = r) (i : Nat) (hi : i + 8 ≤ r.length) :
    getLE64 x i = getLE64 r i := by
  simp only [getLE64, at8_prefix h i (by omega), at8_prefix h (i+1) (by omega), at8_prefix h (i+2) (by omega),
    at8_prefix h (i+3) (by omega), at8_prefix h (i+4) (by omega), at8_prefix h (i+5) (by omega),
    at8_prefix h (i+6) (by omega), at8_prefix h (i+7) (by omega)]

/-- `for p := a; p < n; p++ { .. x[p] .. }` over the pending bytes `r`. -/
theorem loop_bytes {σ} {x r : Bytes} (h : x.take r.length = r) (a : Nat) (ha : a ≤ r.length)
    (f : σ → Byte → σ) (s : σ) :
    forLoop a r.length (fun s i => f s (at8 x i)) s = (r.drop a).foldl f s := by
  refine (forLoop_inv (a := a) (b := r.length)
    (fun j (t : σ) => t = ((r.drop a).take (j - a)).foldl f s) ha (by simp) ?_).trans ?_
  · intro j t h1 h2 ih
    rw [ih, at8_prefix h j h2, show j + 1 - a = (j - a) + 1 by omega, List.take_succ, List.foldl_append]
    have : (r.drop a)[j - a]? = some (at8 r j) := by
      rw [List.getElem?_drop, show a + (j - a) = j by omega, at8, List.getD_eq_getElem?_getD,
        List.getElem?_eq_getElem h2]; rfl
    rw [this]; rfl
  · rw [List.take_of_length_le (by simp)]

theorem getLE32_block (r : Bytes) (B i k : Nat) (h : k + 4 ≤ B) : getLE32 ((r.drop (i * B)).take B) k = getLE32 r (i * B + k) := by
  have e : ∀ j, j < B → at8 ((r.drop (i * B)).take B) j = at8 r (i * B + j) := by
    intro j hj
    unfold at8
    rw [List.getD_eq_getElem?_getD, List.getD_eq_getElem?_getD, List.getElem?_take_of_lt hj, List.getElem?_drop]
  simp only [getLE32, e k (by omega), e (k+1) (by omega), e (k+2) (by omega), e (k+3) (by omega), Nat.add_assoc]
theorem getLE64_block (r : Bytes) (B i k : Nat) (h : k + 8 ≤ B) : getLE64 ((r.drop (i * B)).take B) k = getLE64 r (i * B + k) := by
  have e : ∀ j, j < B → at8 ((r.drop (i * B)).take B) j = at8 r (i * B + j) := by
    intro j hj
    unfold at8
    rw [List.getD_eq_getElem?_getD, List.getD_eq_getElem?_getD, List.getElem?_take_of_lt hj, List.getElem?_drop]
  simp only [getLE64, e k (by omega), e (k+1) (by omega), e (k+2) (by omega), e (k+3) (by omega),
    e (k+4) (by omega), e (k+5) (by omega), e (k+6) (by omega), e (k+7) (by omega), Nat.add_assoc]

/-- `for p := 0; p+4 <= n; p += 4 { .. getu32(x[p:]) .. }` over the pending bytes `r`. -/
theorem loop_words32 {σ} {x r : Bytes} (h : x.take r.length = r) (f : σ → U32 → σ) (s : σ) :
    forLoop 0 (r.length / 4) (fun s j => f s (getLE32 x (4 * j))) s =
      ((fullBlocks 4 r).map getLE32).foldl f s := by
  rw [forLoop_congr _ _ _ (fun s j => f s (getLE32 r (4 * j))) _
    (fun s j _ hj => by rw [getLE32_prefix h _ (by omega)])]
  unfold fullBlocks forLoop
  rw [List.map_map, List.foldl_map, List.range_eq_range', Nat.sub_zero]
  congr 1
  funext s j
  rw [Function.comp, getLE32_block r 4 j 0 (by omega), Nat.mul_comm, Nat.add_zero]

theorem loop_words64 {σ} {x r : Bytes} (h : x.take r.length = r) (f : σ → U64 → σ) (s : σ) :
    forLoop 0 (r.length / 8) (fun s j => f s (getLE64 x (8 * j))) s =
      ((fullBlocks 8 r).map getLE64).foldl f s := by
  rw [forLoop_congr _ _ _ (fun s j => f s (getLE64 r (8 * j))) _
    (fun s j _ hj => by rw [getLE64_prefix h _ (by omega)])]
  unfold fullBlocks forLoop
  rw [List.map_map, List.foldl_map, List.range_eq_range', Nat.sub_zero]
  congr 1
  funext s j
  rw [Function.comp, getLE64_block r 8 j 0 (by omega), Nat.mul_comm, Nat.add_zero]

end Verif
