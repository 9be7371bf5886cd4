import Verif.Basic
/-
Facts on machine words: bitwise identities, byte-order conversions.
-/
namespace Verif

/-- Prove an identity of `&&&`, `|||`, `^^^`, `~~~` on words, bit by bit. -/
macro "bitwise" : tactic => `(tactic| (
  apply BitVec.eq_of_getLsbD_eq
  intro i hi
  simp only [BitVec.getLsbD_and, BitVec.getLsbD_or, BitVec.getLsbD_xor, BitVec.getLsbD_not, hi,
    decide_true, Bool.true_and]
  grind))

theorem extract_append_hi (a b : U32) (k : Nat) (h : k + 8 ≤ 32) :
    (a ++ b : BitVec 64).extractLsb' (32 + k) 8 = a.extractLsb' k 8 := by
  apply BitVec.eq_of_getLsbD_eq
  intro i hi
  simp only [BitVec.getLsbD_extractLsb', BitVec.getLsbD_append, hi, decide_true, Bool.true_and]
  rw [if_neg (by omega)]
  congr 1; omega

theorem extract_append_lo (a b : U32) (k : Nat) (h : k + 8 ≤ 32) :
    (a ++ b : BitVec 64).extractLsb' k 8 = b.extractLsb' k 8 := by
  apply BitVec.eq_of_getLsbD_eq
  intro i hi
  simp only [BitVec.getLsbD_extractLsb', BitVec.getLsbD_append, hi, decide_true, Bool.true_and]
  rw [if_pos (by omega)]

theorem be64_append (a b : U32) : be64 (a ++ b) = be32 a ++ be32 b := by
  simp only [be64, be32, List.cons_append, List.nil_append]
  rw [extract_append_hi a b 24 (by omega), extract_append_hi a b 16 (by omega),
    extract_append_hi a b 8 (by omega), extract_append_hi a b 0 (by omega),
    extract_append_lo a b 24 (by omega), extract_append_lo a b 16 (by omega),
    extract_append_lo a b 8 (by omega), extract_append_lo a b 0 (by omega)]

theorem le64_append (a b : U32) : le64 (a ++ b) = le32 b ++ le32 a := by
  simp only [le64, le32, List.cons_append, List.nil_append]
  rw [extract_append_hi a b 24 (by omega), extract_append_hi a b 16 (by omega),
    extract_append_hi a b 8 (by omega), extract_append_hi a b 0 (by omega),
    extract_append_lo a b 24 (by omega), extract_append_lo a b 16 (by omega),
    extract_append_lo a b 8 (by omega), extract_append_lo a b 0 (by omega)]

theorem ofNat64_split (n : Nat) :
    BitVec.ofNat 64 n = (BitVec.ofNat 32 (n / 2^32) ++ BitVec.ofNat 32 n : BitVec 64) := by
  apply BitVec.eq_of_toNat_eq
  rw [BitVec.toNat_append, BitVec.toNat_ofNat, BitVec.toNat_ofNat, BitVec.toNat_ofNat,
    ← Nat.shiftLeft_add_eq_or_of_lt (Nat.mod_lt _ (by decide)), Nat.shiftLeft_eq]
  omega

/-- A 64-bit big-endian number as its two 32-bit halves. -/
theorem be64_ofNat (n : Nat) :
    be64 (BitVec.ofNat 64 n) = be32 (BitVec.ofNat 32 (n / 2^32)) ++ be32 (BitVec.ofNat 32 n) := by
  rw [ofNat64_split, be64_append]

theorem le64_ofNat (n : Nat) :
    le64 (BitVec.ofNat 64 n) = le32 (BitVec.ofNat 32 n) ++ le32 (BitVec.ofNat 32 (n / 2^32)) := by
  rw [ofNat64_split, le64_append]

theorem getLsbD_app8 {n k : Nat} (a : BitVec n) (b : Byte) (h : k = n + 8) (i : Nat) :
    ((a ++ b).cast h.symm : BitVec k).getLsbD i = if i < 8 then b.getLsbD i else a.getLsbD (i - 8) := by
  rw [BitVec.getLsbD_cast, BitVec.getLsbD_append]

theorem getBE32_getLsbD (b0 b1 b2 b3 : Byte) (i : Nat) :
    (b0 ++ b1 ++ b2 ++ b3 : U32).getLsbD i = if i < 8 then b3.getLsbD i else
      if i < 16 then b2.getLsbD (i - 8) else if i < 24 then b1.getLsbD (i - 16) else
        b0.getLsbD (i - 24) := by
  refine (BitVec.getLsbD_append ..).trans ?_
  split
  · rfl
  · refine (BitVec.getLsbD_append ..).trans ?_
    split
    · rw [if_pos (by omega)]
    · rw [if_neg (by omega)]
      refine (BitVec.getLsbD_append ..).trans ?_
      split
      · rw [if_pos (by omega)]; congr 1
      · rw [if_neg (by omega)]; congr 1

theorem join32 (w : U32) : (w.extractLsb' 24 8 ++ w.extractLsb' 16 8 ++ w.extractLsb' 8 8 ++
    w.extractLsb' 0 8 : U32) = w := by
  apply BitVec.eq_of_getLsbD_eq
  intro i hi
  rw [getBE32_getLsbD]
  simp only [BitVec.getLsbD_extractLsb']
  split
  · simp [*]
  · split
    · rw [decide_eq_true (by omega), Bool.true_and]; congr 1; omega
    · split
      · rw [decide_eq_true (by omega), Bool.true_and]; congr 1; omega
      · rw [decide_eq_true (by omega), Bool.true_and]; congr 1; omega

/-- Reading back what `PutUint32` wrote (big-endian). -/
theorem getBE32_be32 (w : U32) (r : Bytes) : getBE32 (be32 w ++ r) = w := join32 w
theorem getLE32_le32 (w : U32) (r : Bytes) : getLE32 (le32 w ++ r) = w := join32 w

theorem getBE64_getLsbD (b : Bytes) (k i : Nat) :
    (getBE64 b k).getLsbD i = if i < 8 then (at8 b (k+7)).getLsbD i else
      if i < 16 then (at8 b (k+6)).getLsbD (i - 8) else if i < 24 then (at8 b (k+5)).getLsbD (i - 16) else
      if i < 32 then (at8 b (k+4)).getLsbD (i - 24) else
      if i < 40 then (at8 b (k+3)).getLsbD (i - 32) else
      if i < 48 then (at8 b (k+2)).getLsbD (i - 40) else
      if i < 56 then (at8 b (k+1)).getLsbD (i - 48) else
        (at8 b k).getLsbD (i - 56) := by
  refine (BitVec.getLsbD_append ..).trans ?_
  split
  · rfl
  refine (BitVec.getLsbD_append ..).trans ?_
  split
  · rw [if_pos (by omega)]
  rw [if_neg (by omega)]
  refine (BitVec.getLsbD_append ..).trans ?_
  split
  · rw [if_pos (by omega)]; congr 1
  rw [if_neg (by omega)]
  refine (BitVec.getLsbD_append ..).trans ?_
  split
  · rw [if_pos (by omega)]; congr 1
  rw [if_neg (by omega)]
  refine (BitVec.getLsbD_append ..).trans ?_
  split
  · rw [if_pos (by omega)]; congr 1
  rw [if_neg (by omega)]
  refine (BitVec.getLsbD_append ..).trans ?_
  split
  · rw [if_pos (by omega)]; congr 1
  rw [if_neg (by omega)]
  refine (BitVec.getLsbD_append ..).trans ?_
  split
  · rw [if_pos (by omega)]; congr 1
  rw [if_neg (by omega)]
  congr 1

theorem getBE64_split (b : Bytes) (i : Nat) : getBE64 b i = (getBE32 b i ++ getBE32 b (i+4) : BitVec 64) := by
  apply BitVec.eq_of_getLsbD_eq
  intro j _
  refine Eq.trans (getBE64_getLsbD ..) (Eq.symm ?_)
  rw [BitVec.getLsbD_append]
  unfold getBE32
  rw [getBE32_getLsbD, getBE32_getLsbD]
  by_cases h : j < 32
  · simp only [h, if_true]
  · rw [if_neg h, if_neg (by omega : ¬ j < 8), if_neg (by omega : ¬ j < 16),
      if_neg (by omega : ¬ j < 24), if_neg (by omega : ¬ j < 32)]
    split
    · rw [if_pos (by omega)]
    · rw [if_neg (by omega : ¬ j < 40)]
      split
      · rw [if_pos (by omega)]; congr 1
      · rw [if_neg (by omega : ¬ j < 48)]
        split
        · rw [if_pos (by omega)]; congr 1
        · rw [if_neg (by omega)]; congr 1

theorem getLE64_split (b : Bytes) (i : Nat) : getLE64 b i = (getLE32 b (i+4) ++ getLE32 b i : BitVec 64) := by
  have h := getBE64_split [at8 b (i+7), at8 b (i+6), at8 b (i+5), at8 b (i+4), at8 b (i+3),
    at8 b (i+2), at8 b (i+1), at8 b i] 0
  exact h

theorem getBE64_be64 (w : U64) (r : Bytes) : getBE64 (be64 w ++ r) = w := by
  rw [getBE64_split]
  have : w = (w.extractLsb' 32 32 ++ w.extractLsb' 0 32 : BitVec 64) := by
    apply BitVec.eq_of_getLsbD_eq
    intro i hi
    refine Eq.symm ((BitVec.getLsbD_append ..).trans ?_)
    simp only [BitVec.getLsbD_extractLsb']
    split
    · simp [*]
    · rw [decide_eq_true (by omega), Bool.true_and]; congr 1; omega
  rw [this, be64_append]
  have e : getBE32 (be32 (w.extractLsb' 32 32) ++ be32 (w.extractLsb' 0 32) ++ r) (0+4) =
    getBE32 (be32 (w.extractLsb' 0 32) ++ r) := by rfl
  rw [e, List.append_assoc, getBE32_be32, getBE32_be32]

theorem getLE64_le64 (w : U64) (r : Bytes) : getLE64 (le64 w ++ r) = w := by
  rw [getLE64_split]
  have : w = (w.extractLsb' 32 32 ++ w.extractLsb' 0 32 : BitVec 64) := by
    apply BitVec.eq_of_getLsbD_eq
    intro i hi
    refine Eq.symm ((BitVec.getLsbD_append ..).trans ?_)
    simp only [BitVec.getLsbD_extractLsb']
    split
    · simp [*]
    · rw [decide_eq_true (by omega), Bool.true_and]; congr 1; omega
  rw [this, le64_append]
  have e : getLE32 (le32 (w.extractLsb' 0 32) ++ le32 (w.extractLsb' 32 32) ++ r) (0+4) =
    getLE32 (le32 (w.extractLsb' 32 32) ++ r) := by rfl
  rw [e, List.append_assoc, getLE32_le32, getLE32_le32]


/-- `b[i+k:]` read through `b[i:]`. -/
theorem at8_drop (b : Bytes) (k i : Nat) : at8 (b.drop k) i = at8 b (k + i) := by
  simp [at8, List.getD_eq_getElem?_getD]

theorem getBE32_drop (b : Bytes) (k i : Nat) : getBE32 (b.drop k) i = getBE32 b (k + i) := by
  simp only [getBE32, at8_drop, Nat.add_assoc]
theorem getLE32_drop (b : Bytes) (k i : Nat) : getLE32 (b.drop k) i = getLE32 b (k + i) := by
  simp only [getLE32, at8_drop, Nat.add_assoc]
theorem getBE64_drop (b : Bytes) (k i : Nat) : getBE64 (b.drop k) i = getBE64 b (k + i) := by
  simp only [getBE64, at8_drop, Nat.add_assoc]
theorem getLE64_drop (b : Bytes) (k i : Nat) : getLE64 (b.drop k) i = getLE64 b (k + i) := by
  simp only [getLE64, at8_drop, Nat.add_assoc]

/-- Word `i` of a sequence of big-endian words. -/
theorem getBE32_flatten (l : List U32) (r : Bytes) (i : Nat) (h : i < l.length) :
    getBE32 ((l.map be32).flatten ++ r) (4 * i) = l.getD i 0 := by
  induction l generalizing i with
  | nil => simp at h
  | cons a l ih =>
    cases i with
    | zero => simpa using getBE32_be32 a ((l.map be32).flatten ++ r)
    | succ i =>
      have e := getBE32_drop (((a :: l).map be32).flatten ++ r) 4 (4 * i)
      rw [show 4 * (i + 1) = 4 + 4 * i by omega, ← e]
      simp only [List.length_cons] at h
      exact ih i (by omega)

theorem getLE32_flatten (l : List U32) (r : Bytes) (i : Nat) (h : i < l.length) :
    getLE32 ((l.map le32).flatten ++ r) (4 * i) = l.getD i 0 := by
  induction l generalizing i with
  | nil => simp at h
  | cons a l ih =>
    cases i with
    | zero => simpa using getLE32_le32 a ((l.map le32).flatten ++ r)
    | succ i =>
      have e := getLE32_drop (((a :: l).map le32).flatten ++ r) 4 (4 * i)
      rw [show 4 * (i + 1) = 4 + 4 * i by omega, ← e]
      simp only [List.length_cons] at h
      exact ih i (by omega)

theorem getBE64_flatten (l : List U64) (r : Bytes) (i : Nat) (h : i < l.length) :
    getBE64 ((l.map be64).flatten ++ r) (8 * i) = l.getD i 0 := by
  induction l generalizing i with
  | nil => simp at h
  | cons a l ih =>
    cases i with
    | zero => simpa using getBE64_be64 a ((l.map be64).flatten ++ r)
    | succ i =>
      have e := getBE64_drop (((a :: l).map be64).flatten ++ r) 8 (8 * i)
      rw [show 8 * (i + 1) = 8 + 8 * i by omega, ← e]
      simp only [List.length_cons] at h
      exact ih i (by omega)

theorem getLE64_flatten (l : List U64) (r : Bytes) (i : Nat) (h : i < l.length) :
    getLE64 ((l.map le64).flatten ++ r) (8 * i) = l.getD i 0 := by
  induction l generalizing i with
  | nil => simp at h
  | cons a l ih =>
    cases i with
    | zero => simpa using getLE64_le64 a ((l.map le64).flatten ++ r)
    | succ i =>
      have e := getLE64_drop (((a :: l).map le64).flatten ++ r) 8 (8 * i)
      rw [show 8 * (i + 1) = 8 + 8 * i by omega, ← e]
      simp only [List.length_cons] at h
      exact ih i (by omega)

theorem map_be32_length (l : List U32) : ((l.map be32).flatten).length = 4 * l.length := by
  induction l with
  | nil => rfl
  | cons a l ih => simp [ih]; omega
theorem map_le32_length (l : List U32) : ((l.map le32).flatten).length = 4 * l.length := by
  induction l with
  | nil => rfl
  | cons a l ih => simp [ih]; omega
theorem map_be64_length (l : List U64) : ((l.map be64).flatten).length = 8 * l.length := by
  induction l with
  | nil => rfl
  | cons a l ih => simp [ih]; omega
theorem map_le64_length (l : List U64) : ((l.map le64).flatten).length = 8 * l.length := by
  induction l with
  | nil => rfl
  | cons a l ih => simp [ih]; omega

/-- A list is the list of its entries. -/
theorem map_getD_range {α} (l : List α) (d : α) (n : Nat) (h : l.length = n) :
    (List.range n).map (fun i => l.getD i d) = l := by
  apply List.ext_getElem
  · simp [h]
  · intro i h1 h2; simp [h2]

/-- Bit `i` of a byte widened and shifted left by `n`. -/
theorem getLsbD_byte_shl {w : Nat} (b : Byte) (n i : Nat) (hi : i < w) :
    ((b.setWidth w : BitVec w) <<< n).getLsbD i = if n ≤ i ∧ i < n + 8 then b.getLsbD (i - n) else false := by
  rw [BitVec.getLsbD_shiftLeft, BitVec.getLsbD_setWidth]
  by_cases h1 : n ≤ i
  · by_cases h2 : i < n + 8
    · rw [if_pos ⟨h1, h2⟩]; simp [hi, show ¬ i < n by omega, show i - n < w by omega]
    · rw [if_neg (by omega), BitVec.getLsbD_of_ge b (i - n) (by omega)]; simp
  · rw [if_neg (by omega)]; simp [show i < n by omega]
theorem getLsbD_byte {w : Nat} (b : Byte) (i : Nat) (hi : i < w) :
    (b.setWidth w : BitVec w).getLsbD i = if i < 8 then b.getLsbD i else false := by
  have := getLsbD_byte_shl b 0 i hi
  simpa using this

/-- Concatenation of bytes as a disjunction of shifts. -/
theorem join8_or (b0 b1 b2 b3 b4 b5 b6 b7 : Byte) :
    (b7 ++ b6 ++ b5 ++ b4 ++ b3 ++ b2 ++ b1 ++ b0 : U64) =
    b7.setWidth 64 <<< 56 ||| b6.setWidth 64 <<< 48 ||| b5.setWidth 64 <<< 40 ||| b4.setWidth 64 <<< 32 |||
    b3.setWidth 64 <<< 24 ||| b2.setWidth 64 <<< 16 ||| b1.setWidth 64 <<< 8 ||| b0.setWidth 64 := by
  apply BitVec.eq_of_getLsbD_eq
  intro i hi
  have := getBE64_getLsbD [b7, b6, b5, b4, b3, b2, b1, b0] 0 i
  refine this.trans ?_
  simp only [BitVec.getLsbD_or, getLsbD_byte_shl _ _ i hi, getLsbD_byte _ i hi, at8, Nat.zero_add,
    List.getD_cons_zero, List.getD_cons_succ]
  have h8 : i / 8 < 8 := by omega
  generalize hq : i / 8 = q at h8
  match q, h8 with
  | 0, _ => simp [show i < 8 by omega, show ¬ 8 ≤ i by omega, show ¬ 16 ≤ i by omega, show ¬ 24 ≤ i by omega, show ¬ 32 ≤ i by omega, show ¬ 40 ≤ i by omega, show ¬ 48 ≤ i by omega, show ¬ 56 ≤ i by omega]
  | 1, _ => simp [show ¬ i < 8 by omega, show i < 16 by omega, show 8 ≤ i by omega, show ¬ 16 ≤ i by omega, show ¬ 24 ≤ i by omega, show ¬ 32 ≤ i by omega, show ¬ 40 ≤ i by omega, show ¬ 48 ≤ i by omega, show ¬ 56 ≤ i by omega]
  | 2, _ => simp [show ¬ i < 8 by omega, show ¬ i < 16 by omega, show i < 24 by omega, show 8 ≤ i by omega, show 16 ≤ i by omega, show ¬ 24 ≤ i by omega, show ¬ 32 ≤ i by omega, show ¬ 40 ≤ i by omega, show ¬ 48 ≤ i by omega, show ¬ 56 ≤ i by omega]
  | 3, _ => simp [show ¬ i < 8 by omega, show ¬ i < 16 by omega, show ¬ i < 24 by omega, show i < 32 by omega, show 8 ≤ i by omega, show 16 ≤ i by omega, show 24 ≤ i by omega, show ¬ 32 ≤ i by omega, show ¬ 40 ≤ i by omega, show ¬ 48 ≤ i by omega, show ¬ 56 ≤ i by omega]
  | 4, _ => simp [show ¬ i < 8 by omega, show ¬ i < 16 by omega, show ¬ i < 24 by omega, show ¬ i < 32 by omega, show i < 40 by omega, show 32 ≤ i by omega, show ¬ 40 ≤ i by omega, show ¬ 48 ≤ i by omega, show ¬ 56 ≤ i by omega]
  | 5, _ => simp [show ¬ i < 8 by omega, show ¬ i < 16 by omega, show ¬ i < 24 by omega, show ¬ i < 32 by omega, show ¬ i < 40 by omega, show i < 48 by omega, show 40 ≤ i by omega, show ¬ 48 ≤ i by omega, show ¬ 56 ≤ i by omega]
  | 6, _ => simp [show ¬ i < 8 by omega, show ¬ i < 16 by omega, show ¬ i < 24 by omega, show ¬ i < 32 by omega, show ¬ i < 40 by omega, show ¬ i < 48 by omega, show i < 56 by omega, show 48 ≤ i by omega, show ¬ 56 ≤ i by omega]
  | 7, _ => simp [show ¬ i < 8 by omega, show ¬ i < 16 by omega, show ¬ i < 24 by omega, show ¬ i < 32 by omega, show ¬ i < 40 by omega, show ¬ i < 48 by omega, show ¬ i < 56 by omega, show 56 ≤ i by omega, show i < 64 by omega]

/-- Concatenation of four bytes as a disjunction of shifts. -/
theorem join4_or (b0 b1 b2 b3 : Byte) :
    (b3 ++ b2 ++ b1 ++ b0 : U32) =
    b3.setWidth 32 <<< 24 ||| b2.setWidth 32 <<< 16 ||| b1.setWidth 32 <<< 8 ||| b0.setWidth 32 := by
  apply BitVec.eq_of_getLsbD_eq
  intro i hi
  refine (getBE32_getLsbD b3 b2 b1 b0 i).trans ?_
  simp only [BitVec.getLsbD_or, getLsbD_byte_shl _ _ i hi, getLsbD_byte _ i hi]
  have h8 : i / 8 < 4 := by omega
  generalize hq : i / 8 = q at h8
  match q, h8 with
  | 0, _ => simp [show i < 8 by omega, show ¬ 8 ≤ i by omega, show ¬ 16 ≤ i by omega, show ¬ 24 ≤ i by omega]
  | 1, _ => simp [show ¬ i < 8 by omega, show i < 16 by omega, show 8 ≤ i by omega, show ¬ 16 ≤ i by omega, show ¬ 24 ≤ i by omega]
  | 2, _ => simp [show ¬ i < 8 by omega, show ¬ i < 16 by omega, show i < 24 by omega, show 16 ≤ i by omega, show ¬ 24 ≤ i by omega]
  | 3, _ => simp [show ¬ i < 8 by omega, show ¬ i < 16 by omega, show ¬ i < 24 by omega, show i < 32 by omega, show 24 ≤ i by omega]

/-- Concatenation of bytes as a sum modulo 2 of shifts. -/
theorem join8_xor (b0 b1 b2 b3 b4 b5 b6 b7 : Byte) :
    (b7 ++ b6 ++ b5 ++ b4 ++ b3 ++ b2 ++ b1 ++ b0 : U64) =
    b7.setWidth 64 <<< 56 ^^^ b6.setWidth 64 <<< 48 ^^^ b5.setWidth 64 <<< 40 ^^^ b4.setWidth 64 <<< 32 ^^^
    b3.setWidth 64 <<< 24 ^^^ b2.setWidth 64 <<< 16 ^^^ b1.setWidth 64 <<< 8 ^^^ b0.setWidth 64 := by
  apply BitVec.eq_of_getLsbD_eq
  intro i hi
  have := getBE64_getLsbD [b7, b6, b5, b4, b3, b2, b1, b0] 0 i
  refine this.trans ?_
  simp only [BitVec.getLsbD_xor, getLsbD_byte_shl _ _ i hi, getLsbD_byte _ i hi, at8, Nat.zero_add,
    List.getD_cons_zero, List.getD_cons_succ]
  have h8 : i / 8 < 8 := by omega
  generalize hq : i / 8 = q at h8
  match q, h8 with
  | 0, _ => simp [show i < 8 by omega, show ¬ 8 ≤ i by omega, show ¬ 16 ≤ i by omega, show ¬ 24 ≤ i by omega, show ¬ 32 ≤ i by omega, show ¬ 40 ≤ i by omega, show ¬ 48 ≤ i by omega, show ¬ 56 ≤ i by omega]
  | 1, _ => simp [show ¬ i < 8 by omega, show i < 16 by omega, show 8 ≤ i by omega, show ¬ 16 ≤ i by omega, show ¬ 24 ≤ i by omega, show ¬ 32 ≤ i by omega, show ¬ 40 ≤ i by omega, show ¬ 48 ≤ i by omega, show ¬ 56 ≤ i by omega]
  | 2, _ => simp [show ¬ i < 8 by omega, show ¬ i < 16 by omega, show i < 24 by omega, show 8 ≤ i by omega, show 16 ≤ i by omega, show ¬ 24 ≤ i by omega, show ¬ 32 ≤ i by omega, show ¬ 40 ≤ i by omega, show ¬ 48 ≤ i by omega, show ¬ 56 ≤ i by omega]
  | 3, _ => simp [show ¬ i < 8 by omega, show ¬ i < 16 by omega, show ¬ i < 24 by omega, show i < 32 by omega, show 8 ≤ i by omega, show 16 ≤ i by omega, show 24 ≤ i by omega, show ¬ 32 ≤ i by omega, show ¬ 40 ≤ i by omega, show ¬ 48 ≤ i by omega, show ¬ 56 ≤ i by omega]
  | 4, _ => simp [show ¬ i < 8 by omega, show ¬ i < 16 by omega, show ¬ i < 24 by omega, show ¬ i < 32 by omega, show i < 40 by omega, show 32 ≤ i by omega, show ¬ 40 ≤ i by omega, show ¬ 48 ≤ i by omega, show ¬ 56 ≤ i by omega]
  | 5, _ => simp [show ¬ i < 8 by omega, show ¬ i < 16 by omega, show ¬ i < 24 by omega, show ¬ i < 32 by omega, show ¬ i < 40 by omega, show i < 48 by omega, show 40 ≤ i by omega, show ¬ 48 ≤ i by omega, show ¬ 56 ≤ i by omega]
  | 6, _ => simp [show ¬ i < 8 by omega, show ¬ i < 16 by omega, show ¬ i < 24 by omega, show ¬ i < 32 by omega, show ¬ i < 40 by omega, show ¬ i < 48 by omega, show i < 56 by omega, show 48 ≤ i by omega, show ¬ 56 ≤ i by omega]
  | 7, _ => simp [show ¬ i < 8 by omega, show ¬ i < 16 by omega, show ¬ i < 24 by omega, show ¬ i < 32 by omega, show ¬ i < 40 by omega, show ¬ i < 48 by omega, show ¬ i < 56 by omega, show 56 ≤ i by omega, show i < 64 by omega]

/-- Concatenation of four bytes as a sum modulo 2 of shifts. -/
theorem join4_xor (b0 b1 b2 b3 : Byte) :
    (b3 ++ b2 ++ b1 ++ b0 : U32) =
    b3.setWidth 32 <<< 24 ^^^ b2.setWidth 32 <<< 16 ^^^ b1.setWidth 32 <<< 8 ^^^ b0.setWidth 32 := by
  apply BitVec.eq_of_getLsbD_eq
  intro i hi
  refine (getBE32_getLsbD b3 b2 b1 b0 i).trans ?_
  simp only [BitVec.getLsbD_xor, getLsbD_byte_shl _ _ i hi, getLsbD_byte _ i hi]
  have h8 : i / 8 < 4 := by omega
  generalize hq : i / 8 = q at h8
  match q, h8 with
  | 0, _ => simp [show i < 8 by omega, show ¬ 8 ≤ i by omega, show ¬ 16 ≤ i by omega, show ¬ 24 ≤ i by omega]
  | 1, _ => simp [show ¬ i < 8 by omega, show i < 16 by omega, show 8 ≤ i by omega, show ¬ 16 ≤ i by omega, show ¬ 24 ≤ i by omega]
  | 2, _ => simp [show ¬ i < 8 by omega, show ¬ i < 16 by omega, show i < 24 by omega, show 16 ≤ i by omega, show ¬ 24 ≤ i by omega]
  | 3, _ => simp [show ¬ i < 8 by omega, show ¬ i < 16 by omega, show ¬ i < 24 by omega, show i < 32 by omega, show 24 ≤ i by omega]

end Verif
