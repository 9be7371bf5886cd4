import Verif.Model.Whirlpool
import Verif.Spec.Whirlpool
import Verif.LoopBuf
import Verif.Words
import Verif.Lemmas.GFBlock
import Verif.Model.Big
import Verif.Tail
/-
Whirlpool: the compression function against the specification, and the buffer.
-/
namespace Verif.Whirlpool
open Spec.Whirlpool (Version entry matrix mul coef)

/-! ## Matrices -/

theorem matrix_length (f : Nat → Nat → Byte) : (matrix f).length = 64 := by simp [matrix]
theorem entry_matrix (f : Nat → Nat → Byte) (i j : Nat) (hi : i < 8) (hj : j < 8) : entry (matrix f) i j = f i j := by
  unfold entry matrix at8
  rw [List.getD_eq_getElem?_getD, List.getElem?_map, List.getElem?_range (by omega)]
  simp only [Option.map_some, Option.getD_some]
  rw [show (8 * i + j) / 8 = i by omega, show (8 * i + j) % 8 = j by omega]
theorem matrix_congr (f f' : Nat → Nat → Byte) (h : ∀ i j, i < 8 → j < 8 → f i j = f' i j) : matrix f = matrix f' := by
  unfold matrix
  apply List.map_congr_left
  intro t ht
  rw [List.mem_range] at ht
  exact h _ _ (by omega) (by omega)

def byteOf (w : U64) (j : Nat) : Byte := w.extractLsb' (56 - 8 * j) 8

theorem bytes_matrix (l : List U64) (hl : l.length = 8) : bytes l = matrix (fun i j => byteOf (g l i) j) := by
  obtain ⟨a0, a1, a2, a3, a4, a5, a6, a7, rfl⟩ : ∃ a0 a1 a2 a3 a4 a5 a6 a7, l = [a0, a1, a2, a3, a4, a5, a6, a7] := by
    match l, hl with
    | [a0, a1, a2, a3, a4, a5, a6, a7], _ => exact ⟨a0, a1, a2, a3, a4, a5, a6, a7, rfl⟩
  have hb : ∀ w : U64, be64 w = [byteOf w 0, byteOf w 1, byteOf w 2, byteOf w 3, byteOf w 4, byteOf w 5, byteOf w 6, byteOf w 7] := by
    intro w
    have := list8 (b := be64 w) (by simp [be64])
    rw [this]
    simp only [be64_get (show 0 < 8 by omega), be64_get (show 1 < 8 by omega), be64_get (show 2 < 8 by omega), be64_get (show 3 < 8 by omega),
      be64_get (show 4 < 8 by omega), be64_get (show 5 < 8 by omega), be64_get (show 6 < 8 by omega), be64_get (show 7 < 8 by omega)]
    rfl
  unfold bytes
  simp only [List.flatMap_cons, List.flatMap_nil, hb]
  rfl

theorem entry_bytes (l : List U64) (hl : l.length = 8) (i j : Nat) (hi : i < 8) (hj : j < 8) : entry (bytes l) i j = byteOf (g l i) j := by
  rw [bytes_matrix l hl, entry_matrix _ _ _ hi hj]

theorem byteOf_xor (a b : U64) (j : Nat) : byteOf (a ^^^ b) j = byteOf a j ^^^ byteOf b j := by
  unfold byteOf; rw [BitVec.extractLsb'_xor]

theorem lk_eq (t : List U64) (w : U64) (j : Nat) (hj : j < 8) : lk t (w >>> (56 - 8 * j)) = t.getD (byteOf w j).toNat 0 := by
  unfold lk byteOf
  rw [show (BitVec.setWidth 8 (w >>> (56 - 8 * j)) : Byte) = w.extractLsb' (56 - 8 * j) 8 from ?_]
  apply BitVec.eq_of_getLsbD_eq
  intro i hi
  simp [hi]

/-- What the tables must satisfy. -/
structure TablesFit (V : Version) (T : Tables) : Prop where
  sub : ∀ j x k, j < 8 → x < 256 → k < 8 → byteOf ((T.c.getD j []).getD x 0) k = mul (coef V j k) (at8 V.sbox x)
  con : ∀ r j, 1 ≤ r → r ≤ 10 → j < 8 → byteOf (g T.rc r) j = at8 V.sbox (8 * (r - 1) + j)

variable {V : Version} {T : Tables}

def lin (V : Version) (M : Bytes) : Bytes := Spec.Whirlpool.mixRows V (Spec.Whirlpool.shiftColumns (Spec.Whirlpool.subBytes V M))

theorem g_map (f : Nat → U64) (i : Nat) (hi : i < 8) : g ((List.range 8).map f) i = f i := by
  unfold g
  rw [List.getD_eq_getElem?_getD, List.getElem?_map, List.getElem?_range hi]; rfl

theorem row_byte (h : TablesFit V T) (l : List U64) (hl : l.length = 8) (i k : Nat) (hi : i < 8) (hk : k < 8) :
    byteOf (row T l i) k = entry (lin V (bytes l)) i k := by
  have hs : ∀ j, j < 8 → entry (Spec.Whirlpool.shiftColumns (Spec.Whirlpool.subBytes V (bytes l))) i j = at8 V.sbox (byteOf (g l ((i + 8 - j) % 8)) j).toNat := by
    intro j hj
    unfold Spec.Whirlpool.shiftColumns
    rw [entry_matrix _ _ _ hi hj]
    unfold Spec.Whirlpool.subBytes
    rw [entry_matrix _ _ _ (by omega) hj, entry_bytes l hl _ _ (by omega) hj]
  have ht : ∀ j, j < 8 → byteOf (lk (T.c.getD j []) (g l ((i + 8 - j) % 8) >>> (56 - 8 * j))) k = mul (coef V j k) (at8 V.sbox (byteOf (g l ((i + 8 - j) % 8)) j).toNat) := by
    intro j hj
    rw [lk_eq _ _ _ hj, h.sub j _ k hj (BitVec.isLt _) hk]
  unfold lin Spec.Whirlpool.mixRows
  rw [entry_matrix _ _ _ hi hk]
  rw [show List.range 8 = [0, 1, 2, 3, 4, 5, 6, 7] from rfl]
  simp only [List.foldl_cons, List.foldl_nil]
  rw [hs 0 (by omega), hs 1 (by omega), hs 2 (by omega), hs 3 (by omega), hs 4 (by omega), hs 5 (by omega), hs 6 (by omega), hs 7 (by omega),
    ← ht 0 (by omega), ← ht 1 (by omega), ← ht 2 (by omega), ← ht 3 (by omega), ← ht 4 (by omega), ← ht 5 (by omega), ← ht 6 (by omega), ← ht 7 (by omega)]
  unfold row
  simp only [byteOf_xor]
  have e0 : (i + 8 - 0) % 8 = i % 8 := by omega
  rw [e0]
  simp only [show i + 8 - 1 = i + 7 by omega, show i + 8 - 2 = i + 6 by omega, show i + 8 - 3 = i + 5 by omega, show i + 8 - 4 = i + 4 by omega,
    show i + 8 - 5 = i + 3 by omega, show i + 8 - 6 = i + 2 by omega, show i + 8 - 7 = i + 1 by omega, Nat.reduceMul, Nat.reduceSub, Nat.sub_zero, Nat.mul_zero,
    BitVec.ushiftRight_zero, show ∀ a : Byte, (0 : Byte) ^^^ a = a from fun a => BitVec.zero_xor]

theorem roundStep_eq (h : TablesFit V T) (K s : List U64) (hK : K.length = 8) (hs : s.length = 8) (r : Nat) (h1 : 1 ≤ r) (h2 : r ≤ 10) :
    (roundStep T (K, s) r).1.length = 8 ∧ (roundStep T (K, s) r).2.length = 8 ∧
    bytes (roundStep T (K, s) r).1 = Spec.Whirlpool.round V (Spec.Whirlpool.rcon V r) (bytes K) ∧
    bytes (roundStep T (K, s) r).2 = Spec.Whirlpool.round V (Spec.Whirlpool.round V (Spec.Whirlpool.rcon V r) (bytes K)) (bytes s) := by
  have hKl : (roundStep T (K, s) r).1.length = 8 := by simp [roundStep]
  have hsl : (roundStep T (K, s) r).2.length = 8 := by simp [roundStep]
  have hKe : bytes (roundStep T (K, s) r).1 = Spec.Whirlpool.round V (Spec.Whirlpool.rcon V r) (bytes K) := by
    rw [bytes_matrix _ hKl]
    unfold Spec.Whirlpool.round Spec.Whirlpool.addKey
    apply matrix_congr
    intro i j hi hj
    have hb := row_byte h K hK i j hi hj
    unfold lin at hb
    rw [← hb]
    unfold Spec.Whirlpool.rcon
    rw [entry_matrix _ _ _ hi hj]
    unfold roundStep
    dsimp only
    by_cases h0 : i = 0
    · subst h0
      rw [if_pos rfl, ← h.con r j h1 h2 hj, ← byteOf_xor]
      rfl
    · rw [if_neg h0]
      have e : g (((List.range 8).map (row T K)).set 0 (g ((List.range 8).map (row T K)) 0 ^^^ g T.rc r)) i = row T K i := by
        rw [← g_map (row T K) i hi]
        unfold g
        rw [List.getD_eq_getElem?_getD, List.getElem?_set_ne (by omega), ← List.getD_eq_getElem?_getD]
      rw [e]; simp
  refine ⟨hKl, hsl, hKe, ?_⟩
  rw [← hKe, bytes_matrix _ hsl]
  unfold Spec.Whirlpool.round Spec.Whirlpool.addKey
  apply matrix_congr
  intro i j hi hj
  have hb := row_byte h s hs i j hi hj
  unfold lin at hb
  rw [← hb, entry_bytes _ hKl _ _ hi hj, ← byteOf_xor]
  congr 1
  show g ((List.range 8).map fun i => row T s i ^^^ g (roundStep T (K, s) r).1 (i % 8)) i = _
  rw [g_map _ i hi, Nat.mod_eq_of_lt hi]

theorem bytes_length (l : List U64) : (bytes l).length = 8 * l.length := by
  unfold bytes
  induction l with
  | nil => rfl
  | cons a l ih => rw [List.flatMap_cons, List.length_append, ih]; simp [be64]; omega

theorem words_length (x : Bytes) (h : x.length = 64) : (words x).length = 8 := by simp [words, h]
theorem bytes_words (x : Bytes) (h : x.length = 64) : bytes (words x) = x := by
  rw [bytes_matrix _ (words_length x h)]
  apply List.ext_getElem
  · rw [matrix_length, h]
  · intro n h1 h2
    have hn : n < 64 := by omega
    have e := entry_matrix (fun i j => byteOf (g (words x) i) j) (n / 8) (n % 8) (by omega) (by omega)
    unfold entry at8 at e
    rw [show 8 * (n / 8) + n % 8 = n by omega, List.getD_eq_getElem?_getD, List.getElem?_eq_getElem h1, Option.getD_some] at e
    rw [e]
    unfold words g
    rw [h, List.getD_eq_getElem?_getD, List.getElem?_map, List.getElem?_range (by omega)]
    simp only [Option.map_some, Option.getD_some]
    unfold byteOf
    rw [getBE64_extract _ _ _ (by omega), show n / 8 * 8 + n % 8 = n by omega]
    unfold at8
    rw [List.getD_eq_getElem?_getD, List.getElem?_eq_getElem (by omega), Option.getD_some]

theorem transform_length (hash : List U64) (x : Bytes) : (transform T hash x).length = 8 := by simp [transform]

/-- The compression function of the package is that of the specification. -/
theorem transform_eq (h : TablesFit V T) (hash : List U64) (x : Bytes) (hh : hash.length = 8) (hx : x.length = 64) :
    bytes (transform T hash x) = Spec.Whirlpool.compress V (bytes hash) x := by
  have hw := words_length x hx
  have hbw := bytes_words x hx
  have hst : bytes ((List.range 8).map fun i => g (words x) i ^^^ g hash i) = Spec.Whirlpool.addKey (bytes hash) x := by
    rw [bytes_matrix _ (by simp)]
    unfold Spec.Whirlpool.addKey
    apply matrix_congr
    intro i j hi hj
    rw [g_map _ i hi, byteOf_xor, ← entry_bytes hash hh i j hi hj, ← entry_bytes (words x) hw i j hi hj, hbw]
  have hrounds : ∀ (rs : List Nat) (K s : List U64), (∀ r ∈ rs, 1 ≤ r ∧ r ≤ 10) → K.length = 8 → s.length = 8 →
      (rs.foldl (roundStep T) (K, s)).2.length = 8 ∧ bytes (rs.foldl (roundStep T) (K, s)).2 = (rs.foldl (fun (km : Bytes × Bytes) r =>
        let K := Spec.Whirlpool.round V (Spec.Whirlpool.rcon V r) km.1
        (K, Spec.Whirlpool.round V K km.2)) (bytes K, bytes s)).2 := by
    intro rs
    induction rs with
    | nil => intro K s _ hK hs; exact ⟨hs, rfl⟩
    | cons r rs ih =>
      intro K s hr hK hs
      obtain ⟨a1, a2, a3, a4⟩ := roundStep_eq h K s hK hs r (hr r (by simp)).1 (hr r (by simp)).2
      have := ih (roundStep T (K, s) r).1 (roundStep T (K, s) r).2 (fun r hr' => hr r (by simp [hr'])) a1 a2
      rw [a3, a4] at this
      exact this
  obtain ⟨l1, l2⟩ := hrounds [1, 2, 3, 4, 5, 6, 7, 8, 9, 10] hash _ (by decide) hh (show ((List.range 8).map fun i => g (words x) i ^^^ g hash i).length = 8 by simp)
  rw [hst] at l2
  have l2' : bytes (List.foldl (roundStep T) (hash, (List.range 8).map fun i => g (words x) i ^^^ g hash i) [1, 2, 3, 4, 5, 6, 7, 8, 9, 10]).2 = (Spec.Whirlpool.rounds V (bytes hash) x).2 := l2
  unfold transform
  dsimp only
  rw [show forLoop 1 11 (roundStep T) = fun s => [1, 2, 3, 4, 5, 6, 7, 8, 9, 10].foldl (roundStep T) s from rfl]
  dsimp only
  unfold Spec.Whirlpool.compress
  rw [← l2']
  generalize (List.foldl (roundStep T) (hash, (List.range 8).map fun i => g (words x) i ^^^ g hash i) [1, 2, 3, 4, 5, 6, 7, 8, 9, 10]).2 = st at l1
  rw [bytes_matrix _ (by simp)]
  unfold Spec.Whirlpool.addKey
  apply matrix_congr
  intro i j hi hj
  rw [entry_matrix _ _ _ hi hj, g_map _ i hi, byteOf_xor, byteOf_xor, ← entry_bytes hash hh i j hi hj, ← entry_bytes (words x) hw i j hi hj, hbw, ← entry_bytes st l1 i j hi hj]
  try rw [BitVec.xor_comm]

/-! ## The length counter -/

def leVal : Bytes → Nat
  | [] => 0
  | b :: bs => b.toNat + 256 * leVal bs

theorem tally_spec (l : Bytes) : ∀ (c : U32) (v : U64), c.toNat ≤ 1 → (tally l c v).length = l.length ∧ leVal (tally l c v) = (leVal l + c.toNat + v.toNat) % 256 ^ l.length := by
  induction l with
  | nil => intro c v _; exact ⟨rfl, by simp [tally, leVal, Nat.mod_one]⟩
  | cons b bs ih =>
    intro c v hc
    have hlt : ∀ l : Bytes, leVal l < 256 ^ l.length := by
      intro l
      induction l with
      | nil => simp [leVal]
      | cons b l ih => have := b.isLt; simp only [leVal, List.length_cons, Nat.pow_succ]; omega
    unfold tally
    by_cases h0 : c ≠ 0 ∨ v ≠ 0
    · rw [if_pos h0]
      dsimp only
      have hb := b.isLt
      have hvm : (v &&& 0xff : U64).toNat = v.toNat % 256 := by
        rw [BitVec.toNat_and]; exact Nat.and_two_pow_sub_one_eq_mod v.toNat 8
      have hsum : (c + (b.setWidth 32 + (v &&& 0xff).setWidth 32) : U32).toNat = c.toNat + (b.toNat + v.toNat % 256) := by
        simp only [BitVec.toNat_add, BitVec.toNat_setWidth, hvm]
        simp only [Nat.reducePow] at *
        omega
      have hc2 : ((c + (b.setWidth 32 + (v &&& 0xff).setWidth 32) : U32) >>> 8).toNat = (c.toNat + (b.toNat + v.toNat % 256)) / 256 := by
        rw [BitVec.toNat_ushiftRight, hsum, Nat.shiftRight_eq_div_pow]
      have hv2 : (v >>> 8).toNat = v.toNat / 256 := by rw [BitVec.toNat_ushiftRight, Nat.shiftRight_eq_div_pow]
      obtain ⟨i1, i2⟩ := ih _ (v >>> 8) (by rw [hc2]; omega)
      refine ⟨by rw [List.length_cons, List.length_cons, i1], ?_⟩
      simp only [leVal, List.length_cons]
      rw [i2, hc2, hv2, BitVec.toNat_setWidth, hsum, Nat.pow_succ 256 bs.length, Nat.mul_comm (256 ^ bs.length) 256, Nat.mod_mul]
      have e1 : (b.toNat + 256 * leVal bs + c.toNat + v.toNat) % 256 = (c.toNat + (b.toNat + v.toNat % 256)) % 2 ^ 8 := by omega
      have e2 : (b.toNat + 256 * leVal bs + c.toNat + v.toNat) / 256 = leVal bs + (c.toNat + (b.toNat + v.toNat % 256)) / 256 + v.toNat / 256 := by omega
      rw [e1, e2]
    · rw [if_neg h0]
      obtain ⟨rfl, rfl⟩ : c = 0 ∧ v = 0 := ⟨Classical.byContradiction fun h => h0 (.inl h), Classical.byContradiction fun h => h0 (.inr h)⟩
      refine ⟨rfl, ?_⟩
      have := hlt (b :: bs)
      rw [Nat.mod_eq_of_lt (by simpa using this)]
      simp

theorem leVal_snoc (a : Bytes) (b : Byte) : leVal (a ++ [b]) = leVal a + 256 ^ a.length * b.toNat := by
  induction a with
  | nil => simp [leVal]
  | cons x a ih => rw [List.cons_append, leVal, ih, leVal, List.length_cons, Nat.pow_succ, Nat.mul_add, Nat.mul_comm (256 ^ a.length) 256, Nat.mul_assoc, Nat.add_assoc]

theorem leVal_reverse (l : Bytes) : leVal l.reverse = Spec.beNat l := by
  induction l with
  | nil => rfl
  | cons b l ih => rw [List.reverse_cons, leVal_snoc, ih, Spec.beNat_cons, List.length_reverse, Nat.mul_comm, Nat.add_comm]

theorem beBytes_mod (n x : Nat) : Spec.beBytes n (x % 256 ^ n) = Spec.beBytes n x := by
  unfold Spec.beBytes
  apply List.map_congr_left
  intro i hi
  rw [List.mem_range] at hi
  apply BitVec.eq_of_toNat_eq
  rw [BitVec.toNat_ofNat, BitVec.toNat_ofNat]
  have e : 256 ^ n = 256 ^ (n - 1 - i) * (256 * 256 ^ i) := by
    rw [← Nat.pow_succ', ← Nat.pow_add]; congr 1; omega
  rw [e, Nat.mod_mul_right_div_self, Nat.mod_mul_right_mod]

/-- The 256-bit counter adds the number of bits modulo 2^256. -/
theorem tally_beNat (s : Bytes) (v : U64) : (tally s.reverse 0 v).reverse = Spec.beBytes s.length (Spec.beNat s + v.toNat) := by
  obtain ⟨h1, h2⟩ := tally_spec s.reverse 0 v (by decide)
  have hl : (tally s.reverse 0 v).reverse.length = s.length := by rw [List.length_reverse, h1, List.length_reverse]
  rw [← Spec.beBytes_beNat (tally s.reverse 0 v).reverse, hl, ← leVal_reverse, List.reverse_reverse, h2, leVal_reverse, List.length_reverse]
  rw [beBytes_mod]
  rfl

theorem beNat_beBytes_mod (n x : Nat) : Spec.beNat (Spec.beBytes n x) = x % 256 ^ n := by
  rw [← beBytes_mod, Big.beNat_beBytes _ _ (Nat.mod_lt _ (Nat.pos_of_ne_zero (by simp)))]

/-- The counter after one more Write. -/
theorem counter_step (s : Bytes) (n k : Nat) (hs : s = Spec.beBytes 32 (8 * n)) (hk : k < 2 ^ 60) :
    (tally s.reverse 0 (BitVec.ofNat 64 (8 * k % 2 ^ 64))).reverse = Spec.beBytes 32 (8 * (n + k)) := by
  have hv : (BitVec.ofNat 64 (8 * k % 2 ^ 64)).toNat = 8 * k := by rw [BitVec.toNat_ofNat]; simp only [Nat.reducePow] at *; omega
  rw [tally_beNat, hv, hs, Spec.beBytes_length, beNat_beBytes_mod, ← beBytes_mod, ← beBytes_mod 32 (8 * (n + k))]
  congr 1
  rw [Nat.mod_add_mod, Nat.mul_add]

/-! ## The buffer -/

/-- State of the digest after m. -/
structure Inv (T : Tables) (d : Digest) (m : Bytes) : Prop where
  buf : BufRepr 64 (transform T) (List.replicate 8 0) d.hash d.x d.nx m
  zero : at8 d.x d.nx = 0
  len : d.len = 8 * d.nx
  s : d.s = Spec.beBytes 32 (8 * m.length)

/-- What Write does for one byte. -/
def byteStep (T : Tables) (d : Digest) (b : Byte) : Digest :=
  let d := { d with x := d.x.set d.nx (at8 d.x d.nx ||| b), nx := d.nx + 1, len := d.len + 8 }
  let d := flush T d
  { d with x := d.x.set d.nx 0 }

structure Core (T : Tables) (d : Digest) (m : Bytes) : Prop where
  buf : BufRepr 64 (transform T) (List.replicate 8 0) d.hash d.x d.nx m
  zero : at8 d.x d.nx = 0
  len : d.len = 8 * d.nx

theorem at8_set (x : Bytes) (i : Nat) (b : Byte) (h : i < x.length) : at8 (x.set i b) i = b := by
  unfold at8; rw [List.getD_eq_getElem?_getD, List.getElem?_set_self h]; rfl

theorem byteStep_core (d : Digest) (m : Bytes) (b : Byte) (h : Core T d m) : Core T (byteStep T d b) (m ++ [b]) := by
  obtain ⟨⟨hst, hxl, hnx, hp⟩, hz, hl⟩ := h
  have hlt : d.nx < 64 := by rw [hnx]; exact Nat.mod_lt _ (by omega)
  obtain ⟨e1, e2⟩ := K12.fullBlocks_rest m [b] 64 (by omega)
  have hrl : (restBlock 64 m ++ [b]).length = d.nx + 1 := by rw [List.length_append, restBlock_length, ← hnx]; rfl
  have hb0 : at8 d.x d.nx ||| b = b := by rw [hz]; exact BitVec.zero_or
  have htk : (d.x.set d.nx b).take (d.nx + 1) = restBlock 64 m ++ [b] := by
    rw [List.take_add_one, List.take_set_of_le (Nat.le_refl _), hp]
    simp [show d.nx < d.x.length by omega]
  unfold byteStep flush
  dsimp only
  rw [hb0, hl]
  by_cases h63 : d.nx = 63
  · rw [if_pos (by omega)]
    dsimp only
    have hlen : (restBlock 64 m ++ [b]).length = 64 := by omega
    have hr : restBlock 64 (restBlock 64 m ++ [b]) = [] := by
      apply List.eq_nil_of_length_eq_zero; rw [restBlock_length, hlen]
    rw [fullBlocks_one _ _ (by omega) hlen] at e1
    rw [hr] at e2
    refine ⟨⟨?_, ?_, ?_, ?_⟩, ?_, ?_⟩
    · dsimp only
      rw [e1, List.foldl_append, ← hst, ← htk, h63, List.take_of_length_le (by rw [List.length_set]; omega)]
      rfl
    · dsimp only; rw [List.length_set, List.length_set]; exact hxl
    · dsimp only; rw [List.length_append, List.length_singleton]; omega
    · dsimp only; rw [e2]; rfl
    · dsimp only; rw [at8_set _ _ _ (by rw [List.length_set]; omega)]
    · rfl
  · rw [if_neg (by omega)]
    have hr : (restBlock 64 m ++ [b]).length < 64 := by omega
    rw [fullBlocks_lt _ _ hr, List.append_nil] at e1
    rw [restBlock_lt _ _ hr] at e2
    refine ⟨⟨?_, ?_, ?_, ?_⟩, ?_, ?_⟩
    · dsimp only; rw [e1]; exact hst
    · dsimp only; rw [List.length_set, List.length_set]; exact hxl
    · dsimp only; rw [List.length_append, List.length_singleton]; omega
    · dsimp only; rw [e2, List.take_set_of_le (Nat.le_refl _), htk]
    · dsimp only; rw [at8_set _ _ _ (by rw [List.length_set]; omega)]
    · dsimp only; omega

theorem foldl_core (p : Bytes) : ∀ (d : Digest) (m : Bytes), Core T d m → Core T (p.foldl (byteStep T) d) (m ++ p) := by
  induction p with
  | nil => intro d m h; simpa using h
  | cons b p ih =>
    intro d m h
    have := ih _ _ (byteStep_core d m b h)
    rw [List.append_assoc] at this
    exact this

theorem shift_out (b : U32) (h : b.toNat < 256) : ((b <<< (8 - 0)).setWidth 8 : Byte) = 0 := by
  apply BitVec.eq_of_getLsbD_eq
  intro i hi
  simp
  try (intro _; omega)
theorem byte_in (b : Byte) : (((b <<< 0).setWidth 32 : U32) >>> 0).setWidth 8 = b := by
  apply BitVec.eq_of_getLsbD_eq
  intro i hi
  simp

theorem writeLoop_eq (p : Bytes) (d : Digest) : writeEnd T 0 (writeLoop T 0 p d).2 (writeLoop T 0 p d).1 = p.foldl (byteStep T) d := by
  induction p, d using writeLoop.induct (T := T) (bufferRem := 0) with
  | case1 b b' rest d b32 d1 d2 d3 ih =>
    unfold writeLoop
    rw [List.foldl_cons]
    have e : d3 = byteStep T d b := by
      have hb' : b' >>> 8 = 0#8 := by
        apply BitVec.eq_of_getLsbD_eq; intro i hi; simp; try (intro; omega)
      have hbb : ((b <<< 0) ||| (b' >>> 8) : Byte) = b := by rw [hb']; simp
      simp only [d3, d2, d1, b32, hbb]
      unfold byteStep
      have h1 : (((b.setWidth 32 : U32) >>> 0).setWidth 8 : Byte) = b := by
        apply BitVec.eq_of_getLsbD_eq; intro i hi; simp
      have h2 : (((b.setWidth 32 : U32) <<< (8 - 0)).setWidth 8 : Byte) = 0 := shift_out _ (by simp; have := b.isLt; omega)
      rw [h1, h2]
      rfl
    rw [← e]
    exact ih
  | case2 p d hne =>
    match p, hne with
    | [], _ => rfl
    | [b], _ =>
      have h1 : (((b <<< 0).setWidth 32 : U32).setWidth 8 : Byte) >>> 0 = b := by
        apply BitVec.eq_of_getLsbD_eq; intro i hi; simp
      have h2 : ((((b <<< 0).setWidth 32 : U32) <<< (8 - 0)).setWidth 8 : Byte) = 0 := shift_out _ (by simp; have := b.isLt; omega)
      show writeEnd T 0 [b] d = byteStep T d b
      unfold writeEnd
      simp only [List.length_singleton, Nat.mul_one, gt_iff_lt, Nat.zero_lt_succ, if_true, if_pos (show 0 < 8 by omega), Nat.zero_add, Nat.lt_irrefl, if_false]
      rw [show at8 [b] 0 = b from rfl, h1, h2]
      rfl
    | b :: b' :: rest, hne => exact absurd rfl (hne b b' rest)

theorem write_inv (d : Digest) (m p : Bytes) (h : Inv T d m) (hp : p.length < 2 ^ 60) : Inv T (d.write T p) (m ++ p) := by
  obtain ⟨hb, hz, hl, hs⟩ := h
  unfold Digest.write
  dsimp only
  have e8 : 8 * p.length % 2 ^ 64 = 8 * p.length := by simp only [Nat.reducePow] at *; omega
  have hr : d.len % 8 = 0 := by omega
  rw [hr, writeLoop_eq, show 8 * p.length % 2 ^ 64 / 8 = p.length by rw [e8]; omega, List.take_length]
  have hc := foldl_core p _ _ (show Core T { d with s := (tally d.s.reverse 0 (BitVec.ofNat 64 (8 * p.length % 2 ^ 64))).reverse } m from ⟨hb, hz, hl⟩)
  have hss : ∀ (p : Bytes) (d : Digest), (p.foldl (byteStep T) d).s = d.s := by
    intro p
    induction p with
    | nil => intro d; rfl
    | cons b p ih => intro d; rw [List.foldl_cons, ih]; unfold byteStep flush; dsimp only; split <;> rfl
  refine ⟨hc.buf, hc.zero, hc.len, ?_⟩
  rw [hss, counter_step d.s m.length p.length hs hp, List.length_append]

theorem checkSum_eq (d : Digest) (m : Bytes) (h : Inv T d m) :
    d.checkSum T = bytes ((fullBlocks 64 (Spec.Whirlpool.pad m)).foldl (transform T) (List.replicate 8 0)) := by
  obtain ⟨hb, hz, hl, hs⟩ := h
  have hlt := hb.nx_lt (by omega)
  have hxl := hb.xlen
  have hsl : d.s.length = 32 := by rw [hs, Spec.beBytes_length]
  unfold Spec.Whirlpool.pad
  rw [← hs, ← mdFinal_eq (transform T) (by omega) 0x80 _ d.hash d.x d.nx m d.s (by omega) hb]
  have hmk := markBuf_eq d.x d.nx 0x80 64 (by omega) (by omega)
  rw [hxl] at hmk
  have hm : at8 d.x d.nx ||| (0x80 : Byte) >>> (d.len % 8) = 0x80 := by rw [hz, show d.len % 8 = 0 by omega]; rfl
  have htk : (d.x.set d.nx 0x80).take (d.nx + 1) = d.x.take d.nx ++ [0x80] := by
    rw [List.take_add_one, List.take_set_of_le (Nat.le_refl _)]
    simp [show d.nx < d.x.length by omega]
  have hxs : (d.x.set d.nx 0x80).length = 64 := by rw [List.length_set, hxl]
  have fin : ∀ (x : Bytes), x.length = 64 → goCopy x 32 d.s = x.take 32 ++ d.s := fun x hx => goCopy_end x d.s 32 (by omega)
  unfold Digest.checkSum mdFinal
  rw [hm]
  dsimp only
  rw [hsl, hmk]
  have hbl : ∀ hash x, (bytes (transform T hash x)).take 64 = bytes (transform T hash x) := by
    intro hash x; rw [List.take_of_length_le]; rw [bytes_length, transform_length]; omega
  by_cases hc : d.nx + 1 > 64 - 32
  · rw [if_pos hc, if_pos (show 64 - d.nx < 32 + 1 by omega)]
    dsimp only
    have hX : (if d.nx + 1 < 64 then goCopy (d.x.set d.nx 0x80) (d.nx + 1) (zeros (64 - (d.nx + 1))) else d.x.set d.nx 0x80) = d.x.take d.nx ++ 0x80 :: zeros (64 - 1 - d.nx) := by
      by_cases h1 : d.nx + 1 < 64
      · rw [if_pos h1, goCopy_end _ _ _ (by rw [zeros_length, hxs]; omega), htk, List.append_assoc, show 64 - (d.nx + 1) = 64 - 1 - d.nx by omega]; rfl
      · rw [if_neg h1, ← List.take_of_length_le (l := d.x.set d.nx 0x80) (i := d.nx + 1) (by omega), htk, show 64 - 1 - d.nx = 0 by omega]; rfl
    have hXl : (d.x.take d.nx ++ 0x80 :: zeros (64 - 1 - d.nx)).length = 64 := by simp; omega
    rw [hX, if_pos (by omega), fin _ (by rw [goCopy_length _ _ _ (by omega), hXl]), hbl]
    congr 2
    rw [goCopy_zero_all _ (zeros 64) (by rw [hXl, zeros_length]), take_zeros _ _ (by omega)]
    rw [show zeros (64 - 32 - 0) = zeros 32 from rfl, zeroBuf _ 32 (by omega)]
  · rw [if_neg hc, if_neg (show ¬ (64 - d.nx < 32 + 1) by omega)]
    dsimp only
    have hX : (if d.nx + 1 < 64 - 32 then goCopy (d.x.set d.nx 0x80) (d.nx + 1) (zeros (64 - 32 - (d.nx + 1))) else d.x.set d.nx 0x80).take 32 = (d.x.take d.nx ++ 0x80 :: zeros (64 - 1 - d.nx)).take 32 := by
      have hr : (d.x.take d.nx ++ 0x80 :: zeros (64 - 1 - d.nx)).take 32 = d.x.take d.nx ++ [0x80] ++ zeros (31 - d.nx) := by
        rw [show d.x.take d.nx ++ 0x80 :: zeros (64 - 1 - d.nx) = (d.x.take d.nx ++ [0x80]) ++ zeros (64 - 1 - d.nx) by simp, List.take_append,
          List.take_of_length_le (by simp; omega), take_zeros _ _ (by simp; omega)]
        congr 2
        simp; omega
      rw [hr]
      by_cases h1 : d.nx + 1 < 64 - 32
      · rw [if_pos h1]
        have := goCopy_take (d.x.set d.nx 0x80) (d.nx + 1) (zeros (64 - 32 - (d.nx + 1))) (by rw [zeros_length, hxs]; omega)
        rw [zeros_length, show d.nx + 1 + (64 - 32 - (d.nx + 1)) = 32 by omega] at this
        rw [this, htk, show 64 - 32 - (d.nx + 1) = 31 - d.nx by omega]
      · rw [if_neg h1, show 32 = d.nx + 1 by omega, htk, show 31 - d.nx = 0 by omega]; simp [zeros]
    have hXl : (if d.nx + 1 < 64 - 32 then goCopy (d.x.set d.nx 0x80) (d.nx + 1) (zeros (64 - 32 - (d.nx + 1))) else d.x.set d.nx 0x80).length = 64 := by
      split
      · rw [goCopy_length _ _ _ (by rw [hxs]; omega)]; exact hxs
      · exact hxs
    rw [fin _ hXl, hX, hbl]

/-- The state, as bytes, follows the specification. -/
theorem foldl_bytes (h : TablesFit V T) (bs : List Bytes) (hbs : ∀ b ∈ bs, b.length = 64) : ∀ s : List U64, s.length = 8 →
    bytes (bs.foldl (transform T) s) = bs.foldl (Spec.Whirlpool.compress V) (bytes s) := by
  induction bs with
  | nil => intro s _; rfl
  | cons b bs ih =>
    intro s hs
    rw [List.foldl_cons, List.foldl_cons, ih (fun b hb => hbs b (by simp [hb])) _ (transform_length _ _), transform_eq h _ _ hs (hbs b (by simp))]

theorem Inv.init : Inv T reset [] := ⟨BufRepr.init _ _ _ (zeros_length 64), rfl, rfl, by rw [show reset.s = zeros 32 from rfl]; decide +kernel⟩

end Verif.Whirlpool
