import Verif.Model.Streebog
import Verif.Lemmas.Gost12
namespace Verif.Streebog
open Spec.Streebog (leNat natLE absorb LPS rows8)

/-! ### Words and bytes -/

theorem toBytes_length (w : List U64) : (uint64sToBytes w).length = 8 * w.length := by
  unfold uint64sToBytes
  induction w with
  | nil => rfl
  | cons a w ih => rw [List.map_cons, List.flatten_cons, List.length_append, ih, le64_length, List.length_cons]; omega

theorem ofBytes_length {b : Bytes} (h : b.length = 64) : (bytesToUint64s b).length = 8 := by
  unfold bytesToUint64s; rw [h]; simp

theorem toBytes_ofBytes {b : Bytes} (h : b.length = 64) : uint64sToBytes (bytesToUint64s b) = b := by
  unfold uint64sToBytes bytesToUint64s
  have hp : ∀ k, 8 * k ≤ b.length → (((List.range k).map fun i => getLE64 b (8 * i)).map le64).flatten = b.take (8 * k) := by
    intro k
    induction k with
    | zero => intro _; rfl
    | succ k ih =>
      intro hk
      rw [List.range_succ, List.map_append, List.map_append, List.flatten_append, ih (by omega)]
      simp only [List.map_cons, List.map_nil, List.flatten_cons, List.flatten_nil, List.append_nil]
      rw [le64_getLE64_at _ _ (by omega), show 8 * (k + 1) = 8 * k + 8 by omega, List.take_add]
  rw [hp _ (by omega), h, List.take_of_length_le (by omega)]

theorem toBytes_xor : ∀ (a b : List U64), a.length = b.length →
    uint64sToBytes (xorBlocks a b) = Spec.Streebog.xor (uint64sToBytes a) (uint64sToBytes b)
  | [], [], _ => rfl
  | a :: as, b :: bs, h => by
    have ih := toBytes_xor as bs (by simpa using h)
    unfold uint64sToBytes xorBlocks Spec.Streebog.xor at *
    rw [List.zipWith_cons_cons, List.map_cons, List.map_cons, List.map_cons, List.flatten_cons, List.flatten_cons, List.flatten_cons, ih, le64_xor,
      List.zipWith_append (by rw [le64_length, le64_length])]

theorem xorBlocks_length (a b : List U64) : (xorBlocks a b).length = min a.length b.length := by
  unfold xorBlocks; rw [List.length_zipWith]

theorem lps_length (w : List U64) : (lps w).length = 8 := by unfold lps; simp

/-! ### The tables -/

theorem t0_eq : ∀ v : Byte, t 0 v = rows8 7 (at8 Spec.Streebog.pi v.toNat) := by decide +kernel
theorem t1_eq : ∀ v : Byte, t 1 v = rows8 6 (at8 Spec.Streebog.pi v.toNat) := by decide +kernel
theorem t2_eq : ∀ v : Byte, t 2 v = rows8 5 (at8 Spec.Streebog.pi v.toNat) := by decide +kernel
theorem t3_eq : ∀ v : Byte, t 3 v = rows8 4 (at8 Spec.Streebog.pi v.toNat) := by decide +kernel
theorem t4_eq : ∀ v : Byte, t 4 v = rows8 3 (at8 Spec.Streebog.pi v.toNat) := by decide +kernel
theorem t5_eq : ∀ v : Byte, t 5 v = rows8 2 (at8 Spec.Streebog.pi v.toNat) := by decide +kernel
theorem t6_eq : ∀ v : Byte, t 6 v = rows8 1 (at8 Spec.Streebog.pi v.toNat) := by decide +kernel
theorem t7_eq : ∀ v : Byte, t 7 v = rows8 0 (at8 Spec.Streebog.pi v.toNat) := by decide +kernel

theorem PS_at {x : Bytes} (hx : x.length = 64) (i : Nat) (hi : i < 64) :
    at8 (Spec.Streebog.P (Spec.Streebog.S x)) i = at8 Spec.Streebog.pi (at8 x (8 * (i % 8) + i / 8)).toNat := by
  unfold Spec.Streebog.P Spec.Streebog.S
  rw [at8_map_range _ _ _ hi, at8_map _ _ _ (by omega)]

theorem lps_eq {w : List U64} (hw : w.length = 8) : uint64sToBytes (lps w) = LPS (uint64sToBytes w) := by
  have hb : (uint64sToBytes w).length = 64 := by rw [toBytes_length, hw]
  unfold lps LPS Spec.Streebog.L
  simp only
  generalize uint64sToBytes w = x at hb
  unfold uint64sToBytes
  rw [List.map_map]
  congr 1
  apply List.map_congr_left
  intro i hi
  rw [List.mem_range] at hi
  show le64 _ = le64 _
  congr 1
  dsimp only
  rw [Spec.Streebog.lin_bytes, PS_at hb _ (by omega), PS_at hb _ (by omega), PS_at hb _ (by omega), PS_at hb _ (by omega), PS_at hb _ (by omega), PS_at hb _ (by omega),
    PS_at hb _ (by omega), PS_at hb _ (by omega), t0_eq, t1_eq, t2_eq, t3_eq, t4_eq, t5_eq, t6_eq, t7_eq,
    show 8 * ((8 * i + 7) % 8) + (8 * i + 7) / 8 = 56 + i by omega, show 8 * ((8 * i + 6) % 8) + (8 * i + 6) / 8 = 48 + i by omega,
    show 8 * ((8 * i + 5) % 8) + (8 * i + 5) / 8 = 40 + i by omega, show 8 * ((8 * i + 4) % 8) + (8 * i + 4) / 8 = 32 + i by omega,
    show 8 * ((8 * i + 3) % 8) + (8 * i + 3) / 8 = 24 + i by omega, show 8 * ((8 * i + 2) % 8) + (8 * i + 2) / 8 = 16 + i by omega,
    show 8 * ((8 * i + 1) % 8) + (8 * i + 1) / 8 = 8 + i by omega, show 8 * ((8 * i) % 8) + (8 * i) / 8 = i by omega]
  ac_rfl

set_option maxRecDepth 100000 in
theorem RC_eq : RC.map uint64sToBytes = Spec.Streebog.C.map (natLE 64) := by decide +kernel
theorem RC_len : ∀ r ∈ RC, r.length = 8 := by decide

theorem xor_comm (a b : Bytes) : Spec.Streebog.xor a b = Spec.Streebog.xor b a := by
  unfold Spec.Streebog.xor
  rw [List.zipWith_comm]
  congr 1
  funext x y
  exact BitVec.xor_comm _ _

theorem e_eq {K : List U64} {m : Bytes} (hK : K.length = 8) (hm : m.length = 64) :
    uint64sToBytes (e K m) = Spec.Streebog.E (uint64sToBytes K) m ∧ (e K m).length = 8 := by
  unfold e Spec.Streebog.E
  have hf := foldl_eq_forLoop RC ([] : List U64) (fun (st : List U64 × List U64) r => (xorBlocks (lps st.1) (lps (xorBlocks st.2 r)), lps (xorBlocks st.2 r)))
    (xorBlocks K (bytesToUint64s m), K)
  have hcl : RC.length = 12 := rfl
  rw [hcl] at hf
  simp only
  rw [← hf]
  have hs : Spec.Streebog.C.foldl (fun (st : Bytes × Bytes) c => (LPS (Spec.Streebog.xor st.1 (natLE 64 c)), LPS (Spec.Streebog.xor st.1 st.2))) (uint64sToBytes K, m) =
      (RC.map uint64sToBytes).foldl (fun (st : Bytes × Bytes) c => (LPS (Spec.Streebog.xor st.1 c), LPS (Spec.Streebog.xor st.1 st.2))) (uint64sToBytes K, m) := by
    rw [RC_eq, List.foldl_map]
  rw [hs]
  have key : ∀ (rs : List (List U64)), (∀ r ∈ rs, r.length = 8) → ∀ (st : List U64 × List U64) (k s : Bytes), st.1.length = 8 → st.2.length = 8 → s.length = 64 →
      uint64sToBytes st.2 = k → uint64sToBytes st.1 = Spec.Streebog.xor k s →
      let r := rs.foldl (fun (st : List U64 × List U64) r => (xorBlocks (lps st.1) (lps (xorBlocks st.2 r)), lps (xorBlocks st.2 r))) st
      let q := (rs.map uint64sToBytes).foldl (fun (st : Bytes × Bytes) c => (LPS (Spec.Streebog.xor st.1 c), LPS (Spec.Streebog.xor st.1 st.2))) (k, s)
      uint64sToBytes r.1 = Spec.Streebog.xor q.1 q.2 ∧ r.1.length = 8 := by
    intro rs
    induction rs with
    | nil => intro _ st k s h1 h2 h3 h4 h5; exact ⟨h5, h1⟩
    | cons r rs ih =>
      intro hr st k s h1 h2 h3 h4 h5
      have hr8 := hr r (List.mem_cons_self ..)
      have hx8 : (xorBlocks st.2 r).length = 8 := by rw [xorBlocks_length, h2, hr8]; rfl
      have e1 : uint64sToBytes (lps (xorBlocks st.2 r)) = LPS (Spec.Streebog.xor k (uint64sToBytes r)) := by
        rw [lps_eq hx8, toBytes_xor _ _ (by rw [h2, hr8]), h4]
      refine ih (fun q hq => hr q (List.mem_cons_of_mem _ hq)) _ _ _ ?_ (lps_length _) ?_ e1 ?_
      · show (xorBlocks (lps st.1) (lps (xorBlocks st.2 r))).length = 8
        rw [xorBlocks_length, lps_length, lps_length]; rfl
      · exact Spec.Streebog.LPS_length _
      · show uint64sToBytes (xorBlocks (lps st.1) (lps (xorBlocks st.2 r))) = _
        rw [toBytes_xor _ _ (by rw [lps_length, lps_length]), e1, lps_eq h1, h5, xor_comm]
  refine key RC RC_len _ _ _ ?_ hK hm rfl ?_
  · show (xorBlocks K (bytesToUint64s m)).length = 8
    rw [xorBlocks_length, hK, ofBytes_length hm]; rfl
  · show uint64sToBytes (xorBlocks K (bytesToUint64s m)) = _
    rw [toBytes_xor _ _ (by rw [hK, ofBytes_length hm]), toBytes_ofBytes hm]

theorem set0_bytes {h : List U64} (hh : h.length = 8) (N : Nat) (hN : N < 2 ^ 64) :
    uint64sToBytes (h.set 0 (h.getD 0 0 ^^^ BitVec.ofNat 64 N)) = Spec.Streebog.xor (uint64sToBytes h) (natLE 64 N) := by
  match h, hh with
  | a :: as, hh =>
    have ha : as.length = 7 := by simpa using hh
    rw [Gost12.natLE_word N hN 56]
    have hz : zeros 56 = uint64sToBytes (List.replicate 7 0) := by decide
    have hx : xorBlocks as (List.replicate 7 0) = as := by
      match as, ha with
      | [_, _, _, _, _, _, _], _ => simp [xorBlocks, List.replicate]
    have : le64 (BitVec.ofNat 64 N) ++ zeros 56 = uint64sToBytes (BitVec.ofNat 64 N :: List.replicate 7 0) := by
      rw [hz]; unfold uint64sToBytes; rw [List.map_cons, List.flatten_cons]
    rw [this, ← toBytes_xor _ _ (by rw [hh]; rfl)]
    congr 1
    show (a ^^^ BitVec.ofNat 64 N) :: as = (a ^^^ BitVec.ofNat 64 N) :: xorBlocks as (List.replicate 7 0)
    rw [hx]

theorem gN_eq {h : List U64} {m : Bytes} {N : Nat} (hh : h.length = 8) (hm : m.length = 64) (hN : N < 2 ^ 64) :
    uint64sToBytes (gN h m (BitVec.ofNat 64 N)) = Spec.Streebog.g N (uint64sToBytes h) m ∧ (gN h m (BitVec.ofNat 64 N)).length = 8 := by
  unfold gN Spec.Streebog.g
  simp only
  have h1 : (h.set 0 (h.getD 0 0 ^^^ BitVec.ofNat 64 N)).length = 8 := by rw [List.length_set, hh]
  obtain ⟨e1, e2⟩ := e_eq (K := lps (h.set 0 (h.getD 0 0 ^^^ BitVec.ofNat 64 N))) (m := m) (lps_length _) hm
  rw [lps_eq h1, set0_bytes hh N hN] at e1
  have hx : (xorBlocks h (e (lps (h.set 0 (h.getD 0 0 ^^^ BitVec.ofNat 64 N))) m)).length = 8 := by rw [xorBlocks_length, hh, e2]; rfl
  constructor
  · rw [toBytes_xor _ _ (by rw [hx, ofBytes_length hm]), toBytes_xor _ _ (by rw [hh, e2]), toBytes_ofBytes hm, e1, xor_comm (uint64sToBytes h)]
  · rw [xorBlocks_length, hx, ofBytes_length hm]; rfl

/-! ### The checksum -/

/-- Words as a number, least significant first. -/
def wordsNat : List U64 → Nat
  | [] => 0
  | w :: ws => w.toNat + 2 ^ 64 * wordsNat ws

theorem wordsNat_lt : ∀ w, wordsNat w < 2 ^ (64 * w.length)
  | [] => by decide
  | w :: ws => by
    have ih := wordsNat_lt ws
    have hw := w.isLt
    rw [wordsNat, List.length_cons, Nat.mul_add, Nat.pow_add, Nat.mul_comm (2 ^ (64 * ws.length))]
    have : 2 ^ 64 * (wordsNat ws + 1) ≤ 2 ^ (64 * 1) * 2 ^ (64 * ws.length) := Nat.mul_le_mul (Nat.le_refl _) ih
    omega

theorem leNat_le64 (w : U64) : leNat (le64 w) = w.toNat := by
  have h := Spec.Streebog.leNat_natLE 8 w.toNat
  rw [show natLE 8 w.toNat = natLE (8 + 0) w.toNat from rfl, Gost12.natLE_word _ w.isLt 0, BitVec.ofNat_toNat, BitVec.setWidth_eq] at h
  have : le64 w ++ zeros 0 = le64 w := by simp [zeros]
  rw [this] at h
  rw [h]
  exact Nat.mod_eq_of_lt w.isLt

theorem leNat_toBytes : ∀ w, leNat (uint64sToBytes w) = wordsNat w
  | [] => rfl
  | w :: ws => by
    have ih := leNat_toBytes ws
    unfold uint64sToBytes at *
    rw [List.map_cons, List.flatten_cons, Spec.Streebog.leNat_append, ih, leNat_le64, le64_length]
    rfl

theorem wordsNat_append (a b : List U64) : wordsNat (a ++ b) = wordsNat a + 2 ^ (64 * a.length) * wordsNat b := by
  induction a with
  | nil => simp [wordsNat]
  | cons x a ih => rw [List.cons_append, wordsNat, wordsNat, ih, List.length_cons, Nat.mul_add 64, Nat.pow_add, Nat.mul_add, ← Nat.mul_assoc, Nat.mul_comm (2 ^ 64) (2 ^ (64 * a.length)), Nat.add_assoc]

theorem take_succ_word (w : List U64) (j : Nat) (hj : j < w.length) : w.take (j + 1) = w.take j ++ [w.getD j 0] := by
  rw [List.take_succ_eq_append_getElem hj, List.getD_eq_getElem?_getD, List.getElem?_eq_getElem hj]
  rfl

theorem wordsNat_take_succ (w : List U64) (j : Nat) (hj : j < w.length) :
    wordsNat (w.take (j + 1)) = wordsNat (w.take j) + 2 ^ (64 * j) * (w.getD j 0).toNat := by
  rw [take_succ_word w j hj, wordsNat_append, List.length_take, Nat.min_eq_left (by omega)]
  simp [wordsNat]

theorem wordsNat_mod (w : List U64) (j : Nat) (hj : j ≤ w.length) : wordsNat w % 2 ^ (64 * j) = wordsNat (w.take j) := by
  conv => lhs; rw [← List.take_append_drop j w, wordsNat_append, List.length_take, Nat.min_eq_left hj]
  rw [Nat.add_mul_mod_self_left]
  have := wordsNat_lt (w.take j)
  rw [List.length_take, Nat.min_eq_left hj] at this
  exact Nat.mod_eq_of_lt this

theorem wordsNat_word (w : List U64) (j : Nat) (hj : j < w.length) : wordsNat w / 2 ^ (64 * j) % 2 ^ 64 = (w.getD j 0).toNat := by
  have hlt := wordsNat_lt (w.take j)
  rw [List.length_take, Nat.min_eq_left (by omega)] at hlt
  have e : w = w.take j ++ (w.getD j 0 :: w.drop (j + 1)) := by
    conv => lhs; rw [← List.take_append_drop j w]
    rw [List.drop_eq_getElem_cons hj, List.getD_eq_getElem?_getD, List.getElem?_eq_getElem hj]
    rfl
  have hw : wordsNat w = wordsNat (w.take j) + 2 ^ (64 * j) * ((w.getD j 0).toNat + 2 ^ 64 * wordsNat (w.drop (j + 1))) := by
    conv => lhs; rw [e, wordsNat_append, List.length_take, Nat.min_eq_left (Nat.le_of_lt hj), wordsNat]
  rw [hw, Nat.add_mul_div_left _ _ (Nat.two_pow_pos _), Nat.div_eq_of_lt hlt, Nat.zero_add, Nat.add_mul_mod_self_left]
  exact Nat.mod_eq_of_lt (w.getD j 0).isLt

/-- One step of the word addition. -/
def addStep (m64 : List U64) (st : U64 × List U64) (i : Nat) : U64 × List U64 :=
  let t := st.2.getD i 0 + m64.getD i 0
  let overflow := decide (t < st.2.getD i 0) || decide (t < m64.getD i 0)
  (if overflow then 1 else 0, st.2.set i (t + st.1))

theorem overflow_iff (a b : U64) : (decide (a + b < a) || decide (a + b < b)) = decide (2 ^ 64 ≤ a.toNat + b.toNat) := by
  have h1 := a.isLt
  have h2 := b.isLt
  rw [Bool.eq_iff_iff, Bool.or_eq_true, decide_eq_true_iff, decide_eq_true_iff, decide_eq_true_iff, BitVec.lt_def, BitVec.lt_def, BitVec.toNat_add]
  omega

theorem getD_set_ne {l : List U64} {i j : Nat} {a : U64} (h : i ≠ j) : (l.set i a).getD j 0 = l.getD j 0 := by
  rw [List.getD_eq_getElem?_getD, List.getD_eq_getElem?_getD, List.getElem?_set_ne h]

theorem getD_set_eq {l : List U64} {i : Nat} {a : U64} (h : i < l.length) : (l.set i a).getD i 0 = a := by
  rw [List.getD_eq_getElem?_getD, List.getElem?_set_self h]; rfl

/-- Invariant of the word addition. -/
structure AddInv (h m : List U64) (j : Nat) (st : U64 × List U64) : Prop where
  len : st.2.length = 8
  rest : ∀ k, j ≤ k → st.2.getD k 0 = h.getD k 0
  carry : st.1.toNat ≤ 1
  sum : wordsNat (st.2.take j) + 2 ^ (64 * j) * st.1.toNat = wordsNat (h.take j) + wordsNat (m.take j)

theorem addStep_inv {h m : List U64} (hh : h.length = 8) (hm : m.length = 8) {j : Nat} (hj : j < 8) {st : U64 × List U64} (hi : AddInv h m j st)
    (hr : ¬ (st.1.toNat = 1 ∧ (h.getD j 0).toNat + (m.getD j 0).toNat = 2 ^ 64 - 1)) : AddInv h m (j + 1) (addStep m st j) := by
  obtain ⟨i1, i2, i3, i4⟩ := hi
  have hg := i2 j (Nat.le_refl _)
  unfold addStep
  simp only
  rw [hg, overflow_iff]
  generalize hA : h.getD j 0 = A at *
  generalize hB : m.getD j 0 = B at *
  generalize hC : st.1 = C at *
  have ha := A.isLt
  have hb := B.isLt
  have hcar : (if decide (2 ^ 64 ≤ A.toNat + B.toNat) = true then (1 : U64) else 0).toNat = (A.toNat + B.toNat) / 2 ^ 64 := by
    by_cases hlt : 2 ^ 64 ≤ A.toNat + B.toNat
    · rw [if_pos (by rw [decide_eq_true_iff]; exact hlt)]
      show 1 = _
      omega
    · rw [if_neg (by rw [decide_eq_true_iff]; exact hlt)]
      show 0 = _
      omega
  constructor
  · rw [List.length_set, i1]
  · intro k hk
    show (st.2.set j _).getD k 0 = _
    rw [getD_set_ne (by omega)]
    exact i2 k (by omega)
  · show (if _ then (1 : U64) else 0).toNat ≤ 1
    rw [hcar]; omega
  · show wordsNat ((st.2.set j (A + B + C)).take (j + 1)) + 2 ^ (64 * (j + 1)) * (if _ then (1 : U64) else 0).toNat = _
    rw [hcar, wordsNat_take_succ _ _ (by rw [List.length_set, i1]; exact hj), wordsNat_take_succ _ _ (by omega), wordsNat_take_succ _ _ (by omega),
      getD_set_eq (by omega), List.take_set_of_le (Nat.le_refl j), hA, hB, Nat.mul_add 64, Nat.pow_add, Nat.mul_assoc, Nat.add_assoc, ← Nat.mul_add]
    have hs : (A + B + C).toNat + 2 ^ (64 * 1) * ((A.toNat + B.toNat) / 2 ^ 64) = A.toNat + B.toNat + C.toNat := by
      rw [BitVec.toNat_add, BitVec.toNat_add]
      omega
    rw [hs, Nat.mul_add, Nat.mul_add]
    omega

theorem addLoop_inv {h m : List U64} (hh : h.length = 8) (hm : m.length = 8) (hr : ¬ Spec.Streebog.Ripple (wordsNat h) (wordsNat m)) :
    AddInv h m 7 (forLoop 0 7 (addStep m) (0, h)) := by
  refine forLoop_inv (a := 0) (b := 7) (fun j (st : U64 × List U64) => AddInv h m j st) (Nat.zero_le _) ⟨hh, fun _ _ => rfl, Nat.zero_le _, by simp [wordsNat]⟩ ?_
  intro j st _ hj hi
  refine addStep_inv hh hm (by omega) hi ?_
  rintro ⟨c1, c2⟩
  refine hr ⟨j, hj, ?_, ?_⟩
  · rw [wordsNat_mod h j (by omega), wordsNat_mod m j (by omega), ← hi.sum, c1]; omega
  · rw [wordsNat_word h j (by omega), wordsNat_word m j (by omega)]; exact c2

theorem addm_eq {h : List U64} {b : Bytes} (hh : h.length = 8) (hb : b.length = 64) (hr : ¬ Spec.Streebog.Ripple (wordsNat h) (leNat b)) :
    (addm b h).length = 8 ∧ wordsNat (addm b h) = (wordsNat h + leNat b) % 2 ^ 512 := by
  have hm : (bytesToUint64s b).length = 8 := ofBytes_length hb
  have hbn : leNat b = wordsNat (bytesToUint64s b) := by rw [← leNat_toBytes, toBytes_ofBytes hb]
  rw [hbn] at hr ⊢
  have hu : addm b h = (addStep (bytesToUint64s b) (forLoop 0 7 (addStep (bytesToUint64s b)) (0, h)) 7).2 := by
    have := forLoop_succ 0 7 (addStep (bytesToUint64s b)) (0, h) (Nat.zero_le _)
    exact congrArg Prod.snd this
  rw [hu]
  generalize bytesToUint64s b = m at *
  obtain ⟨i1, i2, i3, i4⟩ := addLoop_inv hh hm hr
  generalize forLoop 0 7 (addStep m) (0, h) = st at *
  have hl : (addStep m st 7).2.length = 8 := by unfold addStep; rw [List.length_set, i1]
  refine ⟨hl, ?_⟩
  have e : ∀ w : List U64, w.length = 8 → wordsNat w = wordsNat (w.take 7) + 2 ^ (64 * 7) * (w.getD 7 0).toNat := by
    intro w hw
    rw [← wordsNat_take_succ w 7 (by omega), List.take_of_length_le (by omega)]
  rw [e _ hl, e h hh, e m hm]
  have t1 : (addStep m st 7).2.take 7 = st.2.take 7 := by unfold addStep; exact List.take_set_of_le (Nat.le_refl 7)
  have t2 : (addStep m st 7).2.getD 7 0 = h.getD 7 0 + m.getD 7 0 + st.1 := by
    unfold addStep
    rw [getD_set_eq (by omega), i2 7 (Nat.le_refl _)]
  rw [t1, t2, BitVec.toNat_add, BitVec.toNat_add]
  generalize (h.getD 7 0).toNat = A at *
  generalize (m.getD 7 0).toNat = B at *
  have hq : 2 ^ (64 * 7) * A + wordsNat (h.take 7) + (2 ^ (64 * 7) * B + wordsNat (m.take 7)) = wordsNat (st.2.take 7) + 2 ^ (64 * 7) * (A + B + st.1.toNat) := by
    rw [Nat.mul_add, Nat.mul_add]; omega
  have hlt := wordsNat_lt (st.2.take 7)
  rw [List.length_take, i1, show min 7 8 = 7 from rfl] at hlt
  rw [show wordsNat (h.take 7) + 2 ^ (64 * 7) * A + (wordsNat (m.take 7) + 2 ^ (64 * 7) * B) =
    2 ^ (64 * 7) * A + wordsNat (h.take 7) + (2 ^ (64 * 7) * B + wordsNat (m.take 7)) by omega, hq]
  rw [show (2 : Nat) ^ 512 = 2 ^ (64 * 7) * 2 ^ 64 from (Nat.pow_add 2 (64 * 7) 64).symm ▸ rfl, Nat.mod_mul, Nat.add_mul_mod_self_left, Nat.mod_eq_of_lt hlt,
    Nat.add_mul_div_left _ _ (Nat.two_pow_pos _), Nat.div_eq_of_lt hlt, Nat.zero_add, Nat.mod_add_mod]

end Verif.Streebog
