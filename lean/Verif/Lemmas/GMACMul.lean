import Verif.Model.GMAC
import Verif.Spec.GMAC
import Verif.Bits
/-
gmac/gcm: the 4-bit table multiplication is the multiplication of SP 800-38D.
-/
namespace Verif.GMAC
open Verif.Spec (GCM.R GCM.mul GCM.mulAux)

/-- A field element as a block. -/
def FE.bv (x : FE) : BitVec 128 := x.low ++ x.high

/-- Multiplication by x. -/
def dbl (V : BitVec 128) : BitVec 128 := if V.getLsbD 0 then (V >>> 1) ^^^ GCM.R else V >>> 1

theorem dbl_xor (a b : BitVec 128) : dbl (a ^^^ b) = dbl a ^^^ dbl b := by
  unfold dbl
  rw [BitVec.getLsbD_xor, BitVec.ushiftRight_xor_distrib]
  generalize a >>> 1 = A
  generalize b >>> 1 = B
  cases a.getLsbD 0 <;> cases b.getLsbD 0 <;> simp only [Bool.xor_false, Bool.false_xor, Bool.xor_self, if_true, if_false, Bool.false_eq_true]
  all_goals
    apply BitVec.eq_of_getLsbD_eq
    intro i _
    simp only [BitVec.getLsbD_xor]
    cases A.getLsbD i <;> cases B.getLsbD i <;> cases GCM.R.getLsbD i <;> rfl
theorem dbl_zero : dbl 0#128 = 0#128 := by decide
def dbln : Nat → BitVec 128 → BitVec 128
  | 0, v => v
  | n + 1, v => dbl (dbln n v)
theorem dbln_xor (n : Nat) (a b : BitVec 128) : dbln n (a ^^^ b) = dbln n a ^^^ dbln n b := by
  induction n with
  | zero => rfl
  | succ n ih => show dbl (dbln n (a ^^^ b)) = _; rw [ih, dbl_xor]; rfl
theorem dbln_dbl (n : Nat) (a : BitVec 128) : dbln n (dbl a) = dbl (dbln n a) := by
  induction n with
  | zero => rfl
  | succ n ih => show dbl (dbln n (dbl a)) = _; rw [ih]; rfl

/-- Horner's rule over the low `n` bits of X. -/
def horner (X h : BitVec 128) : Nat → BitVec 128
  | 0 => 0#128
  | n + 1 => (if X.getLsbD n then h else 0#128) ^^^ dbl (horner X h n)

theorem mulAux_inv (X h : BitVec 128) : ∀ n, n ≤ 128 → (GCM.mulAux X h n).2 = dbln n h ∧
    (GCM.mulAux X h n).1 ^^^ dbln n (horner X h (128 - n)) = horner X h 128 := by
  intro n
  induction n with
  | zero => intro _; exact ⟨rfl, BitVec.zero_xor⟩
  | succ n ih =>
    intro hn
    obtain ⟨h1, h2⟩ := ih (by omega)
    have e : GCM.mulAux X h (n + 1) = (if X.getMsbD n then (GCM.mulAux X h n).1 ^^^ (GCM.mulAux X h n).2 else (GCM.mulAux X h n).1, dbl (GCM.mulAux X h n).2) := rfl
    rw [e]
    refine ⟨?_, ?_⟩
    · show dbl _ = _; rw [h1]; rfl
    · rw [← h2]
      dsimp only
      rw [show 128 - n = (128 - (n + 1)) + 1 by omega]
      generalize hk : 128 - (n + 1) = k
      have hb : X.getMsbD n = X.getLsbD k := by
        rw [BitVec.getMsbD_eq_getLsbD, show 128 - 1 - n = k by omega]; simp; omega
      show _ ^^^ dbl (dbln n (horner X h k)) = _ ^^^ dbln n ((if X.getLsbD k then h else 0#128) ^^^ dbl (horner X h k))
      rw [dbln_xor, dbln_dbl, hb, h1]
      by_cases hx : X.getLsbD k
      · rw [if_pos hx, if_pos hx, BitVec.xor_assoc]
      · rw [if_neg hx, if_neg hx]
        have : dbln n 0#128 = 0#128 := by
          have : ∀ m, dbln m 0#128 = 0#128 := by
            intro m
            induction m with
            | zero => rfl
            | succ m ih => show dbl (dbln m 0#128) = 0#128; rw [ih]; exact dbl_zero
          exact this n
        rw [this, BitVec.zero_xor]

theorem mul_eq_horner (X h : BitVec 128) : GCM.mul X h = horner X h 128 := by
  have := (mulAux_inv X h 128 (Nat.le_refl _)).2
  have e : dbln 128 (horner X h (128 - 128)) = 0#128 := by
    have : ∀ m, dbln m 0#128 = 0#128 := by
      intro m
      induction m with
      | zero => rfl
      | succ m ih => show dbl (dbln m 0#128) = 0#128; rw [ih]; exact dbl_zero
    exact this 128
  rw [e, BitVec.xor_zero] at this
  exact this

/-! ### The words -/

theorem bv_getLsbD (x : FE) (i : Nat) (hi : i < 128) : x.bv.getLsbD i = if i < 64 then x.high.getLsbD i else x.low.getLsbD (i - 64) := by
  unfold FE.bv
  rw [BitVec.getLsbD_append]

theorem bv_add (x y : FE) : (gcmAdd x y).bv = x.bv ^^^ y.bv := by
  apply BitVec.eq_of_getLsbD_eq
  intro i hi
  rw [BitVec.getLsbD_xor, bv_getLsbD _ _ hi, bv_getLsbD _ _ hi, bv_getLsbD _ _ hi]
  unfold gcmAdd
  split <;> rw [BitVec.getLsbD_xor]

theorem R_bits (i : Nat) (hi : i < 128) : GCM.R.getLsbD i = if i < 64 then false else (0xe100000000000000#64).getLsbD (i - 64) := by
  revert i; decide

theorem low_bit (w : U64) : (w &&& 1#64 = 1#64) ↔ w.getLsbD 0 = true := by
  constructor
  · intro h
    have := congrArg (fun z => BitVec.getLsbD z 0) h
    simpa using this
  · intro h
    apply BitVec.eq_of_getLsbD_eq
    intro i hi
    rw [BitVec.getLsbD_and]
    by_cases h0 : i = 0
    · subst h0; simp [h]
    · have : (1#64).getLsbD i = false := by rw [BitVec.getLsbD_one]; simp [h0]
      rw [this, Bool.and_false]

theorem bv_double (x : FE) : (gcmDouble x).bv = dbl x.bv := by
  unfold gcmDouble dbl
  dsimp only
  have h0 : x.bv.getLsbD 0 = x.high.getLsbD 0 := by rw [bv_getLsbD _ _ (by omega)]; rfl
  rw [h0]
  by_cases hb : x.high.getLsbD 0 = true
  · rw [if_pos ((low_bit _).mpr hb), if_pos hb]
    apply BitVec.eq_of_getLsbD_eq
    intro i hi
    rw [BitVec.getLsbD_xor, BitVec.getLsbD_ushiftRight, R_bits i hi, bv_getLsbD _ _ hi]
    dsimp only
    by_cases h : i < 64
    · rw [if_pos h, if_pos h, BitVec.getLsbD_or, BitVec.getLsbD_ushiftRight, BitVec.getLsbD_shiftLeft, Bool.xor_false]
      by_cases h2 : i < 63
      · rw [bv_getLsbD _ _ (by omega), if_pos (by omega)]; simp [h, h2]
      · have : i = 63 := by omega
        subst this
        rw [bv_getLsbD _ _ (by omega), if_neg (by omega)]; simp
    · rw [if_neg h, if_neg h, BitVec.getLsbD_xor, BitVec.getLsbD_ushiftRight]
      by_cases h2 : i < 127
      · rw [bv_getLsbD _ _ (by omega), if_neg (by omega), show 1 + (i - 64) = 1 + i - 64 by omega]
      · have : i = 127 := by omega
        subst this
        rw [BitVec.getLsbD_of_ge x.low _ (by omega), BitVec.getLsbD_of_ge x.bv _ (by omega)]
  · rw [if_neg (fun h => hb ((low_bit _).mp h)), if_neg hb]
    apply BitVec.eq_of_getLsbD_eq
    intro i hi
    rw [BitVec.getLsbD_ushiftRight, bv_getLsbD _ _ hi]
    dsimp only
    by_cases h : i < 64
    · rw [if_pos h, BitVec.getLsbD_or, BitVec.getLsbD_ushiftRight, BitVec.getLsbD_shiftLeft]
      by_cases h2 : i < 63
      · rw [bv_getLsbD _ _ (by omega), if_pos (by omega)]; simp [h, h2]
      · have : i = 63 := by omega
        subst this
        rw [bv_getLsbD _ _ (by omega), if_neg (by omega)]; simp
    · rw [if_neg h, BitVec.getLsbD_ushiftRight]
      by_cases h2 : i < 127
      · rw [bv_getLsbD _ _ (by omega), if_neg (by omega), show 1 + (i - 64) = 1 + i - 64 by omega]
      · have : i = 127 := by omega
        subst this
        rw [BitVec.getLsbD_of_ge x.low _ (by omega), BitVec.getLsbD_of_ge x.bv _ (by omega)]

/-! ### Four doublings at once -/

theorem dbln_even (k : Nat) : ∀ (v : BitVec 128), (∀ j, j < k → v.getLsbD j = false) → dbln k v = v >>> k := by
  induction k with
  | zero => intro v _; exact (BitVec.ushiftRight_zero v).symm
  | succ k ih =>
    intro v h
    show dbl (dbln k v) = _
    rw [ih v (fun j hj => h j (by omega))]
    unfold dbl
    rw [BitVec.getLsbD_ushiftRight, Nat.add_zero, h k (by omega), if_neg (by simp)]
    apply BitVec.eq_of_getLsbD_eq
    intro i _
    simp only [BitVec.getLsbD_ushiftRight]
    rw [Nat.add_assoc]

theorem nib_red : ∀ n : Fin 16, dbln 4 (BitVec.ofNat 128 n.val) = (reductionTable.getD n.val 0).setWidth 128 <<< 112 := by decide

theorem dbln4 (v : BitVec 128) : dbln 4 v = (v >>> 4) ^^^ ((reductionTable.getD (v.toNat % 16) 0).setWidth 128 <<< 112) := by
  have hs : v = ((v >>> 4) <<< 4) ^^^ BitVec.ofNat 128 (v.toNat % 16) := by
    apply BitVec.eq_of_getLsbD_eq
    intro i hi
    rw [BitVec.getLsbD_xor, BitVec.getLsbD_shiftLeft, BitVec.getLsbD_ushiftRight, BitVec.getLsbD_ofNat, show (16 : Nat) = 2 ^ 4 from rfl, Nat.testBit_mod_two_pow]
    by_cases h : i < 4
    · simp [h, hi, BitVec.getLsbD]
    · have : 4 + (i - 4) = i := by omega
      simp [h, hi, this]
  have h1 := dbln_xor 4 ((v >>> 4) <<< 4) (BitVec.ofNat 128 (v.toNat % 16))
  rw [← hs] at h1
  rw [h1, dbln_even 4 _ (fun j hj => by rw [BitVec.getLsbD_shiftLeft]; simp [hj])]
  have h2 := nib_red ⟨v.toNat % 16, Nat.mod_lt _ (by omega)⟩
  dsimp only at h2
  rw [h2]
  congr 1
  apply BitVec.eq_of_getLsbD_eq
  intro i hi
  simp only [BitVec.getLsbD_ushiftRight, BitVec.getLsbD_shiftLeft]
  by_cases h : 4 + i < 128
  · simp [h]
  · rw [BitVec.getLsbD_of_ge v _ (by omega), BitVec.getLsbD_of_ge v _ (by omega)]; simp

/-! ### The table -/

/-- The multiple of `h` that a nibble selects. -/
def nib (n : Nat) (h : BitVec 128) : BitVec 128 :=
  (if n.testBit 3 then h else 0#128) ^^^ dbl ((if n.testBit 2 then h else 0#128) ^^^ dbl ((if n.testBit 1 then h else 0#128) ^^^ dbl ((if n.testBit 0 then h else 0#128))))

theorem init_eq (key : Bytes) :
    let x : FE := ⟨getBE64 key 0, getBE64 key 8⟩
    let d := gcmDouble
    gcmInit key = [⟨0, 0⟩, d (d (d x)), d (d x), d (gcmAdd (d x) x) |> d, d x, gcmAdd (d (d x)) x |> d, gcmAdd (d x) x |> d, d (gcmAdd (d (gcmAdd (d x) x)) x),
      x, gcmAdd (d (d (d x))) x, gcmAdd (d (d x)) x, gcmAdd (d (d (gcmAdd (d x) x))) x, gcmAdd (d x) x, gcmAdd (d (gcmAdd (d (d x)) x)) x,
      gcmAdd (d (gcmAdd (d x) x)) x, gcmAdd (d (gcmAdd (d (gcmAdd (d x) x)) x)) x] := by
  intro x d
  rfl

theorem tab_eq (key : Bytes) (n : Nat) (hn : n < 16) : (tab (gcmInit key) n).bv = nib n (FE.bv ⟨getBE64 key 0, getBE64 key 8⟩) := by
  have h0 : FE.bv ⟨0, 0⟩ = 0#128 := by decide
  rw [init_eq]
  have hcases : n = 0 ∨ n = 1 ∨ n = 2 ∨ n = 3 ∨ n = 4 ∨ n = 5 ∨ n = 6 ∨ n = 7 ∨ n = 8 ∨ n = 9 ∨ n = 10 ∨ n = 11 ∨ n = 12 ∨ n = 13 ∨ n = 14 ∨ n = 15 := by omega
  have hz : dbl 0#128 = 0#128 := dbl_zero
  rcases hcases with h | h | h | h | h | h | h | h | h | h | h | h | h | h | h | h <;> subst h <;>
    simp only [tab, List.getD_cons_zero, List.getD_cons_succ, nib, bv_double, bv_add, Nat.testBit, Nat.shiftRight_eq_div_pow, h0] <;>
    (try simp only [dbl_xor, hz]) <;> (try simp [hz, dbl_xor]) <;> (try ac_rfl)

theorem mulStep_z (t : Table) (z : FE) (w : U64) : (mulStep t (z, w)).1.bv = dbln 4 z.bv ^^^ (tab t (w.toNat % 16)).bv ∧ (mulStep t (z, w)).2 = w >>> 4 := by
  have hm : ∀ v : U64, (v &&& 0xf#64).toNat = v.toNat % 16 := by
    intro v
    rw [BitVec.toNat_and, show (0xf#64).toNat = 2 ^ 4 - 1 from rfl, Nat.and_two_pow_sub_one_eq_mod]
  unfold mulStep
  dsimp only
  refine ⟨?_, rfl⟩
  rw [hm, hm, dbln4]
  have hz : z.bv.toNat % 16 = z.high.toNat % 16 := by
    unfold FE.bv
    rw [BitVec.toNat_append, ← Nat.shiftLeft_add_eq_or_of_lt z.high.isLt, Nat.shiftLeft_eq]; omega
  rw [hz]
  generalize reductionTable.getD (z.high.toNat % 16) 0 = r
  generalize tab t (w.toNat % 16) = e
  apply BitVec.eq_of_getLsbD_eq
  intro i hi
  rw [BitVec.getLsbD_xor, BitVec.getLsbD_xor, BitVec.getLsbD_ushiftRight, BitVec.getLsbD_shiftLeft, bv_getLsbD _ _ hi, bv_getLsbD e _ hi]
  dsimp only
  by_cases h : i < 64
  · rw [if_pos h, if_pos h, BitVec.getLsbD_xor, BitVec.getLsbD_or, BitVec.getLsbD_ushiftRight, BitVec.getLsbD_shiftLeft]
    rw [bv_getLsbD _ _ (by omega)]
    by_cases h2 : i < 60
    · rw [if_pos (by omega)]; simp [h, h2, show i < 112 by omega]
    · rw [if_neg (by omega), show 4 + i - 64 = i - 60 by omega]
      rw [BitVec.getLsbD_of_ge z.high _ (by omega)]
      simp [h, h2, show i < 112 by omega]
  · rw [if_neg h, if_neg h, BitVec.getLsbD_xor, BitVec.getLsbD_xor, BitVec.getLsbD_ushiftRight, BitVec.getLsbD_shiftLeft]
    have e1 : z.bv.getLsbD (4 + i) = z.low.getLsbD (4 + (i - 64)) := by
      by_cases h2 : 4 + i < 128
      · rw [bv_getLsbD _ _ h2, if_neg (by omega), show 4 + i - 64 = 4 + (i - 64) by omega]
      · rw [BitVec.getLsbD_of_ge z.low _ (by omega), BitVec.getLsbD_of_ge z.bv _ (by omega)]
    rw [e1]
    by_cases h3 : i < 112
    · simp [h3, hi, show i - 64 < 48 by omega, show i - 64 < 64 by omega]
    · have h4 : ¬ i - 64 < 48 := by omega
      simp [h3, hi, h4, show i - 64 < 64 by omega, show i - 64 - 48 = i - 112 by omega, show i - 112 < 128 by omega, show i - 112 < 64 by omega]

/-- Four steps of Horner's rule are one nibble step. -/
theorem horner_four (X h : BitVec 128) (n : Nat) :
    horner X h (n + 4) = dbln 4 (horner X h n) ^^^ nib ((X.toNat / 2 ^ n) % 16) h := by
  have hb : ∀ j, j < 4 → ((X.toNat / 2 ^ n) % 16).testBit j = X.getLsbD (n + j) := by
    intro j hj
    rw [show (16 : Nat) = 2 ^ 4 from rfl, Nat.testBit_mod_two_pow, Nat.testBit_div_two_pow]
    simp [hj, BitVec.getLsbD, Nat.add_comm]
  unfold nib
  rw [hb 3 (by omega), hb 2 (by omega), hb 1 (by omega), hb 0 (by omega)]
  show (if X.getLsbD (n + 3) then h else 0#128) ^^^ dbl ((if X.getLsbD (n + 2) then h else 0#128) ^^^ dbl ((if X.getLsbD (n + 1) then h else 0#128) ^^^
    dbl ((if X.getLsbD (n + 0) then h else 0#128) ^^^ dbl (horner X h n)))) = dbl (dbl (dbl (dbl (horner X h n)))) ^^^ _
  simp only [dbl_xor]
  generalize dbl (dbl (dbl (dbl (horner X h n)))) = a
  generalize (if X.getLsbD (n + 3) then h else 0#128) = b
  generalize dbl (if X.getLsbD (n + 2) then h else 0#128) = c
  generalize dbl (dbl (if X.getLsbD (n + 1) then h else 0#128)) = d
  generalize dbl (dbl (dbl (if X.getLsbD (n + 0) then h else 0#128))) = e
  ac_rfl

theorem loop_eq (key : Bytes) (X : BitVec 128) (w : U64) (n0 : Nat) (hw : ∀ k, k < 16 → (X.toNat / 2 ^ (n0 + 4 * k)) % 16 = (w.toNat / 2 ^ (4 * k)) % 16)
    (z : FE) (hz : z.bv = horner X (FE.bv ⟨getBE64 key 0, getBE64 key 8⟩) n0) :
    (forLoop 0 16 (fun s _ => mulStep (gcmInit key) s) (z, w)).1.bv = horner X (FE.bv ⟨getBE64 key 0, getBE64 key 8⟩) (n0 + 64) := by
  refine (forLoop_inv (a := 0) (b := 16) (s := (z, w)) (body := fun s _ => mulStep (gcmInit key) s)
    (fun k (s : FE × U64) => s.1.bv = horner X (FE.bv ⟨getBE64 key 0, getBE64 key 8⟩) (n0 + 4 * k) ∧ s.2 = w >>> (4 * k))
    (by omega) ⟨hz, by simp⟩ ?_).1
  rintro k ⟨s, v⟩ _ hk ⟨h1, h2⟩
  dsimp only at h1 h2
  subst h2
  obtain ⟨e1, e2⟩ := mulStep_z (gcmInit key) s (w >>> (4 * k))
  refine ⟨?_, ?_⟩
  · rw [e1, tab_eq _ _ (Nat.mod_lt _ (by omega)), h1, show n0 + 4 * (k + 1) = (n0 + 4 * k) + 4 by omega, horner_four, hw k hk, BitVec.toNat_ushiftRight, Nat.shiftRight_eq_div_pow]
  · rw [e2]
    apply BitVec.eq_of_getLsbD_eq
    intro i _
    simp only [BitVec.getLsbD_ushiftRight]
    congr 1; omega

/-- `gcmMul` is the multiplication of the standard. -/
theorem gcmMul_eq (key : Bytes) (y : FE) : (gcmMul (gcmInit key) y).bv = GCM.mul y.bv (FE.bv ⟨getBE64 key 0, getBE64 key 8⟩) := by
  rw [mul_eq_horner]
  have hbv : y.bv.toNat = y.low.toNat * 2 ^ 64 + y.high.toNat := by
    unfold FE.bv
    rw [BitVec.toNat_append, ← Nat.shiftLeft_add_eq_or_of_lt y.high.isLt, Nat.shiftLeft_eq]
  unfold gcmMul
  dsimp only
  have h1 := loop_eq key y.bv y.high 0 (by
    intro k hk
    rw [hbv, Nat.zero_add]
    have e : (2 : Nat) ^ 64 = 2 ^ (4 * k) * (2 ^ (60 - 4 * k) * 16) := by
      rw [show (16 : Nat) = 2 ^ 4 from rfl, ← Nat.pow_add, ← Nat.pow_add]; congr 1; omega
    rw [e, ← Nat.mul_assoc, Nat.mul_comm y.low.toNat, Nat.mul_assoc, Nat.mul_add_div (Nat.two_pow_pos _), ← Nat.mul_assoc, Nat.mul_comm _ 16, Nat.mul_add_mod]) ⟨0, 0⟩ (show FE.bv ⟨0, 0⟩ = 0#128 by decide)
  exact loop_eq key y.bv y.low 64 (by
    intro k hk
    rw [hbv, Nat.pow_add, ← Nat.div_div_eq_div_mul, Nat.mul_comm, Nat.mul_add_div (Nat.two_pow_pos _), Nat.div_eq_of_lt y.high.isLt, Nat.add_zero]) _ h1

end Verif.GMAC
