import Verif.Model.Makwa
import Mathlib.FieldTheory.Finite.Basic
import Mathlib.NumberTheory.LegendreSymbol.Basic
import Mathlib.Data.Nat.ModEq
import Mathlib.Data.Nat.ChineseRemainder
/-
Number theory of package makwa: the 2^(w+1)-th roots that Recover computes.
-/
namespace Verif.Makwa
open Verif.Spec (beNat beBytes)

/-- The caller's hash gives outputs of its declared size. -/
structure Alg.Good (A : Alg) : Prop where
  pos : 0 < A.size
  len : ∀ k v, (A.mac k v).length = A.size

theorem kdfLoop_length (A : Alg) (hA : A.Good) (k : Bytes) (n fuel : Nat) : ∀ v t, n ≤ t.length + fuel → n ≤ (kdfLoop A k n fuel v t).length := by
  induction fuel with
  | zero => intro v t h; exact h
  | succ fuel ih =>
    intro v t h
    unfold kdfLoop
    split
    · apply ih
      rw [List.length_append, hA.len]
      have := hA.pos
      omega
    · omega

theorem kdf_length (A : Alg) (hA : A.Good) (data : Bytes) (n : Nat) : (kdf A data n).length = n := by
  unfold kdf
  dsimp only
  rw [List.length_take]
  exact Nat.min_eq_left (kdfLoop_length A hA _ n n _ _ (by omega))

theorem squares_eq (N n x : Nat) : squares N n x % N = x ^ 2 ^ n % N := by
  induction n generalizing x with
  | zero => simp [squares]
  | succ n ih =>
    unfold squares
    rw [ih, ← Nat.pow_mod, ← Nat.pow_mul, Nat.pow_succ, Nat.mul_comm 2]
theorem squares_lt (N n x : Nat) (hN : 0 < N) (hx : x < N) : squares N n x < N := by
  induction n generalizing x with
  | zero => exact hx
  | succ n ih => exact ih _ (Nat.mod_lt _ hN)
theorem squares_pos (N n x : Nat) (hN : 0 < N) (hx : x < N) : squares N n x = x ^ 2 ^ n % N := by
  rw [← squares_eq, Nat.mod_eq_of_lt (squares_lt N n x hN hx)]
theorem squares_add (N a b x : Nat) : squares N b (squares N a x) = squares N (a + b) x := by
  induction a generalizing x with
  | zero => rw [Nat.zero_add]; rfl
  | succ a ih => rw [show a + 1 + b = (a + b) + 1 by omega]; exact ih (x ^ 2 % N)

/-- The length of the modulus in bytes. -/
def modLen (N : Nat) : Nat := (bitLen N + 7) / 8

theorem lt_modLen (N x : Nat) (h : x < N) : x < 256 ^ modLen N := by
  have hN : N ≠ 0 := by omega
  have h1 : N < 2 ^ bitLen N := by unfold bitLen; rw [if_neg hN]; exact Nat.lt_log2_self
  have h2 : 2 ^ bitLen N ≤ 256 ^ modLen N := by
    rw [show 256 = 2 ^ 8 from rfl, ← Nat.pow_mul]
    apply Nat.pow_le_pow_right (by omega)
    unfold modLen; omega
  omega

theorem pad_eq (N x : Nat) (h : x < N) : pad N x = beBytes (modLen N) x := by
  have hl := Big.bytes_length_le x (modLen N) (lt_modLen N x h)
  unfold pad
  dsimp only
  rw [Nat.shiftRight_eq_div_pow]
  show (if _ < modLen N then zeros (modLen N - _) ++ _ else _).take (modLen N) = _
  rw [← Big.pad_bytes _ _ (lt_modLen N x h)]
  by_cases hc : (Big.bytes x).length < modLen N
  · rw [if_pos hc, List.take_of_length_le (by rw [List.length_append, zeros_length]; omega)]
  · rw [if_neg hc, show modLen N - (Big.bytes x).length = 0 by omega]
    rw [List.take_of_length_le (by omega)]; rfl

theorem beNat_pad (N x : Nat) (h : x < N) : beNat (pad N x) = x := by
  rw [pad_eq N x h, Big.beNat_beBytes _ _ (lt_modLen N x h)]

section roots
variable {p : Nat} [hp : Fact p.Prime]

/-- In a field of p ≡ 3 (mod 4) elements, raising a square s to the power (p+1)/4 twice over 2 gives s back. -/
theorem sq_root (h3 : p % 4 = 3) (a : ZMod p) : ((a ^ 2) ^ 2) ^ ((p + 1) / 4) = a ^ 2 := by
  by_cases h0 : a = 0
  · subst h0; rw [zero_pow (by omega), zero_pow (by omega), zero_pow (by omega)]
  · have h1 : a ^ (p - 1) = 1 := ZMod.pow_card_sub_one_eq_one h0
    rw [← pow_mul, ← pow_mul, show 2 * (2 * ((p + 1) / 4)) = (p - 1) + 2 by have := hp.out.two_le; omega, pow_add, h1, one_mul]

theorem root_step (h3 : p % 4 = 3) (a : ZMod p) (n : Nat) : (a ^ 2 ^ (n + 1)) ^ (((p + 1) / 4) ^ n) = a ^ 2 := by
  induction n with
  | zero => simp
  | succ n ih =>
    have e : (a ^ 2 ^ (n + 1 + 1)) = ((a ^ 2 ^ n) ^ 2) ^ 2 := by
      rw [← pow_mul, ← pow_mul]; congr 1; rw [pow_succ, pow_succ, Nat.mul_assoc]
    rw [e, pow_succ ((p + 1) / 4) n, Nat.mul_comm, pow_mul, sq_root h3, ← pow_mul a, ← pow_succ, ih]

theorem root_final (h3 : p % 4 = 3) (a : ZMod p) (n : Nat) : ((a ^ 2 ^ (n + 1)) ^ (((p + 1) / 4) ^ (n + 1))) = a ∨
    ((a ^ 2 ^ (n + 1)) ^ (((p + 1) / 4) ^ (n + 1))) = -a := by
  have h := root_step h3 a n
  rw [pow_succ ((p + 1) / 4) n, pow_mul, h]
  have h2 : ((a ^ 2) ^ ((p + 1) / 4)) ^ 2 = a ^ 2 := by
    rw [← pow_mul, Nat.mul_comm, pow_mul]; exact sq_root h3 a
  exact sq_eq_sq_iff_eq_or_eq_neg.1 h2

/-- The exponent is not a multiple of p - 1. -/
theorem exp_ne_zero (h3 : p % 4 = 3) (n : Nat) : ((p + 1) / 4) ^ n % (p - 1) ≠ 0 := by
  intro h
  have hd : p - 1 ∣ ((p + 1) / 4) ^ n := Nat.dvd_of_mod_eq_zero h
  by_cases hp3 : p = 3
  · subst hp3
    have : (2 : Nat) ∣ 1 ^ n := hd
    rw [one_pow] at this; omega
  · have h7 : 7 ≤ p := by have := hp.out.two_le; omega
    obtain ⟨l, hl, hlm⟩ := Nat.exists_prime_and_dvd (n := (p - 1) / 2) (by omega)
    have hodd : ((p - 1) / 2) % 2 = 1 := by omega
    have h1 : l ∣ p - 1 := Nat.dvd_trans hlm ⟨2, by omega⟩
    have h2 : l ∣ (p + 1) / 4 := hl.dvd_of_dvd_pow (Nat.dvd_trans h1 hd)
    have h4 : l ∣ p + 1 := Nat.dvd_trans h2 ⟨4, by omega⟩
    have h5 : l ∣ 2 := by
      have := Nat.dvd_sub h4 h1
      rwa [show p + 1 - (p - 1) = 2 by omega] at this
    have h6 : l = 2 := (Nat.prime_dvd_prime_iff_eq hl Nat.prime_two).1 h5
    subst h6
    obtain ⟨c, hc⟩ := hlm
    omega

theorem pow_mod_exp (y : ZMod p) (E : Nat) (h : E % (p - 1) ≠ 0) : y ^ (E % (p - 1)) = y ^ E := by
  by_cases h0 : y = 0
  · subst h0
    have : E ≠ 0 := by intro e; subst e; simp at h
    rw [zero_pow h, zero_pow this]
  · have h1 : y ^ (p - 1) = 1 := ZMod.pow_card_sub_one_eq_one h0
    conv_rhs => rw [← Nat.div_add_mod E (p - 1), pow_add, pow_mul, h1, one_pow, one_mul]

/-- The root that Recover computes modulo p is x or -x. -/
theorem root_mod (h3 : p % 4 = 3) (x n : Nat) :
    (((x ^ 2 ^ (n + 1) % p) ^ sqrtExp p (n + 1) % p : Nat) : ZMod p) = x ∨ (((x ^ 2 ^ (n + 1) % p) ^ sqrtExp p (n + 1) % p : Nat) : ZMod p) = -x := by
  have e : (((x ^ 2 ^ (n + 1) % p) ^ sqrtExp p (n + 1) % p : Nat) : ZMod p) = ((x : ZMod p) ^ 2 ^ (n + 1)) ^ (((p + 1) / 4) ^ (n + 1)) := by
    unfold sqrtExp
    rw [ZMod.natCast_mod, Nat.cast_pow, ZMod.natCast_mod, Nat.cast_pow, Nat.shiftRight_eq_div_pow]
    exact pow_mod_exp _ _ (exp_ne_zero h3 _)
  rw [e]
  exact root_final h3 _ n

/-- Both signs of the root raise to the original value. -/
theorem root_pow (x n z : Nat) (h : (z : ZMod p) = x ∨ (z : ZMod p) = -x) : z ^ 2 ^ (n + 1) % p = x ^ 2 ^ (n + 1) % p := by
  have e : ((z ^ 2 ^ (n + 1) : Nat) : ZMod p) = ((x ^ 2 ^ (n + 1) : Nat) : ZMod p) := by
    rw [Nat.cast_pow, Nat.cast_pow]
    rcases h with h | h
    · rw [h]
    · rw [h, Even.neg_pow]
      rw [pow_succ]; exact even_two.mul_left _
  exact (ZMod.natCast_eq_natCast_iff' _ _ _).1 e

end roots

theorem modInverse_spec (q p : Nat) (hp : 1 < p) (h : Nat.Coprime q p) : ∃ iq, modInverse q p = some iq ∧ q * iq % p = 1 := by
  unfold modInverse
  rw [if_pos h]
  refine ⟨_, rfl, ?_⟩
  have e := Nat.gcd_eq_gcd_ab q p
  rw [show Nat.gcd q p = 1 from h] at e
  have hpos : 0 ≤ Nat.gcdA q p % (p : Int) := Int.emod_nonneg _ (by omega)
  have : ((q * (Nat.gcdA q p % (p : Int)).toNat % p : Nat) : Int) = 1 := by
    rw [Int.natCast_emod, Nat.cast_mul, Int.toNat_of_nonneg hpos, Int.mul_emod, Int.emod_emod_of_dvd _ (dvd_refl _), ← Int.mul_emod]
    have e2 : (q : Int) * Nat.gcdA q p = 1 - p * Nat.gcdB q p := by rw [Nat.cast_one] at e; omega
    rw [e2, Int.sub_mul_emod_self_left]
    exact Int.emod_eq_of_lt (by omega) (by omega)
  exact_mod_cast this

theorem crt_spec (p q iq zp zq : Nat) (hp : 1 < p) (hzp : zp < p) (hzq : zq < q) (hiq : q * iq % p = 1) :
    crt p q iq zp zq < p * q ∧ crt p q iq zp zq % p = zp ∧ crt p q iq zp zq % q = zq := by
  unfold crt
  dsimp only
  set h : Int := ((zp : Int) - zq) * iq % p with hh
  have h0 : 0 ≤ h := Int.emod_nonneg _ (by omega)
  have h1 : h < p := Int.emod_lt_of_pos _ (by omega)
  obtain ⟨k, hk⟩ := Int.eq_ofNat_of_zero_le h0
  have e : ((zq : Int) + q * h).toNat = zq + q * k := by rw [hk]; exact_mod_cast Int.toNat_natCast (zq + q * k)
  rw [e]
  have hkp : k < p := by rw [hk] at h1; exact_mod_cast h1
  refine ⟨?_, ?_, ?_⟩
  · calc zq + q * k < q + q * k := by omega
      _ = q * (k + 1) := by ring
      _ ≤ q * p := Nat.mul_le_mul_left _ hkp
      _ = p * q := Nat.mul_comm _ _
  · have hm : ((zq + q * k : Nat) : Int) ≡ zp [ZMOD p] := by
      have hki : (k : Int) ≡ ((zp : Int) - zq) * iq [ZMOD p] := by
        rw [← Int.ofNat_eq_natCast, ← hk, hh]; exact Int.mod_modEq _ _
      have hqi : (q : Int) * iq ≡ 1 [ZMOD p] := by
        show (q : Int) * iq % p = 1 % p
        have : ((q * iq % p : Nat) : Int) = 1 := by rw [hiq]; rfl
        rw [Int.natCast_emod, Nat.cast_mul] at this
        rw [this]; exact (Int.emod_eq_of_lt (by omega) (by omega)).symm
      push_cast
      calc (zq : Int) + q * k ≡ zq + q * (((zp : Int) - zq) * iq) [ZMOD p] := (hki.mul_left _).add_left _
        _ = zq + ((q : Int) * iq) * ((zp : Int) - zq) := by ring
        _ ≡ zq + 1 * ((zp : Int) - zq) [ZMOD p] := (hqi.mul_right _).add_left _
        _ = zp := by ring
    have : (zq + q * k) % p = zp % p := (Int.natCast_modEq_iff.1 hm)
    rw [this, Nat.mod_eq_of_lt hzp]
  · rw [Nat.add_mul_mod_self_left, Nat.mod_eq_of_lt hzq]

end Verif.Makwa
