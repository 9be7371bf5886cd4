import Verif.Model.MakwaParams
import Verif.Props.C43_MakwaRecover
/-
C135: makwa.GenerateParameters.
-/
namespace Verif.Props
open Verif.MakwaParams

/-- What crypto/rand.Prime does: it refuses fewer than 2 bits, and otherwise returns an error or a prime of that many bits whose
two highest bits are set. -/
structure PrimeLib (lib : Lib) : Prop where
  small : ∀ i b, b < 2 → lib i b = .error ()
  prime : ∀ i b n, lib i b = .ok n → n.Prime ∧ 3 * 2 ^ (b.toNat - 2) ≤ n ∧ n < 2 ^ b.toNat

theorem genPrime_ok {lib : Lib} (b : Int) : ∀ fuel i n j, genPrime lib b fuel i = some (.ok n, j) →
    ∃ k, i ≤ k ∧ k < j ∧ lib k b = .ok n ∧ n % 4 = 3 ∧ ∀ l, i ≤ l → l < k → ∃ m, lib l b = .ok m ∧ m % 4 ≠ 3
  | 0, i, n, j, h => by unfold genPrime at h; exact absurd h (by simp)
  | fuel + 1, i, n, j, h => by
    unfold genPrime at h
    cases hl : lib i b with
    | error e => rw [hl] at h; simp at h
    | ok m =>
      rw [hl] at h
      dsimp only at h
      by_cases hm : m % 4 = 3
      · rw [if_pos hm] at h
        have h1 := Prod.mk.inj (Option.some.inj h)
        have h2 : m = n := Except.ok.inj h1.1
        subst h2
        exact ⟨i, Nat.le_refl _, by omega, hl, hm, fun l h1 h2 => by omega⟩
      · rw [if_neg hm] at h
        obtain ⟨k, h1, h2, h3, h4, h5⟩ := genPrime_ok b fuel (i + 1) n j h
        refine ⟨k, by omega, h2, h3, h4, fun l h6 h7 => ?_⟩
        by_cases hli : l = i
        · subst hli; exact ⟨m, hl, hm⟩
        · exact h5 l (by omega) h7

theorem genPrime_error {lib : Lib} (b : Int) : ∀ fuel i e j, genPrime lib b fuel i = some (.error e, j) →
    ∃ k, i ≤ k ∧ lib k b = .error e
  | 0, i, e, j, h => by unfold genPrime at h; exact absurd h (by simp)
  | fuel + 1, i, e, j, h => by
    unfold genPrime at h
    cases hl : lib i b with
    | error e' => exact ⟨i, Nat.le_refl _, by rw [hl]⟩
    | ok m =>
      rw [hl] at h
      dsimp only at h
      by_cases hm : m % 4 = 3
      · rw [if_pos hm] at h; simp at h
      · rw [if_neg hm] at h
        obtain ⟨k, h1, h2⟩ := genPrime_error b fuel (i + 1) e j h
        exact ⟨k, by omega, h2⟩

/-- The two calls of a run that returned parameters. -/
theorem generate_ok {lib : Lib} {bits : Int} {fuel : Nat} {r : Private} (h : generateParameters lib bits fuel = some (.ok r)) :
    ∃ i j, lib i ((bits + 1) >>> 1) = .ok r.P ∧ lib j (bits - (bits + 1) >>> 1) = .ok r.Q ∧ i < j ∧ r.P % 4 = 3 ∧ r.Q % 4 = 3 ∧ r.N = r.P * r.Q := by
  unfold generateParameters at h
  dsimp only at h
  split at h
  · exact absurd h (by simp)
  · exact absurd h (by simp)
  · rename_i p i hp
    split at h
    · exact absurd h (by simp)
    · exact absurd h (by simp)
    · rename_i q j hq
      have := Except.ok.inj (Option.some.inj h)
      subst this
      obtain ⟨k, h1, h2, h3, h4, _⟩ := genPrime_ok _ _ _ _ _ hp
      obtain ⟨k', h1', h2', h3', h4', _⟩ := genPrime_ok _ _ _ _ _ hq
      exact ⟨k, k', h3, h3', by omega, h4, h4', rfl⟩

theorem half_eq (bits : Int) : (bits + 1) >>> 1 = (bits + 1) / 2 := by
  rw [Int.shiftRight_eq_div_pow]; rfl

/-- Whatever the library returns: parameters returned by GenerateParameters are two primes congruent 3 modulo 4 and their product,
which has exactly the number of bits asked for; the first prime has half of them, rounded up. -/
theorem C135_params_partial (lib : Lib) (hlib : PrimeLib lib) (bits : Int) (fuel : Nat) (r : Private)
    (h : generateParameters lib bits fuel = some (.ok r)) :
    r.P.Prime ∧ r.Q.Prime ∧ r.P % 4 = 3 ∧ r.Q % 4 = 3 ∧ r.N = r.P * r.Q ∧ (r.N.log2 + 1 : Int) = bits ∧
      (r.P.log2 + 1 : Int) = (bits + 1) / 2 ∧ (r.Q.log2 + 1 : Int) = bits / 2 := by
  obtain ⟨i, j, hp, hq, _, hp3, hq3, hN⟩ := generate_ok h
  rw [half_eq] at hp hq
  have hb1 : 2 ≤ (bits + 1) / 2 := by
    by_contra hc
    rw [hlib.small i _ (by omega)] at hp
    exact absurd hp (by simp)
  have hb2 : 2 ≤ bits - (bits + 1) / 2 := by
    by_contra hc
    rw [hlib.small j _ (by omega)] at hq
    exact absurd hq (by simp)
  obtain ⟨p1, p2, p3⟩ := hlib.prime _ _ _ hp
  obtain ⟨q1, q2, q3⟩ := hlib.prime _ _ _ hq
  obtain ⟨a, ha⟩ : ∃ a : Nat, (bits + 1) / 2 = (a : Int) + 2 := ⟨((bits + 1) / 2 - 2).toNat, by omega⟩
  obtain ⟨c, hc⟩ : ∃ c : Nat, bits - (bits + 1) / 2 = (c : Int) + 2 := ⟨(bits - (bits + 1) / 2 - 2).toNat, by omega⟩
  rw [show ((bits + 1) / 2).toNat = a + 2 by omega] at p2 p3
  rw [show (bits - (bits + 1) / 2).toNat = c + 2 by omega] at q2 q3
  rw [Nat.add_sub_cancel] at p2 q2
  have lg : ∀ n k, 2 ^ k ≤ n → n < 2 ^ (k + 1) → n.log2 = k := fun n k h1 h2 => by
    have h0 : n ≠ 0 := by have := Nat.two_pow_pos k; omega
    have ha := (Nat.le_log2 h0).2 h1
    have hb := (Nat.log2_lt h0).2 h2
    omega
  have e1 : 2 ^ (a + 2) = 4 * 2 ^ a := by rw [Nat.pow_add]; omega
  have e2 : 2 ^ (c + 2) = 4 * 2 ^ c := by rw [Nat.pow_add]; omega
  have hN1 : 2 ^ (a + c + 3) ≤ r.N := by
    rw [hN]
    calc 2 ^ (a + c + 3) = 8 * (2 ^ a * 2 ^ c) := by rw [Nat.pow_add, Nat.pow_add]; omega
      _ ≤ (3 * 2 ^ a) * (3 * 2 ^ c) := by
        rw [show (3 * 2 ^ a) * (3 * 2 ^ c) = 9 * (2 ^ a * 2 ^ c) by ring]; omega
      _ ≤ r.P * r.Q := Nat.mul_le_mul p2 q2
  have hN2 : r.N < 2 ^ (a + c + 3 + 1) := by
    rw [hN]
    calc r.P * r.Q < 2 ^ (a + 2) * 2 ^ (c + 2) := Nat.mul_lt_mul'' p3 q3
      _ = 2 ^ (a + c + 3 + 1) := by rw [← Nat.pow_add]; congr 1; omega
  have l1 := lg _ _ hN1 hN2
  have l2 := lg r.P (a + 1) (by rw [Nat.pow_succ]; omega) p3
  have l3 := lg r.Q (c + 1) (by rw [Nat.pow_succ]; omega) q3
  refine ⟨p1, q1, hp3, hq3, hN, ?_, ?_, ?_⟩ <;> omega

/-- An error comes from the library. -/
theorem C135_error (lib : Lib) (bits : Int) (fuel : Nat) (h : generateParameters lib bits fuel = some (.error ())) :
    ∃ i b, lib i b = .error () := by
  unfold generateParameters at h
  dsimp only at h
  split at h
  · exact absurd h (by simp)
  · rename_i e i hp
    obtain ⟨k, _, hk⟩ := genPrime_error _ _ _ _ _ hp
    exact ⟨k, _, hk⟩
  · split at h
    · exact absurd h (by simp)
    · rename_i e i hp
      obtain ⟨k, _, hk⟩ := genPrime_error _ _ _ _ _ hp
      exact ⟨k, _, hk⟩
    · exact absurd h (by simp)

/-- Fewer than 3 bits are refused at the first prime. -/
theorem C135_small (lib : Lib) (hlib : PrimeLib lib) (bits : Int) (hb : bits < 3) :
    generateParameters lib bits 1 = some (.error ()) := by
  unfold generateParameters genPrime
  dsimp only
  rw [half_eq, hlib.small 0 _ (by omega)]

theorem genPrime_returns {lib : Lib} (b : Int) (k : Nat) : ∀ d i, i + d = k →
    ((∃ e, lib k b = .error e) ∨ ∃ n, lib k b = .ok n ∧ n % 4 = 3) → ∀ fuel, d < fuel → (genPrime lib b fuel i).isSome
  | d, i, hd, h, 0, hf => absurd hf (by omega)
  | d, i, hd, h, fuel + 1, hf => by
    unfold genPrime
    cases hl : lib i b with
    | error e => rfl
    | ok m =>
      dsimp only
      by_cases hm : m % 4 = 3
      · rw [if_pos hm]; rfl
      · rw [if_neg hm]
        by_cases hd0 : d = 0
        · subst hd0
          simp only [Nat.add_zero] at hd
          subst hd
          rcases h with ⟨e, h⟩ | ⟨n, h, h3⟩
          · rw [h] at hl; exact absurd hl (by simp)
          · rw [h] at hl; rw [Except.ok.inj hl] at h3; exact absurd h3 hm
        · exact genPrime_returns b k (d - 1) (i + 1) (by omega) h fuel (by omega)
termination_by _ _ _ _ fuel _ => fuel

/-- GenerateParameters returns if the library sooner or later returns an error or a prime congruent 3 modulo 4. -/
theorem C135_returns_partial (lib : Lib) (bits : Int)
    (h : ∀ b i, ∃ k, i ≤ k ∧ ((∃ e, lib k b = .error e) ∨ ∃ n, lib k b = .ok n ∧ n % 4 = 3)) :
    ∃ fuel, (generateParameters lib bits fuel).isSome := by
  obtain ⟨k1, _, h1⟩ := h ((bits + 1) >>> 1) 0
  obtain ⟨r1, hr1⟩ := Option.isSome_iff_exists.1 (genPrime_returns _ k1 k1 0 (by omega) h1 (k1 + 1) (by omega))
  have mono : ∀ (b : Int) fuel i r, genPrime lib b fuel i = some r → ∀ f', fuel ≤ f' → genPrime lib b f' i = some r := by
    intro b fuel
    induction fuel with
    | zero => intro i r hr; unfold genPrime at hr; exact absurd hr (by simp)
    | succ fuel ih =>
      intro i r hr f' hf'
      obtain ⟨f'', rfl⟩ : ∃ f'', f' = f'' + 1 := ⟨f' - 1, by omega⟩
      unfold genPrime at hr ⊢
      cases hl : lib i b with
      | error e => rw [hl] at hr; exact hr
      | ok m =>
        rw [hl] at hr
        dsimp only at hr ⊢
        by_cases hm : m % 4 = 3
        · rw [if_pos hm] at hr ⊢; exact hr
        · rw [if_neg hm] at hr ⊢; exact ih _ _ hr _ (by omega)
  obtain ⟨x, i⟩ := r1
  cases x with
  | error e =>
    refine ⟨k1 + 1, ?_⟩
    unfold generateParameters
    dsimp only
    rw [hr1]; rfl
  | ok p =>
    obtain ⟨k2, hk2, h2⟩ := h (bits - (bits + 1) >>> 1) i
    refine ⟨max (k1 + 1) (k2 + 1), ?_⟩
    obtain ⟨r2, hr2⟩ := Option.isSome_iff_exists.1 (genPrime_returns _ k2 (k2 - i) i (by omega) h2 (max (k1 + 1) (k2 + 1)) (by omega))
    unfold generateParameters
    dsimp only
    rw [mono _ _ _ _ hr1 _ (Nat.le_max_left _ _)]
    dsimp only
    rw [hr2]
    obtain ⟨y, j⟩ := r2
    cases y <;> rfl

/-- With different primes and a length that is a multiple of 8 bits, the generated parameters recover passwords. -/
theorem C135_recover_partial (lib : Lib) (hlib : PrimeLib lib) (bits : Int) (fuel : Nat) (r : Private)
    (h : generateParameters lib bits fuel = some (.ok r)) (hne : r.P ≠ r.Q) (h8 : bits % 8 = 0)
    (A : Makwa.Alg) (hA : A.Good) (pw salt : Bytes) (wf post : Int) (hwf : 0 ≤ wf) (hpost : post ≤ 0)
    (d : Makwa.Digest) (hd : Makwa.Hash { N := r.N, A := A } pw salt wf false post = .ok d) :
    ∃ pw', Makwa.Recover { N := r.N, A := A } r.P r.Q d = .password pw' ∧ Makwa.CheckPassword { N := r.N, A := A } d pw' = .ok () := by
  obtain ⟨p1, q1, p3, q3, hN, hl, _, _⟩ := C135_params_partial lib hlib bits fuel r h
  rw [hN] at hd hl ⊢
  refine C43_makwa_recover_partial r.P r.Q p1 q1 hne p3 q3 A hA ?_ pw salt wf post hwf hpost d hd
  unfold Makwa.bitLen
  rw [if_neg (Nat.mul_ne_zero p1.ne_zero q1.ne_zero)]
  omega

/-- The primes need not differ: for 4 bits they are both 3 and N is 9, whatever the library returns. -/
theorem C135_distinct_violated (lib : Lib) (hlib : PrimeLib lib) (fuel : Nat) (r : Private)
    (h : generateParameters lib 4 fuel = some (.ok r)) : r.P = 3 ∧ r.Q = 3 ∧ r.N = 9 := by
  obtain ⟨i, j, hp, hq, _, _, _, hN⟩ := generate_ok h
  have e : ((4 + 1 : Int)) >>> 1 = 2 := by decide
  rw [e] at hp hq
  obtain ⟨_, p2, p3⟩ := hlib.prime _ _ _ hp
  obtain ⟨_, q2, q3⟩ := hlib.prime _ _ _ hq
  have h2 : ((4 : Int) - 2).toNat = 2 := by decide
  have h3 : ((2 : Int)).toNat = 2 := by decide
  rw [h2] at q2 q3
  rw [h3] at p2 p3
  have hP : r.P = 3 := by simp at p2 p3; omega
  have hQ : r.Q = 3 := by simp at q2 q3; omega
  exact ⟨hP, hQ, by rw [hN, hP, hQ]⟩

/-- For 8 bits it never returns, as long as the library reports no error: the only 4-bit prime with both high bits set is 13. -/
theorem C135_returns_violated (lib : Lib) (hlib : PrimeLib lib) (hok : ∀ i, ∃ n, lib i 4 = .ok n) (fuel : Nat) :
    generateParameters lib 8 fuel = none := by
  have hg : ∀ fuel i, genPrime lib 4 fuel i = none := by
    intro fuel
    induction fuel with
    | zero => intro i; rfl
    | succ fuel ih =>
      intro i
      unfold genPrime
      obtain ⟨n, hn⟩ := hok i
      obtain ⟨h1, h2, h3⟩ := hlib.prime _ _ _ hn
      have h4 : ((4 : Int)).toNat = 4 := by decide
      rw [h4] at h2 h3
      have hn13 : n = 13 := by
        have : 12 ≤ n := h2
        have : n < 16 := h3
        have : n = 12 ∨ n = 13 ∨ n = 14 ∨ n = 15 := by omega
        rcases this with rfl | rfl | rfl | rfl
        · exact absurd h1 (by decide)
        · rfl
        · exact absurd h1 (by decide)
        · exact absurd h1 (by decide)
      rw [hn, hn13]
      dsimp only
      rw [if_neg (by decide)]
      exact ih _
  unfold generateParameters
  have e : ((8 + 1 : Int)) >>> 1 = 4 := by decide
  dsimp only
  rw [e, hg]

/-- A library for the examples. -/
def toyLib : Lib := fun i b =>
  if b < 2 then .error () else if b = 2 then .ok 3 else if b = 3 then .ok 7 else if b = 4 then .ok 13 else
  if b = 5 then .ok (if i % 2 = 0 then 29 else 31) else .error ()
theorem toyLib_ok : PrimeLib toyLib := by
  refine ⟨fun i b h => by unfold toyLib; rw [if_pos h], fun i b n h => ?_⟩
  unfold toyLib at h
  split at h
  · exact absurd h (by simp)
  split at h
  · rename_i hb; rw [hb, ← Except.ok.inj h]; decide
  split at h
  · rename_i hb; rw [hb, ← Except.ok.inj h]; decide
  split at h
  · rename_i hb; rw [hb, ← Except.ok.inj h]; decide
  split at h
  · rename_i hb
    rw [hb, ← Except.ok.inj h]
    split <;> decide
  · exact absurd h (by simp)
/- The hypotheses are met: 10 bits give 31 · 31 at the second attempt, 4 bits give 9, for 8 bits the library goes on. -/
example : PrimeLib toyLib ∧ generateParameters toyLib 5 9 = some (.ok ⟨21, 7, 3⟩) ∧ generateParameters toyLib 10 9 = some (.ok ⟨961, 31, 31⟩) ∧
    generateParameters toyLib 4 9 = some (.ok ⟨9, 3, 3⟩) ∧ ∀ i, ∃ n, toyLib i 4 = .ok n :=
  ⟨toyLib_ok, by rfl, by rfl, by rfl, fun _ => ⟨13, rfl⟩⟩

end Verif.Props
