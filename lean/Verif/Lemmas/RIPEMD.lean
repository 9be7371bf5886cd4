import Verif.Spec.RIPEMD
import Verif.Model.RIPEMD
import Verif.Bits
/-
Lemmas connecting the ripemd model with the paper.
-/
namespace Verif.RIPEMD
set_option linter.unusedSimpArgs false
open Verif.Spec

def V4.toL (v : V4) : RIPEMD.L4 := ⟨v.a, v.b, v.c, v.d⟩
def V5.toL (v : V5) : RIPEMD.L5 := ⟨v.a, v.b, v.c, v.d, v.e⟩
def p4 (st : V4 × V4) : RIPEMD.L4 × RIPEMD.L4 := (st.1.toL, st.2.toL)
def p5 (st : V5 × V5) : RIPEMD.L5 × RIPEMD.L5 := (st.1.toL, st.2.toL)

theorem f1_eq (b c d : U32) : RIPEMD.f 1 b c d = d ^^^ (b &&& (c ^^^ d)) := by
  simp only [RIPEMD.f]; bitwise
theorem f2_eq (b c d : U32) : RIPEMD.f 2 b c d = d ^^^ (b ||| ~~~c) := by
  simp only [RIPEMD.f]; bitwise
theorem f3_eq (b c d : U32) : RIPEMD.f 3 b c d = c ^^^ (d &&& (b ^^^ c)) := by
  simp only [RIPEMD.f]; bitwise

theorem loadX_getD (p : Bytes) (w : Nat) (h : w < 16) : (loadX p).getD w 0 = RIPEMD.X p w := by
  simp [loadX, RIPEMD.X, h]

theorem tabs128 : ∀ k, k < 4 → ∀ i, i < 16 →
    sbox128n0.getD (16 * k + i) 0 = RIPEMD.r k i ∧ sbox128n1.getD (16 * k + i) 0 = RIPEMD.r' k i ∧
    sbox128r0.getD (16 * k + i) 0 = RIPEMD.sh k (RIPEMD.r k i) ∧
    sbox128r1.getD (16 * k + i) 0 = RIPEMD.sh k (RIPEMD.r' k i) ∧
    RIPEMD.r k i < 16 ∧ RIPEMD.r' k i < 16 := by decide +kernel
theorem tabs256 : ∀ k, k < 4 → ∀ i, i < 16 →
    sbox256n0.getD (16 * k + i) 0 = RIPEMD.r k i ∧ sbox256n1.getD (16 * k + i) 0 = RIPEMD.r' k i ∧
    sbox256r0.getD (16 * k + i) 0 = RIPEMD.sh k (RIPEMD.r k i) ∧
    sbox256r1.getD (16 * k + i) 0 = RIPEMD.sh k (RIPEMD.r' k i) ∧
    RIPEMD.r k i < 16 ∧ RIPEMD.r' k i < 16 := by decide +kernel
theorem tabs160 : ∀ k, k < 5 → ∀ i, i < 16 →
    sbox160n0.getD (16 * k + i) 0 = RIPEMD.r k i ∧ sbox160n1.getD (16 * k + i) 0 = RIPEMD.r' k i ∧
    sbox160r0.getD (16 * k + i) 0 = RIPEMD.sh k (RIPEMD.r k i) ∧
    sbox160r1.getD (16 * k + i) 0 = RIPEMD.sh k (RIPEMD.r' k i) ∧
    RIPEMD.r k i < 16 ∧ RIPEMD.r' k i < 16 := by decide +kernel
theorem tabs320 : ∀ k, k < 5 → ∀ i, i < 16 →
    sbox320n0.getD (16 * k + i) 0 = RIPEMD.r k i ∧ sbox320n1.getD (16 * k + i) 0 = RIPEMD.r' k i ∧
    sbox320r0.getD (16 * k + i) 0 = RIPEMD.sh k (RIPEMD.r k i) ∧
    sbox320r1.getD (16 * k + i) 0 = RIPEMD.sh k (RIPEMD.r' k i) ∧
    RIPEMD.r k i < 16 ∧ RIPEMD.r' k i < 16 := by decide +kernel

/-- A loop of 16 iterations whose body is the step of round `k`. -/
theorem loop4 (p : Bytes) (k : Nat) (body : V4 × V4 → Nat → V4 × V4) (a b : Nat)
    (ha : a = 16 * k) (hb : b = 16 * k + 16)
    (hbody : ∀ i, i < 16 → ∀ st, p4 (body st (16 * k + i)) =
      (RIPEMD.step4 (RIPEMD.f k) (RIPEMD.K k) (RIPEMD.X p (RIPEMD.r k i)) (RIPEMD.sh k (RIPEMD.r k i)) st.1.toL,
       RIPEMD.step4 (RIPEMD.f (3 - k)) (RIPEMD.K4' k) (RIPEMD.X p (RIPEMD.r' k i)) (RIPEMD.sh k (RIPEMD.r' k i)) st.2.toL))
    (st : V4 × V4) : p4 (forLoop a b body st) = RIPEMD.steps4 p k (p4 st) 16 := by
  subst ha hb
  have := forLoop_inv (a := 16 * k) (b := 16 * k + 16) (body := body) (s := st)
    (fun j (v : V4 × V4) => p4 v = RIPEMD.steps4 p k (p4 st) (j - 16 * k)) (by omega)
    (by rw [Nat.sub_self]; rfl) (by
      intro j v h1 h2 ih
      obtain ⟨i, rfl⟩ := Nat.exists_eq_add_of_le h1
      rw [hbody i (by omega), show 16 * k + i + 1 - 16 * k = i + 1 by omega, RIPEMD.steps4]
      rw [show 16 * k + i - 16 * k = i by omega] at ih
      rw [← ih]; rfl)
  rwa [show 16 * k + 16 - 16 * k = 16 by omega] at this

theorem loop5 (p : Bytes) (k : Nat) (body : V5 × V5 → Nat → V5 × V5) (a b : Nat)
    (ha : a = 16 * k) (hb : b = 16 * k + 16)
    (hbody : ∀ i, i < 16 → ∀ st, p5 (body st (16 * k + i)) =
      (RIPEMD.step5 (RIPEMD.f k) (RIPEMD.K k) (RIPEMD.X p (RIPEMD.r k i)) (RIPEMD.sh k (RIPEMD.r k i)) st.1.toL,
       RIPEMD.step5 (RIPEMD.f (4 - k)) (RIPEMD.K5' k) (RIPEMD.X p (RIPEMD.r' k i)) (RIPEMD.sh k (RIPEMD.r' k i)) st.2.toL))
    (st : V5 × V5) : p5 (forLoop a b body st) = RIPEMD.steps5 p k (p5 st) 16 := by
  subst ha hb
  have := forLoop_inv (a := 16 * k) (b := 16 * k + 16) (body := body) (s := st)
    (fun j (v : V5 × V5) => p5 v = RIPEMD.steps5 p k (p5 st) (j - 16 * k)) (by omega)
    (by rw [Nat.sub_self]; rfl) (by
      intro j v h1 h2 ih
      obtain ⟨i, rfl⟩ := Nat.exists_eq_add_of_le h1
      rw [hbody i (by omega), show 16 * k + i + 1 - 16 * k = i + 1 by omega, RIPEMD.steps5]
      rw [show 16 * k + i - 16 * k = i by omega] at ih
      rw [← ih]; rfl)
  rwa [show 16 * k + 16 - 16 * k = 16 by omega] at this

theorem round128_0_eq (p : Bytes) (st : V4 × V4) :
    p4 (round128_0 (loadX p) st) = RIPEMD.steps4 p 0 (p4 st) 16 := by
  refine loop4 p 0 _ 0 16 rfl rfl ?_ st
  intro i hi st
  obtain ⟨h1, h2, h3, h4, h5, h6⟩ := tabs128 0 (by decide) i hi
  simp only [h1, h2, h3, h4, loadX_getD _ _ h5, loadX_getD _ _ h6, RIPEMD.step4, f1_eq, f2_eq, f3_eq, Nat.reduceSub, p4, V4.toL, line4]
  rfl
theorem round128_1_eq (p : Bytes) (st : V4 × V4) :
    p4 (round128_1 (loadX p) st) = RIPEMD.steps4 p 1 (p4 st) 16 := by
  refine loop4 p 1 _ 16 32 rfl rfl ?_ st
  intro i hi st
  obtain ⟨h1, h2, h3, h4, h5, h6⟩ := tabs128 1 (by decide) i hi
  simp only [h1, h2, h3, h4, loadX_getD _ _ h5, loadX_getD _ _ h6, RIPEMD.step4, f1_eq, f2_eq, f3_eq, Nat.reduceSub, p4, V4.toL, line4]
  rfl
theorem round128_2_eq (p : Bytes) (st : V4 × V4) :
    p4 (round128_2 (loadX p) st) = RIPEMD.steps4 p 2 (p4 st) 16 := by
  refine loop4 p 2 _ 32 48 rfl rfl ?_ st
  intro i hi st
  obtain ⟨h1, h2, h3, h4, h5, h6⟩ := tabs128 2 (by decide) i hi
  simp only [h1, h2, h3, h4, loadX_getD _ _ h5, loadX_getD _ _ h6, RIPEMD.step4, f1_eq, f2_eq, f3_eq, Nat.reduceSub, p4, V4.toL, line4]
  rfl
theorem round128_3_eq (p : Bytes) (st : V4 × V4) :
    p4 (round128_3 (loadX p) st) = RIPEMD.steps4 p 3 (p4 st) 16 := by
  refine loop4 p 3 _ 48 64 rfl rfl ?_ st
  intro i hi st
  obtain ⟨h1, h2, h3, h4, h5, h6⟩ := tabs128 3 (by decide) i hi
  simp only [h1, h2, h3, h4, loadX_getD _ _ h5, loadX_getD _ _ h6, RIPEMD.step4, f1_eq, f2_eq, f3_eq, Nat.reduceSub, p4, V4.toL, line4]
  rfl
theorem block128_eq (s : List U32) (p : Bytes) : block128 s p = RIPEMD.compress128 s p := by
  unfold block128 RIPEMD.compress128
  simp only [RIPEMD.rounds4]
  generalize hv : (V4.mk (s.getD 0 0) (s.getD 1 0) (s.getD 2 0) (s.getD 3 0)) = v
  
  have hv' : (RIPEMD.L4.mk (s.getD 0 0) (s.getD 1 0) (s.getD 2 0) (s.getD 3 0), RIPEMD.L4.mk (s.getD 0 0) (s.getD 1 0) (s.getD 2 0) (s.getD 3 0)) = p4 (v, v) := by
    subst hv ; rfl
  simp only [hv', ← round128_0_eq, ← round128_1_eq, ← round128_2_eq, ← round128_3_eq]
  generalize round128_3 _ _ = o
  simp only [p4, V4.toL]
theorem round160_0_eq (p : Bytes) (st : V5 × V5) :
    p5 (round160_0 (loadX p) st) = RIPEMD.steps5 p 0 (p5 st) 16 := by
  refine loop5 p 0 _ 0 16 rfl rfl ?_ st
  intro i hi st
  obtain ⟨h1, h2, h3, h4, h5, h6⟩ := tabs160 0 (by decide) i hi
  simp only [h1, h2, h3, h4, loadX_getD _ _ h5, loadX_getD _ _ h6, RIPEMD.step5, Nat.reduceSub, p5, V5.toL, line5]
  rfl
theorem round160_1_eq (p : Bytes) (st : V5 × V5) :
    p5 (round160_1 (loadX p) st) = RIPEMD.steps5 p 1 (p5 st) 16 := by
  refine loop5 p 1 _ 16 32 rfl rfl ?_ st
  intro i hi st
  obtain ⟨h1, h2, h3, h4, h5, h6⟩ := tabs160 1 (by decide) i hi
  simp only [h1, h2, h3, h4, loadX_getD _ _ h5, loadX_getD _ _ h6, RIPEMD.step5, Nat.reduceSub, p5, V5.toL, line5]
  rfl
theorem round160_2_eq (p : Bytes) (st : V5 × V5) :
    p5 (round160_2 (loadX p) st) = RIPEMD.steps5 p 2 (p5 st) 16 := by
  refine loop5 p 2 _ 32 48 rfl rfl ?_ st
  intro i hi st
  obtain ⟨h1, h2, h3, h4, h5, h6⟩ := tabs160 2 (by decide) i hi
  simp only [h1, h2, h3, h4, loadX_getD _ _ h5, loadX_getD _ _ h6, RIPEMD.step5, Nat.reduceSub, p5, V5.toL, line5]
  rfl
theorem round160_3_eq (p : Bytes) (st : V5 × V5) :
    p5 (round160_3 (loadX p) st) = RIPEMD.steps5 p 3 (p5 st) 16 := by
  refine loop5 p 3 _ 48 64 rfl rfl ?_ st
  intro i hi st
  obtain ⟨h1, h2, h3, h4, h5, h6⟩ := tabs160 3 (by decide) i hi
  simp only [h1, h2, h3, h4, loadX_getD _ _ h5, loadX_getD _ _ h6, RIPEMD.step5, Nat.reduceSub, p5, V5.toL, line5]
  rfl
theorem round160_4_eq (p : Bytes) (st : V5 × V5) :
    p5 (round160_4 (loadX p) st) = RIPEMD.steps5 p 4 (p5 st) 16 := by
  refine loop5 p 4 _ 64 80 rfl rfl ?_ st
  intro i hi st
  obtain ⟨h1, h2, h3, h4, h5, h6⟩ := tabs160 4 (by decide) i hi
  simp only [h1, h2, h3, h4, loadX_getD _ _ h5, loadX_getD _ _ h6, RIPEMD.step5, Nat.reduceSub, p5, V5.toL, line5]
  rfl
theorem block160_eq (s : List U32) (p : Bytes) : block160 s p = RIPEMD.compress160 s p := by
  unfold block160 RIPEMD.compress160
  simp only [RIPEMD.rounds5]
  generalize hv : (V5.mk (s.getD 0 0) (s.getD 1 0) (s.getD 2 0) (s.getD 3 0) (s.getD 4 0)) = v
  
  have hv' : (RIPEMD.L5.mk (s.getD 0 0) (s.getD 1 0) (s.getD 2 0) (s.getD 3 0) (s.getD 4 0), RIPEMD.L5.mk (s.getD 0 0) (s.getD 1 0) (s.getD 2 0) (s.getD 3 0) (s.getD 4 0)) = p5 (v, v) := by
    subst hv ; rfl
  simp only [hv', ← round160_0_eq, ← round160_1_eq, ← round160_2_eq, ← round160_3_eq, ← round160_4_eq]
  generalize round160_4 _ _ = o
  simp only [p5, V5.toL]
  rw [show o.2.d + (o.1.c + s.getD 1 0) = s.getD 1 0 + o.1.c + o.2.d by ac_rfl]
theorem round256_0_eq (p : Bytes) (st : V4 × V4) :
    p4 (round256_0 (loadX p) st) = RIPEMD.steps4 p 0 (p4 st) 16 := by
  refine loop4 p 0 _ 0 16 rfl rfl ?_ st
  intro i hi st
  obtain ⟨h1, h2, h3, h4, h5, h6⟩ := tabs256 0 (by decide) i hi
  simp only [h1, h2, h3, h4, loadX_getD _ _ h5, loadX_getD _ _ h6, RIPEMD.step4, f1_eq, f2_eq, f3_eq, Nat.reduceSub, p4, V4.toL, line4]
  rfl
theorem swap256_0 (st : V4 × V4) : RIPEMD.swap256 0 (p4 st) =
    p4 ({ st.1 with a := st.2.a }, { st.2 with a := st.1.a }) := rfl
theorem round256_1_eq (p : Bytes) (st : V4 × V4) :
    p4 (round256_1 (loadX p) st) = RIPEMD.steps4 p 1 (p4 st) 16 := by
  refine loop4 p 1 _ 16 32 rfl rfl ?_ st
  intro i hi st
  obtain ⟨h1, h2, h3, h4, h5, h6⟩ := tabs256 1 (by decide) i hi
  simp only [h1, h2, h3, h4, loadX_getD _ _ h5, loadX_getD _ _ h6, RIPEMD.step4, f1_eq, f2_eq, f3_eq, Nat.reduceSub, p4, V4.toL, line4]
  rfl
theorem swap256_1 (st : V4 × V4) : RIPEMD.swap256 1 (p4 st) =
    p4 ({ st.1 with b := st.2.b }, { st.2 with b := st.1.b }) := rfl
theorem round256_2_eq (p : Bytes) (st : V4 × V4) :
    p4 (round256_2 (loadX p) st) = RIPEMD.steps4 p 2 (p4 st) 16 := by
  refine loop4 p 2 _ 32 48 rfl rfl ?_ st
  intro i hi st
  obtain ⟨h1, h2, h3, h4, h5, h6⟩ := tabs256 2 (by decide) i hi
  simp only [h1, h2, h3, h4, loadX_getD _ _ h5, loadX_getD _ _ h6, RIPEMD.step4, f1_eq, f2_eq, f3_eq, Nat.reduceSub, p4, V4.toL, line4]
  rfl
theorem swap256_2 (st : V4 × V4) : RIPEMD.swap256 2 (p4 st) =
    p4 ({ st.1 with c := st.2.c }, { st.2 with c := st.1.c }) := rfl
theorem round256_3_eq (p : Bytes) (st : V4 × V4) :
    p4 (round256_3 (loadX p) st) = RIPEMD.steps4 p 3 (p4 st) 16 := by
  refine loop4 p 3 _ 48 64 rfl rfl ?_ st
  intro i hi st
  obtain ⟨h1, h2, h3, h4, h5, h6⟩ := tabs256 3 (by decide) i hi
  simp only [h1, h2, h3, h4, loadX_getD _ _ h5, loadX_getD _ _ h6, RIPEMD.step4, f1_eq, f2_eq, f3_eq, Nat.reduceSub, p4, V4.toL, line4]
  rfl
theorem swap256_3 (st : V4 × V4) : RIPEMD.swap256 3 (p4 st) =
    p4 ({ st.1 with d := st.2.d }, { st.2 with d := st.1.d }) := rfl
theorem block256_eq (s : List U32) (p : Bytes) : block256 s p = RIPEMD.compress256 s p := by
  unfold block256 RIPEMD.compress256
  simp only [RIPEMD.rounds4]
  generalize hv : (V4.mk (s.getD 0 0) (s.getD 1 0) (s.getD 2 0) (s.getD 3 0)) = v
  generalize hw : (V4.mk (s.getD 4 0) (s.getD 5 0) (s.getD 6 0) (s.getD 7 0)) = w
  have hv' : (RIPEMD.L4.mk (s.getD 0 0) (s.getD 1 0) (s.getD 2 0) (s.getD 3 0), RIPEMD.L4.mk (s.getD 4 0) (s.getD 5 0) (s.getD 6 0) (s.getD 7 0)) = p4 (v, w) := by
    subst hv hw; rfl
  simp only [hv', ← round256_0_eq, ← round256_1_eq, ← round256_2_eq, ← round256_3_eq, swap256_0, swap256_1, swap256_2, swap256_3]
  generalize round256_3 _ _ = o
  simp only [p4, V4.toL]
theorem round320_0_eq (p : Bytes) (st : V5 × V5) :
    p5 (round320_0 (loadX p) st) = RIPEMD.steps5 p 0 (p5 st) 16 := by
  refine loop5 p 0 _ 0 16 rfl rfl ?_ st
  intro i hi st
  obtain ⟨h1, h2, h3, h4, h5, h6⟩ := tabs320 0 (by decide) i hi
  simp only [h1, h2, h3, h4, loadX_getD _ _ h5, loadX_getD _ _ h6, RIPEMD.step5, f1_eq, f2_eq, f3_eq, Nat.reduceSub, p5, V5.toL, line5]
  rfl
theorem swap320_0 (st : V5 × V5) : RIPEMD.swap320 0 (p5 st) =
    p5 ({ st.1 with b := st.2.b }, { st.2 with b := st.1.b }) := rfl
theorem round320_1_eq (p : Bytes) (st : V5 × V5) :
    p5 (round320_1 (loadX p) st) = RIPEMD.steps5 p 1 (p5 st) 16 := by
  refine loop5 p 1 _ 16 32 rfl rfl ?_ st
  intro i hi st
  obtain ⟨h1, h2, h3, h4, h5, h6⟩ := tabs320 1 (by decide) i hi
  simp only [h1, h2, h3, h4, loadX_getD _ _ h5, loadX_getD _ _ h6, RIPEMD.step5, f1_eq, f2_eq, f3_eq, Nat.reduceSub, p5, V5.toL, line5]
  rfl
theorem swap320_1 (st : V5 × V5) : RIPEMD.swap320 1 (p5 st) =
    p5 ({ st.1 with d := st.2.d }, { st.2 with d := st.1.d }) := rfl
theorem round320_2_eq (p : Bytes) (st : V5 × V5) :
    p5 (round320_2 (loadX p) st) = RIPEMD.steps5 p 2 (p5 st) 16 := by
  refine loop5 p 2 _ 32 48 rfl rfl ?_ st
  intro i hi st
  obtain ⟨h1, h2, h3, h4, h5, h6⟩ := tabs320 2 (by decide) i hi
  simp only [h1, h2, h3, h4, loadX_getD _ _ h5, loadX_getD _ _ h6, RIPEMD.step5, f1_eq, f2_eq, f3_eq, Nat.reduceSub, p5, V5.toL, line5]
  rfl
theorem swap320_2 (st : V5 × V5) : RIPEMD.swap320 2 (p5 st) =
    p5 ({ st.1 with a := st.2.a }, { st.2 with a := st.1.a }) := rfl
theorem round320_3_eq (p : Bytes) (st : V5 × V5) :
    p5 (round320_3 (loadX p) st) = RIPEMD.steps5 p 3 (p5 st) 16 := by
  refine loop5 p 3 _ 48 64 rfl rfl ?_ st
  intro i hi st
  obtain ⟨h1, h2, h3, h4, h5, h6⟩ := tabs320 3 (by decide) i hi
  simp only [h1, h2, h3, h4, loadX_getD _ _ h5, loadX_getD _ _ h6, RIPEMD.step5, f1_eq, f2_eq, f3_eq, Nat.reduceSub, p5, V5.toL, line5]
  rfl
theorem swap320_3 (st : V5 × V5) : RIPEMD.swap320 3 (p5 st) =
    p5 ({ st.1 with c := st.2.c }, { st.2 with c := st.1.c }) := rfl
theorem round320_4_eq (p : Bytes) (st : V5 × V5) :
    p5 (round320_4 (loadX p) st) = RIPEMD.steps5 p 4 (p5 st) 16 := by
  refine loop5 p 4 _ 64 80 rfl rfl ?_ st
  intro i hi st
  obtain ⟨h1, h2, h3, h4, h5, h6⟩ := tabs320 4 (by decide) i hi
  simp only [h1, h2, h3, h4, loadX_getD _ _ h5, loadX_getD _ _ h6, RIPEMD.step5, f1_eq, f2_eq, f3_eq, Nat.reduceSub, p5, V5.toL, line5]
  rfl
theorem swap320_4 (st : V5 × V5) : RIPEMD.swap320 4 (p5 st) =
    p5 ({ st.1 with e := st.2.e }, { st.2 with e := st.1.e }) := rfl
theorem block320_eq (s : List U32) (p : Bytes) : block320 s p = RIPEMD.compress320 s p := by
  unfold block320 RIPEMD.compress320
  simp only [RIPEMD.rounds5]
  generalize hv : (V5.mk (s.getD 0 0) (s.getD 1 0) (s.getD 2 0) (s.getD 3 0) (s.getD 4 0)) = v
  generalize hw : (V5.mk (s.getD 5 0) (s.getD 6 0) (s.getD 7 0) (s.getD 8 0) (s.getD 9 0)) = w
  have hv' : (RIPEMD.L5.mk (s.getD 0 0) (s.getD 1 0) (s.getD 2 0) (s.getD 3 0) (s.getD 4 0), RIPEMD.L5.mk (s.getD 5 0) (s.getD 6 0) (s.getD 7 0) (s.getD 8 0) (s.getD 9 0)) = p5 (v, w) := by
    subst hv hw; rfl
  simp only [hv', ← round320_0_eq, ← round320_1_eq, ← round320_2_eq, ← round320_3_eq, ← round320_4_eq, swap320_0, swap320_1, swap320_2, swap320_3, swap320_4]
  generalize round320_4 _ _ = o
  simp only [p5, V5.toL]

/-- What `checkSum` returns for a digest that represents `m`. -/
theorem checkSum_eq (block c : List U32 → Bytes → List U32) (hc : ∀ s p, block s p = c s p)
    (iv : List U32) (d : Digest) (m : Bytes) (h : d.Repr 64 block iv m) :
    checkSum block d = some (RIPEMD.hashWith c iv m) := by
  have hb : block = c := by funext s p; exact hc s p
  subst hb
  have hl : d.len.toNat % 64 = m.length % 64 := by rw [h.len_eq, BitVec.toNat_ofNat]; omega
  have hl8 : d.len <<< 3 = BitVec.ofNat 64 (8 * m.length) := by
    rw [h.len_eq]; apply BitVec.eq_of_toNat_eq; simp [Nat.shiftLeft_eq]; omega
  have h1 := h.absorbX (by omega) ((0x80#8 :: zeros 63).take (if m.length % 64 < 56 then 56 - m.length % 64
    else 64 + 56 - m.length % 64))
  have h2 := h1.absorbX (by omega) (le64 (BitVec.ofNat 64 (8 * m.length)))
  rw [mdPad_written _ _ _ (le64_length _)] at h2
  unfold checkSum write
  simp only [hl, hl8]
  rw [if_neg (by
    rw [h2.buf.nx_eq, mdPad_length _ _ _ _ (by omega)]; simp), h2.buf.state]
  rfl

end Verif.RIPEMD
