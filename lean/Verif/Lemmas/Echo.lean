import Verif.Model.Echo
import Verif.Spec.Echo
import Verif.Lemmas.AES
import Verif.Lemmas.HavalObj
import Verif.Lemmas.Bash
import Verif.Lemmas.LSH
/-
Package echo: the compression function.
-/
namespace Verif.Echo
open Spec.AES (Col4 add cols coef)
open Spec.Groestl (sbox mul)
open Shavite (T bytes_at at8_FL bytes_length)

set_option maxRecDepth 10000 in
theorem tab0 : ∀ n, n < 256 → T0.getD n 0 = T 0 n := by decide +kernel
set_option maxRecDepth 10000 in
theorem tab1 : ∀ n, n < 256 → T1.getD n 0 = T 1 n := by decide +kernel
set_option maxRecDepth 10000 in
theorem tab2 : ∀ n, n < 256 → T2.getD n 0 = T 2 n := by decide +kernel
set_option maxRecDepth 10000 in
theorem tab3 : ∀ n, n < 256 → T3.getD n 0 = T 3 n := by decide +kernel

theorem sw8 {w : Nat} (x : BitVec w) (s : Nat) : (x >>> s).setWidth 8 = x.extractLsb' s 8 := by
  apply BitVec.eq_of_getLsbD_eq
  intro i hi
  simp [hi]

def line (a b c d : U32) : U32 := look32 T0 a 0 ^^^ look32 T1 b 8 ^^^ look32 T2 c 16 ^^^ look32 T3 d 24

theorem line_eq (a b c d : U32) : line a b c d =
    T 0 (a.extractLsb' 0 8).toNat ^^^ T 1 (b.extractLsb' 8 8).toNat ^^^ T 2 (c.extractLsb' 16 8).toNat ^^^ T 3 (d.extractLsb' 24 8).toNat := by
  unfold line look32
  rw [sw8, sw8, sw8, sw8, tab0 _ (BitVec.isLt _), tab1 _ (BitVec.isLt _), tab2 _ (BitVec.isLt _), tab3 _ (BitVec.isLt _)]

/-- Four table lines are an AES round. -/
theorem lines_eq (x0 x1 x2 x3 : U32) : (line x0 x1 x2 x3, line x1 x2 x3 x0, line x2 x3 x0 x1, line x3 x0 x1 x2) = Spec.AES.round (x0, x1, x2, x3) := by
  rw [← Shavite.aes_eq]
  unfold Shavite.aes
  dsimp only
  rw [Shavite.line_eq, Shavite.line_eq, Shavite.line_eq, Shavite.line_eq, line_eq, line_eq, line_eq, line_eq]

def lo (a : U64) : U32 := a.setWidth 32
def hi (a : U64) : U32 := (a >>> 32).setWidth 32

theorem look_lo (t : List U32) (a : U64) (s : Nat) (h : s + 8 ≤ 32) : look t a s = look32 t (lo a) s := by
  unfold look look32 lo
  congr 2
  apply BitVec.eq_of_getLsbD_eq
  intro i hi
  simp [hi]; intro; omega

theorem look_hi (t : List U32) (a : U64) (s : Nat) (h : s + 8 ≤ 32) : look t a (s + 32) = look32 t (hi a) s := by
  unfold look look32 hi
  congr 2
  apply BitVec.eq_of_getLsbD_eq
  intro i hi
  simp [hi]
  rw [show s + 32 + i = 32 + (s + i) by omega]
  simp [show s + i < 32 by omega]

theorem le64_lohi (a : U64) : le64 a = le32 (lo a) ++ le32 (hi a) := (Haval.le64_halves a).symm

/-- The two words of the model as the columns of the standard. -/
def q (a b : U64) : Col4 := (lo a, hi a, lo b, hi b)

theorem bytes_q (a b : U64) : Spec.AES.bytes (q a b) = le64 a ++ le64 b := by
  rw [le64_lohi, le64_lohi]; simp [Spec.AES.bytes, q]

theorem mix_length (b : Bytes) : (Spec.AES.mixColumns b).length = 16 := by simp [Spec.AES.mixColumns]

theorem bytes_cols (b : Bytes) (h : b.length = 16) : Spec.AES.bytes (cols b) = b := by
  apply ext_at8 (by rw [bytes_length, h])
  intro i hi
  rw [bytes_length] at hi
  have hr : i % 4 < 4 := Nat.mod_lt _ (by decide)
  obtain ⟨e0, e1, e2, e3⟩ := bytes_at (cols b) (i % 4) hr
  have hc : i / 4 = 0 ∨ i / 4 = 1 ∨ i / 4 = 2 ∨ i / 4 = 3 := by omega
  rcases hc with hc | hc | hc | hc
  · rw [show i = i % 4 by omega, e0]; exact (getLE32_extract b 0 _ hr).trans (by congr 1; omega)
  · rw [show i = 4 + i % 4 by omega, e1]; exact getLE32_extract b 4 _ hr
  · rw [show i = 8 + i % 4 by omega, e2]; exact getLE32_extract b 8 _ hr
  · rw [show i = 12 + i % 4 by omega, e3]; exact getLE32_extract b 12 _ hr

theorem xor_bytes (a b : Col4) : Spec.Echo.xorBytes (Spec.AES.bytes a) (Spec.AES.bytes b) = Spec.AES.bytes (add a b) := by
  apply ext_at8 (by simp [Spec.Echo.xorBytes, bytes_length])
  intro i hi
  have hi : i < 16 := by simpa [Spec.Echo.xorBytes, bytes_length] using hi
  unfold Spec.Echo.xorBytes
  rw [bytes_length, at8_FL _ _ _ hi]
  have hr : i % 4 < 4 := Nat.mod_lt _ (by decide)
  obtain ⟨a0, a1, a2, a3⟩ := bytes_at a (i % 4) hr
  obtain ⟨b0, b1, b2, b3⟩ := bytes_at b (i % 4) hr
  obtain ⟨c0, c1, c2, c3⟩ := bytes_at (add a b) (i % 4) hr
  have hx : ∀ (x y : U32), (x ^^^ y).extractLsb' (8 * (i % 4)) 8 = x.extractLsb' (8 * (i % 4)) 8 ^^^ y.extractLsb' (8 * (i % 4)) 8 := fun x y => by
    rw [BitVec.extractLsb'_xor]
  have hc : i / 4 = 0 ∨ i / 4 = 1 ∨ i / 4 = 2 ∨ i / 4 = 3 := by omega
  rcases hc with hc | hc | hc | hc
  · rw [show i = i % 4 by omega, a0, b0, c0]; exact (hx _ _).symm
  · rw [show i = 4 + i % 4 by omega, a1, b1, c1]; exact (hx _ _).symm
  · rw [show i = 8 + i % 4 by omega, a2, b2, c2]; exact (hx _ _).symm
  · rw [show i = 12 + i % 4 by omega, a3, b3, c3]; exact (hx _ _).symm

theorem aes_bytes (a k : Col4) : Spec.Echo.aes (Spec.AES.bytes a) (Spec.AES.bytes k) = Spec.AES.bytes (add (Spec.AES.round a) k) := by
  unfold Spec.Echo.aes
  rw [← xor_bytes]
  congr 1
  unfold Spec.AES.round
  rw [bytes_cols _ (mix_length _)]

theorem lo_join (u v : U32) (s : U64) : lo (u.setWidth 64 ^^^ (v.setWidth 64 <<< 32) ^^^ s) = u ^^^ lo s := by
  unfold lo
  apply BitVec.eq_of_getLsbD_eq
  intro i hi
  simp [hi, show i < 64 by omega]

theorem hi_join (u v : U32) (s : U64) : hi (u.setWidth 64 ^^^ (v.setWidth 64 <<< 32) ^^^ s) = v ^^^ hi s := by
  unfold hi
  apply BitVec.eq_of_getLsbD_eq
  intro i hi
  simp [hi, show 32 + i < 64 by omega]

/-- Two AES rounds. -/
theorem subWord_eq (c s0 s1 a b : U64) : le64 (subWord c s0 s1 a b).1 ++ le64 (subWord c s0 s1 a b).2 =
    Spec.Echo.aes (Spec.Echo.aes (le64 a ++ le64 b) (le64 c ++ zeros 8)) (le64 s0 ++ le64 s1) := by
  have hz : zeros 8 = le64 0 := rfl
  rw [hz, ← bytes_q, ← bytes_q, ← bytes_q, ← bytes_q, aes_bytes, aes_bytes]
  congr 1
  show q _ _ = _
  have e1 : add (Spec.AES.round (q a b)) (q c 0) = (line (lo a) (hi a) (lo b) (hi b) ^^^ lo c, line (hi a) (lo b) (hi b) (lo a) ^^^ hi c,
      line (lo b) (hi b) (lo a) (hi a), line (hi b) (lo a) (hi a) (lo b)) := by
    unfold q
    rw [← lines_eq]
    unfold add
    simp only [lo, hi, Prod.mk.injEq, true_and]
    exact ⟨BitVec.xor_zero, by rw [show ((0 : U64) >>> 32).setWidth 32 = 0#32 from rfl]; exact BitVec.xor_zero⟩
  rw [e1, ← lines_eq]
  unfold add q subWord
  dsimp only
  rw [lo_join, hi_join, lo_join, hi_join]
  have l1 := look_lo T0 a 0 (by omega)
  have l2 := look_hi T1 a 8 (by omega)
  have l3 := look_lo T2 b 16 (by omega)
  have l4 := look_hi T3 b 24 (by omega)
  have m1 := look_hi T0 a 0 (by omega)
  have m2 := look_lo T1 b 8 (by omega)
  have m3 := look_hi T2 b 16 (by omega)
  have m4 := look_lo T3 a 24 (by omega)
  have n1 := look_lo T0 b 0 (by omega)
  have n2 := look_hi T1 b 8 (by omega)
  have n3 := look_lo T2 a 16 (by omega)
  have n4 := look_hi T3 a 24 (by omega)
  have o1 := look_hi T0 b 0 (by omega)
  have o2 := look_lo T1 a 8 (by omega)
  have o3 := look_hi T2 a 16 (by omega)
  have o4 := look_lo T3 b 24 (by omega)
  simp only [Nat.zero_add, Nat.reduceAdd] at l1 l2 l3 l4 m1 m2 m3 m4 n1 n2 n3 n4 o1 o2 o3 o4
  rw [l1, l2, l3, l4, m1, m2, m3, m4, n1, n2, n3, n4, o1, o2, o3, o4]
  have t0 : c.setWidth 32 ^^^ look32 T0 (lo a) 0 ^^^ look32 T1 (hi a) 8 ^^^ look32 T2 (lo b) 16 ^^^ look32 T3 (hi b) 24 =
      line (lo a) (hi a) (lo b) (hi b) ^^^ lo c := by unfold line lo; ac_rfl
  have t1 : (c >>> 32).setWidth 32 ^^^ look32 T0 (hi a) 0 ^^^ look32 T1 (lo b) 8 ^^^ look32 T2 (hi b) 16 ^^^ look32 T3 (lo a) 24 =
      line (hi a) (lo b) (hi b) (lo a) ^^^ hi c := by unfold line; show hi c ^^^ _ ^^^ _ ^^^ _ ^^^ _ = _; ac_rfl
  rw [t0, t1]
  rfl

end Verif.Echo
