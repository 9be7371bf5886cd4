import Verif.Spec.HAS160
import Verif.Model.HAS160
import Verif.Bits
import Mathlib.Tactic.IntervalCases
/-
Lemmas connecting the has160 model with TTAS.KO-12.0011.
-/
namespace Verif.HAS160
open Verif.Spec

/-- Common form of `f1 .. f4`. -/
def gen (ord : List Nat) (K : U32) (f : U32 → U32 → U32 → U32) (rot : Nat)
    (h : List U32) (a b c d e : Nat) (x : List U32) (j : Nat) : List U32 :=
  let g n := h.getD n 0
  let h := h.set e (g e + (rol (g a) (s1.getD j 0) + x.getD (ord.getD j 0) 0 + K + f (g b) (g c) (g d)))
  h.set b (rol (h.getD b 0) rot)

/-- Registers after `j` steps of a round. -/
structure Inv (v : HAS160.Reg) (j : Nat) (h : List U32) : Prop where
  hl : h.length = 5
  A : h.getD ((4*j) % 5) 0 = v.A
  B : h.getD ((1 + 4*j) % 5) 0 = v.B
  C : h.getD ((2 + 4*j) % 5) 0 = v.C
  D : h.getD ((3 + 4*j) % 5) 0 = v.D
  E : h.getD ((4 + 4*j) % 5) 0 = v.E

theorem gen_inv (blk : Bytes) (r : Nat) (x : List U32)
    (hx : ∀ k, k < 20 → x.getD k 0 = HAS160.X blk r k)
    (v : HAS160.Reg) (h : List U32) (j : Nat) (hj : j < 20)
    (hord : (HAS160.order r).getD j 0 < 20) (hi : Inv v j h) :
    Inv (HAS160.step blk r v j) (j+1) (gen (HAS160.order r) (HAS160.K r) (HAS160.f r) (HAS160.rot2 r)
      h (4-(4+j)%5) (4-(3+j)%5) (4-(2+j)%5) (4-(1+j)%5) (4-j%5) x j) := by
  obtain ⟨hl, hA, hB, hC, hD, hE⟩ := hi
  have ea : 4-(4+j)%5 = (4*j) % 5 := by omega
  have eb : 4-(3+j)%5 = (1+4*j) % 5 := by omega
  have ec : 4-(2+j)%5 = (2+4*j) % 5 := by omega
  have ed : 4-(1+j)%5 = (3+4*j) % 5 := by omega
  have ee : 4-j%5 = (4+4*j) % 5 := by omega
  rw [ea, eb, ec, ed, ee]
  simp only [gen, hA, hB, hC, hD, hE, hx _ hord]
  have hnew : v.E + (rol v.A (s1.getD j 0) + HAS160.X blk r ((HAS160.order r).getD j 0) +
      HAS160.K r + HAS160.f r v.B v.C v.D) = (HAS160.step blk r v j).A := by
    simp only [HAS160.step]
    have : rol v.A (s1.getD j 0) = v.A.rotateLeft (HAS160.rot1.getD j 0) := rfl
    rw [this]; ac_rfl
  rw [hnew]
  have hb' : (h.set ((4 + 4*j) % 5) (HAS160.step blk r v j).A).getD ((1+4*j) % 5) 0 = v.B := by
    rw [getD_set, if_neg (by omega), hB]
  rw [hb']
  constructor
  · simpa using hl
  · rw [getD_set, getD_set, List.length_set, hl, if_neg (by omega), if_pos (by omega)]
  · rw [getD_set, getD_set, List.length_set, hl, if_neg (by omega), if_neg (by omega),
      show (1 + 4*(j+1)) % 5 = (4*j) % 5 by omega, hA]; rfl
  · rw [getD_set, getD_set, List.length_set, hl, if_pos (by omega)]; rfl
  · rw [getD_set, getD_set, List.length_set, hl, if_neg (by omega), if_neg (by omega),
      show (3 + 4*(j+1)) % 5 = (2 + 4*j) % 5 by omega, hC]; rfl
  · rw [getD_set, getD_set, List.length_set, hl, if_neg (by omega), if_neg (by omega),
      show (4 + 4*(j+1)) % 5 = (3 + 4*j) % 5 by omega, hD]; rfl

theorem order_lt : ∀ r, r < 4 → ∀ j, j < 20 → (HAS160.order r).getD j 0 < 20 := by decide

/-- A round of the code is a round of the standard. -/
theorem round_inv (blk : Bytes) (r : Nat) (hr : r < 4) (x : List U32)
    (hx : ∀ k, k < 20 → x.getD k 0 = HAS160.X blk r k)
    (F : List U32 → Nat → Nat → Nat → Nat → Nat → List U32 → Nat → List U32)
    (hF : F = gen (HAS160.order r) (HAS160.K r) (HAS160.f r) (HAS160.rot2 r))
    (v : HAS160.Reg) (h : List U32) (hi : Inv v 0 h) :
    Inv (HAS160.steps blk r v 20) 0 (forLoop 0 20
      (fun h i => F h (4-(4+i)%5) (4-(3+i)%5) (4-(2+i)%5) (4-(1+i)%5) (4-i%5) x i) h) := by
  subst hF
  have := forLoop_inv (a := 0) (b := 20)
    (body := fun h i => gen (HAS160.order r) (HAS160.K r) (HAS160.f r) (HAS160.rot2 r) h
      (4-(4+i)%5) (4-(3+i)%5) (4-(2+i)%5) (4-(1+i)%5) (4-i%5) x i) (s := h)
    (fun j h => Inv (HAS160.steps blk r v j) j h) (by omega) hi
    (fun j h _ hj ih => gen_inv blk r x hx _ h j hj (order_lt r hr j hj) ih)
  exact ⟨this.hl, this.A, this.B, this.C, this.D, this.E⟩

theorem X_small (blk : Bytes) (r k : Nat) (h : k < 16) : HAS160.X blk r k = getLE32 blk (4*k) := by
  simp [HAS160.X, h]

theorem setX_spec (blk : Bytes) (x : List U32) (hl : x.length = 20)
    (hx : ∀ k, k < 16 → x.getD k 0 = getLE32 blk (4*k)) (r : Nat)
    (p16 p17 p18 p19 : Nat × Nat × Nat × Nat)
    (h16 : HAS160.extra r 16 = [p16.1, p16.2.1, p16.2.2.1, p16.2.2.2])
    (h17 : HAS160.extra r 17 = [p17.1, p17.2.1, p17.2.2.1, p17.2.2.2])
    (h18 : HAS160.extra r 18 = [p18.1, p18.2.1, p18.2.2.1, p18.2.2.2])
    (h19 : HAS160.extra r 19 = [p19.1, p19.2.1, p19.2.2.1, p19.2.2.2])
    (b16 : ∀ i ∈ HAS160.extra r 16, i < 16) (b17 : ∀ i ∈ HAS160.extra r 17, i < 16)
    (b18 : ∀ i ∈ HAS160.extra r 18, i < 16) (b19 : ∀ i ∈ HAS160.extra r 19, i < 16) :
    (setX x p16 p17 p18 p19).length = 20 ∧
    ∀ k, k < 20 → (setX x p16 p17 p18 p19).getD k 0 = HAS160.X blk r k := by
  refine ⟨by simp [setX, hl], ?_⟩
  rw [h16] at b16; rw [h17] at b17; rw [h18] at b18; rw [h19] at b19
  simp only [List.mem_cons, List.not_mem_nil, or_false, forall_eq_or_imp, forall_eq] at b16 b17 b18 b19
  obtain ⟨a1, a2, a3, a4⟩ := b16
  obtain ⟨c1, c2, c3, c4⟩ := b17
  obtain ⟨d1, d2, d3, d4⟩ := b18
  obtain ⟨e1, e2, e3, e4⟩ := b19
  intro k hk
  unfold setX
  simp only
  by_cases h : k < 16
  · rw [getD_set, if_neg (by omega), getD_set, if_neg (by omega), getD_set, if_neg (by omega),
      getD_set, if_neg (by omega), hx k h, X_small _ _ _ h]
  · have hX : HAS160.X blk r k = ((HAS160.extra r k).map fun i => getLE32 blk (4 * i)).foldl (· ^^^ ·) 0 := by
      simp [HAS160.X, h]
    rw [hX]
    have hk' : k = 16 ∨ k = 17 ∨ k = 18 ∨ k = 19 := by omega
    have gn (l : List U32) (i n : Nat) (a : U32) (h : n ≠ i) : (l.set n a).getD i 0 = l.getD i 0 := by
      rw [getD_set, if_neg (by omega)]
    have gs (l : List U32) (n : Nat) (a : U32) (h : n < l.length) : (l.set n a).getD n 0 = a := by
      rw [getD_set, if_pos ⟨rfl, h⟩]
    have z (a : U32) : 0 ^^^ a = a := by simp
    rcases hk' with rfl | rfl | rfl | rfl
    · rw [h16]
      simp (discharger := first | assumption | omega) only [z, List.map_cons, List.map_nil, List.foldl_cons, List.foldl_nil, gs, gn,
        List.length_set, hl, hx _ a1, hx _ a2, hx _ a3, hx _ a4]
    · rw [h17]
      simp (discharger := first | assumption | omega) only [z, List.map_cons, List.map_nil, List.foldl_cons, List.foldl_nil, gs, gn,
        List.length_set, hl, hx _ c1, hx _ c2, hx _ c3, hx _ c4]
      exact gs _ _ _ (by simp [hl])
    · rw [h18]
      simp (discharger := first | assumption | omega) only [z, List.map_cons, List.map_nil, List.foldl_cons, List.foldl_nil, gs, gn,
        List.length_set, hl, hx _ d1, hx _ d2, hx _ d3, hx _ d4]
      exact gs _ _ _ (by simp [hl])
    · rw [h19]
      simp (discharger := first | assumption | omega) only [z, List.map_cons, List.map_nil, List.foldl_cons, List.foldl_nil, gs, gn,
        List.length_set, hl, hx _ e1, hx _ e2, hx _ e3, hx _ e4]
      exact gs _ _ _ (by simp [hl])

theorem loadX_spec (blk : Bytes) : (loadX blk).length = 20 ∧
    ∀ k, k < 16 → (loadX blk).getD k 0 = getLE32 blk (4*k) := by
  refine ⟨rfl, fun k hk => ?_⟩
  interval_cases k <;> rfl

def toReg (s : List U32) : HAS160.Reg := ⟨s.getD 0 0, s.getD 1 0, s.getD 2 0, s.getD 3 0, s.getD 4 0⟩

theorem stepBlock_eq (s : List U32) (blk : Bytes) :
    toReg (stepBlock s blk) = HAS160.compress (toReg s) blk := by
  have hi : Inv (toReg s) 0 [s.getD 0 0, s.getD 1 0, s.getD 2 0, s.getD 3 0, s.getD 4 0] :=
    ⟨rfl, rfl, rfl, rfl, rfl, rfl⟩
  have l0 := loadX_spec blk
  have s0 := setX_spec blk _ l0.1 l0.2 0 (0, 1, 2, 3) (4, 5, 6, 7) (8, 9, 10, 11) (12, 13, 14, 15)
    rfl rfl rfl rfl (by decide) (by decide) (by decide) (by decide)
  have r0 := round_inv blk 0 (by omega) _ s0.2 f1 (by funext; rfl) _ _ hi
  have s1 := setX_spec blk _ s0.1 (fun k h => by rw [s0.2 k (by omega), X_small _ _ _ h]) 1
    (3, 6, 9, 12) (2, 5, 8, 15) (1, 4, 11, 14) (0, 7, 10, 13)
    rfl rfl rfl rfl (by decide) (by decide) (by decide) (by decide)
  have r1 := round_inv blk 1 (by omega) _ s1.2 f2 (by funext; rfl) _ _ r0
  have s2 := setX_spec blk _ s1.1 (fun k h => by rw [s1.2 k (by omega), X_small _ _ _ h]) 2
    (5, 7, 12, 14) (0, 2, 9, 11) (4, 6, 13, 15) (1, 3, 8, 10)
    rfl rfl rfl rfl (by decide) (by decide) (by decide) (by decide)
  have r2 := round_inv blk 2 (by omega) _ s2.2 f3 (by funext; rfl) _ _ r1
  have s3 := setX_spec blk _ s2.1 (fun k h => by rw [s2.2 k (by omega), X_small _ _ _ h]) 3
    (2, 7, 8, 13) (3, 4, 9, 14) (0, 5, 10, 15) (1, 6, 11, 12)
    rfl rfl rfl rfl (by decide) (by decide) (by decide) (by decide)
  have r3 := round_inv blk 3 (by omega) _ s3.2 f4 (by funext; rfl) _ _ r2
  obtain ⟨_, A, B, C, D, E⟩ := r3
  unfold stepBlock HAS160.compress
  simp only
  rw [← A, ← B, ← C, ← D, ← E]
  rfl

theorem foldl_stepBlock (l : List Bytes) (s : List U32) :
    toReg (l.foldl stepBlock s) = l.foldl HAS160.compress (toReg s) := by
  induction l generalizing s with
  | nil => rfl
  | cons b l ih => rw [List.foldl_cons, List.foldl_cons, ih, stepBlock_eq]

theorem state_length (l : List Bytes) (s : List U32) (h : s.length = 5) :
    (l.foldl stepBlock s).length = 5 := by
  induction l generalizing s with
  | nil => exact h
  | cons b l ih => exact ih _ rfl

theorem out_eq (s : List U32) (h : s.length = 5) : (s.map le32).flatten =
    le32 (toReg s).A ++ le32 (toReg s).B ++ le32 (toReg s).C ++ le32 (toReg s).D ++ le32 (toReg s).E := by
  match s, h with
  | [a, b, c, d, e], _ => simp [toReg]

theorem checkSum_eq (d : Digest) (m : Bytes) (h : d.Repr 64 stepBlock initH m) :
    checkSum d = HAS160.hash m := by
  have hb := h.buf
  have hnx := hb.nx_lt (by omega)
  have hxl := hb.xlen
  have hlen : d.len * 8 = BitVec.ofNat 64 (8 * m.length) := by
    rw [h.len_eq]; apply BitVec.eq_of_toNat_eq; simp; omega
  have hf := mdFinal_eq stepBlock (by omega : 0 < 64) 0x80#8 initH d.s d.x d.nx m
    (le64 (BitVec.ofNat 64 (8 * m.length))) (by simp) hb
  have hfin : checkSum d = ((mdFinal 64 stepBlock 0x80#8 d.s d.x d.nx
      (le64 (BitVec.ofNat 64 (8 * m.length)))).map le32).flatten := by
    unfold checkSum mdFinal
    rw [hlen]
    have hml := markBuf_length d.x d.nx 0x80#8 64 (by omega)
    simp only [le64_length, Nat.reduceSub, Nat.reduceAdd]
    by_cases hc : d.nx + 1 > 56
    · have hc2 : 64 - d.nx < 9 := by omega
      simp only [hc, hc2, if_true]
      rw [show goCopy (d.x.set d.nx 128#8) (d.nx + 1) (zeros 64) = markBuf d.x d.nx 128#8 64 from rfl,
        goCopy_end _ _ _ (by rw [goCopy_length _ _ _ (by omega), hml, hxl]; rfl)]
    · have hc2 : ¬ 64 - d.nx < 9 := by omega
      simp only [hc, hc2, if_false]
      rw [show goCopy (d.x.set d.nx 128#8) (d.nx + 1) (zeros 64) = markBuf d.x d.nx 128#8 64 from rfl,
        goCopy_end _ _ _ (by rw [hml, hxl]; rfl)]
  rw [hfin, hf]
  unfold HAS160.hash
  simp only
  have key := foldl_stepBlock (fullBlocks 64 (HAS160.pad m)) initH
  rw [show toReg initH = HAS160.H0 from rfl] at key
  rw [← key]
  exact out_eq _ (state_length _ _ rfl)

end Verif.HAS160
