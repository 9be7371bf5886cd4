import Verif.Lemmas.Skein512
import Verif.Model.Skeins
namespace Verif.Skeins
open Verif.Threefish
open Verif.Skein (T1)

theorem rot_xor {r : Nat} (h : 0 < r) (h' : r < 64) (x : U64) : (x <<< r) ^^^ (x >>> (64 - r)) = (x <<< r) ||| (x >>> (64 - r)) := by
  apply BitVec.eq_of_getLsbD_eq
  intro i hi
  rw [BitVec.getLsbD_xor, BitVec.getLsbD_or, BitVec.getLsbD_shiftLeft, BitVec.getLsbD_ushiftRight]
  by_cases hr : i < r
  · simp [hr]
  · rw [BitVec.getLsbD_of_ge x (64 - r + i) (by omega)]
    simp

/-- A statement of `Encrypt512` as the code of this package writes it. -/
def shift (d : Nat) : Instr → Instr
  | .key w k t c => .keyAbs w (k + d) (t.map (· + d)) (if c then some d else none)
  | i => i

/-- The statements that `shift` translates faithfully. -/
def okI (d : Nat) : Instr → Bool
  | .key _ k t c => decide (k < 9) && (match t with | some t => decide (t + d < 3) && !c | none => true)
  | .mix _ _ r => decide (0 < r) && decide (r < 64)
  | _ => false

theorem step_shift (u d : Nat) (hd : d < 2) (K K' T T' : Nat → U64)
    (hK : ∀ k, k < 9 + d → K (2 * u + k) = K' ((2 * u + k) % 9)) (hT : ∀ t, t < 3 → T t = T' ((2 * u + t) % 3)) (b : Regs) (i : Instr)
    (hi : okI d i = true) : step (2 * u) K T b (shift d i) = Threefish.step 9 K' T' (2 * u + d) b i := by
  cases i with
  | key w k t c =>
    simp only [okI, Bool.and_eq_true, decide_eq_true_eq] at hi
    obtain ⟨hk, hi⟩ := hi
    unfold shift step Threefish.step keyVal
    dsimp only
    rw [hK (k + d) (by omega), show 2 * u + (k + d) = 2 * u + d + k by omega]
    congr 3
    cases t with
    | none => cases c <;> simp
    | some t =>
      simp only [Bool.and_eq_true, decide_eq_true_eq] at hi
      simp only [Option.map_some]
      rw [hT _ hi.1, show 2 * u + (t + d) = 2 * u + d + t by omega]
  | mix x y r =>
    simp only [okI, Bool.and_eq_true, decide_eq_true_eq] at hi
    unfold shift step Threefish.step
    dsimp only
    rw [rot_xor hi.1 hi.2]
  | _ => simp [okI] at hi

theorem exec_shift (u d : Nat) (hd : d < 2) (K K' T T' : Nat → U64)
    (hK : ∀ k, k < 9 + d → K (2 * u + k) = K' ((2 * u + k) % 9)) (hT : ∀ t, t < 3 → T t = T' ((2 * u + t) % 3)) (l : List Instr)
    (hl : l.all (okI d) = true) (b : Regs) : exec (2 * u) K T (l.map (shift d)) b = Threefish.exec 9 K' T' (2 * u + d) l b := by
  unfold exec Threefish.exec
  rw [List.foldl_map]
  apply Skein.foldl_congr'
  intro b i hi
  exact step_shift u d hd K K' T T' hK hT b i (List.all_eq_true.1 hl i hi)

theorem ubi512A_eq : ubi512A = Threefish.code512.encA.map (shift 0) := by decide +kernel
theorem ubi512B_eq : ubi512B = Threefish.code512.encB.map (shift 1) := by decide +kernel
theorem ubi512Fin_eq : ubi512Fin = (stdKeys 8).map (shift 0) := by decide +kernel

theorem triple (l : List U64) (hl : l.length = 9) (i : Nat) (hi : i < 27) : load (l ++ l ++ l) i = load l (i % 9) := by
  unfold load
  simp only [List.getD_eq_getElem?_getD]
  by_cases h1 : i < 18
  · rw [List.getElem?_append_left (by rw [List.length_append]; omega)]
    by_cases h0 : i < 9
    · rw [List.getElem?_append_left (by omega), Nat.mod_eq_of_lt h0]
    · rw [List.getElem?_append_right (by omega), hl, show i % 9 = i - 9 by omega]
  · rw [List.getElem?_append_right (by rw [List.length_append]; omega), List.length_append, hl, show i % 9 = i - (9 + 9) by omega]

/-- The rotating tweak registers. -/
def regs (T : Nat → U64) (u : Nat) : U64 × U64 × U64 := (T (2 * u % 3), T ((2 * u + 1) % 3), T ((2 * u + 2) % 3))

theorem regs_succ (T : Nat → U64) (u : Nat) : regs T (u + 1) = ((regs T u).2.2, (regs T u).1, (regs T u).2.1) := by
  unfold regs
  rw [show 2 * (u + 1) % 3 = (2 * u + 2) % 3 by omega, show (2 * (u + 1) + 1) % 3 = 2 * u % 3 by omega,
    show (2 * (u + 1) + 2) % 3 = (2 * u + 1) % 3 by omega]

theorem regs_load (T : Nat → U64) (u t : Nat) (ht : t < 3) :
    load [(regs T u).1, (regs T u).2.1, (regs T u).2.2] t = T ((2 * u + t) % 3) := by
  have : t = 0 ∨ t = 1 ∨ t = 2 := by omega
  rcases this with rfl | rfl | rfl <;> rfl

theorem parity8 (h : List U64) (hl : h.length = 8) :
    ((load h 0 ^^^ load h 1) ^^^ (load h 2 ^^^ load h 3)) ^^^ ((load h 4 ^^^ load h 5) ^^^ (load h 6 ^^^ load h 7)) ^^^ 0x1BD11BDAA9FC1A22 =
      h.foldl (· ^^^ ·) C240 := by
  match h, hl with
  | [a, b, c, d, e, f, g, i], _ =>
    simp only [load, List.getD_cons_zero, List.getD_cons_succ, List.foldl_cons, List.foldl_nil, C240]
    ac_rfl

theorem parity4 (h : List U64) (hl : h.length = 4) :
    (load h 0 ^^^ load h 1) ^^^ (load h 2 ^^^ load h 3) ^^^ 0x1BD11BDAA9FC1A22 = h.foldl (· ^^^ ·) C240 := by
  match h, hl with
  | [a, b, c, d], _ =>
    simp only [load, List.getD_cons_zero, List.getD_cons_succ, List.foldl_cons, List.foldl_nil, C240]
    ac_rfl

theorem core512_spec (h : List U64) (hl : h.length = 8) (t0 t1 : U64) (m : List U64) :
    core512 h t0 t1 m = List.zipWith (· ^^^ ·) (Spec.Threefish.encrypt 8 h t0 t1 m) m := by
  have hs := encryptWords_spec Threefish.code512_std m h t0 t1 hl
  rw [show Threefish.code512.n = 8 from rfl] at hs
  unfold core512
  simp only
  rw [← hs, parity8 h hl, List.zipWith_comm_of_comm (fun x y => BitVec.xor_comm x y)]
  refine congrArg (fun z => List.zipWith (· ^^^ ·) z m) ?_
  generalize hk : h ++ [h.foldl (· ^^^ ·) C240] = ks
  have hkl : ks.length = 9 := by rw [← hk, List.length_append, hl]; rfl
  have hA : Threefish.code512.encA.all (okI 0) = true := by decide +kernel
  have hB : Threefish.code512.encB.all (okI 1) = true := by decide +kernel
  have hF : (stdKeys 8).all (okI 0) = true := by decide +kernel
  have loop : ∀ u, u ≤ 9 → forLoop 0 u (iter512 (load (ks ++ ks ++ ks))) (load m, t0, t1, t0 ^^^ t1) =
      (forLoop 0 u (fun b i => Threefish.exec 9 (load ks) (load [t0, t1, t0 ^^^ t1]) (2 * i + 1) Threefish.code512.encB
        (Threefish.exec 9 (load ks) (load [t0, t1, t0 ^^^ t1]) (2 * i) Threefish.code512.encA b)) (load m),
        regs (load [t0, t1, t0 ^^^ t1]) u) := by
    intro u
    induction u with
    | zero => intro _; rfl
    | succ u ih =>
      intro hu
      rw [forLoop_succ _ _ _ _ (by omega), forLoop_succ _ _ _ _ (by omega), ih (by omega)]
      unfold iter512
      simp only
      rw [regs_succ]
      have hK : ∀ k, k < 10 → load (ks ++ ks ++ ks) (2 * u + k) = load ks ((2 * u + k) % 9) :=
        fun k hk => triple ks hkl _ (by omega)
      have hT : ∀ t, t < 3 → load [(regs (load [t0, t1, t0 ^^^ t1]) u).1, (regs (load [t0, t1, t0 ^^^ t1]) u).2.1,
          (regs (load [t0, t1, t0 ^^^ t1]) u).2.2] t = load [t0, t1, t0 ^^^ t1] ((2 * u + t) % 3) := fun t ht => regs_load _ u t ht
      rw [ubi512A_eq, ubi512B_eq, exec_shift u 0 (by decide) _ _ _ _ (fun k hk => hK k (by omega)) hT _ hA,
        exec_shift u 1 (by decide) _ _ _ _ hK hT _ hB, Nat.add_zero]
      rfl
  rw [loop 9 (Nat.le_refl _)]
  dsimp only
  have hK : ∀ k, k < 9 + 0 → load (ks ++ ks ++ ks) (2 * 9 + k) = load ks ((2 * 9 + k) % 9) :=
    fun k hk => triple ks hkl _ (by omega)
  have hT : ∀ t, t < 3 → load [(regs (load [t0, t1, t0 ^^^ t1]) 9).1, (regs (load [t0, t1, t0 ^^^ t1]) 9).2.1,
      (regs (load [t0, t1, t0 ^^^ t1]) 9).2.2] t = load [t0, t1, t0 ^^^ t1] ((2 * 9 + t) % 3) := fun t ht => regs_load _ 9 t ht
  have hx := exec_shift 9 0 (by decide) _ _ _ _ hK hT _ hF
  rw [ubi512Fin_eq, show (18 : Nat) = 2 * 9 from rfl, hx]
  unfold encryptWords
  simp only
  rw [Threefish.code512_std.encFin]
  rw [show Threefish.code512.n = 8 from rfl, show Threefish.code512.last = 18 from rfl, exec_stdFin 8 (by decide), exec_stdKeys 8 (by decide)]

/-- The unrolled code of digest256.go, in the form of `Threefish.exec`. -/
def flat4 : Nat → List Instr
  | 0 => []
  | m + 1 => flat4 m ++ (stdFin 4 m ++ mixesL (groupMixes 4 (m % 2)))

theorem exec_flat4 (K T : Nat → U64) (b : Regs) (m : Nat) : Threefish.exec 5 K T 0 (flat4 m) b = E 4 K T m b := by
  induction m with
  | zero => rfl
  | succ m ih =>
    rw [flat4, exec_append, exec_append, ih, exec_stdFin 4 (by decide), E]
    exact exec_mixes_irrel _ _ _ _ _ _ _ _ _

set_option maxRecDepth 100000 in
theorem ubi256_eq : ubi256 = flat4 18 ++ stdFin 4 18 := by decide +kernel

/-- Statements with the same meaning in both semantics (with `s = 0`). -/
def okAbs : Instr → Bool
  | .keyAbs .. => true
  | .mix _ _ r => decide (0 < r) && decide (r < 64)
  | _ => false

theorem exec_abs (n1 : Nat) (K T : Nat → U64) (l : List Instr) (hl : l.all okAbs = true) (b : Regs) :
    exec 0 K T l b = Threefish.exec n1 K T 0 l b := by
  unfold exec Threefish.exec
  apply Skein.foldl_congr'
  intro b i hi
  have h := List.all_eq_true.1 hl i hi
  cases i with
  | keyAbs w k t c =>
    unfold step Threefish.step keyValAbs
    simp only [Nat.zero_add]
    cases t <;> cases c <;> rfl
  | mix x y r =>
    simp only [okAbs, Bool.and_eq_true, decide_eq_true_eq] at h
    unfold step Threefish.step
    dsimp only
    rw [rot_xor h.1 h.2]
  | _ => simp [okAbs] at h

set_option maxRecDepth 100000 in
theorem ubi256_ok : ubi256.all okAbs = true := by decide +kernel

theorem core256_spec (h : List U64) (hl : h.length = 4) (t0 t1 : U64) (m : List U64) :
    core256 h t0 t1 m = List.zipWith (· ^^^ ·) (Spec.Threefish.encrypt 4 h t0 t1 m) m := by
  have hs := encryptWords_spec Threefish.code256_std m h t0 t1 hl
  rw [show Threefish.code256.n = 4 from rfl] at hs
  unfold core256
  simp only
  rw [← hs, parity4 h hl, List.zipWith_comm_of_comm (fun x y => BitVec.xor_comm x y)]
  refine congrArg (fun z => List.zipWith (· ^^^ ·) z m) ?_
  rw [encryptWords_eq Threefish.code256_std, exec_abs 5 _ _ _ ubi256_ok, ubi256_eq, exec_append, exec_flat4, exec_stdFin 4 (by decide)]
  rfl

/-- A code whose core is a UBI block step. -/
structure Code.Std (k : Code) : Prop where
  core : ∀ h t0 t1 m, h.length = k.n → k.core h t0 t1 m = List.zipWith (· ^^^ ·) (Spec.Threefish.encrypt k.n h t0 t1 m) m
  pow : 8 * k.n = 2 ^ k.lg
  lg : 4 < k.lg ∧ k.lg < 8

theorem code256_std : code256.Std := ⟨fun h t0 t1 m hl => core256_spec h hl t0 t1 m, rfl, by decide⟩
theorem code512_std : code512.Std := ⟨fun h t0 t1 m hl => core512_spec h hl t0 t1 m, rfl, by decide⟩

/-- The tweak word of `ubi`. -/
theorem etype_eq : (BitVec.ofNat 64 224 <<< 55 : U64) = T1 48 true false ∧ (BitVec.ofNat 64 96 <<< 55 : U64) = T1 48 false false ∧
    (BitVec.ofNat 64 480 <<< 55 : U64) = T1 48 true true ∧ (BitVec.ofNat 64 352 <<< 55 : U64) = T1 48 false true ∧
    (BitVec.ofNat 64 510 <<< 55 : U64) = T1 63 true true := by decide +kernel

theorem ubi_spec {k : Code} (h : k.Std) (G : List U64) (hG : G.length = k.n) (c extra etype ty : Nat) (f g : Bool) (x : Bytes)
    (he : BitVec.ofNat 64 etype <<< 55 = T1 ty f g) (hty : ty < 64) (hp : c * (8 * k.n) + extra < 2 ^ 64) :
    ubi k G (BitVec.ofNat 64 c) etype extra x = Spec.Skein.ubiBlock k.n G (Spec.Skein.tweak (c * (8 * k.n) + extra) ty f g) x := by
  have hlg := h.lg
  have hc : c * 2 ^ k.lg < 2 ^ 64 := by rw [← h.pow]; omega
  have hclt : c < 2 ^ 64 := by
    have : 1 ≤ 2 ^ k.lg := Nat.one_le_two_pow
    have := Nat.le_mul_of_pos_right c this
    omega
  unfold ubi Spec.Skein.ubiBlock
  simp only
  rw [h.core _ _ _ _ hG, he, Skein.tweak_lo, Skein.tweak_hi hp hty]
  have e0 : (BitVec.ofNat 64 c <<< k.lg) + BitVec.ofNat 64 extra = BitVec.ofNat 64 (c * (8 * k.n) + extra) := by
    have e : BitVec.ofNat 64 c <<< k.lg = BitVec.ofNat 64 (c * (8 * k.n)) := by
      apply BitVec.eq_of_toNat_eq
      rw [BitVec.toNat_shiftLeft, BitVec.toNat_ofNat, BitVec.toNat_ofNat, Nat.shiftLeft_eq, Nat.mod_eq_of_lt hclt, h.pow]
    rw [BitVec.ofNat_add, e]
  have e1 : BitVec.ofNat 64 c >>> (64 - k.lg) = 0#64 := by
    apply BitVec.eq_of_toNat_eq
    rw [BitVec.toNat_ushiftRight, BitVec.toNat_ofNat, Nat.mod_eq_of_lt hclt, Nat.shiftRight_eq_div_pow, Nat.div_eq_of_lt]
    · rfl
    · have : 2 ^ (64 - k.lg) * 2 ^ k.lg = 2 ^ 64 := by rw [← Nat.pow_add, Nat.sub_add_cancel (by omega)]
      apply Classical.byContradiction
      intro hcon
      have := Nat.mul_le_mul_right (2 ^ k.lg) (Nat.le_of_not_lt hcon)
      omega
  rw [e0, e1, BitVec.zero_add]
  rfl

end Verif.Skeins
