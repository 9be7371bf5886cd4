import Verif.Lemmas.SIMD4
namespace Verif.SIMD
open Verif.Spec.SIMD (Variant)

/-- The schedule of a configuration is that of the variant. -/
structure SchedOk (c : Cfg) (v : Variant) : Prop where
  n : c.n = v.n
  n48 : v.n = 4 ∨ v.n = 8
  wp : c.wp = Spec.SIMD.P.map (2 * v.n * ·)
  pp : ∀ r < 4, ∀ k < 8, ∀ i < v.n, c.pp.getD (c.isp.getD r 0 + k) 0 ^^^ i = i ^^^ Spec.SIMD.perm v (8 * r + k) ∧ c.pp.getD (c.isp.getD r 0 + k) 0 ^^^ i < v.n
  fin : ∀ k < 4, ∀ i < v.n, (c.fin.getD k []).getD i 0 = i ^^^ Spec.SIMD.perm v (32 + k) ∧ (c.fin.getD k []).getD i 0 < v.n

/-- Round r of the specification. -/
def SR (v : Variant) (last : Bool) (b : Bytes) (r : Nat) (st : List U32) : List U32 :=
  (List.range 8).foldl (fun st k => Spec.SIMD.step v.n (if k < 4 then Spec.SIMD.IF else Spec.SIMD.MAJ) (Spec.SIMD.perm v (8 * r + k)) (Spec.SIMD.rot r k) (Spec.SIMD.rot r (k + 1))
    (Spec.SIMD.W v last b (8 * r + k)) st) st

theorem round_eq {c : Cfg} {v : Variant} (h : SchedOk c v) (last : Bool) (b : Bytes) (r : Nat) (hr : r < 4) (w : List U32) (st : List U32) (hl : st.length = 4 * v.n)
    (hw : ∀ k < 8, ∀ i < v.n, w.getD (v.n * k + i) 0 = Spec.SIMD.W v last b (8 * r + k) i) (p0 p1 p2 p3 : Nat)
    (hp : (Spec.SIMD.rot r 0 = p0 ∧ Spec.SIMD.rot r 1 = p1 ∧ Spec.SIMD.rot r 2 = p2 ∧ Spec.SIMD.rot r 3 = p3)) :
    oneRound c w (c.isp.getD r 0) p0 p1 p2 p3 st = SR v last b r st := by
  obtain ⟨rfl, rfl, rfl, rfl⟩ := hp
  have q : ∀ k, Spec.SIMD.rot r (k + 4) = Spec.SIMD.rot r k := by intro k; unfold Spec.SIMD.rot; rw [Nat.add_mod_right]
  have hif : ∀ k < 8, ∀ (a b : Nat) (s : List U32), s.length = 4 * v.n →
      step v.n fIF (fun i => c.pp.getD (c.isp.getD r 0 + k) 0 ^^^ i) a b (fun i => w.getD (v.n * k + i) 0) s = Spec.SIMD.step v.n Spec.SIMD.IF (Spec.SIMD.perm v (8 * r + k)) a b (Spec.SIMD.W v last _ (8 * r + k)) s :=
    fun k hk a b' s hs => step_eq _ _ _ _ _ _ _ _ _ s hs (h.pp r hr k hk) (hw k hk) IF_eq
  have hmaj : ∀ k < 8, ∀ (a b : Nat) (s : List U32), s.length = 4 * v.n →
      step v.n fMAJ (fun i => c.pp.getD (c.isp.getD r 0 + k) 0 ^^^ i) a b (fun i => w.getD (v.n * k + i) 0) s = Spec.SIMD.step v.n Spec.SIMD.MAJ (Spec.SIMD.perm v (8 * r + k)) a b (Spec.SIMD.W v last _ (8 * r + k)) s :=
    fun k hk a b' s hs => step_eq _ _ _ _ _ _ _ _ _ s hs (h.pp r hr k hk) (hw k hk) MAJ_eq
  have hlen := spec_step_length
  unfold oneRound
  rw [h.n]
  dsimp only
  rw [hif 0 (by omega) _ _ _ hl, hif 1 (by omega) _ _ _ (hlen _ _ _ _ _ _ _), hif 2 (by omega) _ _ _ (hlen _ _ _ _ _ _ _), hif 3 (by omega) _ _ _ (hlen _ _ _ _ _ _ _),
    hmaj 4 (by omega) _ _ _ (hlen _ _ _ _ _ _ _), hmaj 5 (by omega) _ _ _ (hlen _ _ _ _ _ _ _), hmaj 6 (by omega) _ _ _ (hlen _ _ _ _ _ _ _), hmaj 7 (by omega) _ _ _ (hlen _ _ _ _ _ _ _)]
  unfold SR
  rw [show List.range 8 = [0, 1, 2, 3, 4, 5, 6, 7] from rfl]
  simp only [List.foldl_cons, List.foldl_nil]
  rw [show Spec.SIMD.rot r (3 + 1) = Spec.SIMD.rot r 0 from q 0, show Spec.SIMD.rot r (4 + 1) = Spec.SIMD.rot r 1 from q 1,
    show Spec.SIMD.rot r (5 + 1) = Spec.SIMD.rot r 2 from q 2,
    show Spec.SIMD.rot r (6 + 1) = Spec.SIMD.rot r 3 from q 3, show Spec.SIMD.rot r (7 + 1) = Spec.SIMD.rot r 0 from q 4]
  rfl

theorem SR_length (v : Variant) (last : Bool) (b : Bytes) (r : Nat) (st : List U32) : (SR v last b r st).length = 4 * v.n := by
  unfold SR
  rw [show List.range 8 = [0, 1, 2, 3, 4, 5, 6, 7] from rfl]
  simp only [List.foldl_cons, List.foldl_nil]
  exact spec_step_length _ _ _ _ _ _ _

theorem spec_rounds (v : Variant) (last : Bool) (b : Bytes) (st : List U32) :
    (List.range 32).foldl (fun st t => Spec.SIMD.step v.n (if t % 8 < 4 then Spec.SIMD.IF else Spec.SIMD.MAJ) (Spec.SIMD.perm v t) (Spec.SIMD.rot (t / 8) t) (Spec.SIMD.rot (t / 8) (t + 1))
      (Spec.SIMD.W v last b t) st) st = SR v last b 3 (SR v last b 2 (SR v last b 1 (SR v last b 0 st))) := by
  have q : ∀ r k, Spec.SIMD.rot r (8 * r + k) = Spec.SIMD.rot r k := by
    intro r k; unfold Spec.SIMD.rot; rw [show (8 * r + k) % 4 = k % 4 by omega]
  have key : ∀ r st, SR v last b r st = ((List.range 8).map (8 * r + ·)).foldl (fun st t => Spec.SIMD.step v.n (if t % 8 < 4 then Spec.SIMD.IF else Spec.SIMD.MAJ) (Spec.SIMD.perm v t) (Spec.SIMD.rot (t / 8) t) (Spec.SIMD.rot (t / 8) (t + 1))
      (Spec.SIMD.W v last b t) st) st := by
    intro r st
    unfold SR
    rw [List.foldl_map]
    apply List.foldl_ext
    intro s k hk
    have hk := List.mem_range.mp hk
    rw [show (8 * r + k) % 8 = k by omega, show (8 * r + k) / 8 = r by omega, q, Nat.add_assoc, q]
  rw [key, key, key, key, ← List.foldl_append, ← List.foldl_append, ← List.foldl_append]
  rfl

/-! The words -/
theorem words_get (c : Cfg) (q : List I32) (wo ap am bp bm : Nat) (mm : I32) (k i : Nat) (hk : k < 8) (hi : i < c.n) :
    (words c q wo ap am bp bm mm).getD (c.n * k + i) 0 = INNER (q.getD (c.wp.getD (k + wo) 0 + 2 * i + ap - am) 0) (q.getD (c.wp.getD (k + wo) 0 + 2 * i + bp - bm) 0) mm := by
  unfold words
  have h1 : c.n * k + i < 8 * c.n := by
    have : c.n * k ≤ c.n * 7 := Nat.mul_le_mul_left _ (by omega)
    omega
  rw [getD_map _ _ _ h1]
  dsimp only
  have h2 : (c.n * k + i) / c.n = k := by
    rw [Nat.add_comm, Nat.add_mul_div_left _ _ (by omega), Nat.div_eq_of_lt hi, Nat.zero_add]
  have h3 : (c.n * k + i) % c.n = i := by rw [Nat.add_comm, Nat.add_mul_mod_self_left, Nat.mod_eq_of_lt hi]
  rw [h2, h3]

/-- The reduced transform. -/
def Q (c : Cfg) (x : Bytes) (last : Bool) : List I32 := (List.range (32 * c.n)).map fun i => reduce ((c.ntt x).getD i 0 + (if last then c.yoffF else c.yoffN).getD i 0)

theorem Q_get {c : Cfg} {v : Variant} (h : CfgOk c v) (x : Bytes) (last : Bool) (i : Nat) (hi : i < 32 * v.n) :
    ((Q c x last).getD i 0).toInt = Spec.SIMD.lift (Spec.SIMD.y v last x i) := by
  unfold Q
  rw [getD_map _ _ _ (by rw [h.n]; exact hi)]
  exact q_spec h x last i hi

theorem P_range : (∀ t < 16, Spec.SIMD.P.getD t 0 < 16) ∧ (∀ t < 24, 16 ≤ t → 16 ≤ Spec.SIMD.P.getD t 0 ∧ Spec.SIMD.P.getD t 0 < 24) ∧ (∀ t < 32, 24 ≤ t → 24 ≤ Spec.SIMD.P.getD t 0 ∧ Spec.SIMD.P.getD t 0 < 32) := by decide +kernel

theorem wp_get {c : Cfg} {v : Variant} (h : SchedOk c v) (t : Nat) (ht : t < 32) : c.wp.getD t 0 = 2 * v.n * Spec.SIMD.P.getD t 0 := by
  have hl : Spec.SIMD.P.length = 32 := rfl
  rw [h.wp, List.getD_eq_getElem?_getD, List.getElem?_map, List.getD_eq_getElem?_getD, List.getElem?_eq_getElem (by omega)]
  rfl

theorem words_eq {c : Cfg} {v : Variant} (h : SchedOk c v) (hc : CfgOk c v) (x : Bytes) (last : Bool) (k i : Nat) (hk : k < 8) (hi : i < v.n) :
    (words c (Q c x last) 0 0 0 1 0 185#32).getD (v.n * k + i) 0 = Spec.SIMD.W v last x (8 * 0 + k) i ∧
    (words c (Q c x last) 8 0 0 1 0 185#32).getD (v.n * k + i) 0 = Spec.SIMD.W v last x (8 * 1 + k) i ∧
    (words c (Q c x last) 16 0 (32 * v.n) 0 (16 * v.n) 233#32).getD (v.n * k + i) 0 = Spec.SIMD.W v last x (8 * 2 + k) i ∧
    (words c (Q c x last) 24 1 (48 * v.n) 1 (32 * v.n) 233#32).getD (v.n * k + i) 0 = Spec.SIMD.W v last x (8 * 3 + k) i := by
  have hi' : i < c.n := by rw [h.n]; exact hi
  have g := fun wo ap am bp bm mm => words_get c (Q c x last) wo ap am bp bm mm k i hk hi'
  rw [h.n] at g
  obtain ⟨P1, P2, P3⟩ := P_range
  have m1 : (185#32) = BitVec.ofInt 32 185 := by decide
  have m2 : (233#32) = BitVec.ofInt 32 233 := by decide
  rw [g, g, g, g, wp_get h _ (by omega), wp_get h _ (by omega), wp_get h _ (by omega), wp_get h _ (by omega)]
  unfold Spec.SIMD.W Spec.SIMD.Z
  dsimp only
  rw [Nat.add_comm k 0, Nat.add_comm k 8, Nat.add_comm k 16, Nat.add_comm k 24, show 8 * 0 + k = 0 + k by omega, show 8 * 1 + k = 8 + k by omega, show 8 * 2 + k = 16 + k by omega, show 8 * 3 + k = 24 + k by omega]
  have p1 := P1 (0 + k) (by omega)
  have p2 := P1 (8 + k) (by omega)
  have p3 := P2 (16 + k) (by omega) (by omega)
  have p4 := P3 (24 + k) (by omega) (by omega)
  generalize Spec.SIMD.P.getD (0 + k) 0 = a1 at *
  generalize Spec.SIMD.P.getD (8 + k) 0 = a2 at *
  generalize Spec.SIMD.P.getD (16 + k) 0 = a3 at *
  generalize Spec.SIMD.P.getD (24 + k) 0 = a4 at *
  rw [if_pos p1, if_pos p2, if_neg (show ¬ a3 < 16 by omega), if_pos p3.2, if_neg (show ¬ a4 < 16 by omega), if_neg (show ¬ a4 < 24 by omega)]
  simp only [Nat.add_zero, Nat.sub_zero]
  have hn := h.n48
  refine ⟨?_, ?_, ?_, ?_⟩
  · apply INNER_eq _ _ _ _ _ _ m1 <;> apply Q_get hc <;> rcases hn with e | e <;> rw [e] at hi ⊢ <;> omega
  · apply INNER_eq _ _ _ _ _ _ m1 <;> apply Q_get hc <;> rcases hn with e | e <;> rw [e] at hi ⊢ <;> omega
  · apply INNER_eq _ _ _ _ _ _ m2 <;> apply Q_get hc <;> rcases hn with e | e <;> rw [e] at hi ⊢ <;> omega
  · apply INNER_eq _ _ _ _ _ _ m2 <;> apply Q_get hc <;> rcases hn with e | e <;> rw [e] at hi ⊢ <;> omega

theorem compress_eq {c : Cfg} {v : Variant} (h : SchedOk c v) (hc : CfgOk c v) (state : List U32) (x : Bytes) (last : Bool) :
    compress c state x last = Spec.SIMD.compress v last state x := by
  have hw := fun k hk i hi => words_eq h hc x last k i hk hi
  unfold compress Spec.SIMD.compress
  dsimp only
  rw [spec_rounds, h.n]
  have hQ : (List.range (32 * v.n)).map (fun i => reduce ((c.ntt x).getD i 0 + (if last then c.yoffF else c.yoffN).getD i 0)) = Q c x last := by unfold Q; rw [h.n]
  rw [hQ]
  have e0 : (List.range (4 * v.n)).map (fun i => state.getD i 0 ^^^ getLE32 (x.drop (4 * i))) = (List.range (4 * v.n)).map (fun i => Spec.SIMD.g state i ^^^ Spec.SIMD.g (Spec.SIMD.words v x) i) := by
    apply List.map_congr_left
    intro i hi
    unfold Spec.SIMD.g Spec.SIMD.words
    rw [getD_map _ _ _ (List.mem_range.mp hi)]
  rw [e0]
  have l0 : ((List.range (4 * v.n)).map (fun i => Spec.SIMD.g state i ^^^ Spec.SIMD.g (Spec.SIMD.words v x) i)).length = 4 * v.n := by simp
  generalize (List.range (4 * v.n)).map (fun i => Spec.SIMD.g state i ^^^ Spec.SIMD.g (Spec.SIMD.words v x) i) = s0 at *
  rw [round_eq h last x 0 (by omega) _ s0 l0 (fun k hk i hi => (hw k hk i hi).1) 3 23 17 27 ⟨rfl, rfl, rfl, rfl⟩]
  rw [round_eq h last x 1 (by omega) _ _ (SR_length _ _ _ _ _) (fun k hk i hi => (hw k hk i hi).2.1) 28 19 22 7 ⟨rfl, rfl, rfl, rfl⟩]
  rw [round_eq h last x 2 (by omega) _ _ (SR_length _ _ _ _ _) (fun k hk i hi => (hw k hk i hi).2.2.1) 29 9 15 5 ⟨rfl, rfl, rfl, rfl⟩]
  rw [round_eq h last x 3 (by omega) _ _ (SR_length _ _ _ _ _) (fun k hk i hi => (hw k hk i hi).2.2.2) 4 13 10 25 ⟨rfl, rfl, rfl, rfl⟩]
  have l1 := SR_length v last x 3 (SR v last x 2 (SR v last x 1 (SR v last x 0 s0)))
  generalize SR v last x 3 (SR v last x 2 (SR v last x 1 (SR v last x 0 s0))) = s1 at *
  have hs : ∀ k < 4, ∀ (a b : Nat) (s : List U32), s.length = 4 * v.n →
      step v.n fIF (fun i => (c.fin.getD k []).getD i 0) a b (fun i => state.getD (v.n * k + i) 0) s = Spec.SIMD.step v.n Spec.SIMD.IF (Spec.SIMD.perm v (32 + k)) a b (fun i => Spec.SIMD.g state (v.n * k + i)) s :=
    fun k hk a b' s hs => step_eq _ _ _ _ _ _ _ _ _ s hs (h.fin k hk) (fun i _ => rfl) IF_eq
  rw [hs 0 (by omega) _ _ _ l1, hs 1 (by omega) _ _ _ (spec_step_length _ _ _ _ _ _ _), hs 2 (by omega) _ _ _ (spec_step_length _ _ _ _ _ _ _), hs 3 (by omega) _ _ _ (spec_step_length _ _ _ _ _ _ _)]
  rfl

/-! The two configurations -/
theorem small_ntt (x : Bytes) (i : Nat) (hi : i < 128) : Nr 1520000 ((ntt256 x).getD i 0) (T x 0 1 64 2 i) := by
  have := (ntt256_spec x).all i hi
  rw [Nat.zero_add] at this
  exact this.mono (by decide)
theorem large_ntt (x : Bytes) (i : Nat) (hi : i < 256) : Nr 1520000 ((ntt512 x).getD i 0) (T x 0 1 128 1 i) := by
  have := (ntt512_spec x).all i hi
  rw [Nat.zero_add] at this
  exact this
theorem small_cfg (iv : List U32) (o : Nat) : CfgOk cfg256 (Spec.SIMD.small iv o) where
  n := rfl
  n4 := by show 4 ≤ 4; omega
  ntt := by
    refine ⟨2, ?_, ?_⟩
    · show ((139 : Nat) : F) = 41 ^ 2; decide
    · rw [show 16 * (Spec.SIMD.small iv o).n = 64 from rfl, show 32 * (Spec.SIMD.small iv o).n = 128 from rfl]
      intro x i hi
      rw [show cfg256.ntt = ntt256 by simp only [cfg256]]
      exact small_ntt x i hi
  yN := yoffN256_ok
  yF := yoffF256_ok
theorem large_cfg (iv : List U32) (o : Nat) : CfgOk cfg512 (Spec.SIMD.large iv o) where
  n := rfl
  n4 := by show 4 ≤ 8; omega
  ntt := by
    refine ⟨1, ?_, ?_⟩
    · show ((41 : Nat) : F) = 41 ^ 1; decide
    · rw [show 16 * (Spec.SIMD.large iv o).n = 128 from rfl, show 32 * (Spec.SIMD.large iv o).n = 256 from rfl]
      intro x i hi
      rw [show cfg512.ntt = ntt512 by simp only [cfg512]]
      exact large_ntt x i hi
  yN := yoffN512_ok
  yF := yoffF512_ok

theorem small_pp : ∀ r < 4, ∀ k < 8, ∀ i < 4, pp4k256.getD ([0, 2, 1, 0].getD r 0 + k) 0 ^^^ i = i ^^^ [1, 2, 3].getD ((8 * r + k) % 3) 0 ∧ pp4k256.getD ([0, 2, 1, 0].getD r 0 + k) 0 ^^^ i < 4 := by decide +kernel
theorem small_fin : ∀ k < 4, ∀ i < 4, (cfg256.fin.getD k []).getD i 0 = i ^^^ [1, 2, 3].getD ((32 + k) % 3) 0 ∧ (cfg256.fin.getD k []).getD i 0 < 4 := by decide +kernel
theorem large_pp : ∀ r < 4, ∀ k < 8, ∀ i < 8, pp8k512.getD ([0, 1, 2, 3].getD r 0 + k) 0 ^^^ i = i ^^^ [1, 6, 2, 3, 5, 7, 4].getD ((8 * r + k) % 7) 0 ∧ pp8k512.getD ([0, 1, 2, 3].getD r 0 + k) 0 ^^^ i < 8 := by decide +kernel
theorem large_fin : ∀ k < 4, ∀ i < 8, (cfg512.fin.getD k []).getD i 0 = i ^^^ [1, 6, 2, 3, 5, 7, 4].getD ((32 + k) % 7) 0 ∧ (cfg512.fin.getD k []).getD i 0 < 8 := by decide +kernel

theorem small_sched (iv : List U32) (o : Nat) : SchedOk cfg256 (Spec.SIMD.small iv o) := ⟨rfl, Or.inl rfl, rfl, small_pp, small_fin⟩
theorem large_sched (iv : List U32) (o : Nat) : SchedOk cfg512 (Spec.SIMD.large iv o) := ⟨rfl, Or.inr rfl, rfl, large_pp, large_fin⟩

end Verif.SIMD
