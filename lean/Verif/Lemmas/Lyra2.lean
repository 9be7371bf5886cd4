import Verif.Model.Lyra2
import Verif.Spec.Lyra2
/-
Lyra2: the sponge and the memory.
-/
namespace Verif.Lyra2

theorem rotr_eq (w : U64) (c : Nat) (h : c < 64) : rotr64 w c = w.rotateRight c := by
  unfold rotr64 BitVec.rotateRight BitVec.rotateRightAux
  rw [Nat.mod_eq_of_lt h]

theorem g_eq (a b c d : U64) : g a b c d = Spec.Lyra2.G a b c d := by
  unfold g Spec.Lyra2.G
  simp only [rotr_eq _ 32 (by decide), rotr_eq _ 24 (by decide), rotr_eq _ 16 (by decide), rotr_eq _ 63 (by decide)]

theorem list16 {α} (A : List α) (h : A.length = 16) : ∃ a b c d e f g i j k l m n o p q, A = [a, b, c, d, e, f, g, i, j, k, l, m, n, o, p, q] := by
  match A, h with
  | [a, b, c, d, e, f, g, i, j, k, l, m, n, o, p, q], _ => exact ⟨a, b, c, d, e, f, g, i, j, k, l, m, n, o, p, q, rfl⟩

theorem round_eq (v : List U64) (h : v.length = 16) : roundLyra v = Spec.Lyra2.round v := by
  obtain ⟨a0, a1, a2, a3, b0, b1, b2, b3, c0, c1, c2, c3, d0, d1, d2, d3, rfl⟩ := list16 v h
  unfold roundLyra Spec.Lyra2.round
  obtain ⟨⟨A0, B0, C0, D0⟩, h0⟩ : ∃ r, Spec.Lyra2.G a0 b0 c0 d0 = r := ⟨_, rfl⟩
  obtain ⟨⟨A1, B1, C1, D1⟩, h1⟩ : ∃ r, Spec.Lyra2.G a1 b1 c1 d1 = r := ⟨_, rfl⟩
  obtain ⟨⟨A2, B2, C2, D2⟩, h2⟩ : ∃ r, Spec.Lyra2.G a2 b2 c2 d2 = r := ⟨_, rfl⟩
  obtain ⟨⟨A3, B3, C3, D3⟩, h3⟩ : ∃ r, Spec.Lyra2.G a3 b3 c3 d3 = r := ⟨_, rfl⟩
  obtain ⟨⟨E0, F0, G0, H0⟩, k0⟩ : ∃ r, Spec.Lyra2.G A0 B1 C2 D3 = r := ⟨_, rfl⟩
  obtain ⟨⟨E1, F1, G1, H1⟩, k1⟩ : ∃ r, Spec.Lyra2.G A1 B2 C3 D0 = r := ⟨_, rfl⟩
  obtain ⟨⟨E2, F2, G2, H2⟩, k2⟩ : ∃ r, Spec.Lyra2.G A2 B3 C0 D1 = r := ⟨_, rfl⟩
  obtain ⟨⟨E3, F3, G3, H3⟩, k3⟩ : ∃ r, Spec.Lyra2.G A3 B0 C1 D2 = r := ⟨_, rfl⟩
  simp only [gAt, g_eq, List.getD_cons_zero, List.getD_cons_succ, List.set_cons_zero, List.set_cons_succ, h0, h1, h2, h3, k0, k1, k2, k3, List.range_succ, List.range_zero,
    List.nil_append, List.cons_append, List.map_cons, List.map_nil, Nat.reduceAdd, Nat.reduceMod, Nat.zero_mod]

theorem round_length (v : List U64) : (Spec.Lyra2.round v).length = 16 := by
  unfold Spec.Lyra2.round
  simp only [List.length_append, List.length_map, List.length_range]

attribute [local irreducible] Spec.Lyra2.round roundLyra

theorem loopRange {α} (n : Nat) (f : α → Nat → α) (a : α) : forLoop 0 n f a = (List.range n).foldl f a := by
  unfold forLoop; rw [List.range_eq_range', Nat.sub_zero]

theorem perm_eq_aux (n : Nat) (v : List U64) (h : v.length = 16) :
    forLoop 0 n (fun v _ => roundLyra v) v = (List.range n).foldl (fun s _ => Spec.Lyra2.round s) v ∧ ((List.range n).foldl (fun s _ => Spec.Lyra2.round s) v).length = 16 := by
  induction n with
  | zero => rw [forLoop_nil _ _ _ _ (Nat.le_refl _), List.range_zero, List.foldl_nil]; exact ⟨rfl, h⟩
  | succ n ih =>
    rw [forLoop_succ _ _ _ _ (Nat.zero_le _), ih.1, round_eq _ ih.2, List.range_succ, List.foldl_append, List.foldl_cons, List.foldl_nil]
    exact ⟨rfl, round_length _⟩

theorem perm_length (v : List U64) (h : v.length = 16) : (Spec.Lyra2.perm v).length = 16 := (perm_eq_aux 12 v h).2

theorem blake_eq (v : List U64) (h : v.length = 16) : blake2bLyra v = Spec.Lyra2.perm v := (perm_eq_aux 12 v h).1

theorem absorb_length (n : Nat) (s : List U64) (b : Nat → U64) : (Spec.Lyra2.absorb n s b).length = 16 := by
  unfold Spec.Lyra2.absorb; rw [List.length_map, List.length_range]

theorem absorb_congr (n : Nat) (s : List U64) (b c : Nat → U64) (h : ∀ j, j < n → b j = c j) : Spec.Lyra2.absorb n s b = Spec.Lyra2.absorb n s c := by
  unfold Spec.Lyra2.absorb
  apply List.map_congr_left
  intro j _
  by_cases hj : j < n
  · rw [if_pos hj, if_pos hj, h j hj]
  · rw [if_neg hj, if_neg hj]

/-- Two lists of words with the same elements. -/
theorem ext_getD {a b : List U64} (hl : a.length = b.length) (h : ∀ i, i < a.length → a.getD i 0#64 = b.getD i 0#64) : a = b := by
  apply List.ext_getElem hl
  intro i h1 h2
  have := h i h1
  rw [List.getD_eq_getElem?_getD, List.getD_eq_getElem?_getD, List.getElem?_eq_getElem h1, List.getElem?_eq_getElem h2] at this
  exact this

/-- `for j := 0; j < n; j++ { m[o+j] = f(m, j) }` when `f(m, j)` is `v(j)` whatever was written before. -/
theorem writeLoop (n o : Nat) (f : List U64 → Nat → U64) (v : Nat → U64) (m : List U64) (hn : o + n ≤ m.length)
    (hf : ∀ e k, k < n → (∀ i, ¬ (o ≤ i ∧ i < o + k) → e.getD i 0#64 = m.getD i 0#64) → f e k = v k) :
    (forLoop 0 n (fun m j => m.set (o + j) (f m j)) m).length = m.length ∧
    ∀ i, (forLoop 0 n (fun m j => m.set (o + j) (f m j)) m).getD i 0#64 = if o ≤ i ∧ i < o + n then v (i - o) else m.getD i 0#64 := by
  refine forLoop_inv (a := 0) (b := n) (s := m) (fun k (e : List U64) => e.length = m.length ∧ ∀ i, e.getD i 0#64 = if o ≤ i ∧ i < o + k then v (i - o) else m.getD i 0#64)
    (Nat.zero_le _) ⟨rfl, fun i => by rw [if_neg (by omega)]⟩ ?_
  rintro k e _ hk ⟨h1, h2⟩
  refine ⟨by rw [List.length_set, h1], fun i => ?_⟩
  have hfk := hf e k hk fun i hi => by rw [h2 i, if_neg hi]
  rw [hfk, getD_set]
  by_cases hc : o + k = i
  · subst hc
    rw [if_pos ⟨rfl, by omega⟩, if_pos (by omega)]
    congr 1; omega
  · rw [if_neg (by omega), h2 i]
    by_cases hi : o ≤ i ∧ i < o + k
    · rw [if_pos hi, if_pos (by omega)]
    · rw [if_neg hi, if_neg (by omega)]

theorem getD_map_range (f : Nat → U64) (n i : Nat) (h : i < n) : ((List.range n).map f).getD i 0#64 = f i := by
  rw [List.getD_eq_getElem?_getD, List.getElem?_map, List.getElem?_range h]; rfl

theorem xorIn_eq (n : Nat) (s : List U64) (b : Nat → U64) (hs : s.length = 16) (hn : n ≤ 16) : xorIn n s b = Spec.Lyra2.absorb n s b := by
  have h := writeLoop n 0 (fun s i => s.getD i 0#64 ^^^ b i) (fun i => s.getD i 0#64 ^^^ b i) s (by omega) fun e k _ he => by rw [he k (by omega)]
  unfold xorIn
  simp only [Nat.zero_add] at h
  apply ext_getD (by rw [h.1, absorb_length, hs])
  intro i hi
  rw [h.1, hs] at hi
  rw [h.2 i]
  unfold Spec.Lyra2.absorb
  rw [getD_map_range _ _ _ hi, Nat.sub_zero]
  by_cases h : i < n
  · rw [if_pos ⟨Nat.zero_le _, h⟩, if_pos h]
  · rw [if_neg (fun e => h e.2), if_neg h]

/-- The flat memory holds the blocks `K` of `M`. -/
structure Holds (R C : Nat) (K : Nat → Nat → Prop) (m : List U64) (M : Spec.Lyra2.Mat) : Prop where
  len : m.length = R * (12 * C)
  at_ : ∀ r c j, K r c → c < C → j < 12 → m.getD (r * (12 * C) + c * 12 + j) 0#64 = M r c j

theorem Holds.mono {R C : Nat} {K K' : Nat → Nat → Prop} {m : List U64} {M : Spec.Lyra2.Mat} (h : Holds R C K m M) (hK : ∀ r c, c < C → K' r c → K r c) : Holds R C K' m M :=
  ⟨h.len, fun r c j hk hc hj => h.at_ r c j (hK r c hc hk) hc hj⟩

theorem idx_lt {R C r c j : Nat} (hr : r < R) (hc : c < C) (hj : j < 12) : r * (12 * C) + c * 12 + j < R * (12 * C) := by
  have : (r + 1) * (12 * C) ≤ R * (12 * C) := Nat.mul_le_mul_right _ hr
  rw [Nat.add_mul] at this
  omega

theorem idx_inj {C r c j r' c' j' : Nat} (hc : c < C) (hj : j < 12) (hc' : c' < C) (hj' : j' < 12)
    (h : r * (12 * C) + c * 12 + j = r' * (12 * C) + c' * 12 + j') : r = r' ∧ c = c' ∧ j = j' := by
  have key : ∀ a b x y, a < b → c < C → x < 12 * C → a * (12 * C) + x < b * (12 * C) + y := fun a b x y hab _ hx => by
    have : (a + 1) * (12 * C) ≤ b * (12 * C) := Nat.mul_le_mul_right _ hab
    rw [Nat.add_mul] at this
    omega
  rcases Nat.lt_trichotomy r r' with hr | hr | hr
  · have := key r r' (c * 12 + j) (c' * 12 + j') hr hc (by omega)
    omega
  · subst hr; omega
  · have := key r' r (c' * 12 + j') (c * 12 + j) hr hc (by omega)
    omega

/-- Writing one block. -/
theorem Holds.put {R C : Nat} {K : Nat → Nat → Prop} {m : List U64} {M : Spec.Lyra2.Mat} (h : Holds R C K m M) (r c : Nat) (hr : r < R) (hc : c < C)
    (f : List U64 → Nat → U64) (v : Nat → U64)
    (hf : ∀ e k, k < 12 → (∀ i, ¬ (r * (12 * C) + c * 12 ≤ i ∧ i < r * (12 * C) + c * 12 + k) → e.getD i 0#64 = m.getD i 0#64) → f e k = v k) :
    Holds R C (fun r' c' => K r' c' ∨ (r' = r ∧ c' = c)) (forLoop 0 12 (fun m j => m.set (r * (12 * C) + c * 12 + j) (f m j)) m) (Spec.Lyra2.put M r c v) := by
  have hb : r * (12 * C) + c * 12 + 12 ≤ m.length := by
    have := idx_lt hr hc (show 11 < 12 by decide)
    rw [h.len]; omega
  obtain ⟨h1, h2⟩ := writeLoop 12 (r * (12 * C) + c * 12) f v m hb hf
  refine ⟨by rw [h1, h.len], fun r' c' j hk hc' hj => ?_⟩
  rw [h2]
  unfold Spec.Lyra2.put
  by_cases he : r' = r ∧ c' = c
  · obtain ⟨rfl, rfl⟩ := he
    rw [if_pos (by omega), if_pos ⟨rfl, rfl⟩]
    congr 1; omega
  · rw [if_neg he, if_neg, h.at_ _ _ _ (hk.resolve_right he) hc' hj]
    rintro ⟨ha, hb'⟩
    have := idx_inj (C := C) (r := r') (c := c') (j := j) (r' := r) (c' := c) (j' := r' * (12 * C) + c' * 12 + j - (r * (12 * C) + c * 12)) hc' hj hc (by omega) (by omega)
    exact he ⟨this.1, this.2.1⟩

/-- Two loops in step. -/
theorem loop_sim {σ τ} (n : Nat) (f : σ → Nat → σ) (g : τ → Nat → τ) (P : Nat → σ → τ → Prop) (x : σ) (s : τ) (h0 : P 0 x s)
    (hstep : ∀ i x s, i < n → P i x s → P (i + 1) (f x i) (g s i)) : P n (forLoop 0 n f x) ((List.range n).foldl g s) := by
  induction n with
  | zero => rw [forLoop_nil _ _ _ _ (Nat.le_refl _)]; exact h0
  | succ n ih =>
    rw [forLoop_succ _ _ _ _ (Nat.zero_le _), List.range_succ, List.foldl_append]
    exact hstep n _ _ (Nat.lt_succ_self n) (ih fun i x s hi => hstep i x s (by omega))

attribute [local irreducible] xorIn Spec.Lyra2.absorb forLoop rotated Spec.Lyra2.rotW

/-- State and memory of model and specification. -/
structure Rel (R C : Nat) (K : Nat → Nat → Prop) (x : Mem) (st : List U64 × Spec.Lyra2.Mat) : Prop where
  stEq : x.state = st.1
  len : st.1.length = 16
  mem : Holds R C K x.m st.2

theorem Rel.mono {R C : Nat} {K K' : Nat → Nat → Prop} {x : Mem} {st : List U64 × Spec.Lyra2.Mat} (h : Rel R C K x st) (hK : ∀ r c, c < C → K' r c → K r c) : Rel R C K' x st :=
  ⟨h.stEq, h.len, h.mem.mono hK⟩

theorem row0_rel {R C : Nat} (hR : 0 < R) {K : Nat → Nat → Prop} {x : Mem} {st : List U64 × Spec.Lyra2.Mat} (h : Rel R C K x st) :
    Rel R C (fun r _ => r = 0) (reducedSqueezeRow0 x (0 * (12 * C)) C) (Spec.Lyra2.row0 C st) := by
  have := loop_sim (n := C) (P := fun i (x : Mem) st => Rel R C (fun r c => r = 0 ∧ C - i ≤ c) x st) (x := x) (s := st) (h0 := h.mono fun r c hc hk => by omega) (hstep := ?_)
    (f := fun (x : Mem) i => ⟨reducedBlake2bLyra x.state, forLoop 0 12 (fun (m : List U64) j => m.set (0 * (12 * C) + (C - 1 - i) * 12 + j) (x.state.getD j 0#64)) x.m⟩)
    (g := fun (st : List U64 × Spec.Lyra2.Mat) i => (Spec.Lyra2.round st.1, Spec.Lyra2.put st.2 0 (C - 1 - i) (Spec.Lyra2.rand st.1)))
  · exact this.mono fun r c hc hk => by omega
  intro i x st hi h
  refine ⟨?_, round_length _, ?_⟩
  · show reducedBlake2bLyra x.state = _
    unfold reducedBlake2bLyra
    rw [h.stEq, round_eq _ h.len]
  · refine (h.mem.put 0 (C - 1 - i) hR (by omega) (fun _ j => x.state.getD j 0#64) (Spec.Lyra2.rand st.1) ?_).mono ?_
    · intro e k _ _; rw [h.stEq]; rfl
    · intro r c hc hk; omega

theorem row1_rel {R C : Nat} (hR : 1 < R) {x : Mem} {st : List U64 × Spec.Lyra2.Mat} (h : Rel R C (fun r _ => r = 0) x st) :
    Rel R C (fun r _ => r < 2) (reducedDuplexRow1 x (0 * (12 * C)) (1 * (12 * C)) C) (Spec.Lyra2.row1 C st) := by
  have := loop_sim (n := C) (P := fun i (x : Mem) st => Rel R C (fun r c => r = 0 ∨ (r = 1 ∧ C - i ≤ c)) x st) (x := x) (s := st) (h0 := h.mono fun r c hc hk => by omega) (hstep := ?_)
    (f := fun (x : Mem) i =>
      let state := reducedBlake2bLyra (xorIn 12 x.state fun j => x.m.getD (0 * (12 * C) + i * 12 + j) 0#64)
      ⟨state, forLoop 0 12 (fun (m : List U64) j => m.set (1 * (12 * C) + (C - 1 - i) * 12 + j) (m.getD (0 * (12 * C) + i * 12 + j) 0#64 ^^^ state.getD j 0#64)) x.m⟩)
    (g := fun (st : List U64 × Spec.Lyra2.Mat) i =>
      let s := Spec.Lyra2.round (Spec.Lyra2.absorb 12 st.1 (st.2 0 i))
      (s, Spec.Lyra2.put st.2 1 (C - 1 - i) fun j => st.2 0 i j ^^^ Spec.Lyra2.rand s j))
  · exact this.mono fun r c hc hk => by omega
  intro i x st hi h
  have hs : reducedBlake2bLyra (xorIn 12 x.state fun j => x.m.getD (0 * (12 * C) + i * 12 + j) 0#64) = Spec.Lyra2.round (Spec.Lyra2.absorb 12 st.1 (st.2 0 i)) := by
    unfold reducedBlake2bLyra
    rw [h.stEq, xorIn_eq 12 _ _ h.len (by decide), round_eq _ (absorb_length _ _ _)]
    congr 1
    apply absorb_congr
    intro j hj
    exact h.mem.at_ 0 i j (Or.inl rfl) hi hj
  dsimp only
  rw [hs]
  refine ⟨rfl, round_length _, ?_⟩
  generalize Spec.Lyra2.round (Spec.Lyra2.absorb 12 st.1 (st.2 0 i)) = s
  refine (h.mem.put 1 (C - 1 - i) hR (by omega) (fun (m : List U64) j => m.getD (0 * (12 * C) + i * 12 + j) 0#64 ^^^ s.getD j 0#64) (fun j => st.2 0 i j ^^^ Spec.Lyra2.rand s j) ?_).mono ?_
  · intro e k hk he
    rw [he, h.mem.at_ 0 i k (Or.inl rfl) hi hk]; rfl
    rintro ⟨h1, h2⟩
    have := idx_inj (C := C) (r := 0) (c := i) (j := k) (r' := 1) (c' := C - 1 - i) (j' := 0 * (12 * C) + i * 12 + k - (1 * (12 * C) + (C - 1 - i) * 12)) hi hk (by omega) (by omega) (by omega)
    omega
  · intro r c hc hk; omega

theorem rotated_eq (s : List U64) (hs : s.length = 16) (j : Nat) (hj : j < 12) : (rotated s).getD j 0#64 = Spec.Lyra2.rotW s j := by
  unfold rotated Spec.Lyra2.rotW
  have l1 : ((s.drop 11).take 1).length = 1 := by rw [List.length_take, List.length_drop, hs]; rfl
  by_cases h0 : j = 0
  · subst h0
    rw [List.getD_eq_getElem?_getD, List.getElem?_append_left (by omega), List.getElem?_take_of_lt (by decide), List.getElem?_drop, List.getD_eq_getElem?_getD]
  · rw [List.getD_eq_getElem?_getD, List.getElem?_append_right (by omega), l1, List.getElem?_take_of_lt (by omega), List.getD_eq_getElem?_getD, show (j + 11) % 12 = j - 1 by omega]

theorem setupRow_rel {R C row star : Nat} (h1 : 1 ≤ row) (h2 : row < R) (h3 : star < row) {x : Mem} {st : List U64 × Spec.Lyra2.Mat} (h : Rel R C (fun r _ => r < row) x st) :
    Rel R C (fun r _ => r < row + 1) (reducedDuplexRowSetup x ((row - 1) * (12 * C)) (star * (12 * C)) (row * (12 * C)) C) (Spec.Lyra2.setupRow C row star st) := by
  have := loop_sim (n := C) (P := fun i (x : Mem) st => Rel R C (fun r c => r < row ∨ (r = row ∧ C - i ≤ c)) x st) (x := x) (s := st) (h0 := h.mono fun r c hc hk => by omega) (hstep := ?_)
    (f := fun (x : Mem) i =>
      let state := reducedBlake2bLyra (xorIn 12 x.state fun j => x.m.getD ((row - 1) * (12 * C) + i * 12 + j) 0#64 + x.m.getD (star * (12 * C) + i * 12 + j) 0#64)
      let m := forLoop 0 12 (fun (m : List U64) j => m.set (row * (12 * C) + (C - 1 - i) * 12 + j) (m.getD ((row - 1) * (12 * C) + i * 12 + j) 0#64 ^^^ state.getD j 0#64)) x.m
      let ns := rotated state
      ⟨state, forLoop 0 12 (fun (m : List U64) j => m.set (star * (12 * C) + i * 12 + j) (m.getD (star * (12 * C) + i * 12 + j) 0#64 ^^^ ns.getD j 0#64)) m⟩)
    (g := fun (st : List U64 × Spec.Lyra2.Mat) i =>
      let M := st.2
      let s := Spec.Lyra2.round (Spec.Lyra2.absorb 12 st.1 fun j => M (row - 1) i j + M star i j)
      let M' := Spec.Lyra2.put M row (C - 1 - i) fun j => M (row - 1) i j ^^^ Spec.Lyra2.rand s j
      (s, Spec.Lyra2.put M' star i fun j => M' star i j ^^^ Spec.Lyra2.rotW s j))
  · exact this.mono fun r c hc hk => by omega
  intro i x st hi h
  have hs : reducedBlake2bLyra (xorIn 12 x.state fun j => x.m.getD ((row - 1) * (12 * C) + i * 12 + j) 0#64 + x.m.getD (star * (12 * C) + i * 12 + j) 0#64) =
      Spec.Lyra2.round (Spec.Lyra2.absorb 12 st.1 fun j => st.2 (row - 1) i j + st.2 star i j) := by
    unfold reducedBlake2bLyra
    rw [h.stEq, xorIn_eq 12 _ _ h.len (by decide), round_eq _ (absorb_length _ _ _)]
    congr 1
    apply absorb_congr
    intro j hj
    rw [h.mem.at_ (row - 1) i j (Or.inl (by omega)) hi hj, h.mem.at_ star i j (Or.inl h3) hi hj]
  dsimp only
  rw [hs]
  refine ⟨rfl, round_length _, ?_⟩
  have hl := round_length (Spec.Lyra2.absorb 12 st.1 fun j => st.2 (row - 1) i j + st.2 star i j)
  generalize Spec.Lyra2.round (Spec.Lyra2.absorb 12 st.1 fun j => st.2 (row - 1) i j + st.2 star i j) = s at hl
  have hm := h.mem.put row (C - 1 - i) h2 (by omega) (fun (m : List U64) j => m.getD ((row - 1) * (12 * C) + i * 12 + j) 0#64 ^^^ s.getD j 0#64) (fun j => st.2 (row - 1) i j ^^^ Spec.Lyra2.rand s j) (by
    intro e k hk he
    rw [he, h.mem.at_ (row - 1) i k (Or.inl (by omega)) hi hk]; rfl
    rintro ⟨g1, g2⟩
    have := idx_inj (C := C) (r := row - 1) (c := i) (j := k) (r' := row) (c' := C - 1 - i) (j' := (row - 1) * (12 * C) + i * 12 + k - (row * (12 * C) + (C - 1 - i) * 12)) hi hk (by omega) (by omega) (by omega)
    omega)
  refine (hm.put star i (by omega) hi (fun (m : List U64) j => m.getD (star * (12 * C) + i * 12 + j) 0#64 ^^^ (rotated s).getD j 0#64) _ ?_).mono ?_
  · intro e k hk he
    rw [he _ (by omega), hm.at_ star i k (Or.inl (Or.inl h3)) hi hk, rotated_eq s hl k hk]
  · intro r c hc hk; omega

theorem wanderRow_rel {R C prev star row : Nat} (h1 : prev < R) (h2 : star < R) (h3 : row < R) {x : Mem} {st : List U64 × Spec.Lyra2.Mat} (h : Rel R C (fun r _ => r < R) x st) :
    Rel R C (fun r _ => r < R) (reducedDuplexRow x (prev * (12 * C)) (star * (12 * C)) (row * (12 * C)) C) (Spec.Lyra2.wanderRow C prev star row st) := by
  refine loop_sim C _ _ (fun _ (x : Mem) st => Rel R C (fun r _ => r < R) x st) x st h ?_
  intro i x st hi h
  have hs : reducedBlake2bLyra (xorIn 12 x.state fun j => x.m.getD (prev * (12 * C) + i * 12 + j) 0#64 + x.m.getD (star * (12 * C) + i * 12 + j) 0#64) =
      Spec.Lyra2.round (Spec.Lyra2.absorb 12 st.1 fun j => st.2 prev i j + st.2 star i j) := by
    unfold reducedBlake2bLyra
    rw [h.stEq, xorIn_eq 12 _ _ h.len (by decide), round_eq _ (absorb_length _ _ _)]
    congr 1
    apply absorb_congr
    intro j hj
    rw [h.mem.at_ prev i j h1 hi hj, h.mem.at_ star i j h2 hi hj]
  dsimp only
  rw [hs]
  refine ⟨rfl, round_length _, ?_⟩
  have hl := round_length (Spec.Lyra2.absorb 12 st.1 fun j => st.2 prev i j + st.2 star i j)
  generalize Spec.Lyra2.round (Spec.Lyra2.absorb 12 st.1 fun j => st.2 prev i j + st.2 star i j) = s at hl
  have hm := h.mem.put row i h3 hi (fun (m : List U64) j => m.getD (row * (12 * C) + i * 12 + j) 0#64 ^^^ s.getD j 0#64) (fun j => st.2 row i j ^^^ Spec.Lyra2.rand s j) (by
    intro e k hk he
    rw [he _ (by omega), h.mem.at_ row i k h3 hi hk]; rfl)
  refine (hm.put star i h2 hi (fun (m : List U64) j => m.getD (star * (12 * C) + i * 12 + j) 0#64 ^^^ (rotated s).getD j 0#64) _ ?_).mono ?_
  · intro e k hk he
    rw [he _ (by omega), hm.at_ star i k (Or.inl h2) hi hk, rotated_eq s hl k hk]
  · intro r c hc hk; exact Or.inl (Or.inl hk)

end Verif.Lyra2
