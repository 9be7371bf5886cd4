import Verif.Model.Ascon
import Verif.Words
import Verif.Spec.Ascon
import Verif.Tail
namespace Verif.Ascon

/-- The two representations of the state. -/
def toS (s : State) : Spec.Ascon.S := ⟨s.s0, s.s1, s.s2, s.s3, s.s4⟩

theorem toS_inj {a b : State} (h : toS a = toS b) : a = b := by
  cases a; cases b
  simp only [toS, Spec.Ascon.S.mk.injEq] at h
  simp only [State.mk.injEq]; exact h

theorem ofBits_aux (f : Nat → Bool) (n : Nat) (hn : n ≤ 64) (i : Nat) (hi : i < 64) :
    ((List.range n).foldl (fun (a : U64) i => if f i then a ||| (1#64 <<< i) else a) 0).getLsbD i = (decide (i < n) && f i) := by
  induction n with
  | zero => simp
  | succ n ih =>
    rw [List.range_succ, List.foldl_append]
    simp only [List.foldl_cons, List.foldl_nil]
    have h1 : (1#64 <<< n).getLsbD i = decide (i = n) := by
      rw [BitVec.getLsbD_shiftLeft]
      simp only [hi, decide_true, Bool.true_and, BitVec.getLsbD_one]
      by_cases h : i = n
      · subst h; simp
      · by_cases h2 : i < n
        · simp [h, h2]
        · simp [h, h2]; omega
    by_cases hf : f n
    · rw [if_pos hf, BitVec.getLsbD_or, ih (by omega), h1]
      by_cases h : i = n
      · subst h; simp [hf]
      · simp only [h, decide_false, Bool.or_false]
        congr 1
        simp only [decide_eq_decide]; omega
    · rw [if_neg hf, ih (by omega)]
      by_cases h : i = n
      · subst h; simp [hf]
      · congr 1
        simp only [decide_eq_decide]; omega

theorem ofBits_getLsbD (f : Nat → Bool) (i : Nat) (hi : i < 64) : (Spec.Ascon.ofBits f).getLsbD i = f i := by
  unfold Spec.Ascon.ofBits
  rw [ofBits_aux f 64 (Nat.le_refl _) i hi]
  simp [hi]

/-- The bit-sliced S-box of ascon.go:150-171. -/
def sub (s : State) : State :=
  let x0 := s.s0 ^^^ s.s4
  let x4 := s.s4 ^^^ s.s3
  let x2 := s.s2 ^^^ s.s1
  let x1 := s.s1
  let x3 := s.s3
  let t0 := x4 ^^^ (~~~x0 &&& x1)
  let t1 := x0 ^^^ (~~~x1 &&& x2)
  let t2 := x1 ^^^ (~~~x2 &&& x3)
  let t3 := x2 ^^^ (~~~x3 &&& x4)
  let t4 := x3 ^^^ (~~~x4 &&& x0)
  ⟨t1 ^^^ t0, t2 ^^^ t1, ~~~t3, t4 ^^^ t3, t0⟩

theorem sub_eq (s : State) : toS (sub s) = Spec.Ascon.pS (toS s) := by
  unfold Spec.Ascon.pS
  have key : ∀ (a b c d e : Bool), ∀ (k : Nat), k < 5 → (Spec.Ascon.sbox.getD (16 * a.toNat + 8 * b.toNat + 4 * c.toNat + 2 * d.toNat + e.toNat) 0).testBit k =
    (let x0 := Bool.xor a e
     let x4 := Bool.xor e d
     let x2 := Bool.xor c b
     let t0 := Bool.xor x4 (!x0 && b)
     let t1 := Bool.xor x0 (!b && x2)
     let t2 := Bool.xor b (!x2 && d)
     let t3 := Bool.xor x2 (!d && x4)
     let t4 := Bool.xor d (!x4 && x0)
     [t0, Bool.xor t4 t3, !t3, Bool.xor t2 t1, Bool.xor t1 t0].getD k false) := by decide
  simp only [toS, sub, Spec.Ascon.S.mk.injEq]
  refine ⟨?_, ?_, ?_, ?_, ?_⟩ <;>
  · apply BitVec.eq_of_getLsbD_eq
    intro i hi
    rw [ofBits_getLsbD _ i hi]
    unfold Spec.Ascon.column
    rw [key _ _ _ _ _ _ (by decide)]
    simp only [List.getD_cons_zero, List.getD_cons_succ, BitVec.getLsbD_and, BitVec.getLsbD_xor, BitVec.getLsbD_not, hi, decide_true, Bool.true_and]

theorem rotl_neg_eq (x : U64) (n : Nat) (h : n < 64) (h0 : 0 < n) : rotl_neg x n = x.rotateRight n := by
  unfold rotl_neg
  rw [BitVec.rotateLeft_def, BitVec.rotateRight_def, Nat.mod_eq_of_lt (by omega : 64 - n < 64), Nat.mod_eq_of_lt (by omega : n < 64),
    BitVec.or_comm, show 64 - (64 - n) = n by omega]

theorem round_sub (s : State) (r : Byte) : toS (round s r) = Spec.Ascon.pL (toS (sub { s with s2 := s.s2 ^^^ r.setWidth 64 })) := by
  unfold round Spec.Ascon.pL sub toS
  simp only [rotl_neg_eq _ 19 (by decide) (by decide), rotl_neg_eq _ 28 (by decide) (by decide), rotl_neg_eq _ 61 (by decide) (by decide),
    rotl_neg_eq _ 39 (by decide) (by decide), rotl_neg_eq _ 1 (by decide) (by decide), rotl_neg_eq _ 6 (by decide) (by decide),
    rotl_neg_eq _ 10 (by decide) (by decide), rotl_neg_eq _ 17 (by decide) (by decide), rotl_neg_eq _ 7 (by decide) (by decide),
    rotl_neg_eq _ 41 (by decide) (by decide)]

theorem rc_eq : ∀ i, i < 12 → (roundConstant.getD i 0).setWidth 64 = BitVec.ofNat 64 ((0xf - i) * 16 + i) := by decide

theorem round_eq (s : State) (i : Nat) (h : i < 12) : toS (round s (roundConstant.getD i 0)) = Spec.Ascon.pL (Spec.Ascon.pS (Spec.Ascon.pC i (toS s))) := by
  rw [round_sub, sub_eq, rc_eq i h]
  rfl

theorem rounds_eq (s : State) (n : Nat) (h : n ≤ 12) : toS (rounds s n) = Spec.Ascon.p n (toS s) := by
  unfold rounds Spec.Ascon.p
  have hl : (roundConstant.drop (12 - n)).length = n := by rw [List.length_drop]; show 12 - (12 - n) = n; omega
  have : (roundConstant.drop (12 - n)).foldl round s = (List.range n).foldl (fun s i => round s (roundConstant.getD (12 - n + i) 0)) s := by
    rw [foldl_eq_forLoop _ (0 : Byte), hl]
    unfold forLoop
    rw [Nat.sub_zero, ← List.range_eq_range']
    congr 1
    funext s i
    rw [List.getD_eq_getElem?_getD, List.getElem?_drop, ← List.getD_eq_getElem?_getD]
  rw [this]
  have : ∀ (l : List Nat), (∀ i ∈ l, 12 - n + i < 12) → ∀ s, toS (l.foldl (fun s i => round s (roundConstant.getD (12 - n + i) 0)) s) =
      l.foldl (fun s i => Spec.Ascon.pL (Spec.Ascon.pS (Spec.Ascon.pC (12 - n + i) s))) (toS s) := by
    intro l
    induction l with
    | nil => intros; rfl
    | cons a l ih =>
      intro hl s
      rw [List.foldl_cons, List.foldl_cons, ih (fun i hi => hl i (List.mem_cons_of_mem _ hi)), round_eq _ _ (hl a List.mem_cons_self)]
  apply this
  intro i hi
  rw [List.mem_range] at hi
  omega

theorem toS_xor0 (s : State) (b : Bytes) : toS (s.xor0 (getBE64 b)) = Spec.Ascon.absorb (toS s) b := rfl

/-! ### Bytes -/

/-! ### Padding -/

theorem pad_eq (r : Nat) (m : Bytes) (hr : 0 < r) : Spec.Ascon.pad r m =
    fullBlocks r m ++ [restBlock r m ++ [0x80#8] ++ zeros (r - 1 - m.length % r)] := by
  unfold Spec.Ascon.pad
  have hm := Nat.mod_lt m.length hr
  rw [List.append_assoc, fullBlocks_append_rest r _ _ hr, ← List.append_assoc,
    fullBlocks_one r (restBlock r m ++ [0x80#8] ++ zeros (r - 1 - m.length % r)) hr]
  rw [List.length_append, List.length_append, restBlock_length]
  simp only [List.length_cons, List.length_nil, zeros, List.length_replicate]
  omega

theorem padBuf_eq (p : Bytes) (h : p.length < 8) : padBuf p = p ++ [0x80#8] ++ zeros (7 - p.length) := by
  unfold padBuf
  have e : goCopy (zeros 8) 0 p = p ++ zeros (8 - p.length) := by
    unfold goCopy
    rw [List.take_zero, List.nil_append, List.take_of_length_le (by simp [zeros]; omega), Nat.zero_add]
    unfold zeros
    rw [List.drop_replicate]
  have e2 : zeros (8 - p.length) = 0#8 :: zeros (7 - p.length) := by
    rw [show 8 - p.length = (7 - p.length) + 1 by omega]; rfl
  have e3 : at8 (p ++ 0#8 :: zeros (7 - p.length)) p.length = 0#8 := by
    unfold at8
    simp [List.getD_eq_getElem?_getD]
  simp only [e, e2, e3]
  rw [List.set_append, if_neg (by omega), Nat.sub_self, List.set_cons_zero]
  simp

theorem getBE64_padNil : getBE64 (padBuf []) = 0x80 <<< 56 := by decide

/-! ### Associated data -/

theorem foldl_sim {σ τ α} (g : σ → τ) (f : σ → α → σ) (f' : τ → α → τ) (h : ∀ s a, g (f s a) = f' (g s) a) (l : List α) (s : σ) :
    g (l.foldl f s) = l.foldl f' (g s) := by
  induction l generalizing s with
  | nil => rfl
  | cons a l ih => rw [List.foldl_cons, List.foldl_cons, ih, h]

theorem start_eq (key nonce ad : Bytes) (hk : key.length = 16) :
    toS (start key nonce ad) = Spec.Ascon.mixAD (Spec.Ascon.init key nonce) ad := by
  unfold start Spec.Ascon.mixAD
  have hi : toS { expandKey key 64 12 6 nonce with
      s3 := (expandKey key 64 12 6 nonce).s3 ^^^ getBE64 key 0, s4 := (expandKey key 64 12 6 nonce).s4 ^^^ getBE64 key 8 } = Spec.Ascon.init key nonce := by
    have h : toS (expandKey key 64 12 6 nonce) = Spec.Ascon.p 12 ⟨0x80400c0600000000, getBE64 key 0, getBE64 key 8, getBE64 nonce 0, getBE64 nonce 8⟩ := by
      unfold expandKey
      rw [rounds_eq _ 12 (by decide), hk]
      rfl
    unfold Spec.Ascon.init
    rw [← h]
    rfl
  have hm : ∀ s : State, toS (mixAdditionalData s ad 6) =
      if ad = [] then toS s else (Spec.Ascon.pad 8 ad).foldl (fun s b => Spec.Ascon.p 6 (Spec.Ascon.absorb s b)) (toS s) := by
    intro s
    have hstep : ∀ (s : State) (b : Bytes), toS (rounds (s.xor0 (getBE64 b)) 6) = Spec.Ascon.p 6 (Spec.Ascon.absorb (toS s) b) := by
      intro s b
      rw [rounds_eq _ 6 (by decide)]; rfl
    unfold mixAdditionalData
    by_cases h : ad = []
    · subst h; rfl
    · rw [if_neg (by have := List.length_pos_iff.mpr h; omega), if_neg h, eagerLoop_spec _ (by decide) _ _ _ (Nat.le_refl _),
        pad_eq 8 ad (by decide), List.foldl_append]
      simp only [List.foldl_cons, List.foldl_nil]
      rw [← foldl_sim toS _ _ hstep]
      have hrl := restBlock_length 8 ad
      have hr := padBuf_eq (restBlock 8 ad) (by omega)
      rw [hrl] at hr
      by_cases hz : (restBlock 8 ad).length > 0
      · rw [if_pos hz, hstep, hr]
      · rw [if_neg hz, ← getBE64_padNil, hstep]
        have h0 : restBlock 8 ad = [] := List.length_eq_zero_iff.mp (by omega)
        rw [← h0, hr, h0]
  simp only
  rw [← hi, ← hm]
  rfl

/-! ### The duplex phase -/

/-- Plaintext and ciphertext blocks from state `s` to `s'`. -/
inductive Blk : Spec.Ascon.S → List Bytes → List Bytes → Spec.Ascon.S → Prop
  | nil (s) : Blk s [] [] s
  | cons (s b ps cs s') : b.length = 8 → Blk (Spec.Ascon.p 6 (Spec.Ascon.absorb s b)) ps cs s' →
      Blk s (b :: ps) (be64 (Spec.Ascon.absorb s b).x0 :: cs) s'

def encStep (st : Spec.Ascon.S × Bytes) (b : Bytes) : Spec.Ascon.S × Bytes :=
  (Spec.Ascon.p 6 (Spec.Ascon.absorb st.1 b), st.2 ++ be64 (Spec.Ascon.absorb st.1 b).x0)
def decStep (st : Spec.Ascon.S × Bytes) (c : Bytes) : Spec.Ascon.S × Bytes :=
  (Spec.Ascon.p 6 { st.1 with x0 := getBE64 c }, st.2 ++ be64 (getBE64 c ^^^ st.1.x0))

theorem blk_enc {s ps cs s'} (h : Blk s ps cs s') (o : Bytes) : ps.foldl encStep (s, o) = (s', o ++ cs.flatten) := by
  induction h generalizing o with
  | nil => simp
  | cons s b ps cs s' hb _ ih =>
    rw [List.foldl_cons, encStep, ih]; simp
theorem blk_dec {s ps cs s'} (h : Blk s ps cs s') (o : Bytes) : cs.foldl decStep (s, o) = (s', o ++ ps.flatten) := by
  induction h generalizing o with
  | nil => simp
  | cons s b ps cs s' hb _ ih =>
    have e : getBE64 (be64 (Spec.Ascon.absorb s b).x0) = (Spec.Ascon.absorb s b).x0 := by
      have := getBE64_be64 (Spec.Ascon.absorb s b).x0 []
      rwa [List.append_nil] at this
    have e2 : (Spec.Ascon.absorb s b).x0 ^^^ s.x0 = getBE64 b := by
      show (s.x0 ^^^ getBE64 b) ^^^ s.x0 = _
      rw [BitVec.xor_comm s.x0, BitVec.xor_assoc, BitVec.xor_self, BitVec.xor_zero]
    rw [List.foldl_cons, decStep]
    simp only [e, e2, be64_getBE64 hb]
    have e3 : { s with x0 := (Spec.Ascon.absorb s b).x0 } = Spec.Ascon.absorb s b := rfl
    rw [e3, ih]; simp

theorem enc_blk (ps : List Bytes) (hp : ∀ b ∈ ps, b.length = 8) : ∀ s, ∃ cs s', Blk s ps cs s' := by
  induction ps with
  | nil => exact fun s => ⟨_, _, .nil s⟩
  | cons b ps ih =>
    intro s
    obtain ⟨cs, s', h⟩ := ih (fun x hx => hp x (List.mem_cons_of_mem _ hx)) (Spec.Ascon.p 6 (Spec.Ascon.absorb s b))
    exact ⟨_, _, .cons s b ps cs s' (hp b List.mem_cons_self) h⟩
theorem dec_blk (cs : List Bytes) (hc : ∀ b ∈ cs, b.length = 8) : ∀ s, ∃ ps s', Blk s ps cs s' := by
  induction cs with
  | nil => exact fun s => ⟨_, _, .nil s⟩
  | cons c cs ih =>
    intro s
    have hcl := hc c List.mem_cons_self
    obtain ⟨ps, s', h⟩ := ih (fun x hx => hc x (List.mem_cons_of_mem _ hx))
      (Spec.Ascon.p 6 (Spec.Ascon.absorb s (be64 (getBE64 c ^^^ s.x0))))
    have := Blk.cons s (be64 (getBE64 c ^^^ s.x0)) ps cs s' rfl h
    have e : getBE64 (be64 (getBE64 c ^^^ s.x0)) = getBE64 c ^^^ s.x0 := by
      have := getBE64_be64 (getBE64 c ^^^ s.x0) []
      rwa [List.append_nil] at this
    have e2 : (Spec.Ascon.absorb s (be64 (getBE64 c ^^^ s.x0))).x0 = getBE64 c := by
      show s.x0 ^^^ getBE64 (be64 _) = _
      rw [e, BitVec.xor_comm (getBE64 c), ← BitVec.xor_assoc, BitVec.xor_self, BitVec.zero_xor]
    rw [e2, be64_getBE64 hcl] at this
    exact ⟨_, _, this⟩

theorem blk_len {s ps cs s'} (h : Blk s ps cs s') : (∀ b ∈ ps, b.length = 8) ∧ (∀ b ∈ cs, b.length = 8) ∧ ps.length = cs.length := by
  induction h with
  | nil => simp
  | cons s b ps cs s' hb _ ih =>
    refine ⟨?_, ?_, by simp [ih.2.2]⟩
    · intro x hx
      rcases List.mem_cons.mp hx with rfl | hx
      · exact hb
      · exact ih.1 x hx
    · intro x hx
      rcases List.mem_cons.mp hx with rfl | hx
      · rfl
      · exact ih.2.1 x hx

theorem flatten_len {l : List Bytes} (h : ∀ b ∈ l, b.length = 8) : l.flatten.length = 8 * l.length := by
  induction l with
  | nil => rfl
  | cons a l ih =>
    rw [List.flatten_cons, List.length_append, ih (fun x hx => h x (List.mem_cons_of_mem _ hx)), h a List.mem_cons_self, List.length_cons]
    omega

theorem fullBlocks_of {l : List Bytes} (h : ∀ b ∈ l, b.length = 8) (r : Bytes) (hr : r.length < 8) :
    fullBlocks 8 (l.flatten ++ r) = l ∧ restBlock 8 (l.flatten ++ r) = r := by
  induction l with
  | nil => exact ⟨fullBlocks_lt 8 r hr, restBlock_lt 8 r hr⟩
  | cons a l ih =>
    have ha := h a List.mem_cons_self
    obtain ⟨h1, h2⟩ := ih (fun x hx => h x (List.mem_cons_of_mem _ hx))
    rw [List.flatten_cons, List.append_assoc]
    refine ⟨?_, ?_⟩
    · rw [fullBlocks_cons 8 _ _ (by decide) ha, h1]
    · rw [restBlock_append 8 _ _ (by decide) (by rw [ha]), h2]

/-- The last plaintext block `pr` (fewer than 8 bytes) in state `s`. -/
def lastS (s : Spec.Ascon.S) (pr : Bytes) : Spec.Ascon.S := Spec.Ascon.absorb s (padBuf pr)

/-- Plaintext, ciphertext and final state of the duplex phase. -/
def Duplex (s : Spec.Ascon.S) (pt ct : Bytes) (fin : Spec.Ascon.S) : Prop :=
  ∃ ps pr cs cr s', pt = ps.flatten ++ pr ∧ ct = cs.flatten ++ cr ∧ pr.length < 8 ∧ Blk s ps cs s' ∧
    cr = (be64 (lastS s' pr).x0).take pr.length ∧ fin = lastS s' pr

theorem Duplex.length {s pt ct fin} (h : Duplex s pt ct fin) : ct.length = pt.length := by
  obtain ⟨ps, pr, cs, cr, s', h1, h2, h3, h4, h5, h6⟩ := h
  obtain ⟨l1, l2, l3⟩ := blk_len h4
  rw [h1, h2, List.length_append, List.length_append, flatten_len l1, flatten_len l2, h5, List.length_take, be64_length]
  omega

theorem duplex_snoc {s ps cs s'} (h : Blk s ps cs s') (b : Bytes) :
    Spec.Ascon.duplex s (ps ++ [b]) = (Spec.Ascon.absorb s' b, cs.flatten ++ be64 (Spec.Ascon.absorb s' b).x0) := by
  induction h with
  | nil => rfl
  | cons s a ps cs s' ha hblk ih =>
    have e : Spec.Ascon.duplex s (a :: (ps ++ [b])) =
        ((Spec.Ascon.duplex (Spec.Ascon.p 6 (Spec.Ascon.absorb s a)) (ps ++ [b])).1, be64 (Spec.Ascon.absorb s a).x0 ++
          (Spec.Ascon.duplex (Spec.Ascon.p 6 (Spec.Ascon.absorb s a)) (ps ++ [b])).2) := by
      cases ps with
      | nil => rfl
      | cons c ps => rfl
    rw [List.cons_append, e, ih]
    simp

/-- The duplex phase is that of the standard. -/
theorem Duplex.spec {s pt ct fin} (h : Duplex s pt ct fin) :
    (Spec.Ascon.duplex s (Spec.Ascon.pad 8 pt)).1 = fin ∧ (Spec.Ascon.duplex s (Spec.Ascon.pad 8 pt)).2.take pt.length = ct := by
  obtain ⟨ps, pr, cs, cr, s', h1, h2, h3, h4, h5, h6⟩ := h
  obtain ⟨l1, l2, l3⟩ := blk_len h4
  obtain ⟨f1, f2⟩ := fullBlocks_of l1 pr h3
  have hml : pt.length % 8 = pr.length := by
    rw [h1, List.length_append, flatten_len l1]; omega
  rw [pad_eq 8 pt (by decide), hml, h1, f1, f2, ← padBuf_eq pr h3, duplex_snoc h4]
  refine ⟨h6.symm, ?_⟩
  rw [h2, h5, List.length_append, flatten_len l1, l3, ← flatten_len l2, List.take_length_add_append]
  rfl

theorem duplex_of_enc (s : Spec.Ascon.S) (pt : Bytes) : ∃ ct fin, Duplex s pt ct fin := by
  obtain ⟨cs, s', h⟩ := enc_blk (fullBlocks 8 pt) (mem_fullBlocks_length 8 pt) s
  exact ⟨_, _, fullBlocks 8 pt, restBlock 8 pt, cs, _, s', (fullBlocks_flatten_append_rest 8 pt).symm, rfl,
    by rw [restBlock_length]; omega, h, rfl, rfl⟩

theorem zipXor_cancel (a b : Bytes) (h : a.length ≤ b.length) : List.zipWith (· ^^^ ·) (List.zipWith (· ^^^ ·) a b) b = a := by
  induction a generalizing b with
  | nil => rfl
  | cons x a ih =>
    cases b with
    | nil => simp at h
    | cons y b =>
      simp only [List.zipWith_cons_cons]
      rw [ih b (by simpa using h), BitVec.xor_assoc, BitVec.xor_self, BitVec.xor_zero]

theorem lastS_x0 (s : Spec.Ascon.S) (pr : Bytes) (h : pr.length < 8) :
    (be64 (lastS s pr).x0).take pr.length = List.zipWith (· ^^^ ·) pr (be64 s.x0) := by
  have hl : (padBuf pr).length = 8 := by
    rw [padBuf_eq pr h]; simp [zeros]; omega
  show (be64 (s.x0 ^^^ getBE64 (padBuf pr))).take pr.length = _
  rw [BitVec.xor_comm, be64_xor, be64_getBE64 hl, List.take_zipWith, padBuf_eq pr h, List.append_assoc, List.take_left]
  conv => rhs; rw [List.zipWith_eq_zipWith_take_min]
  rw [be64_length, Nat.min_eq_left (by omega), List.take_length]

theorem duplex_of_dec (s : Spec.Ascon.S) (ct : Bytes) : ∃ pt fin, Duplex s pt ct fin := by
  obtain ⟨ps, s', h⟩ := dec_blk (fullBlocks 8 ct) (mem_fullBlocks_length 8 ct) s
  have hrl : (restBlock 8 ct).length < 8 := by rw [restBlock_length]; omega
  have hl : (List.zipWith (· ^^^ ·) (restBlock 8 ct) (be64 s'.x0)).length = (restBlock 8 ct).length := by
    rw [List.length_zipWith, be64_length]; omega
  refine ⟨_, _, ps, List.zipWith (· ^^^ ·) (restBlock 8 ct) (be64 s'.x0), fullBlocks 8 ct, restBlock 8 ct, s', rfl,
    (fullBlocks_flatten_append_rest 8 ct).symm, by omega, h, ?_, rfl⟩
  rw [lastS_x0 _ _ (by omega), zipXor_cancel _ _ (by rw [be64_length]; omega)]

/-- What decryption computes is determined by the ciphertext. -/
theorem Duplex.dec {s pt ct fin} (h : Duplex s pt ct fin) (o : Bytes) :
    ∃ s', (fullBlocks 8 ct).foldl decStep (s, o) = (s', o ++ pt.take (ct.length / 8 * 8)) ∧
      pt.drop (ct.length / 8 * 8) = List.zipWith (· ^^^ ·) (restBlock 8 ct) (be64 s'.x0) ∧ fin = lastS s' (pt.drop (ct.length / 8 * 8)) := by
  have hlen := h.length
  obtain ⟨ps, pr, cs, cr, s', h1, h2, h3, h4, h5, h6⟩ := h
  obtain ⟨l1, l2, l3⟩ := blk_len h4
  have hcr : cr.length < 8 := by rw [h5, List.length_take]; omega
  obtain ⟨f1, f2⟩ := fullBlocks_of l2 cr hcr
  have hn : ct.length / 8 * 8 = ps.flatten.length := by
    rw [hlen, h1, List.length_append, flatten_len l1]; omega
  refine ⟨s', ?_, ?_, ?_⟩
  · rw [hn, h1, List.take_left, h2, f1]
    exact blk_dec h4 o
  · rw [hn, h1, List.drop_left, h2, f2, h5, lastS_x0 _ _ h3, zipXor_cancel _ _ (by rw [be64_length]; omega)]
  · rw [hn, h1, List.drop_left]; exact h6

theorem Duplex.unique {s pt ct fin pt' fin'} (h : Duplex s pt ct fin) (h' : Duplex s pt' ct fin') : pt = pt' ∧ fin = fin' := by
  obtain ⟨a, a1, a2, a3⟩ := h.dec []
  obtain ⟨b, b1, b2, b3⟩ := h'.dec []
  rw [a1] at b1
  injection b1 with b1 b1'
  subst b1
  rw [List.nil_append, List.nil_append] at b1'
  rw [← b2] at a2
  have hp : pt = pt' := by
    rw [← List.take_append_drop (ct.length / 8 * 8) pt, ← List.take_append_drop (ct.length / 8 * 8) pt', b1', a2]
  exact ⟨hp, by rw [a3, b3, a2]⟩

end Verif.Ascon
