import Verif.Lemmas.Gost12
import Verif.Model.Gost12Mem
/-
The functions of Gost12Mem leave in their result array what the functions of Gost12 compute from the contents of the operands.
-/
namespace Verif.Gost12Mem

theorem forLoop_rel {α β} (R : Nat → α → β → Prop) {f : α → Nat → α} {g : β → Nat → β} {a : α} {b : β} (n : Nat) (h0 : R 0 a b)
    (hs : ∀ i x y, i < n → R i x y → R (i + 1) (f x i) (g y i)) : R n (forLoop 0 n f a) (forLoop 0 n g b) := by
  induction n with
  | zero => rw [forLoop_nil _ _ _ _ (Nat.le_refl _), forLoop_nil _ _ _ _ (Nat.le_refl _)]; exact h0
  | succ n ih =>
    rw [forLoop_succ _ _ _ _ (Nat.zero_le _), forLoop_succ _ _ _ _ (Nat.zero_le _)]
    exact hs n _ _ (Nat.lt_succ_self n) (ih fun i x y hi => hs i x y (by omega))

theorem put_self (M : Mem) (r : Ref) : M.put r (M r) = M := by
  funext k; unfold Mem.put; split <;> simp_all
theorem put_put (M : Mem) (r : Ref) (x y : Bytes) : (M.put r x).put r y = M.put r y := by
  funext k; unfold Mem.put; split <;> rfl
theorem put_same (M : Mem) (r : Ref) (x : Bytes) : M.put r x r = x := by simp [Mem.put]
theorem put_ne (M : Mem) {r k : Ref} (x : Bytes) (h : k ≠ r) : M.put r x k = M k := by simp [Mem.put, h]
theorem get_put (M : Mem) {r : Ref} {o : Opd} (x : Bytes) (h : o ≠ .ref r) : o.get (M.put r x) = o.get M := by
  cases o with
  | val b => rfl
  | ref k => exact put_ne M x fun e => h (by rw [e])

theorem loop_put (r : Ref) (f : Mem → Nat → Bytes) (M : Mem) (n : Nat) :
    forLoop 0 n (fun (M : Mem) i => M.put r (f M i)) M = M.put r (forLoop 0 n (fun L i => f (M.put r L) i) (M r)) :=
  forLoop_rel (fun _ (x : Mem) (y : Bytes) => x = M.put r y) n (put_self M r).symm fun i x y _ h => by
    subst h; exact put_put M r _ _

/-- All arrays have 64 bytes. -/
def Good (M : Mem) : Prop := ∀ r, (M r).length = 64
theorem Good.put {M : Mem} (h : Good M) {r : Ref} {x : Bytes} (hx : x.length = 64) : Good (M.put r x) := fun k => by
  unfold Mem.put; split
  · exact hx
  · exact h k

/-- The byte of an operand while `dst` is written in order. -/
def sel (M : Mem) (dst : Ref) (o : Opd) (i : Nat) (v : Byte) : Byte := if o = .ref dst then v else at8 (o.get M) i

theorem sel_put (M : Mem) (dst : Ref) (o : Opd) (L : Bytes) (i : Nat) : at8 (o.get (M.put dst L)) i = sel M dst o i (at8 L i) := by
  unfold sel
  split
  · rename_i h; subst h; show at8 (M.put dst L dst) i = _; rw [put_same]
  · rename_i h; rw [get_put M L h]

theorem blockXor_mem {M : Mem} (h : Good M) (dst : Ref) (x y : Opd) : blockXor M dst x y = M.put dst (Gost12.blockXor (x.get M) (y.get M)) := by
  unfold blockXor
  rw [loop_put dst (fun M i => (M dst).set i (at8 (x.get M) i ^^^ at8 (y.get M) i))]
  refine congrArg (M.put dst) ?_
  simp only [put_same, sel_put]
  obtain ⟨h1, h2⟩ := setLoop (fun i v => sel M dst x i v ^^^ sel M dst y i v) 64 (M dst) (Nat.le_of_eq (h dst).symm)
  obtain ⟨h3, h4⟩ := setLoop (fun i _ => at8 (x.get M) i ^^^ at8 (y.get M) i) 64 (zeros 64) (by simp)
  unfold Gost12.blockXor
  refine ext_at8 (by rw [h1, h3, h dst]; simp) fun i hi => ?_
  rw [h1, h dst] at hi
  rw [h2 i (by rw [h dst]; exact hi), h4 i (by simpa using hi), if_pos hi, if_pos hi, ← sel_put, ← sel_put, put_self]

theorem ps_mem {M : Mem} (h : Good M) {data : Opd} (hd : data ≠ .ref .psBuf) : ps M data = M.put .psBuf (Gost12.ps (data.get M)) := by
  unfold ps
  rw [loop_put .psBuf (fun M i => (M .psBuf).set (Gost12.tau.getD i 0) (at8 Gost12.pi (at8 (data.get M) i).toNat))]
  refine congrArg (M.put .psBuf) ?_
  simp only [put_same, get_put M _ hd]
  have hp := fun (d : Bytes) (hl : d.length = 64) => permLoop (fun i => Gost12.tau.getD i 0) (fun i => at8 Gost12.pi (at8 (data.get M) i).toNat) 64 d
    (by intro i hi; rw [Gost12.tau_eq i hi, hl]; omega) (by intro i j hi hj h; rw [Gost12.tau_eq i hi, Gost12.tau_eq j hj] at h; omega)
  obtain ⟨h1, h2⟩ := hp (M .psBuf) (h _)
  obtain ⟨h3, h4⟩ := hp (zeros 64) (by simp)
  unfold Gost12.ps
  refine ext_at8 (by rw [h1, h3, h]; simp) fun i hi => ?_
  rw [h1, h] at hi
  have e := Gost12.tau_eq (8 * (i % 8) + i / 8) (by omega)
  rw [show 8 * ((8 * (i % 8) + i / 8) % 8) + (8 * (i % 8) + i / 8) / 8 = i by omega] at e
  have a := h2 (8 * (i % 8) + i / 8) (by omega)
  have b := h4 (8 * (i % 8) + i / 8) (by omega)
  rw [e] at a b
  rw [a, b]

theorem l_mem {M : Mem} (h : Good M) (out : Ref) {data : Opd} (hd : data ≠ .ref out) : l M out data = M.put out (Gost12.l (data.get M)) := by
  unfold l
  rw [loop_put out]
  refine congrArg (M.put out) ?_
  simp only [put_same, get_put M _ hd]
  unfold Gost12.l
  rw [copyLoop 8 (fun i => le64 _) (fun _ => rfl) 8 (M out) (by rw [h]), copyLoop 8 (fun i => le64 _) (fun _ => rfl) 8 (zeros 64) (by simp)]

theorem ps_length (x : Bytes) : (Gost12.ps x).length = 64 := by
  unfold Gost12.ps
  exact forLoop_inv (a := 0) (b := 64) (fun _ (d : Bytes) => d.length = 64) (Nat.zero_le _) (by simp) fun _ _ _ _ h => by simp only [List.length_set]; exact h
theorem blockXor_length (x y : Bytes) : (Gost12.blockXor x y).length = 64 := by
  unfold Gost12.blockXor
  exact (setLoop (fun i _ => at8 x i ^^^ at8 y i) 64 (zeros 64) (by simp)).1
theorem l_length (x : Bytes) : (Gost12.l x).length = 64 := by
  rw [Gost12.l_eq]
  unfold Spec.Streebog.L
  rw [List.length_flatten, List.map_map]
  rfl

/-- Not one of the arrays that `e` writes. -/
def Outside (r : Ref) : Prop := r ≠ .psBuf ∧ r ≠ .eMsgBuf ∧ r ≠ .eKBuf ∧ r ≠ .eXorBuf
def Opd.Outside : Opd → Prop
  | .ref r => Gost12Mem.Outside r
  | .val _ => True
theorem Opd.Outside.ne {o : Opd} (h : o.Outside) {r : Ref} (hr : ¬ Gost12Mem.Outside r) : o ≠ .ref r := fun e => by
  subst e; exact hr h

/-- The state of the loop of `e` against that of the loop on values. -/
structure EInv (M₀ : Mem) (k₀ msg₀ : Opd) (st : Mem × Opd × Opd) (v : Bytes × Bytes) : Prop where
  good : Good st.1
  frame : ∀ r, Outside r → st.1 r = M₀ r
  k : st.2.1 = k₀ ∨ st.2.1 = .ref .eKBuf
  msg : st.2.2 = msg₀ ∨ st.2.2 = .ref .eMsgBuf
  kv : st.2.1.get st.1 = v.1
  msgv : st.2.2.get st.1 = v.2

/-- `l(out, h.ps(blockXor(h.eXorBuf, x, y)))` -/
def lpsx (M : Mem) (out : Ref) (x y : Opd) : Mem := l (ps (blockXor M .eXorBuf x y) (.ref .eXorBuf)) out (.ref .psBuf)
theorem lpsx_mem {M : Mem} (h : Good M) (out : Ref) (ho : out ≠ .psBuf) (x y : Opd) :
    Good (lpsx M out x y) ∧ lpsx M out x y out = Gost12.l (Gost12.ps (Gost12.blockXor (x.get M) (y.get M))) ∧
    ∀ r, r ≠ out → r ≠ .psBuf → r ≠ .eXorBuf → lpsx M out x y r = M r := by
  unfold lpsx
  have g1 : Good (M.put .eXorBuf (Gost12.blockXor (x.get M) (y.get M))) := h.put (blockXor_length _ _)
  have g2 := g1.put (r := .psBuf) (ps_length (Opd.get (M.put .eXorBuf (Gost12.blockXor (x.get M) (y.get M))) (.ref .eXorBuf)))
  rw [blockXor_mem h, ps_mem g1 (by decide), l_mem g2 out (fun e => ho (by injection e with e; exact e.symm))]
  refine ⟨g2.put (l_length _), ?_, fun r h1 h2 h3 => ?_⟩
  · rw [put_same]; simp only [Opd.get, put_same]
  · rw [put_ne _ _ h1, put_ne _ _ h2, put_ne _ _ h3]
theorem ePass_eq (M : Mem) (k msg : Opd) (i : Nat) :
    ePass (M, k, msg) i = (lpsx (lpsx M .eMsgBuf k msg) .eKBuf k (.val (Gost12.c.getD i [])), .ref .eKBuf, .ref .eMsgBuf) := rfl

theorem opd_frame {M M' : Mem} {o : Opd} (h : ∀ r, o = .ref r → M' r = M r) : o.get M' = o.get M := by
  cases o with
  | val b => rfl
  | ref r => exact h r rfl

/-- One pass of the loop of `Gost12.e`. -/
def ePassV (st : Bytes × Bytes) (i : Nat) : Bytes × Bytes :=
  (Gost12.l (Gost12.ps (Gost12.blockXor st.1 (Gost12.c.getD i []))), Gost12.l (Gost12.ps (Gost12.blockXor st.1 st.2)))
theorem e_val (k m : Bytes) : Gost12.e k m = Gost12.blockXor (forLoop 0 12 ePassV (k, m)).1 (forLoop 0 12 ePassV (k, m)).2 := rfl

attribute [local irreducible] lpsx l ps blockXor e g Gost12.l Gost12.ps Gost12.blockXor

theorem EInv.intro {M₀ M : Mem} {k₀ msg₀ : Opd} {a b : Bytes} (h1 : Good M) (h2 : ∀ r, Outside r → M r = M₀ r) (h3 : M .eKBuf = a)
    (h4 : M .eMsgBuf = b) : EInv M₀ k₀ msg₀ (M, .ref .eKBuf, .ref .eMsgBuf) (a, b) := ⟨h1, h2, Or.inr rfl, Or.inr rfl, h3, h4⟩

theorem ePass_inv {M₀ : Mem} {k₀ msg₀ : Opd} (hk : k₀.Outside) (i : Nat) (st : Mem × Opd × Opd) (v : Bytes × Bytes)
    (h : EInv M₀ k₀ msg₀ st v) : EInv M₀ k₀ msg₀ (ePass st i) (ePassV v i) := by
  obtain ⟨M', k', msg'⟩ := st
  obtain ⟨h1, h2, h3, h4, h5, h6⟩ := h
  dsimp only at h1 h2 h3 h4 h5 h6
  rw [ePass_eq]
  unfold ePassV
  obtain ⟨a1, a2, a3⟩ := lpsx_mem h1 .eMsgBuf (by decide) k' msg'
  generalize lpsx M' .eMsgBuf k' msg' = M1 at a1 a2 a3 ⊢
  obtain ⟨b1, b2, b3⟩ := lpsx_mem a1 .eKBuf (by decide) k' (.val (Gost12.c.getD i []))
  generalize lpsx M1 .eKBuf k' (.val (Gost12.c.getD i [])) = M2 at b1 b2 b3 ⊢
  have hk1 : k'.get M1 = k'.get M' := opd_frame fun r e => by
    rcases h3 with h3 | h3
    · rw [h3] at e; rw [e] at hk; exact a3 r hk.2.1 hk.1 hk.2.2.2
    · rw [h3] at e; injection e with e; rw [← e]; exact a3 _ (by decide) (by decide) (by decide)
  refine EInv.intro b1 (fun r hr => ?_) ?_ ?_
  · rw [b3 r hr.2.2.1 hr.1 hr.2.2.2, a3 r hr.2.1 hr.1 hr.2.2.2, h2 r hr]
  · rw [b2, hk1, h5, Opd.get]
  · rw [b3 .eMsgBuf (by decide) (by decide) (by decide), a2, h5, h6]

theorem e_mem {M : Mem} (h : Good M) {k msg : Opd} (hk : k.Outside) :
    Good (e M k msg) ∧ e M k msg .eXorBuf = Gost12.e (k.get M) (msg.get M) ∧ ∀ r, Outside r → e M k msg r = M r := by
  have hi := forLoop_rel (fun _ => EInv M k msg) (f := ePass) (g := ePassV) (a := (M, k, msg)) (b := (k.get M, msg.get M)) 12
    ⟨h, fun _ _ => rfl, Or.inl rfl, Or.inl rfl, rfl, rfl⟩ (fun i x y _ hh => ePass_inv hk i x y hh)
  rw [e_val]
  unfold e
  dsimp only
  generalize forLoop 0 12 ePass (M, k, msg) = st at hi ⊢
  generalize forLoop 0 12 ePassV (k.get M, msg.get M) = v at hi ⊢
  obtain ⟨h1, h2, h3, h4, h5, h6⟩ := hi
  rw [blockXor_mem h1]
  refine ⟨h1.put (blockXor_length _ _), ?_, fun r hr => ?_⟩
  · rw [put_same, h5, h6]
  · rw [put_ne _ _ hr.2.2.2, h2 r hr]

/-- Not one of the arrays that `g` writes. -/
def Core (r : Ref) : Prop := Outside r ∧ r ≠ .gBuf

theorem gLoop (n : U64) (M : Mem) :
    forLoop 0 8 (fun (M : Mem) i => M.put .gBuf ((M .gBuf).set i (at8 (M .gBuf) i ^^^ ((n >>> (8 * i)) &&& 0xFF).setWidth 8))) M =
      M.put .gBuf (forLoop 0 8 (fun (out : Bytes) i => out.set i (at8 out i ^^^ ((n >>> (8 * i)) &&& 0xFF).setWidth 8)) (M .gBuf)) := by
  rw [loop_put .gBuf (fun M i => (M .gBuf).set i (at8 (M .gBuf) i ^^^ ((n >>> (8 * i)) &&& 0xFF).setWidth 8))]
  refine congrArg (M.put .gBuf) ?_
  simp only [put_same]

theorem gLoop_length (n : U64) (x : Bytes) (hx : x.length = 64) :
    (forLoop 0 8 (fun (out : Bytes) i => out.set i (at8 out i ^^^ ((n >>> (8 * i)) &&& 0xFF).setWidth 8)) x).length = 64 :=
  forLoop_inv (a := 0) (b := 8) (fun _ (d : Bytes) => d.length = 64) (Nat.zero_le _) hx fun _ _ _ _ h => by simp only [List.length_set]; exact h

theorem goCopy_whole (x y : Bytes) (hx : x.length = 64) (hy : y.length = 64) : goCopy x 0 y = y := by
  unfold goCopy
  rw [List.take_zero, List.nil_append, hx, List.take_of_length_le (by omega), List.drop_eq_nil_of_le (by omega), List.append_nil]

theorem g_mem {M : Mem} (h : Good M) (n : U64) {hs data : Ref} (h1 : Core hs) (h2 : Core data) :
    Good (g M n (.ref hs) (.ref data)) ∧ g M n (.ref hs) (.ref data) .gBuf = Gost12.g n (M hs) (M data) ∧
    ∀ r, Core r → g M n (.ref hs) (.ref data) r = M r := by
  unfold g Gost12.g
  dsimp only
  have hc : goCopy (M .gBuf) 0 ((Opd.ref hs).get M) = M hs := goCopy_whole _ _ (h _) (h _)
  rw [hc, gLoop, put_put, put_same]
  have hL := gLoop_length n (M hs) (h _)
  generalize forLoop 0 8 _ (M hs) = L at hL ⊢
  have g1 : Good (M.put .gBuf L) := h.put hL
  rw [ps_mem g1 (by decide)]
  have g2 := g1.put (r := .psBuf) (ps_length (Opd.get (M.put .gBuf L) (.ref .gBuf)))
  rw [l_mem g2 _ (by decide)]
  have g3 := g2.put (r := .gBuf) (l_length (Opd.get ((M.put .gBuf L).put .psBuf (Gost12.ps (Opd.get (M.put .gBuf L) (.ref .gBuf)))) (.ref .psBuf)))
  simp only [Opd.get, put_same] at g3 ⊢
  obtain ⟨e1, e2, e3⟩ := e_mem (msg := .ref data) g3 (k := .ref .gBuf) (by unfold Opd.Outside Outside; decide)
  simp only [Opd.get, put_same] at e2
  have hf : ∀ r, Core r → (((M.put .gBuf L).put .psBuf (Gost12.ps L)).put .gBuf (Gost12.l (Gost12.ps L))) r = M r := fun r hr => by
    rw [put_ne _ _ hr.2, put_ne _ _ hr.1.1, put_ne _ _ hr.2]
  generalize ((M.put .gBuf L).put .psBuf (Gost12.ps L)).put .gBuf (Gost12.l (Gost12.ps L)) = M3 at e1 e2 e3 hf ⊢
  generalize e M3 (.ref .gBuf) (.ref data) = M4 at e1 e2 e3 ⊢
  rw [blockXor_mem e1]
  simp only [Opd.get]
  have g5 := e1.put (r := .gBuf) (blockXor_length (M4 .eXorBuf) (M4 hs))
  rw [blockXor_mem g5]
  simp only [Opd.get, put_same]
  refine ⟨g5.put (blockXor_length _ _), ?_, fun r hr => ?_⟩
  · rw [put_ne _ _ h2.2, e3 _ h1.1, e3 _ h2.1, hf _ h1, hf _ h2, e2, hf _ h2]
  · rw [put_ne _ _ hr.2, put_ne _ _ hr.2, e3 _ hr.1, hf _ hr]

/-- One pass of the loop of `Gost12.add512bit`. -/
def addPassV (chk data : Bytes) (st : BitVec 16 × Bytes) (i : Nat) : BitVec 16 × Bytes :=
  let ss := (at8 chk i).setWidth 16 + (at8 data i).setWidth 16 + (st.1 >>> 8)
  (ss, st.2.set i ((0xFF#16 &&& ss).setWidth 8))
theorem add_val (x y : Bytes) : Gost12.add512bit x y = (forLoop 0 64 (addPassV x y) (0, zeros 64)).2 := rfl

theorem addV_init (x y d : Bytes) (hd : d.length = 64) : (forLoop 0 64 (addPassV x y) (0, d)).2 = (forLoop 0 64 (addPassV x y) (0, zeros 64)).2 := by
  have := forLoop_rel (fun n (a b : BitVec 16 × Bytes) => a.1 = b.1 ∧ a.2.length = 64 ∧ b.2.length = 64 ∧ ∀ i, i < n → at8 a.2 i = at8 b.2 i)
    (f := addPassV x y) (g := addPassV x y) (a := (0, d)) (b := (0, zeros 64)) 64 ⟨rfl, hd, by simp, fun i h => by omega⟩ (by
      rintro n ⟨s, a⟩ ⟨t, b⟩ hn ⟨h1, h2, h3, h4⟩
      dsimp only at h1 h2 h3 h4
      subst h1
      unfold addPassV
      dsimp only
      refine ⟨rfl, by rw [List.length_set, h2], by rw [List.length_set, h3], fun i hi => ?_⟩
      rw [at8_set, at8_set]
      by_cases hc : n = i
      · rw [if_pos ⟨hc, by omega⟩, if_pos ⟨hc, by omega⟩]
      · rw [if_neg (fun h => hc h.1), if_neg (fun h => hc h.1), h4 i (by omega)])
  obtain ⟨_, h2, h3, h4⟩ := this
  exact ext_at8 (by rw [h2, h3]) fun i hi => h4 i (by omega)

theorem add_mem {M : Mem} (h : Good M) {x data : Ref} (h1 : x ≠ .addBuf) (h2 : data ≠ .addBuf) :
    add512bit M (.ref x) (.ref data) = M.put .addBuf (Gost12.add512bit (M x) (M data)) := by
  rw [add_val, ← addV_init _ _ (M .addBuf) (h _)]
  unfold add512bit
  refine (forLoop_rel (fun _ (a : BitVec 16 × Mem) (b : BitVec 16 × Bytes) => a.1 = b.1 ∧ a.2 = M.put .addBuf b.2)
    (g := addPassV (M x) (M data)) (b := (0, M .addBuf)) 64 ⟨rfl, (put_self M .addBuf).symm⟩ ?_).2
  rintro n ⟨s, a⟩ ⟨t, b⟩ hn ⟨e1, e2⟩
  dsimp only at e1 e2
  subst e1 e2
  unfold addPassV
  simp only [Opd.get, put_same, put_put, put_ne _ _ h1, put_ne _ _ h2, and_self]

theorem add_length (x y : Bytes) : (Gost12.add512bit x y).length = 64 := by
  rw [add_val]
  exact forLoop_inv (a := 0) (b := 64) (fun _ (st : BitVec 16 × Bytes) => st.2.length = 64) (Nat.zero_le _) (by simp)
    (fun j st _ _ h => by unfold addPassV; simp only [List.length_set]; exact h)

/-- What the object is on values. -/
def Obj.abs (o : Obj) : Gost12.Digest := ⟨o.size, o.buf, o.n, o.mem .hsh, o.mem .chk⟩

attribute [local irreducible] add512bit Gost12.g Gost12.add512bit

theorem g_length (n : U64) (x y : Bytes) : (Gost12.g n x y).length = 64 := by
  unfold Gost12.g; exact blockXor_length _ _

theorem core_hsh : Core .hsh := by unfold Core Outside; decide
theorem core_chk : Core .chk := by unfold Core Outside; decide
theorem core_tmp : Core .tmp := by unfold Core Outside; decide
theorem core_addBuf : Core .addBuf := by unfold Core Outside; decide
theorem core_buf1 : Core .buf1 := by unfold Core Outside; decide
theorem core_hsh1 : Core .hsh1 := by unfold Core Outside; decide

theorem pass_mem {M : Mem} (h : Good M) (n : U64) {b : Bytes} (hb : 64 ≤ b.length) :
    Good (pass M n b) ∧ pass M n b .hsh = Gost12.g n (M .hsh) (b.take 64) ∧ pass M n b .chk = Gost12.add512bit (M .chk) (b.take 64) := by
  have hl : (b.take 64).length = 64 := by rw [List.length_take]; omega
  unfold pass
  dsimp only
  rw [goCopy_whole _ _ (h _) hl]
  have g1 := h.put (r := .tmp) hl
  obtain ⟨c1, c2, c3⟩ := g_mem g1 n core_hsh core_tmp
  have c4 := c3 .tmp core_tmp
  have c5 := c3 .chk core_chk
  rw [put_same, put_ne _ _ (by decide)] at c2
  rw [put_same] at c4
  rw [put_ne _ _ (by decide)] at c5
  generalize g (M.put .tmp (b.take 64)) n (.ref .hsh) (.ref .tmp) = M1 at c1 c2 c3 c4 c5 ⊢
  rw [goCopy_whole _ _ (c1 _) (c1 _)]
  have g2 := c1.put (r := .hsh) (c1 .gBuf)
  rw [add_mem g2 (by decide) (by decide)]
  have g3 := g2.put (r := .addBuf) (add_length ((M1.put .hsh (M1 .gBuf)) .chk) ((M1.put .hsh (M1 .gBuf)) .tmp))
  rw [goCopy_whole _ _ (g3 _) (g3 _)]
  refine ⟨g3.put (g3 .addBuf), ?_, ?_⟩
  · rw [put_ne _ _ (by decide), put_ne _ _ (by decide), put_same, c2]
  · rw [put_same, put_same, put_ne _ _ (by decide), put_ne _ _ (by decide), c5, c4]

attribute [local irreducible] pass

theorem writeLoop_mem (fuel : Nat) : ∀ o : Obj, Good o.mem →
    Good (writeLoop fuel o).mem ∧ (writeLoop fuel o).abs = Gost12.writeLoop fuel o.abs := by
  induction fuel with
  | zero => intro o h; exact ⟨h, rfl⟩
  | succ fuel ih =>
    intro o h
    rw [writeLoop, Gost12.writeLoop]
    by_cases hb : o.buf.length ≥ 64
    · obtain ⟨p1, p2, p3⟩ := pass_mem h o.n hb
      rw [if_pos hb, if_pos (show o.abs.buf.length ≥ 64 from hb)]
      obtain ⟨q1, q2⟩ := ih { o with mem := pass o.mem o.n o.buf, n := o.n + 64 * 8, buf := o.buf.drop 64 } p1
      refine ⟨q1, ?_⟩
      rw [q2]
      refine congrArg (Gost12.writeLoop fuel) ?_
      unfold Obj.abs
      dsimp only
      rw [p2, p3]
    · rw [if_neg hb, if_neg (show ¬ o.abs.buf.length ≥ 64 from hb)]
      exact ⟨h, rfl⟩

theorem gHsh_mem {M : Mem} (h : Good M) (n : U64) {x data : Ref} (h1 : Core x) (h2 : Core data) :
    Good (gHsh M n x data) ∧ gHsh M n x data .hsh1 = Gost12.g n (M x) (M data) ∧
    ∀ r, Core r → r ≠ .hsh1 → gHsh M n x data r = M r := by
  obtain ⟨c1, c2, c3⟩ := g_mem h n h1 h2
  unfold gHsh
  dsimp only
  rw [goCopy_whole _ _ (c1 _) (c1 _)]
  exact ⟨c1.put (c1 _), by rw [put_same, c2], fun r hr hn => by rw [put_ne _ _ hn, c3 r hr]⟩

attribute [local irreducible] gHsh

theorem sumBuf_mem {M : Mem} (h : Good M) (b : Bytes) :
    Good (sumBuf M b) ∧ sumBuf M b .buf1 = (goCopy (zeros 64) 0 b).set b.length 1#8 ∧ sumBuf M b .tmp = zeros 64 ∧
    sumBuf M b .hsh = M .hsh ∧ sumBuf M b .chk = M .chk := by
  have hz : (zeros 64).length = 64 := by simp
  have g1 := h.put (r := .buf1) hz
  have g2 := g1.put (r := .hsh1) hz
  unfold sumBuf
  dsimp only
  rw [goCopy_whole _ _ (g2 _) (g2 _)]
  have g3 := g2.put (r := .tmp) (g2 .buf1)
  have e1 : (((M.put .buf1 (zeros 64)).put .hsh1 (zeros 64)).put .tmp (((M.put .buf1 (zeros 64)).put .hsh1 (zeros 64)) .buf1)) .buf1 = zeros 64 := by
    rw [put_ne _ _ (by decide), put_ne _ _ (by decide), put_same]
  have hc : ((goCopy (zeros 64) 0 b).set b.length 1#8).length = 64 := by
    rw [List.length_set, goCopy_length _ _ _ (Nat.zero_le _)]; simp
  rw [put_put, put_same, e1]
  refine ⟨g3.put hc, put_same _ _ _, ?_, ?_, ?_⟩
  · rw [put_ne _ _ (by decide), put_same, put_ne _ _ (by decide), put_same]
  · rw [put_ne _ _ (by decide), put_ne _ _ (by decide), put_ne _ _ (by decide), put_ne _ _ (by decide)]
  · rw [put_ne _ _ (by decide), put_ne _ _ (by decide), put_ne _ _ (by decide), put_ne _ _ (by decide)]

attribute [local irreducible] sumBuf

/-- `Sum` returns what it returns on values and leaves the two arrays of the state as they were. -/
theorem checkSum_mem (o : Obj) (h : Good o.mem) :
    (checkSum o = none ∧ Gost12.checkSum o.abs = none) ∨
    ∃ M d, checkSum o = some (M, d) ∧ Gost12.checkSum o.abs = some d ∧ Good M ∧ M .hsh = o.mem .hsh ∧ M .chk = o.mem .chk := by
  unfold checkSum Gost12.checkSum
  by_cases hb : o.buf.length ≥ 64
  · rw [if_pos hb, if_pos (show o.abs.buf.length ≥ 64 from hb)]; exact Or.inl ⟨rfl, rfl⟩
  · rw [if_neg hb, if_neg (show ¬ o.abs.buf.length ≥ 64 from hb)]
    unfold Obj.abs
    dsimp only
    obtain ⟨a1, a2, a3, a4, a5⟩ := sumBuf_mem h o.buf
    generalize sumBuf o.mem o.buf = M1 at a1 a2 a3 a4 a5 ⊢
    obtain ⟨b1, b2, b3⟩ := gHsh_mem a1 o.n core_hsh core_buf1
    have b4 := b3 .hsh core_hsh (by decide)
    have b5 := b3 .chk core_chk (by decide)
    have b6 := b3 .tmp core_tmp (by decide)
    have b7 := b3 .buf1 core_buf1 (by decide)
    clear b3
    generalize gHsh M1 o.n .hsh .buf1 = M2 at b1 b2 b4 b5 b6 b7 ⊢
    have hl : (goCopy (M2 .tmp) 0 (le64 (o.n + BitVec.ofNat 64 o.buf.length * 8))).length = 64 := by rw [goCopy_length _ _ _ (Nat.zero_le _), b1]
    rw [b6, a3] at hl ⊢
    generalize goCopy (zeros 64) 0 (le64 (o.n + BitVec.ofNat 64 o.buf.length * 8)) = t at hl ⊢
    have c0 := b1.put (r := .tmp) hl
    obtain ⟨c1, c2, c3⟩ := gHsh_mem c0 0 core_hsh1 core_tmp
    have c4 := c3 .hsh core_hsh (by decide)
    have c5 := c3 .chk core_chk (by decide)
    have c7 := c3 .buf1 core_buf1 (by decide)
    clear c3
    rw [put_same, put_ne _ _ (by decide)] at c2
    rw [put_ne _ _ (by decide)] at c4 c5 c7
    generalize gHsh (M2.put .tmp t) 0 .hsh1 .tmp = M3 at c1 c2 c4 c5 c7 ⊢
    rw [add_mem c1 (by decide) (by decide)]
    have d0 := c1.put (r := .addBuf) (add_length (M3 .chk) (M3 .buf1))
    obtain ⟨d1, d2, d3⟩ := gHsh_mem d0 0 core_hsh1 core_addBuf
    have d4 := d3 .hsh core_hsh (by decide)
    have d5 := d3 .chk core_chk (by decide)
    clear d3
    rw [put_same, put_ne _ _ (by decide)] at d2
    rw [put_ne _ _ (by decide)] at d4 d5
    generalize gHsh (M3.put .addBuf (Gost12.add512bit (M3 .chk) (M3 .buf1))) 0 .hsh1 .addBuf = M4 at d1 d2 d4 d5 ⊢
    refine Or.inr ⟨M4, _, rfl, ?_, d1, by rw [d4, c4, b4, a4], by rw [d5, c5, b5, a5]⟩
    rw [d2, c2, c5, c7, b2, b5, b7, a2, a4, a5]

theorem at8_rep (v : Byte) {n i : Nat} (h : i < n) : at8 (List.replicate n v) i = v := by
  unfold at8
  rw [List.getD_eq_getElem?_getD, List.getElem?_replicate_of_lt h]
  rfl

theorem reset_mem (o : Obj) (h : Good o.mem) : Good (reset o).mem ∧ (reset o).abs = Gost12.reset o.abs := by
  have key := forLoop_rel (fun n (M : Mem) (_ : Unit) => Good M ∧ ∀ i, i < n → at8 (M .chk) i = 0 ∧ at8 (M .hsh) i = if o.size = 32 then 1#8 else 0#8)
    (f := fun (M : Mem) i =>
      let M := M.put .chk ((M .chk).set i 0)
      if o.size = 32 then M.put .hsh ((M .hsh).set i 1) else M.put .hsh ((M .hsh).set i 0)) (g := fun u _ => u) (a := o.mem) (b := ()) 64
    ⟨h, fun i hi => by omega⟩ (by
      rintro n M _ hn ⟨h1, h2⟩
      dsimp only
      have g1 : Good (M.put .chk ((M .chk).set n 0)) := h1.put (by rw [List.length_set, h1])
      have he : (if o.size = 32 then (M.put .chk ((M .chk).set n 0)).put .hsh (((M.put .chk ((M .chk).set n 0)) .hsh).set n 1)
          else (M.put .chk ((M .chk).set n 0)).put .hsh (((M.put .chk ((M .chk).set n 0)) .hsh).set n 0)) =
          (M.put .chk ((M .chk).set n 0)).put .hsh ((M .hsh).set n (if o.size = 32 then 1#8 else 0#8)) := by
        rw [put_ne _ _ (by decide)]; split <;> rfl
      rw [he]
      refine ⟨g1.put (by rw [List.length_set, h1]), fun i hi => ?_⟩
      rw [put_ne _ _ (by decide), put_same, put_same, at8_set, at8_set]
      by_cases hc : n = i
      · rw [if_pos ⟨hc, by rw [h1]; omega⟩, if_pos ⟨hc, by rw [h1]; omega⟩]; exact ⟨rfl, rfl⟩
      · rw [if_neg (fun h => hc h.1), if_neg (fun h => hc h.1)]; exact h2 i (by omega))
  unfold reset Gost12.reset Obj.abs
  dsimp only
  generalize forLoop 0 64 _ o.mem = M at key ⊢
  obtain ⟨h1, h2⟩ := key
  refine ⟨h1, ?_⟩
  have e1 : M .chk = zeros 64 := ext_at8 (by rw [h1]; simp) fun i hi => by
    rw [h1] at hi
    rw [(h2 i hi).1]; exact (at8_rep 0 hi).symm
  have e2 : M .hsh = if o.size = 32 then List.replicate 64 1#8 else List.replicate 64 0#8 := ext_at8 (by rw [h1]; split <;> simp) fun i hi => by
    rw [h1] at hi
    rw [(h2 i hi).2]; split <;> exact (at8_rep _ hi).symm
  rw [e1, e2]

end Verif.Gost12Mem
