import Verif.Spec.BLAKE
import Verif.Model.BLAKE256
import Verif.Bits
/-
Lemmas connecting the blake256 model with the BLAKE proposal.
-/
namespace Verif.BLAKE256
set_option linter.unusedSimpArgs false

theorem rotr_eq (x : U32) (n : Nat) (h0 : 0 < n) (h : n < 32) : rotr x n = x.rotateRight n := by
  unfold rotr
  rw [BitVec.rotateLeft_def, BitVec.rotateRight_def, Nat.mod_eq_of_lt h,
    Nat.mod_eq_of_lt (show 32 - n < 32 by omega), show 32 - (32 - n) = n by omega, BitVec.or_comm]

theorem sigma_eq : ∀ i, i < 14 → ∀ k, k < 16 → (sigma.getD i []).getD k 0 = Spec.BLAKE.sig i k := by
  decide +kernel

theorem u256_eq : u256 = Spec.BLAKE.P32.c := by decide +kernel

/-- The state of the proposal as the array of the code. -/
def toList (v : Spec.BLAKE.State 32) : List U32 :=
  [v.v0, v.v1, v.v2, v.v3, v.v4, v.v5, v.v6, v.v7, v.v8, v.v9, v.v10, v.v11, v.v12, v.v13, v.v14, v.v15]

/-- The quadruple computed by `G` of the code, from the four entries. -/
theorem G_vals (m : List U32) (i : Nat) (hi : i < 14) (e k : Nat) (he : e = 2 * k) (hk : k < 8) (a b c d : U32) :
    Spec.BLAKE.G Spec.BLAKE.P32 (fun k => m.getD k 0) i k (a, b, c, d) =
    (let sg (k : Nat) := (sigma.getD i []).getD k 0
     let a := a + ((m.getD (sg e) 0 ^^^ u256.getD (sg (e+1)) 0) + b)
     let d := rotr (d ^^^ a) 16
     let c := c + d
     let b := rotr (b ^^^ c) 12
     let a := a + ((m.getD (sg (e+1)) 0 ^^^ u256.getD (sg e) 0) + b)
     let d := rotr (d ^^^ a) 8
     let c := c + d
     (a, rotr (b ^^^ c) 7, c, d)) := by
  subst he
  simp only [Spec.BLAKE.G, sigma_eq i hi (2*k) (by omega), sigma_eq i hi (2*k+1) (by omega), u256_eq]
  simp only [rotr_eq _ 16 (by decide) (by decide), rotr_eq _ 12 (by decide) (by decide),
    rotr_eq _ 8 (by decide) (by decide), rotr_eq _ 7 (by decide) (by decide)]
  simp only [show Spec.BLAKE.P32.r1 = 16 from rfl, show Spec.BLAKE.P32.r2 = 12 from rfl,
    show Spec.BLAKE.P32.r3 = 8 from rfl, show Spec.BLAKE.P32.r4 = 7 from rfl]
  have hadd : ∀ a x b : U32, a + (x + b) = a + b + x := by intros; ac_rfl
  simp only [hadd]

theorem round_eq (m : List U32) (i : Nat) (hi : i < 14) (v : Spec.BLAKE.State 32) :
    roundBody m (toList v) i = toList (Spec.BLAKE.round Spec.BLAKE.P32 (fun k => m.getD k 0) i v) := by
  unfold Spec.BLAKE.round
  rw [G_vals m i hi 0 0 rfl (by decide), G_vals m i hi 2 1 rfl (by decide),
    G_vals m i hi 4 2 rfl (by decide), G_vals m i hi 6 3 rfl (by decide)]
  simp only []
  rw [G_vals m i hi 8 4 rfl (by decide), G_vals m i hi 10 5 rfl (by decide),
    G_vals m i hi 12 6 rfl (by decide), G_vals m i hi 14 7 rfl (by decide)]
  simp only [roundBody, G, toList, List.set_cons_zero, List.set_cons_succ,
    List.getD_cons_zero, List.getD_cons_succ]

theorem rounds_eq (m : List U32) (v : Spec.BLAKE.State 32) :
    forLoop 0 14 (roundBody m) (toList v) =
      toList (Spec.BLAKE.rounds Spec.BLAKE.P32 (fun k => m.getD k 0) v 14) := by
  refine forLoop_inv (a := 0) (b := 14)
    (fun j (l : List U32) => l = toList (Spec.BLAKE.rounds Spec.BLAKE.P32 (fun k => m.getD k 0) v j))
    (by omega) rfl ?_
  intro j l _ hj ih
  rw [ih, round_eq m j hj]
  rfl

theorem getBE32_oob (p : Bytes) (i : Nat) (h : p.length ≤ i) : getBE32 p i = 0 := by
  have : ∀ j, i ≤ j → at8 p j = 0#8 := by
    intro j hj; simp [at8, List.getD_eq_getElem?_getD, List.getElem?_eq_none (show p.length ≤ j by omega)]
  simp only [getBE32, this i (by omega), this (i+1) (by omega), this (i+2) (by omega), this (i+3) (by omega)]
  rfl

theorem words_eq (p : Bytes) (h : p.length = 64) :
    (fun k => (bytesToUint32s p).getD k 0) = fun k => getBE32 p (4 * k) := by
  funext k
  unfold bytesToUint32s
  rw [h]
  by_cases hk : k < 16
  · simp [List.getD_eq_getElem?_getD, hk, Nat.mul_comm]
  · rw [getBE32_oob p _ (by omega)]
    simp [List.getD_eq_getElem?_getD, hk]

/-- The block function of the code is the compression function of the proposal. -/
theorem compress_eq (d : State) (p : Bytes) (hh : d.h.length = 8) (hp : p.length = 64) :
    compress d p = State.mk d.s (Spec.BLAKE.compress Spec.BLAKE.P32 d.s d.h
        (if d.nullt then 0 else (d.t + 512#64).setWidth 32)
        (if d.nullt then 0 else ((d.t + 512#64) >>> 32).setWidth 32) (fun k => getBE32 p (4 * k)))
      (d.t + 512#64) d.nullt := by
  obtain ⟨s, h, t, nullt⟩ := d
  simp only at hh
  unfold compress Spec.BLAKE.compress
  simp only
  have h1 : (if (!nullt) = true then BitVec.setWidth 32 (t + 512#64) else 0) =
      (if nullt = true then 0 else BitVec.setWidth 32 (t + 512#64)) := by cases nullt <;> rfl
  have h2 : (if (!nullt) = true then BitVec.setWidth 32 ((t + 512#64) >>> 32) else 0) =
      (if nullt = true then 0 else BitVec.setWidth 32 ((t + 512#64) >>> 32)) := by cases nullt <;> rfl
  rw [h1, h2]
  generalize (if nullt = true then (0 : U32) else BitVec.setWidth 32 (t + 512#64)) = t0
  generalize (if nullt = true then (0 : U32) else BitVec.setWidth 32 ((t + 512#64) >>> 32)) = t1
  match h, hh with
  | [h0, h1, h2, h3, h4, h5, h6, h7], _ =>
    simp only [List.getD_cons_zero, List.getD_cons_succ]
    rw [← words_eq p hp]
    have := rounds_eq (bytesToUint32s p) ⟨h0, h1, h2, h3, h4, h5, h6, h7,
      s.getD 0 0 ^^^ Spec.BLAKE.P32.c.getD 0 0, s.getD 1 0 ^^^ Spec.BLAKE.P32.c.getD 1 0,
      s.getD 2 0 ^^^ Spec.BLAKE.P32.c.getD 2 0, s.getD 3 0 ^^^ Spec.BLAKE.P32.c.getD 3 0,
      t0 ^^^ Spec.BLAKE.P32.c.getD 4 0, t0 ^^^ Spec.BLAKE.P32.c.getD 5 0,
      t1 ^^^ Spec.BLAKE.P32.c.getD 6 0, t1 ^^^ Spec.BLAKE.P32.c.getD 7 0⟩
    rw [u256_eq, BitVec.xor_comm (Spec.BLAKE.P32.c.getD 4 0), BitVec.xor_comm (Spec.BLAKE.P32.c.getD 5 0),
      BitVec.xor_comm (Spec.BLAKE.P32.c.getD 6 0), BitVec.xor_comm (Spec.BLAKE.P32.c.getD 7 0)]
    simp only [toList] at this
    rw [show List.take 8 [h0, h1, h2, h3, h4, h5, h6, h7] = [h0, h1, h2, h3, h4, h5, h6, h7] from rfl]
    simp only [List.cons_append, List.nil_append]
    rw [this]
    rw [show Spec.BLAKE.P32.rounds = 14 from rfl]
    generalize Spec.BLAKE.rounds Spec.BLAKE.P32 _ _ 14 = v
    have e1 : ∀ a b c d : U32, a ^^^ b ^^^ c ^^^ d = a ^^^ d ^^^ b ^^^ c := by intros; ac_rfl
    have loop1 : ∀ (h0 h1 h2 h3 h4 h5 h6 h7 v0 v1 v2 v3 v4 v5 v6 v7 v8 v9 v10 v11 v12 v13 v14 v15 : U32),
      forLoop 0 16 (fun (h : List U32) i => h.set (i % 8) (h.getD (i % 8) 0 ^^^
        [v0, v1, v2, v3, v4, v5, v6, v7, v8, v9, v10, v11, v12, v13, v14, v15].getD i 0))
        [h0, h1, h2, h3, h4, h5, h6, h7] =
      [h0 ^^^ v0 ^^^ v8, h1 ^^^ v1 ^^^ v9, h2 ^^^ v2 ^^^ v10, h3 ^^^ v3 ^^^ v11, h4 ^^^ v4 ^^^ v12,
       h5 ^^^ v5 ^^^ v13, h6 ^^^ v6 ^^^ v14, h7 ^^^ v7 ^^^ v15] := by intros; rfl
    have loop2 : ∀ (h0 h1 h2 h3 h4 h5 h6 h7 : U32),
      forLoop 0 8 (fun (h : List U32) i => h.set i (h.getD i 0 ^^^ s.getD (i % 4) 0))
        [h0, h1, h2, h3, h4, h5, h6, h7] =
      [h0 ^^^ s.getD 0 0, h1 ^^^ s.getD 1 0, h2 ^^^ s.getD 2 0, h3 ^^^ s.getD 3 0, h4 ^^^ s.getD 0 0,
       h5 ^^^ s.getD 1 0, h6 ^^^ s.getD 2 0, h7 ^^^ s.getD 3 0] := by intros; rfl
    rw [loop1, loop2]
    simp only [e1 _ _ _ (s.getD _ 0)]

theorem compress_h_length (d : State) (p : Bytes) (hh : d.h.length = 8) (hp : p.length = 64) :
    (compress d p).h.length = 8 := by rw [compress_eq d p hh hp]; rfl

/-- The state after the full blocks of a message. -/
theorem foldl_eq (s : List U32) (len : Nat) (l : List Bytes) : ∀ (h : List U32) (i : Nat),
    h.length = 8 → (∀ b ∈ l, b.length = 64) → 64 * (i + l.length) ≤ len →
    l.foldl compress (State.mk s h (BitVec.ofNat 64 (512 * i)) false) =
      State.mk s ((l.zipIdx i).foldl (Spec.BLAKE.step32 s len) h) (BitVec.ofNat 64 (512 * (i + l.length))) false ∧
    ((l.zipIdx i).foldl (Spec.BLAKE.step32 s len) h).length = 8 := by
  induction l with
  | nil => intro h i hh _ _; exact ⟨rfl, hh⟩
  | cons b l ih =>
    intro h i hh hl hle
    simp only [List.length_cons] at hle
    have e := compress_eq ⟨s, h, BitVec.ofNat 64 (512 * i), false⟩ b hh (hl b List.mem_cons_self)
    have ht : BitVec.ofNat 64 (512 * i) + 512#64 = BitVec.ofNat 64 (512 * (i + 1)) := by
      rw [show 512#64 = BitVec.ofNat 64 512 from rfl, ofNat64_add]; congr 1
    have hc : Spec.BLAKE.counter 64 len i = 512 * (i + 1) := by
      unfold Spec.BLAKE.counter
      rw [if_pos (by omega), Nat.min_eq_left (by omega)]; omega
    simp only [ht, Bool.false_eq_true, if_false] at e
    have hstep : Spec.BLAKE.step32 s len h (b, i) = Spec.BLAKE.compress Spec.BLAKE.P32 s h
        (BitVec.setWidth 32 (BitVec.ofNat 64 (512 * (i + 1))))
        (BitVec.setWidth 32 (BitVec.ofNat 64 (512 * (i + 1)) >>> 32)) (fun k => getBE32 b (4 * k)) := by
      simp only [Spec.BLAKE.step32, hc]
    rw [List.foldl_cons, e, ← hstep, List.zipIdx_cons, List.foldl_cons, List.length_cons,
      show i + (l.length + 1) = (i + 1) + l.length by omega]
    exact ih _ (i+1) (by rw [hstep]; rfl) (fun x hx => hl x (List.mem_cons_of_mem _ hx)) (by omega)

theorem pend_sub {d : Digest} {s h : List U32} {t : U64} {b : Bool} {r : Bytes}
    (hp : Pend 64 d (State.mk s h t b) r) (k : U64) : Pend 64 (subT d k) (State.mk s h (t - k) b) r :=
  hp.upd _ (by simp only [subT, hp.st]) rfl rfl
theorem pend_null {d : Digest} {s h : List U32} {t : U64} {b : Bool} {r : Bytes}
    (hp : Pend 64 d (State.mk s h t b) r) : Pend 64 (setNull d) (State.mk s h t true) r :=
  hp.upd _ (by simp only [setNull, hp.st]) rfl rfl

/-- One block with the counter of the proposal. -/
theorem compress_step (s h : List U32) (t : U64) (b : Bool) (p : Bytes) (len k : Nat)
    (hh : h.length = 8) (hp : p.length = 64)
    (hc : if b then Spec.BLAKE.counter 64 len k = 0
      else t + 512#64 = BitVec.ofNat 64 (Spec.BLAKE.counter 64 len k)) :
    (compress (State.mk s h t b) p).h = Spec.BLAKE.step32 s len h (p, k) := by
  rw [compress_eq _ p hh hp]
  unfold Spec.BLAKE.step32
  cases b
  · simp only [Bool.false_eq_true, if_false] at hc ⊢
    rw [hc]
  · simp only [if_true] at hc ⊢
    rw [hc]; rfl

/-- The bit `e` of the padding. -/
def ebit (hs : Nat) : Byte := if hs = 224 then 0#8 else 1#8

theorem write_e (hs : Nat) (d : Digest) :
    (if hs = 224 then write d [0x00#8] else write d [0x01#8]) = write d [ebit hs] := by
  unfold ebit; split <;> rfl
theorem write_e1 (hs : Nat) (d : Digest) :
    (if hs = 224 then write d [0x80#8] else write d [0x81#8]) = write d [0x80#8 ||| ebit hs] := by
  unfold ebit; split <;> rfl

theorem pad_take (n : Nat) (h : n < 64) : pad.take (n + 1) = 0x80#8 :: zeros n := by
  simp only [pad, List.take_succ_cons]
  rw [take_zeros _ _ (by omega)]

/-- The chaining value after the padding blocks. -/
theorem final_h (hs : Nat) (d : Digest) (s h : List U32) (m : Bytes)
    (hh : h.length = 8)
    (hp : Pend 64 d (State.mk s h (BitVec.ofNat 64 (512 * (m.length / 64))) false) (restBlock 64 m)) :
    checkSum hs d = ((((((fullBlocks 64 (restBlock 64 m ++ (Spec.BLAKE.mid (ebit hs) (Spec.BLAKE.midLen 64 8 m.length)
      ++ be64 (BitVec.ofNat 64 (8 * m.length))))).zipIdx (m.length / 64)).foldl
        (Spec.BLAKE.step32 s m.length) h).take (hs / 32)).map be32).flatten).take (hs / 8) := by
  have hrl := restBlock_length 64 m
  have hnx := hp.nx
  rw [hrl] at hnx
  have hlen : m.length = 64 * (m.length / 64) + m.length % 64 := by omega
  have hlt : m.length % 64 < 64 := Nat.mod_lt _ (by decide)
  generalize hi : m.length / 64 = i at *
  generalize hn : m.length % 64 = n at *
  have hmsg : d.s.t + BitVec.ofNat 64 n <<< 3 = BitVec.ofNat 64 (8 * m.length) := by
    rw [hp.st]
    apply BitVec.eq_of_toNat_eq
    simp [BitVec.toNat_shiftLeft, Nat.shiftLeft_eq]
    omega
  unfold checkSum
  simp only [hnx, hmsg, write_e, write_e1]
  have hl64 : (be64 (BitVec.ofNat 64 (8 * m.length))).length = 8 := be64_length _
  generalize hL : be64 (BitVec.ofNat 64 (8 * m.length)) = L at *
  have hml : Spec.BLAKE.midLen 64 8 m.length = if n < 56 then 56 - n else 120 - n := by
    unfold Spec.BLAKE.midLen; rw [hn]
  rw [hml]
  have cnt : n ≠ 0 → Spec.BLAKE.counter 64 m.length i = 512 * i + 8 * n := by
    intro h0; unfold Spec.BLAKE.counter; rw [if_pos (by omega)]; omega
  have cnt0 : n = 0 → Spec.BLAKE.counter 64 m.length i = 0 := by
    intro h0; unfold Spec.BLAKE.counter; rw [if_neg (by omega)]
  have cnt1 : Spec.BLAKE.counter 64 m.length (i+1) = 0 := by
    unfold Spec.BLAKE.counter; rw [if_neg (by omega)]
  by_cases h55 : n = 55
  · rw [if_pos h55, if_pos (by omega)]
    subst h55
    have p1 := pend_sub hp 8
    have p2 := p1.absorb_lt compress [0x80#8 ||| ebit hs] (by rw [hrl]; simp)
    have p3 := pend_sub p2 64
    have p4 := p3.absorb_eq compress L (by simp [hrl, hl64]) (by decide)
    have e := p4.st
    simp only [write] at e ⊢
    rw [e]
    rw [show Spec.BLAKE.mid (ebit hs) (56 - 55) = [0x80#8 ||| ebit hs] from rfl,
      ← List.append_assoc]
    rw [fullBlocks_one 64 _ (by decide) (by simp [hrl, hl64])]
    simp only [List.zipIdx_cons, List.zipIdx_nil, List.foldl_cons, List.foldl_nil]
    rw [compress_step s h _ _ _ m.length i hh (by simp [hrl, hl64])]
    simp only [Bool.false_eq_true, if_false]
    rw [cnt (by decide)]
    apply BitVec.eq_of_toNat_eq
    simp
    omega
  · rw [if_neg h55]
    by_cases hlt55 : n < 55
    · rw [if_pos hlt55, if_pos (show n < 56 by omega)]
      have hb : ∃ b, Pend 64 (if n = 0 then setNull d else d)
          (State.mk s h (BitVec.ofNat 64 (512 * i)) b) (restBlock 64 m) ∧ (b = decide (n = 0)) := by
        by_cases h0 : n = 0
        · rw [if_pos h0]; exact ⟨true, pend_null hp, by simp [h0]⟩
        · rw [if_neg h0]; exact ⟨false, hp, by simp [h0]⟩
      obtain ⟨b, p0, hbn⟩ := hb
      have p1 := pend_sub p0 (440 - BitVec.ofNat 64 n <<< 3)
      have hpt : pad.take (55 - n) = 0x80#8 :: zeros (54 - n) := by
        rw [show 55 - n = (54 - n) + 1 by omega, pad_take _ (by omega)]
      rw [hpt]
      have p2 := p1.absorb_lt compress (0x80#8 :: zeros (54 - n)) (by rw [hrl]; simp; omega)
      have p3 := p2.absorb_lt compress [ebit hs] (by simp [hrl]; omega)
      have p4 := pend_sub (pend_sub p3 8) 64
      have p5 := p4.absorb_eq compress L (by simp [hrl, hl64]; omega) (by decide)
      have e := p5.st
      simp only [write] at e ⊢
      rw [e]
      have hmid : Spec.BLAKE.mid (ebit hs) (56 - n) = 0x80#8 :: zeros (54 - n) ++ [ebit hs] := by
        unfold Spec.BLAKE.mid; rw [if_neg (by omega), show 56 - n - 2 = 54 - n by omega]
      rw [hmid, ← List.append_assoc, ← List.append_assoc]
      rw [fullBlocks_one 64 _ (by decide) (by simp [hrl, hl64]; omega)]
      simp only [List.zipIdx_cons, List.zipIdx_nil, List.foldl_cons, List.foldl_nil]
      rw [compress_step s h _ _ _ m.length i hh (by simp [hrl, hl64]; omega)]
      rw [hbn]
      by_cases h0 : n = 0
      · simp only [h0, decide_true, if_true]; exact cnt0 h0
      · simp only [h0, decide_false, Bool.false_eq_true, if_false]
        rw [cnt h0]
        apply BitVec.eq_of_toNat_eq
        simp [BitVec.toNat_sub, BitVec.toNat_shiftLeft, Nat.shiftLeft_eq]
        omega
    · rw [if_neg hlt55, if_neg (by omega)]
      have p1 := pend_sub hp (512 - BitVec.ofNat 64 n <<< 3)
      have hpt : pad.take (64 - n) = 0x80#8 :: zeros (63 - n) := by
        rw [show 64 - n = (63 - n) + 1 by omega, pad_take _ (by omega)]
      have hpd : (pad.take 56).drop 1 = zeros 55 := rfl
      rw [hpt, hpd]
      have p2 := p1.absorb_eq compress (0x80#8 :: zeros (63 - n)) (by rw [hrl]; simp; omega) (by decide)
      have hb1 : (restBlock 64 m ++ (0x80#8 :: zeros (63 - n))).length = 64 := by simp [hrl]; omega
      have e1 := compress_eq (State.mk s h (BitVec.ofNat 64 (512 * i) - (512 - BitVec.ofNat 64 n <<< 3)) false) _ hh hb1
      have e2 := compress_step s h (BitVec.ofNat 64 (512 * i) - (512 - BitVec.ofNat 64 n <<< 3)) false _ m.length i hh hb1 (by
        simp only [Bool.false_eq_true, if_false]
        rw [cnt (by omega)]
        apply BitVec.eq_of_toNat_eq
        simp [BitVec.toNat_sub, BitVec.toNat_shiftLeft, Nat.shiftLeft_eq]
        omega)
      rw [e1] at e2
      simp only at e2
      simp only [e1, e2] at p2
      have p3 := (pend_sub p2 440).absorb_lt compress (zeros 55) (by simp)
      have p4 := (pend_null p3).absorb_lt compress [ebit hs] (by simp)
      have p5 := (pend_sub (pend_sub p4 8) 64).absorb_eq compress L (by simp [hl64]) (by decide)
      have e := p5.st
      simp only [write] at e ⊢
      rw [e]
      have hmid : Spec.BLAKE.mid (ebit hs) (120 - n) =
          (0x80#8 :: zeros (63 - n)) ++ (([] ++ zeros 55) ++ [ebit hs]) := by
        unfold Spec.BLAKE.mid; rw [if_neg (by omega), show 120 - n - 2 = (63 - n) + 55 by omega, zeros_add]
        simp
      rw [hmid]
      rw [show restBlock 64 m ++ ((0x80#8 :: zeros (63 - n)) ++ (([] ++ zeros 55) ++ [ebit hs]) ++ L) =
        (restBlock 64 m ++ (0x80#8 :: zeros (63 - n))) ++ (([] ++ zeros 55) ++ [ebit hs] ++ L) by
          simp only [List.append_assoc]]
      rw [fullBlocks_two 64 _ _ (by decide) hb1 (by simp [hl64])]
      simp only [List.zipIdx_cons, List.zipIdx_nil, List.foldl_cons, List.foldl_nil]
      rw [compress_step s _ _ _ _ m.length (i+1) (by rfl) (by simp [hl64])]
      simp only [if_true]; exact cnt1

theorem step32_length (s : List U32) (len : Nat) (h : List U32) (b : Bytes × Nat) :
    (Spec.BLAKE.step32 s len h b).length = 8 := rfl

/-- `checkSum` is BLAKE, for every message and salt. -/
theorem checkSum_eq (hs : Nat) (iv s : List U32) (d : Digest) (m : Bytes) (hiv : iv.length = 8)
    (hd : d.Repr 64 compress (State.mk s iv 0#64 false) m) :
    checkSum hs d = (((((fullBlocks 64 (Spec.BLAKE.pad32 (ebit hs) m)).zipIdx.foldl
      (Spec.BLAKE.step32 s m.length) iv).take (hs / 32)).map be32).flatten).take (hs / 8) := by
  have hp := hd.buf.toPend (by decide)
  have hf := foldl_eq s m.length (fullBlocks 64 m) iv 0 hiv (fun b hb => mem_fullBlocks_length 64 m b hb)
    (by rw [fullBlocks_length]; omega)
  rw [show BitVec.ofNat 64 (512 * 0) = 0#64 from rfl, fullBlocks_length, Nat.zero_add] at hf
  rw [hf.1] at hp
  rw [final_h hs d s _ m hf.2 hp]
  unfold Spec.BLAKE.pad32
  rw [List.append_assoc, fullBlocks_append_rest 64 m _ (by decide), List.zipIdx_append, List.foldl_append,
    fullBlocks_length, Nat.zero_add]

end Verif.BLAKE256
