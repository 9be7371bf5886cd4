import Verif.Spec.BLAKE
import Verif.Model.BLAKE512
/-
Lemmas connecting the blake512 model with the BLAKE proposal.
-/
namespace Verif.BLAKE512
set_option linter.unusedSimpArgs false
open Spec.BLAKE (lo64 hi64)

theorem rotr_eq (x : U64) (n : Nat) (h0 : 0 < n) (h : n < 64) : circularRight x n = x.rotateRight n := by
  unfold circularRight
  rw [BitVec.rotateLeft_def, BitVec.rotateRight_def, Nat.mod_eq_of_lt h,
    Nat.mod_eq_of_lt (show 64 - n < 64 by omega), show 64 - (64 - n) = n by omega, BitVec.or_comm]

theorem sigma_eq : ∀ i, i < 16 → ∀ k, k < 16 → sigma.getD (16 * i + k) 0 = Spec.BLAKE.sig i k := by
  decide +kernel

theorem cb_eq : cb = Spec.BLAKE.P64.c := by decide +kernel

/-- The state of the proposal as the variables of the code. -/
def toV (v : Spec.BLAKE.State 64) : V :=
  ⟨v.v0, v.v1, v.v2, v.v3, v.v4, v.v5, v.v6, v.v7, v.v8, v.v9, v.v10, v.v11, v.v12, v.v13, v.v14, v.v15⟩

theorem G_vals (m : List U64) (i : Nat) (hi : i < 16) (k : Nat) (hk : k < 8) (a b c d : U64) :
    Spec.BLAKE.G Spec.BLAKE.P64 (fun k => m.getD k 0) i k (a, b, c, d) =
    (let sg (k : Nat) := sigma.getD k 0
     let a := a + (b + (m.getD (sg (16*i+2*k)) 0 ^^^ cb.getD (sg (16*i+(2*k+1))) 0))
     let d := circularRight (d ^^^ a) 32
     let c := c + d
     let b := circularRight (b ^^^ c) 25
     let a := a + (b + (m.getD (sg (16*i+(2*k+1))) 0 ^^^ cb.getD (sg (16*i+2*k)) 0))
     let d := circularRight (d ^^^ a) 16
     let c := c + d
     (a, circularRight (b ^^^ c) 11, c, d)) := by
  simp only [Spec.BLAKE.G, sigma_eq i hi (2*k) (by omega), sigma_eq i hi (2*k+1) (by omega), cb_eq]
  simp only [rotr_eq _ 32 (by decide) (by decide), rotr_eq _ 25 (by decide) (by decide),
    rotr_eq _ 16 (by decide) (by decide), rotr_eq _ 11 (by decide) (by decide)]
  simp only [show Spec.BLAKE.P64.r1 = 32 from rfl, show Spec.BLAKE.P64.r2 = 25 from rfl,
    show Spec.BLAKE.P64.r3 = 16 from rfl, show Spec.BLAKE.P64.r4 = 11 from rfl]
  simp only [BitVec.add_assoc]

theorem round_eq (m : List U64) (i : Nat) (hi : i < 16) (v : Spec.BLAKE.State 64) :
    roundBody m (toV v) i = toV (Spec.BLAKE.round Spec.BLAKE.P64 (fun k => m.getD k 0) i v) := by
  unfold Spec.BLAKE.round
  rw [G_vals m i hi 0 (by decide), G_vals m i hi 1 (by decide),
    G_vals m i hi 2 (by decide), G_vals m i hi 3 (by decide)]
  simp only []
  rw [G_vals m i hi 4 (by decide), G_vals m i hi 5 (by decide),
    G_vals m i hi 6 (by decide), G_vals m i hi 7 (by decide)]
  simp only [roundBody, toV, Nat.reduceMul, Nat.reduceAdd]

theorem rounds_eq (m : List U64) (v : Spec.BLAKE.State 64) :
    forLoop 0 16 (roundBody m) (toV v) =
      toV (Spec.BLAKE.rounds Spec.BLAKE.P64 (fun k => m.getD k 0) v 16) := by
  refine forLoop_inv (a := 0) (b := 16)
    (fun j (l : V) => l = toV (Spec.BLAKE.rounds Spec.BLAKE.P64 (fun k => m.getD k 0) v j))
    (by omega) rfl ?_
  intro j l _ hj ih
  rw [ih, round_eq m j hj]
  rfl

theorem getBE64_oob (p : Bytes) (i : Nat) (h : p.length ≤ i) : getBE64 p i = 0 := by
  have : ∀ j, i ≤ j → at8 p j = 0#8 := by
    intro j hj; simp [at8, List.getD_eq_getElem?_getD, List.getElem?_eq_none (show p.length ≤ j by omega)]
  simp only [getBE64, this i (by omega), this (i+1) (by omega), this (i+2) (by omega), this (i+3) (by omega),
    this (i+4) (by omega), this (i+5) (by omega), this (i+6) (by omega), this (i+7) (by omega)]
  rfl

theorem words_eq (p : Bytes) (h : p.length = 128) :
    (fun k => ((List.range 16).map fun i => getBE64 p (8 * i)).getD k 0) = fun k => getBE64 p (8 * k) := by
  funext k
  by_cases hk : k < 16
  · simp [List.getD_eq_getElem?_getD, hk]
  · rw [getBE64_oob p _ (by omega)]
    simp [List.getD_eq_getElem?_getD, hk]

/-- The block function of the code is the compression function of the proposal. -/
theorem compress_eq (d : State) (p : Bytes) (hp : p.length = 128) :
    compress d p = State.mk d.s (Spec.BLAKE.compress Spec.BLAKE.P64 d.s d.h
      (tick d.t0 d.t1).1 (tick d.t0 d.t1).2 (fun k => getBE64 p (8 * k))) (tick d.t0 d.t1).1 (tick d.t0 d.t1).2 := by
  unfold compress Spec.BLAKE.compress
  generalize tick d.t0 d.t1 = t
  simp only
  rw [← words_eq p hp]
  rw [show (⟨d.h.getD 0 0, d.h.getD 1 0, d.h.getD 2 0, d.h.getD 3 0, d.h.getD 4 0, d.h.getD 5 0, d.h.getD 6 0,
      d.h.getD 7 0, d.s.getD 0 0 ^^^ 0x243F6A8885A308D3#64, d.s.getD 1 0 ^^^ 0x13198A2E03707344#64,
     d.s.getD 2 0 ^^^ 0xA4093822299F31D0#64, d.s.getD 3 0 ^^^ 0x082EFA98EC4E6C89#64,
     t.1 ^^^ 0x452821E638D01377#64, t.1 ^^^ 0xBE5466CF34E90C6C#64,
     t.2 ^^^ 0xC0AC29B7C97C50DD#64, t.2 ^^^ 0x3F84D5B5B5470917#64⟩ : V) = toV ⟨d.h.getD 0 0, d.h.getD 1 0, d.h.getD 2 0, d.h.getD 3 0, d.h.getD 4 0, d.h.getD 5 0, d.h.getD 6 0,
      d.h.getD 7 0, d.s.getD 0 0 ^^^ Spec.BLAKE.P64.c.getD 0 0, d.s.getD 1 0 ^^^ Spec.BLAKE.P64.c.getD 1 0,
     d.s.getD 2 0 ^^^ Spec.BLAKE.P64.c.getD 2 0, d.s.getD 3 0 ^^^ Spec.BLAKE.P64.c.getD 3 0,
     t.1 ^^^ Spec.BLAKE.P64.c.getD 4 0, t.1 ^^^ Spec.BLAKE.P64.c.getD 5 0,
     t.2 ^^^ Spec.BLAKE.P64.c.getD 6 0, t.2 ^^^ Spec.BLAKE.P64.c.getD 7 0⟩ from rfl]
  rw [rounds_eq, show Spec.BLAKE.P64.rounds = 16 from rfl]
  simp only [toV, BitVec.xor_assoc]
  rfl

theorem and_mask (x : U64) : x &&& ~~~0x3FF#64 = (x >>> 10) <<< 10 := by
  have hm : ∀ i, i < 64 → (~~~0x3FF#64 : U64).getLsbD i = decide (10 ≤ i) := by decide +kernel
  apply BitVec.eq_of_getLsbD_eq
  intro i hi
  rw [BitVec.getLsbD_and, hm i hi, BitVec.getLsbD_shiftLeft, BitVec.getLsbD_ushiftRight]
  by_cases h : 10 ≤ i
  · simp [h, hi, show 10 + (i - 10) = i by omega, show ¬ i < 10 by omega]
  · simp [h, hi, show i < 10 by omega]

theorem mask_zero (x : U64) : x &&& ~~~0x3FF#64 = 0#64 ↔ x.toNat < 1024 := by
  rw [and_mask, ← BitVec.toNat_inj]
  simp only [BitVec.toNat_shiftLeft, BitVec.toNat_ushiftRight, Nat.shiftLeft_eq, Nat.shiftRight_eq_div_pow,
    BitVec.toNat_ofNat]
  have := x.isLt
  omega

/-- Two 64-bit words as a 128-bit number: `(lo n, hi n)` after `tick`. -/
theorem tick_eq (t0 t1 : U64) (n : Nat) (h0 : (t0.toNat + 1024) % 2^64 = n % 2^64)
    (h1 : if n % 2^64 < 1024 then (t1.toNat + 1) % 2^64 = n / 2^64 % 2^64 else t1.toNat = n / 2^64 % 2^64) :
    tick t0 t1 = (lo64 n, hi64 n) := by
  have e0 : t0 + 1024#64 = lo64 n := by
    apply BitVec.eq_of_toNat_eq
    simp only [lo64, BitVec.toNat_add, BitVec.toNat_ofNat]
    omega
  unfold tick
  simp only [e0, mask_zero]
  have e1 : (lo64 n).toNat = n % 2^64 := by simp [lo64]
  rw [e1]
  by_cases h : n % 2^64 < 1024
  · rw [if_pos h] at h1 ⊢
    refine Prod.ext rfl ?_
    show _ = hi64 n
    apply BitVec.eq_of_toNat_eq
    simp only [hi64, BitVec.toNat_add, BitVec.toNat_ofNat]
    omega
  · rw [if_neg h] at h1 ⊢
    refine Prod.ext rfl ?_
    show _ = hi64 n
    apply BitVec.eq_of_toNat_eq
    simp only [hi64, BitVec.toNat_ofNat]
    omega

theorem tick_full (i : Nat) :
    tick (lo64 (1024 * i)) (hi64 (1024 * i)) = (lo64 (1024 * (i+1)), hi64 (1024 * (i+1))) := by
  have h0 : (lo64 (1024 * i)).toNat = 1024 * i % 2^64 := by simp only [lo64, BitVec.toNat_ofNat]
  have h1 : (hi64 (1024 * i)).toNat = 1024 * i / 2^64 % 2^64 := by simp only [hi64, BitVec.toNat_ofNat]
  apply tick_eq
  · rw [h0]; omega
  · rw [h1]
    generalize hn : 1024 * (i + 1) = n
    by_cases hlt : n % 2^64 < 1024
    · rw [if_pos hlt]; omega
    · rw [if_neg hlt]; omega

/-- The state after the full blocks of a message. -/
theorem foldl_eq (s : List U64) (len : Nat) (l : List Bytes) : ∀ (h : List U64) (i : Nat),
    h.length = 8 → (∀ b ∈ l, b.length = 128) → 128 * (i + l.length) ≤ len →
    l.foldl compress (State.mk s h (lo64 (1024 * i)) (hi64 (1024 * i))) =
      State.mk s ((l.zipIdx i).foldl (Spec.BLAKE.step64 s len) h) (lo64 (1024 * (i + l.length)))
        (hi64 (1024 * (i + l.length))) ∧
    ((l.zipIdx i).foldl (Spec.BLAKE.step64 s len) h).length = 8 := by
  induction l with
  | nil => intro h i hh _ _; exact ⟨rfl, hh⟩
  | cons b l ih =>
    intro h i hh hl hle
    simp only [List.length_cons] at hle
    have e := compress_eq (State.mk s h (lo64 (1024 * i)) (hi64 (1024 * i))) b (hl b List.mem_cons_self)
    have ht := tick_full i
    have hc : Spec.BLAKE.counter 128 len i = 1024 * (i + 1) := by
      unfold Spec.BLAKE.counter
      rw [if_pos (by omega), Nat.min_eq_left (by omega)]; omega
    simp only [ht] at e
    have hstep : Spec.BLAKE.step64 s len h (b, i) = Spec.BLAKE.compress Spec.BLAKE.P64 s h
        (lo64 (1024 * (i+1))) (hi64 (1024 * (i+1))) (fun k => getBE64 b (8 * k)) := by
      simp only [Spec.BLAKE.step64, hc]
    rw [List.foldl_cons, e, ← hstep, List.zipIdx_cons, List.foldl_cons, List.length_cons,
      show i + (l.length + 1) = (i + 1) + l.length by omega]
    exact ih _ (i+1) (by rw [hstep]; rfl) (fun x hx => hl x (List.mem_cons_of_mem _ hx)) (by omega)

theorem pend_set {d : Digest} {s h : List U64} {a b : U64} {r : Bytes}
    (hp : Pend 128 d (State.mk s h a b) r) (t0 t1 : U64) : Pend 128 (setT d t0 t1) (State.mk s h t0 t1) r :=
  hp.upd _ (by simp only [setT, hp.st]) rfl rfl

/-- One block with the counter of the proposal. -/
theorem compress_step (s h : List U64) (t0 t1 : U64) (p : Bytes) (len k : Nat) (hp : p.length = 128)
    (hc : tick t0 t1 = (lo64 (Spec.BLAKE.counter 128 len k), hi64 (Spec.BLAKE.counter 128 len k))) :
    (compress (State.mk s h t0 t1) p).h = Spec.BLAKE.step64 s len h (p, k) ∧
    (compress (State.mk s h t0 t1) p).s = s := by
  rw [compress_eq _ p hp]
  unfold Spec.BLAKE.step64
  simp only [hc, and_self]

/-- The bit `e` of the padding. -/
def ebit (hs : Nat) : Byte := if hs = 64 then 1#8 else 0#8

theorem tmpOne_eq (hs ptr : Nat) (h : ptr < 112) :
    ((tmpOne hs ptr).take 112).drop ptr = Spec.BLAKE.mid (ebit hs) (112 - ptr) ∧ (tmpOne hs ptr).length = 128 := by
  unfold tmpOne
  simp only
  rw [zeroLoop_eq _ _ _ (by omega) (by simp), zeros_set _ _ _ (by omega)]
  have e1 : List.take (ptr + 1) (zeros ptr ++ (0x80#8 :: zeros (128 - ptr - 1))) = zeros ptr ++ [0x80#8] := by
    rw [show zeros ptr ++ (0x80#8 :: zeros (128 - ptr - 1)) = (zeros ptr ++ [0x80#8]) ++ zeros (128 - ptr - 1) by simp,
      List.take_left' (by simp)]
  have e2 : (List.drop 112 (zeros ptr ++ (0x80#8 :: zeros (128 - ptr - 1)))).length = 16 := by simp; omega
  rw [e1]
  generalize List.drop 112 (zeros ptr ++ (0x80#8 :: zeros (128 - ptr - 1))) = X at e2
  unfold ebit
  by_cases h64 : hs = 64
  · simp only [h64, if_true]
    by_cases h111 : ptr = 111
    · subst h111
      have : (zeros 111 ++ [0x80#8] ++ (zeros (112 - (111 + 1)) ++ X)) = zeros 111 ++ (0x80#8 :: X) := by simp [zeros]
      rw [this]
      have e3 : at8 (zeros 111 ++ (0x80#8 :: X)) 111 = 0x80#8 := by
        unfold at8; rw [List.getD_eq_getElem?_getD, List.getElem?_append_right (by simp)]; simp
      rw [e3, List.set_append, if_neg (by simp), zeros_length, Nat.sub_self, List.set_cons_zero]
      refine ⟨?_, by simp [e2]⟩
      rw [show zeros 111 ++ ((0x80#8 ||| 1#8) :: X) = (zeros 111 ++ [0x80#8 ||| 1#8]) ++ X by simp, List.take_left' (by simp),
        List.drop_left' (by simp)]
      rfl
    · have : (zeros ptr ++ [0x80#8] ++ (zeros (112 - (ptr + 1)) ++ X)) =
          (zeros ptr ++ (0x80#8 :: zeros (110 - ptr))) ++ (0#8 :: X) := by
        rw [show 112 - (ptr + 1) = (110 - ptr) + 1 by omega, zeros_add]; simp [zeros]
      have hl : (zeros ptr ++ (0x80#8 :: zeros (110 - ptr))).length = 111 := by simp; omega
      rw [this]
      have e3 : at8 ((zeros ptr ++ (0x80#8 :: zeros (110 - ptr))) ++ (0#8 :: X)) 111 = 0#8 := by
        unfold at8
        rw [List.getD_eq_getElem?_getD, List.getElem?_append_right (by omega), hl]; simp
      rw [e3, List.set_append, if_neg (by omega), hl, Nat.sub_self, List.set_cons_zero]
      refine ⟨?_, by rw [List.length_append, hl]; simp [e2]⟩
      rw [show (zeros ptr ++ (0x80#8 :: zeros (110 - ptr))) ++ ((0#8 ||| 1#8) :: X) =
        (zeros ptr ++ ((0x80#8 :: zeros (110 - ptr)) ++ [1#8])) ++ X by simp, List.take_left' (by simp; omega),
        List.drop_left' (by simp)]
      unfold Spec.BLAKE.mid
      rw [if_neg (by omega), show 112 - ptr - 2 = 110 - ptr by omega]
  · simp only [h64, if_false]
    refine ⟨?_, by simp [e2]; omega⟩
    rw [show zeros ptr ++ [0x80#8] ++ (zeros (112 - (ptr + 1)) ++ X) =
      (zeros ptr ++ (0x80#8 :: zeros (112 - (ptr + 1)))) ++ X by simp, List.take_left' (by simp; omega),
        List.drop_left' (by simp)]
    unfold Spec.BLAKE.mid
    by_cases h111 : ptr = 111
    · subst h111; rfl
    · rw [if_neg (by omega), show 112 - (ptr + 1) = (112 - ptr - 2) + 1 by omega, zeros_add]; rfl

theorem tmpTwo_eq (ptr : Nat) (h : ptr < 128) : tmpTwo ptr = zeros ptr ++ (0x80#8 :: zeros (127 - ptr)) := by
  unfold tmpTwo
  simp only
  rw [zeroLoop_eq _ _ _ (by omega) (by simp), zeros_set _ _ _ (by omega)]
  rw [show zeros ptr ++ (0x80#8 :: zeros (128 - ptr - 1)) = (zeros ptr ++ [0x80#8]) ++ zeros (128 - ptr - 1) by simp,
      List.take_left' (by simp), List.drop_of_length_le (by simp; omega)]
  simp [show 128 - (ptr + 1) = 127 - ptr by omega]

theorem tmpTwo_len (ptr : Nat) (h : ptr < 128) : (tmpTwo ptr).length = 128 := by
  rw [tmpTwo_eq ptr h]; simp; omega

theorem tmpTwo_drop (ptr : Nat) (h : ptr < 128) : (tmpTwo ptr).drop ptr = 0x80#8 :: zeros (127 - ptr) := by
  rw [tmpTwo_eq ptr h, List.drop_left' (by simp)]

theorem tmpSnd_eq (hs : Nat) (b : Bytes) (h : b.length = 128) :
    (tmpSnd hs b).take 112 = zeros 111 ++ [ebit hs] ∧ (tmpSnd hs b).length = 128 := by
  unfold tmpSnd
  simp only
  rw [zeroLoop_eq _ _ _ (by omega) (by omega), List.take_zero, List.nil_append,
    show 112 - 0 = 111 + 1 from rfl, zeros_add]
  have hl : (b.drop 112).length = 16 := by simp [h]
  generalize b.drop 112 = X at hl
  unfold ebit
  by_cases h64 : hs = 64
  · simp only [h64, if_true]
    rw [List.append_assoc, List.set_append, if_neg (by simp), zeros_length, Nat.sub_self]
    rw [show (zeros 1 ++ X).set 0 1#8 = [1#8] ++ X from rfl, ← List.append_assoc, List.take_left' (by simp)]
    exact ⟨rfl, by simp [hl]⟩
  · simp only [h64, if_false]
    rw [List.take_left' (by simp)]
    exact ⟨rfl, by simp [hl]⟩

theorem putLen_eq (b : Bytes) (th tl : U64) (h : b.length = 128) :
    putLen b th tl = b.take 112 ++ be64 th ++ be64 tl := by
  have h1 : (be64 th).length = 8 := be64_length _
  have h2 : (be64 tl).length = 8 := be64_length _
  have e1 : goCopy b 112 (be64 th) = (b.take 112 ++ be64 th) ++ b.drop 120 := by
    unfold goCopy; rw [h, List.take_of_length_le (l := be64 th) (by omega), h1]
  have hl : (b.take 112 ++ be64 th).length = 120 := by simp [h, h1]
  unfold putLen
  rw [e1]
  unfold goCopy
  rw [List.take_left' hl, List.take_of_length_le (l := be64 tl) (by simp [h, h1, h2]),
    List.drop_of_length_le (i := 120 + _) (by simp [h, h1, h2]), List.append_nil]

/-- The state after the padding blocks. -/
theorem final_h (hs : Nat) (d : Digest) (s h : List U64) (m : Bytes) (hh : h.length = 8)
    (hp : Pend 128 d (State.mk s h (lo64 (1024 * (m.length / 128))) (hi64 (1024 * (m.length / 128)))) (restBlock 128 m)) :
    ∃ H, H = ((fullBlocks 128 (restBlock 128 m ++ (Spec.BLAKE.mid (ebit hs) (Spec.BLAKE.midLen 128 16 m.length)
      ++ be64 (hi64 (8 * m.length)) ++ be64 (lo64 (8 * m.length))))).zipIdx (m.length / 128)).foldl
        (Spec.BLAKE.step64 s m.length) h ∧ H.length = 8 ∧
     checkSum hs d = (let h i := H.getD i 0
      let out := be64 (h 0) ++ be64 (h 1) ++ be64 (h 2) ++ be64 (h 3) ++ be64 (h 4) ++ be64 (h 5)
      if hs = 64 then out ++ be64 (h 6) ++ be64 (h 7) else out) := by
  refine ⟨_, rfl, ?_⟩
  have hrl := restBlock_length 128 m
  have hnx := hp.nx
  rw [hrl] at hnx
  have hlen : m.length = 128 * (m.length / 128) + m.length % 128 := by omega
  have hlt : m.length % 128 < 128 := Nat.mod_lt _ (by decide)
  generalize hi : m.length / 128 = i at *
  generalize hn : m.length % 128 = n at *
  have hbl : (BitVec.ofNat 64 n <<< 3 : U64).toNat = 8 * n := by
    simp [BitVec.toNat_shiftLeft, Nat.shiftLeft_eq]; omega
  have htl : lo64 (1024 * i) + BitVec.ofNat 64 n <<< 3 = lo64 (8 * m.length) := by
    apply BitVec.eq_of_toNat_eq
    rw [BitVec.toNat_add, hbl]
    simp only [lo64, BitVec.toNat_ofNat]
    omega
  have hth : hi64 (1024 * i) = hi64 (8 * m.length) := by
    unfold hi64
    congr 1
    omega
  have ht0 : d.s.t0 = lo64 (1024 * i) := by rw [hp.st]
  have ht1 : d.s.t1 = hi64 (1024 * i) := by rw [hp.st]
  have hml : Spec.BLAKE.midLen 128 16 m.length = if n < 112 then 112 - n else 240 - n := by
    unfold Spec.BLAKE.midLen; rw [hn]
  rw [hml]
  have cnt1 : Spec.BLAKE.counter 128 m.length (i+1) = 0 := by
    unfold Spec.BLAKE.counter; rw [if_neg (by omega)]
  -- the counter of the first padding block
  have hpre : tick (preT n (BitVec.ofNat 64 n <<< 3) (lo64 (1024 * i)) (hi64 (1024 * i))).1
      (preT n (BitVec.ofNat 64 n <<< 3) (lo64 (1024 * i)) (hi64 (1024 * i))).2 =
      (lo64 (Spec.BLAKE.counter 128 m.length i), hi64 (Spec.BLAKE.counter 128 m.length i)) := by
    unfold preT
    by_cases h0 : n = 0
    · rw [if_pos h0]
      have : Spec.BLAKE.counter 128 m.length i = 0 := by unfold Spec.BLAKE.counter; rw [if_neg (by omega)]
      rw [this]
      decide +kernel
    · rw [if_neg h0]
      have hcnt : Spec.BLAKE.counter 128 m.length i = 1024 * i + 8 * n := by
        unfold Spec.BLAKE.counter; rw [if_pos (by omega)]; omega
      rw [hcnt]
      have hz : lo64 (1024 * i) = 0#64 ↔ 1024 * i % 2^64 = 0 := by
        rw [← BitVec.toNat_inj]; simp [lo64]
      by_cases hz0 : lo64 (1024 * i) = 0#64
      · rw [if_pos hz0]
        have hz1 := hz.mp hz0
        apply tick_eq
        · simp only [BitVec.toNat_add, hbl, BitVec.toNat_ofNat]; omega
        · rw [if_pos (by omega)]
          simp only [BitVec.toNat_sub, hi64, BitVec.toNat_ofNat]
          omega
      · rw [if_neg hz0]
        have hz1 : 1024 * i % 2^64 ≠ 0 := fun h => hz0 (hz.mpr h)
        apply tick_eq
        · simp only [BitVec.toNat_sub, hbl, BitVec.toNat_ofNat, lo64]; omega
        · rw [if_neg (by omega)]
          simp only [hi64, BitVec.toNat_ofNat]
          omega
  unfold checkSum
  simp only [hnx, ht0, ht1, htl, hth]
  rw [← hth]
  generalize hpt : preT n (BitVec.ofNat 64 n <<< 3) (lo64 (1024 * i)) (hi64 (1024 * i)) = t at *
  rw [hth]
  have p1 := pend_set hp t.1 t.2
  have hl1 : (be64 (hi64 (8 * m.length))).length = 8 := be64_length _
  have hl2 : (be64 (lo64 (8 * m.length))).length = 8 := be64_length _
  by_cases h112 : n < 112
  · rw [if_pos h112, if_pos h112, putLen_eq _ _ _ (tmpOne_eq hs n h112).2, List.append_assoc (List.take 112 _),
      List.drop_append_of_le_length (by simp [(tmpOne_eq hs n h112).2]; omega), (tmpOne_eq hs n h112).1]
    have hmidl : (Spec.BLAKE.mid (ebit hs) (112 - n)).length = 112 - n := by
      rw [← (tmpOne_eq hs n h112).1]; simp [(tmpOne_eq hs n h112).2]
    rw [← List.append_assoc (Spec.BLAKE.mid _ _)]
    generalize hb : Spec.BLAKE.mid (ebit hs) (112 - n) ++ be64 (hi64 (8 * m.length)) ++ be64 (lo64 (8 * m.length)) = b
    have hbl : (restBlock 128 m).length + b.length = 128 := by
      rw [hrl, ← hb]; simp only [List.length_append, hmidl, hl1, hl2]; omega
    have p2 := p1.absorb_eq compress b hbl (by decide)
    rw [fullBlocks_one 128 _ (by decide) (by rw [List.length_append]; exact hbl)]
    simp only [List.zipIdx_cons, List.zipIdx_nil, List.foldl_cons, List.foldl_nil]
    have hst := (compress_step s h t.1 t.2 (restBlock 128 m ++ b) m.length i (by rw [List.length_append]; exact hbl) hpre).1
    have e := p2.st
    simp only [write, e, hst]
    exact ⟨rfl, trivial⟩
  · rw [if_neg h112, if_neg h112, putLen_eq _ _ _ (tmpSnd_eq hs (tmpTwo n) (tmpTwo_len n hlt)).2,
      (tmpSnd_eq hs (tmpTwo n) (tmpTwo_len n hlt)).1, tmpTwo_drop n hlt]
    have hb1 : (restBlock 128 m ++ (0x80#8 :: zeros (127 - n))).length = 128 := by
      simp only [List.length_append, hrl, List.length_cons, zeros_length]; omega
    have p2 := p1.absorb_eq compress (0x80#8 :: zeros (127 - n)) (by rw [← List.length_append]; exact hb1) (by decide)
    have hst := compress_step s h t.1 t.2 _ m.length i hb1 hpre
    rw [show compress (State.mk s h t.1 t.2) (restBlock 128 m ++ (0x80#8 :: zeros (127 - n))) =
      State.mk s (Spec.BLAKE.step64 s m.length h (restBlock 128 m ++ (0x80#8 :: zeros (127 - n)), i))
        (compress (State.mk s h t.1 t.2) (restBlock 128 m ++ (0x80#8 :: zeros (127 - n)))).t0
        (compress (State.mk s h t.1 t.2) (restBlock 128 m ++ (0x80#8 :: zeros (127 - n)))).t1 by
        rw [← hst.1]; conv => rhs; arg 1; rw [← hst.2]] at p2
    have p3 := pend_set p2 0xFFFFFFFFFFFFFC00#64 0xFFFFFFFFFFFFFFFF#64
    have hb2 : (zeros 111 ++ [ebit hs] ++ be64 (hi64 (8 * m.length)) ++ be64 (lo64 (8 * m.length))).length = 128 := by
      simp only [List.length_append, hl1, hl2, zeros_length, List.length_cons, List.length_nil]
    have p4 := p3.absorb_eq compress (zeros 111 ++ [ebit hs] ++ be64 (hi64 (8 * m.length)) ++ be64 (lo64 (8 * m.length)))
      (by rw [hb2]; rfl) (by decide)
    have hmid : Spec.BLAKE.mid (ebit hs) (240 - n) = (0x80#8 :: zeros (127 - n)) ++ (zeros 111 ++ [ebit hs]) := by
      unfold Spec.BLAKE.mid
      rw [if_neg (by omega), show 240 - n - 2 = (127 - n) + 111 by omega, zeros_add]
      simp only [List.cons_append, List.append_assoc]
    rw [hmid]
    rw [show restBlock 128 m ++ ((0x80#8 :: zeros (127 - n)) ++ (zeros 111 ++ [ebit hs]) ++
        be64 (hi64 (8 * m.length)) ++ be64 (lo64 (8 * m.length))) =
      (restBlock 128 m ++ (0x80#8 :: zeros (127 - n))) ++
        (zeros 111 ++ [ebit hs] ++ be64 (hi64 (8 * m.length)) ++ be64 (lo64 (8 * m.length))) by
          simp only [List.append_assoc]]
    rw [fullBlocks_two 128 _ _ (by decide) hb1 hb2]
    simp only [List.zipIdx_cons, List.zipIdx_nil, List.foldl_cons, List.foldl_nil]
    have hst2 := (compress_step s (Spec.BLAKE.step64 s m.length h (restBlock 128 m ++ (0x80#8 :: zeros (127 - n)), i))
      0xFFFFFFFFFFFFFC00#64 0xFFFFFFFFFFFFFFFF#64 _ m.length (i+1) hb2 (by rw [cnt1]; decide +kernel)).1
    have e := p4.st
    rw [List.nil_append] at e
    simp only [write] at e ⊢
    simp only [e, hst2]
    exact ⟨rfl, trivial⟩

/-- `checkSum` is BLAKE, for every message and salt. -/
theorem checkSum_eq (hs : Nat) (iv s : List U64) (d : Digest) (m : Bytes) (hiv : iv.length = 8)
    (hd : d.Repr 128 compress (State.mk s iv 0#64 0#64) m) :
    ∃ H, H = (fullBlocks 128 (Spec.BLAKE.pad64 (ebit hs) m)).zipIdx.foldl (Spec.BLAKE.step64 s m.length) iv ∧
     H.length = 8 ∧
     checkSum hs d = (let h i := H.getD i 0
      let out := be64 (h 0) ++ be64 (h 1) ++ be64 (h 2) ++ be64 (h 3) ++ be64 (h 4) ++ be64 (h 5)
      if hs = 64 then out ++ be64 (h 6) ++ be64 (h 7) else out) := by
  have hp := hd.buf.toPend (by decide)
  have hf := foldl_eq s m.length (fullBlocks 128 m) iv 0 hiv (fun b hb => mem_fullBlocks_length 128 m b hb)
    (by rw [fullBlocks_length]; omega)
  rw [show lo64 (1024 * 0) = 0#64 from rfl, show hi64 (1024 * 0) = 0#64 from rfl, fullBlocks_length, Nat.zero_add] at hf
  rw [hf.1] at hp
  obtain ⟨H, hH, hl, he⟩ := final_h hs d s _ m hf.2 hp
  refine ⟨H, ?_, hl, he⟩
  rw [hH]
  unfold Spec.BLAKE.pad64
  rw [List.append_assoc m, List.append_assoc m, fullBlocks_append_rest 128 m _ (by decide), List.zipIdx_append, List.foldl_append,
    fullBlocks_length, Nat.zero_add]

end Verif.BLAKE512
