import Verif.Model.GCMCtr
import Verif.Spec.CTR
import Verif.Lemmas.GMAC
import Verif.Lemmas.GFBlock
import Verif.Padding
/- Counter mode of gmac/gcm: lemmas. -/
namespace Verif.GCMCtr
open Spec Spec.CTR

theorem beBytes_snoc (n a : Nat) (r : Byte) : beBytes (n + 1) (a * 256 + r.toNat) = beBytes n a ++ [r] := by
  unfold beBytes
  rw [List.range_succ, List.map_append, List.map_singleton]
  congr 1
  · apply List.map_congr_left
    intro i hi
    rw [List.mem_range] at hi
    rw [show n + 1 - 1 - i = (n - 1 - i) + 1 by omega, Nat.pow_succ, Nat.mul_comm (256 ^ _) 256, ← Nat.div_div_eq_div_mul]
    have := r.isLt
    rw [show (a * 256 + r.toNat) / 256 = a by omega]
  · rw [show n + 1 - 1 - n = 0 by omega, Nat.pow_zero, Nat.div_one]
    congr 1
    apply BitVec.eq_of_toNat_eq
    have := r.isLt
    rw [BitVec.toNat_ofNat]
    omega

theorem beBytes_mod (n x : Nat) : beBytes n (x % 256 ^ n) = beBytes n x := by
  induction n generalizing x with
  | zero => rfl
  | succ n ih =>
    have h1 : x = x / 256 * 256 + (BitVec.ofNat 8 x).toNat := by rw [BitVec.toNat_ofNat]; omega
    have h2 : x % 256 ^ (n + 1) = (x / 256 % 256 ^ n) * 256 + (BitVec.ofNat 8 x).toNat := by
      rw [Nat.pow_succ, Nat.mul_comm, Nat.mod_mul, BitVec.toNat_ofNat]
      rw [show (2 ^ 8 : Nat) = 256 from rfl]; omega
    rw [h2, beBytes_snoc, ih]
    conv => rhs; rw [h1, beBytes_snoc]

theorem take_succ_at8 (b : Bytes) (i : Nat) (h : i < b.length) : b.take (i + 1) = b.take i ++ [at8 b i] := by
  rw [List.take_succ_eq_append_getElem h]
  simp [at8, List.getD, h]

theorem incLoop_eq : ∀ (i : Nat) (b : Bytes), i ≤ b.length → incLoop b i = beBytes i (beNat (b.take i) + 1) ++ b.drop i
  | 0, b, _ => by simp [incLoop, beBytes]
  | i + 1, b, h => by
    have hs : b.set i (at8 b i + 1) = b.take i ++ [at8 b i + 1] ++ b.drop (i + 1) := by
      rw [List.set_eq_take_append_cons_drop, if_pos (by omega)]; simp
    have ht : (b.take i).length = i := by rw [List.length_take]; omega
    have ha : at8 (b.set i (at8 b i + 1)) i = at8 b i + 1 := by
      rw [at8, List.getD_eq_getElem?_getD, List.getElem?_set_self (by omega)]; rfl
    unfold incLoop
    dsimp only
    rw [ha, take_succ_at8 b i (by omega), beNat_snoc]
    by_cases hz : at8 b i + 1 = 0#8
    · rw [if_neg (by simpa using hz), incLoop_eq i _ (by rw [List.length_set]; omega)]
      have e1 : (b.set i (at8 b i + 1)).take i = b.take i := by rw [hs, List.append_assoc, List.take_left' ht]
      have e2 : (b.set i (at8 b i + 1)).drop i = [at8 b i + 1] ++ b.drop (i + 1) := by rw [hs, List.append_assoc, List.drop_left' ht]
      have e3 : (at8 b i).toNat = 255 := by
        have := congrArg BitVec.toNat hz
        rw [BitVec.toNat_add] at this
        have hl := (at8 b i).isLt
        have h1 : BitVec.toNat (1 : Byte) = 1 := rfl
        have h0 : BitVec.toNat (0#8) = 0 := rfl
        rw [h1, h0] at this
        omega
      rw [e1, e2, hz, ← List.append_assoc, ← beBytes_snoc]
      have h0 : BitVec.toNat (0#8) = 0 := rfl
      have e4 : (beNat (b.take i) + 1) * 256 + BitVec.toNat (0#8) = beNat (b.take i) * 256 + (at8 b i).toNat + 1 := by rw [e3, h0]; omega
      rw [e4]
    · rw [if_pos (by simpa using hz), hs]
      have e3 : (at8 b i + 1).toNat = (at8 b i).toNat + 1 := by
        rw [BitVec.toNat_add]
        have hl := (at8 b i).isLt
        have h1 : BitVec.toNat (1 : Byte) = 1 := rfl
        rw [h1]
        rcases Nat.lt_or_ge ((at8 b i).toNat + 1) (2 ^ 8) with h | h
        · exact Nat.mod_eq_of_lt h
        · refine absurd ?_ hz
          apply BitVec.eq_of_toNat_eq
          rw [BitVec.toNat_add, h1]
          have h0 : BitVec.toNat (0#8) = 0 := rfl
          rw [h0]; omega
      have e4 : beNat (b.take i) * 256 + (at8 b i).toNat + 1 = beNat (b.take i) * 256 + (at8 b i + 1).toNat := by rw [e3]; omega
      rw [e4, beBytes_snoc]
      congr 2
      have := beBytes_beNat (b.take i)
      rw [ht] at this
      exact this.symm

theorem word_inc {n : Nat} {b c : Bytes} (hc : c.length = n) (h : beNat c = (beNat b + 1) % 256 ^ n) : c = beBytes n (beNat b + 1) := by
  rw [← beBytes_mod]
  exact eq_beBytes hc h

theorem toNat_app {w : Nat} (a : BitVec w) (b : Byte) : (a ++ b).toNat = a.toNat * 256 + b.toNat := by
  rw [BitVec.toNat_append, ← Nat.shiftLeft_add_eq_or_of_lt b.isLt, Nat.shiftLeft_eq]

theorem beNat_two (a b : Byte) : beNat [a, b] = a.toNat * 256 + b.toNat := by simp [beNat]

theorem incCtr_eq (b : Bytes) : incCtr b = beBytes b.length (beNat b + 1) := by
  unfold incCtr
  by_cases h1 : b.length = 1
  · rw [if_pos h1]
    match b, h1 with
    | [x], _ =>
      apply word_inc (by simp)
      simp [beNat, at8]
  rw [if_neg h1]
  by_cases h2 : b.length = 2
  · rw [if_pos h2]
    match b, h2 with
    | [x, y], _ =>
      refine word_inc (n := 2) (by simp) ?_
      dsimp only
      have e : (at8 [x, y] 0 ++ at8 [x, y] 1 : BitVec 16) = x ++ y := rfl
      rw [e, beNat_two, beNat_two]
      generalize hv : (x ++ y + 1 : BitVec 16) = v
      have hvn : v.toNat = (x.toNat * 256 + y.toNat + 1) % 65536 := by
        rw [← hv, BitVec.toNat_add, toNat_app]
        rfl
      rw [BitVec.extractLsb'_toNat, BitVec.extractLsb'_toNat, Nat.shiftRight_eq_div_pow, Nat.shiftRight_eq_div_pow]
      rw [show (256 ^ 2 : Nat) = 65536 by decide]
      have := v.isLt
      rw [hvn]
      omega
  rw [if_neg h2]
  by_cases h4 : b.length = 4
  · rw [if_pos h4]
    match b, h4 with
    | [x0, x1, x2, x3], _ =>
      refine word_inc (n := 4) (by simp [be32]) ?_
      have e : (getBE32 [x0, x1, x2, x3] 0).toNat = beNat [x0, x1, x2, x3] := by
        show (x0 ++ x1 ++ x2 ++ x3).toNat = _
        simp only [toNat_app, beNat, List.foldl_cons, List.foldl_nil]
        omega
      generalize hw : getBE32 [x0, x1, x2, x3] 0 = w at e
      rw [← e]
      have hv : (w + 1).toNat = (w.toNat + 1) % 2 ^ 32 := by rw [BitVec.toNat_add]; rfl
      generalize w + 1 = v at hv
      rw [show (256 ^ 4 : Nat) = 2 ^ 32 by decide]
      rw [← hv]
      simp only [be32, beNat, List.foldl_cons, List.foldl_nil, BitVec.extractLsb'_toNat, Nat.shiftRight_eq_div_pow]
      have := v.isLt
      omega
  rw [if_neg h4]
  by_cases h8 : b.length = 8
  · rw [if_pos h8]
    match b, h8 with
    | [x0, x1, x2, x3, x4, x5, x6, x7], _ =>
      refine word_inc (n := 8) (by simp [be64]) ?_
      have e : (getBE64 [x0, x1, x2, x3, x4, x5, x6, x7] 0).toNat = beNat [x0, x1, x2, x3, x4, x5, x6, x7] := by
        show (x0 ++ x1 ++ x2 ++ x3 ++ x4 ++ x5 ++ x6 ++ x7).toNat = _
        simp only [toNat_app, beNat, List.foldl_cons, List.foldl_nil]
        omega
      generalize hw : getBE64 [x0, x1, x2, x3, x4, x5, x6, x7] 0 = w at e
      rw [← e]
      have hv : (w + 1).toNat = (w.toNat + 1) % 2 ^ 64 := by rw [BitVec.toNat_add]; rfl
      generalize w + 1 = v at hv
      rw [show (256 ^ 8 : Nat) = 2 ^ 64 by decide]
      rw [← hv]
      simp only [be64, beNat, List.foldl_cons, List.foldl_nil, BitVec.extractLsb'_toNat, Nat.shiftRight_eq_div_pow]
      have := v.isLt
      omega
  rw [if_neg h8, incLoop_eq _ _ (Nat.le_refl _), List.drop_length, List.append_nil, List.take_length]


/-- The key stream from position `a`, `n` bytes. -/
def seg (E : Bytes → Bytes) (bs s : Nat) (iv : Bytes) (a n : Nat) : Bytes := (List.range' a n).map (stream E bs s iv)

theorem seg_length (E : Bytes → Bytes) (bs s : Nat) (iv : Bytes) (a n : Nat) : (seg E bs s iv a n).length = n := by simp [seg]
theorem seg_append (E : Bytes → Bytes) (bs s : Nat) (iv : Bytes) (a n m : Nat) :
    seg E bs s iv a (n + m) = seg E bs s iv a n ++ seg E bs s iv (a + n) m := by
  unfold seg
  rw [← List.map_append, ← List.range'_append_1]
theorem seg_take (E : Bytes → Bytes) (bs s : Nat) (iv : Bytes) (a n k : Nat) (h : k ≤ n) :
    (seg E bs s iv a n).take k = seg E bs s iv a k := by
  obtain ⟨m, rfl⟩ := Nat.exists_eq_add_of_le h
  rw [seg_append, List.take_left' (seg_length ..)]
theorem seg_drop (E : Bytes → Bytes) (bs s : Nat) (iv : Bytes) (a n k : Nat) (h : k ≤ n) :
    (seg E bs s iv a n).drop k = seg E bs s iv (a + k) (n - k) := by
  obtain ⟨m, rfl⟩ := Nat.exists_eq_add_of_le h
  rw [seg_append, List.drop_left' (seg_length ..), Nat.add_sub_cancel_left]

theorem crypt_split (E : Bytes → Bytes) (bs s : Nat) (iv : Bytes) (pos : Nat) (m : Bytes) (k : Nat) (hk : k ≤ m.length) :
    crypt E bs s iv pos m = List.zipWith (· ^^^ ·) (m.take k) (seg E bs s iv pos k) ++ crypt E bs s iv (pos + k) (m.drop k) := by
  conv => lhs; rw [← List.take_append_drop k m]
  have hl : (m.take k).length = k := by rw [List.length_take]; omega
  unfold crypt
  rw [List.mapIdx_append, hl]
  congr 1
  · apply List.ext_getElem
    · simp [seg_length]
    · intro i h1 h2
      simp [seg]
  · congr 1
    funext i x
    rw [show pos + (i + k) = pos + k + i by omega]

section
variable {E : Bytes → Bytes} {bs s : Nat} {iv : Bytes}

theorem beBytes_length' (n x : Nat) : (beBytes n x).length = n := by simp [beBytes]

theorem inc_length {b : Bytes} (h : s ≤ b.length) : (inc s b).length = b.length := by
  unfold inc; rw [List.length_append, beBytes_length', List.length_take]; omega

theorem counter_length (hs : s ≤ bs) (hiv : iv.length = bs) : ∀ n, (counter s iv n).length = bs
  | 0 => hiv
  | n + 1 => by
    have := counter_length hs hiv n
    unfold counter; rw [inc_length (by omega), this]

theorem ctr_step {c : Bytes} (hs : s ≤ bs) (hc : c.length = bs) : c.take (bs - s) ++ incCtr (c.drop (bs - s)) = inc s c := by
  unfold inc
  rw [incCtr_eq, List.length_drop, hc, show bs - (bs - s) = s by omega]

theorem seg_block (hb : 0 < bs) (hE : ∀ b : Bytes, b.length = bs → (E b).length = bs) (hs : s ≤ bs) (hiv : iv.length = bs) (k : Nat) :
    E (counter s iv k) = seg E bs s iv (k * bs) bs := by
  have hl := hE _ (counter_length hs hiv k)
  apply List.ext_getElem
  · rw [hl, seg_length]
  · intro i h1 h2
    rw [hl] at h1
    have e1 : (k * bs + i) / bs = k := by
      rw [Nat.mul_comm, Nat.mul_add_div hb, Nat.div_eq_of_lt h1]; rfl
    have e2 : (k * bs + i) % bs = i := by
      rw [Nat.mul_comm, Nat.mul_add_mod, Nat.mod_eq_of_lt h1]
    simp only [seg, List.getElem_map, List.getElem_range', Nat.one_mul, stream, e1, e2]
    simp [List.getD, hl, h1]

theorem seg_blocks (hb : 0 < bs) (hE : ∀ b : Bytes, b.length = bs → (E b).length = bs) (hs : s ≤ bs) (hiv : iv.length = bs) (g n : Nat) :
    ((List.range' g n).map fun k => E (counter s iv k)).flatten = seg E bs s iv (g * bs) (n * bs) := by
  induction n generalizing g with
  | zero => simp [seg]
  | succ n ih =>
    rw [List.range'_succ, List.map_cons, List.flatten_cons, ih, seg_block hb hE hs hiv, Nat.succ_mul n, Nat.add_comm (n * bs), seg_append,
      Nat.succ_mul g]

/-- The counters laid out by `Refill`. -/
theorem layOut_loop (hs : s ≤ bs) (hiv : iv.length = bs) (out : Bytes) (ho : out.length = 8 * bs) (g a : Nat) : ∀ n, a + n ≤ 8 →
    forLoop a (a + n) (fun (st : Bytes × Bytes) k => (goCopy st.1 (k * bs) st.2, st.2.take (bs - s) ++ incCtr (st.2.drop (bs - s)))) (out, counter s iv g) =
      (out.take (a * bs) ++ (((List.range' g n).map (counter s iv)).flatten ++ out.drop ((a + n) * bs)), counter s iv (g + n))
  | 0, _ => by
    rw [forLoop_nil _ _ _ _ (by omega)]
    simp
  | n + 1, h => by
    have hl := counter_length hs hiv (g + n)
    rw [← Nat.add_assoc, forLoop_succ _ _ _ _ (by omega), layOut_loop hs hiv out ho g a n (by omega)]
    dsimp only
    have hfl : (((List.range' g n).map (counter s iv)).flatten).length = n * bs := by
      clear h hl
      induction n generalizing g with
      | zero => simp
      | succ n ih =>
        rw [List.range'_succ, List.map_cons, List.flatten_cons, List.length_append, ih, counter_length hs hiv, Nat.succ_mul, Nat.add_comm]
    have hle : (a + n) * bs + bs ≤ out.length := by
      rw [ho, ← Nat.succ_mul]; exact Nat.mul_le_mul_right _ (by omega)
    have hal : a * bs + n * bs = (a + n) * bs := by rw [Nat.add_mul]
    have hpre : (out.take (a * bs) ++ ((List.range' g n).map (counter s iv)).flatten).length = (a + n) * bs := by
      rw [List.length_append, hfl, List.length_take]; omega
    refine Prod.ext ?_ ?_
    · dsimp only
      have hd : out.drop ((a + n) * bs) = (out.drop ((a + n) * bs)).take bs ++ out.drop ((a + (n + 1)) * bs) := by
        rw [show (a + (n + 1)) * bs = (a + n) * bs + bs by rw [← Nat.add_assoc, Nat.succ_mul], ← List.drop_drop, List.take_append_drop]
      have hm := goCopy_mid (out.take (a * bs) ++ ((List.range' g n).map (counter s iv)).flatten) ((out.drop ((a + n) * bs)).take bs)
        (counter s iv (g + n)) (out.drop ((a + (n + 1)) * bs)) (by rw [hl, List.length_take, List.length_drop]; omega)
      rw [hpre, ← hd] at hm
      rw [← List.append_assoc, hm, List.range'_concat, ← Nat.add_assoc a n 1]
      simp
    · dsimp only
      rw [ctr_step hs hl]; rfl

/-- Encryption of `n` blocks in place. -/
theorem encryptN_loop (hE : ∀ b : Bytes, b.length = bs → (E b).length = bs) (o : Bytes) : ∀ n, n * bs ≤ o.length →
    encryptN E bs n o = ((List.range n).map fun i => E ((o.drop (i * bs)).take bs)).flatten ++ o.drop (n * bs)
  | 0, _ => by unfold encryptN; rw [forLoop_nil _ _ _ _ (by omega)]; simp
  | n + 1, h => by
    rw [Nat.succ_mul] at h
    have ih := encryptN_loop hE o n (by omega)
    unfold encryptN at ih ⊢
    rw [forLoop_succ _ _ _ _ (by omega), ih]
    have hbl : ∀ i, i ≤ n → ((o.drop (i * bs)).take bs).length = bs := by
      intro i hi
      have := Nat.mul_le_mul_right bs hi
      rw [List.length_take, List.length_drop]; omega
    have hfl : ∀ k, k ≤ n → (((List.range k).map fun i => E ((o.drop (i * bs)).take bs)).flatten).length = k * bs := by
      intro k hk
      induction k with
      | zero => simp
      | succ k ih2 =>
        rw [List.range_succ, List.map_append, List.map_singleton, List.flatten_append, List.flatten_singleton, List.length_append, ih2 (by omega),
          hE _ (hbl k (by omega)), Nat.succ_mul]
    have hn := hfl n (Nat.le_refl _)
    rw [List.drop_left' hn]
    have hd : o.drop (n * bs) = (o.drop (n * bs)).take bs ++ o.drop ((n + 1) * bs) := by
      rw [Nat.succ_mul, ← List.drop_drop, List.take_append_drop]
    have hm := goCopy_mid (((List.range n).map fun i => E ((o.drop (i * bs)).take bs)).flatten) ((o.drop (n * bs)).take bs)
      (E ((o.drop (n * bs)).take bs)) (o.drop ((n + 1) * bs)) (by rw [hE _ (hbl n (Nat.le_refl _)), hbl n (Nat.le_refl _)])
    rw [hn, ← hd] at hm
    rw [hm, List.range_succ]
    simp

theorem encryptN_eq (hb : 0 < bs) (hE : ∀ b : Bytes, b.length = bs → (E b).length = bs) (o : Bytes) (n : Nat) (ho : o.length = n * bs) :
    encryptN E bs n o = ((fullBlocks bs o).map E).flatten := by
  rw [encryptN_loop hE o n (by omega), List.drop_of_length_le (by omega), List.append_nil]
  unfold fullBlocks
  rw [ho, Nat.mul_div_cancel _ hb, List.map_map]
  rfl

theorem encBlocks_length (hE : ∀ b : Bytes, b.length = bs → (E b).length = bs) (o : Bytes) :
    (((fullBlocks bs o).map E).flatten).length = o.length / bs * bs := by
  rw [← fullBlocks_length]
  have h : ∀ b ∈ fullBlocks bs o, b.length = bs := fun b hb => mem_fullBlocks_length bs o b hb
  generalize fullBlocks bs o = l at *
  induction l with
  | nil => simp
  | cons x xs ih =>
    rw [List.map_cons, List.flatten_cons, List.length_append, ih (fun b hb => h b (List.mem_cons_of_mem _ hb)),
      hE _ (h x List.mem_cons_self), List.length_cons, Nat.succ_mul, Nat.add_comm]

theorem fullBlocks_counters (hb : 0 < bs) (hs : s ≤ bs) (hiv : iv.length = bs) (g n : Nat) :
    fullBlocks bs (((List.range' g n).map (counter s iv)).flatten) = (List.range' g n).map (counter s iv) := by
  induction n generalizing g with
  | zero => simp [fullBlocks_nil]
  | succ n ih =>
    have hl := counter_length hs hiv g
    rw [List.range'_succ, List.map_cons, List.flatten_cons, fullBlocks_append _ _ _ hb (by rw [hl, Nat.mod_self]), ih,
      fullBlocks_one _ _ hb hl]
    rfl

theorem counters_length (hs : s ≤ bs) (hiv : iv.length = bs) (g n : Nat) :
    (((List.range' g n).map (counter s iv)).flatten).length = n * bs := by
  induction n generalizing g with
  | zero => simp
  | succ n ih =>
    rw [List.range'_succ, List.map_cons, List.flatten_cons, List.length_append, ih, counter_length hs hiv, Nat.succ_mul, Nat.add_comm]

/-- The tail of the encrypted buffer. -/
theorem enc_tail (hb : 0 < bs) (hE : ∀ b : Bytes, b.length = bs → (E b).length = bs) (hs : s ≤ bs) (hiv : iv.length = bs)
    (pre : Bytes) (g n m : Nat) (hn : n ≤ m) (hm : m ≤ 8) (hp : pre.length = (8 - n) * bs) :
    let O := pre ++ ((List.range' g n).map (counter s iv)).flatten
    let R := O.take ((8 - m) * bs) ++ encryptN E bs m (O.drop ((8 - m) * bs))
    R.length = 8 * bs ∧ R.drop ((8 - n) * bs) = seg E bs s iv (g * bs) (n * bs) := by
  intro O R
  have hc := counters_length (iv := iv) hs hiv g n
  have h8 : (8 - n) * bs + n * bs = 8 * bs := by rw [← Nat.add_mul]; congr 1; omega
  have h9 : (8 - m) * bs + m * bs = 8 * bs := by rw [← Nat.add_mul]; congr 1; omega
  have hle : (8 - m) * bs ≤ (8 - n) * bs := Nat.mul_le_mul_right _ (by omega)
  have hO : O.length = 8 * bs := by rw [List.length_append, hp, hc]; omega
  have hd : O.drop ((8 - m) * bs) = pre.drop ((8 - m) * bs) ++ ((List.range' g n).map (counter s iv)).flatten :=
    List.drop_append_of_le_length (by omega)
  have hpd : (pre.drop ((8 - m) * bs)).length = (m - n) * bs := by
    rw [List.length_drop, hp, ← Nat.sub_mul]; congr 1; omega
  have hR : R = O.take ((8 - m) * bs) ++ (((fullBlocks bs (pre.drop ((8 - m) * bs))).map E).flatten ++ seg E bs s iv (g * bs) (n * bs)) := by
    show O.take _ ++ encryptN E bs m _ = _
    congr 1
    rw [encryptN_eq hb hE _ m (by rw [List.length_drop]; omega), hd, fullBlocks_append _ _ _ hb (by rw [hpd]; exact Nat.mul_mod_left _ _),
      List.map_append, List.flatten_append, fullBlocks_counters hb hs hiv, ← seg_blocks hb hE hs hiv, List.map_map]
    rfl
  have hel : (((fullBlocks bs (pre.drop ((8 - m) * bs))).map E).flatten).length = (m - n) * bs := by
    rw [encBlocks_length hE, hpd, Nat.mul_div_cancel _ hb]
  have hmn : (8 - m) * bs + (m - n) * bs = (8 - n) * bs := by rw [← Nat.add_mul]; congr 1; omega
  have htk : (O.take ((8 - m) * bs)).length = (8 - m) * bs := by rw [List.length_take]; omega
  constructor
  · rw [hR, List.length_append, List.length_append, seg_length, hel, htk]; omega
  · rw [hR, ← List.append_assoc, List.drop_left']
    rw [List.length_append, hel, htk]; omega

/-- What a refill establishes. -/
theorem refill_eq (hb : 0 < bs) (hE : ∀ b : Bytes, b.length = bs → (E b).length = bs) (hs : s ≤ bs) (hiv : iv.length = bs)
    (x : CTR) (g n : Nat) (hn : n ≤ 8) (hx : x.Out = []) (ho : x.out.length = 8 * bs) (hbs : x.blockSize = bs)
    (hoff : x.ctrOffset = bs - s) (hc : x.ctr = counter s iv g) :
    (refill E x n).Out = seg E bs s iv (g * bs) (n * bs) ∧ (refill E x n).out.length = 8 * bs ∧ (refill E x n).blockSize = bs ∧
      (refill E x n).ctrOffset = bs - s ∧ (refill E x n).ctr = counter s iv (g + n) := by
  have hlay := layOut_loop hs hiv x.out ho g (8 - n) n (by omega)
  rw [show 8 - n + n = 8 by omega, List.drop_of_length_le (by omega), List.append_nil] at hlay
  have hL : layOut x n = (x.out.take ((8 - n) * bs) ++ ((List.range' g n).map (counter s iv)).flatten, counter s iv (g + n)) := by
    unfold layOut; rw [hbs, hoff, hc]; exact hlay
  unfold refill
  rw [if_neg (by simp [hx]), hL, hbs]
  dsimp only
  have hp : (x.out.take ((8 - n) * bs)).length = (8 - n) * bs := by
    have := Nat.mul_le_mul_right bs (show 8 - n ≤ 8 by omega)
    rw [List.length_take]; omega
  by_cases h4 : n > 4
  · have := enc_tail hb hE hs hiv (x.out.take ((8 - n) * bs)) g n 8 (by omega) (by omega) hp
    simp only [Nat.sub_self, Nat.zero_mul, List.take_zero, List.nil_append, List.drop_zero] at this
    rw [if_pos h4]
    exact ⟨this.2, this.1, rfl, hoff, rfl⟩
  rw [if_neg h4]
  by_cases h1 : n > 1
  · have := enc_tail hb hE hs hiv (x.out.take ((8 - n) * bs)) g n 4 (by omega) (by omega) hp
    rw [if_pos h1]
    exact ⟨this.2, this.1, rfl, hoff, rfl⟩
  · have := enc_tail hb hE hs hiv (x.out.take ((8 - n) * bs)) g n 1 (by omega) (by omega) hp
    rw [if_neg h1]
    exact ⟨this.2, this.1, rfl, hoff, rfl⟩

/-- The object stands at position `pos` of the key stream and has used `g` counter blocks. -/
structure At (E : Bytes → Bytes) (bs s : Nat) (iv : Bytes) (x : CTR) (pos g : Nat) : Prop where
  blockSize : x.blockSize = bs
  off : x.ctrOffset = bs - s
  len : x.out.length = 8 * bs
  ctr : x.ctr = counter s iv g
  lo : pos ≤ g * bs
  Out : x.Out = seg E bs s iv pos (g * bs - pos)

theorem At.empty {x : CTR} {pos g : Nat} (h : At E bs s iv x pos g) : x.Out.length = 0 ↔ pos = g * bs := by
  have := h.lo
  rw [h.Out, seg_length]; omega

theorem At.refill (hb : 0 < bs) (hE : ∀ b : Bytes, b.length = bs → (E b).length = bs) (hs : s ≤ bs) (hiv : iv.length = bs)
    {x : CTR} {pos g n : Nat} (h : At E bs s iv x pos g) (hp : pos = g * bs) (hn : n ≤ 8) : At E bs s iv (refill E x n) pos (g + n) := by
  have hO : x.Out = [] := List.eq_nil_of_length_eq_zero (h.empty.2 hp)
  obtain ⟨a1, a2, a3, a4, a5⟩ := refill_eq hb hE hs hiv x g n hn hO h.len h.blockSize h.off h.ctr
  have e : (g + n) * bs = g * bs + n * bs := Nat.add_mul ..
  refine ⟨a3, a4, a2, a5, by omega, ?_⟩
  rw [a1, e, hp, Nat.add_sub_cancel_left]

theorem xorLoop_eq (hb : 0 < bs) (hE : ∀ b : Bytes, b.length = bs → (E b).length = bs) (hs : s ≤ bs) (hiv : iv.length = bs) :
    ∀ (f : Nat) (x : CTR) (out inp : Bytes) (pos g : Nat), inp.length ≤ f → At E bs s iv x pos g →
      if inp.length ≤ out.length then
        ∃ x', xorLoop E f x out inp = some (x', crypt E bs s iv pos inp ++ out.drop inp.length) ∧
          At E bs s iv x' (pos + inp.length) (max g ((pos + inp.length + bs - 1) / bs))
      else xorLoop E f x out inp = none := by
  intro f
  induction f with
  | zero =>
    intro x out inp pos g hf hx
    have : inp = [] := List.eq_nil_of_length_eq_zero (by omega)
    subst this
    rw [if_pos (by simp)]
    refine ⟨x, by simp [xorLoop, crypt], ?_⟩
    have : (pos + bs - 1) / bs ≤ g := by
      have := hx.lo
      rw [Nat.div_le_iff_le_mul hb]; omega
    rw [List.length_nil, Nat.add_zero, Nat.max_eq_left this]
    exact hx
  | succ f ih =>
    intro x out inp pos g hf hx
    by_cases h0 : inp.length = 0
    · have : inp = [] := List.eq_nil_of_length_eq_zero h0
      subst this
      rw [if_pos (by simp)]
      refine ⟨x, by simp [xorLoop, crypt], ?_⟩
      have : (pos + bs - 1) / bs ≤ g := by
        have := hx.lo
        rw [Nat.div_le_iff_le_mul hb]; omega
      rw [List.length_nil, Nat.add_zero, Nat.max_eq_left this]
      exact hx
    · unfold xorLoop
      rw [if_neg h0]
      dsimp only
      generalize hC : (pos + inp.length + bs - 1) / bs = C
      -- after the refill
      generalize hy : (if x.Out.length = 0 then
          GCMCtr.refill E x (if ceilDiv inp.length x.blockSize > 8 then 8 else ceilDiv inp.length x.blockSize) else x) = y
      have hY : ∃ g', At E bs s iv y pos g' ∧ pos < g' * bs ∧ max g' C = max g C := by
        subst hy
        by_cases hO : x.Out.length = 0
        · rw [if_pos hO]
          have hpos : pos = g * bs := hx.empty.1 hO
          rw [hx.blockSize]
          have hcd : ceilDiv inp.length bs = (inp.length + bs - 1) / bs := by unfold ceilDiv; rw [if_neg (by omega)]
          have h1 : 1 ≤ ceilDiv inp.length bs := by rw [hcd, Nat.le_div_iff_mul_le hb]; omega
          have h2 : C = g + ceilDiv inp.length bs := by
            rw [← hC, hcd, hpos, Nat.add_assoc, Nat.add_sub_assoc (by omega), Nat.mul_comm, Nat.mul_add_div hb]
          generalize hq : (if ceilDiv inp.length bs > 8 then 8 else ceilDiv inp.length bs) = n
          have hn : 1 ≤ n ∧ n ≤ 8 ∧ n ≤ ceilDiv inp.length bs := by
            subst hq
            split <;> omega
          have e : (g + n) * bs = g * bs + n * bs := Nat.add_mul ..
          have hpn : 0 < n * bs := Nat.mul_pos (by omega) hb
          exact ⟨g + n, hx.refill hb hE hs hiv hpos hn.2.1, by omega, by omega⟩
        · rw [if_neg hO]
          have := hx.lo
          have h3 : pos ≠ g * bs := fun h => hO (hx.empty.2 h)
          exact ⟨g, hx, by omega, rfl⟩
      obtain ⟨g', hY, hlt, hg⟩ := hY
      rw [← hg]
      have hyl : y.Out.length = g' * bs - pos := by rw [hY.Out, seg_length]
      generalize hk : min inp.length y.Out.length = k
      have hk1 : 1 ≤ k ∧ k ≤ inp.length ∧ k ≤ g' * bs - pos := by omega
      by_cases hko : out.length < k
      · rw [if_pos hko, if_neg (by omega)]
      · rw [if_neg hko]
        have hdl : (inp.drop k).length = inp.length - k := List.length_drop
        have hnext : At E bs s iv { y with Out := y.Out.drop k } (pos + k) g' := by
          refine ⟨hY.blockSize, hY.off, hY.len, hY.ctr, by omega, ?_⟩
          dsimp only
          rw [hY.Out, seg_drop _ _ _ _ _ _ _ hk1.2.2, Nat.sub_sub]
        have := ih _ (out.drop k) (inp.drop k) (pos + k) g' (by omega) hnext
        rw [hdl, List.length_drop, show pos + k + (inp.length - k) = pos + inp.length by omega, hC] at this
        by_cases hio : inp.length ≤ out.length
        · rw [if_pos (by omega)] at this
          obtain ⟨x', e, hA⟩ := this
          rw [if_pos hio]
          refine ⟨x', ?_, hA⟩
          rw [e, Option.map_some, crypt_split _ _ _ _ _ inp k hk1.2.1, hY.Out, seg_take _ _ _ _ _ _ _ hk1.2.2, List.drop_drop]
          dsimp only
          rw [show k + (inp.length - k) = inp.length by omega, List.append_assoc]
        · rw [if_neg (by omega)] at this
          rw [if_neg hio, this]; rfl

/-- A fresh object. -/
theorem init_at (hiv : iv.length = bs) (c : Int) (hc : (s : Int) = c ∧ 0 < c ∧ s ≤ bs ∨ c ≤ 0 ∧ s = bs) :
    At E bs s iv (init bs iv c) 0 0 := by
  refine ⟨rfl, ?_, by simp [init], ?_, by omega, by simp [init, seg]⟩
  · unfold init
    dsimp only
    split <;> omega
  · unfold init counter
    exact goCopy_zero_all _ _ (by simp [hiv])
end

/-- One call. -/
theorem step_eq {E : Bytes → Bytes} {bs s : Nat} {iv : Bytes} (hb : 0 < bs) (hE : ∀ b : Bytes, b.length = bs → (E b).length = bs)
    (hs : s ≤ bs) (hiv : iv.length = bs) (x : CTR) (pos g : Nat) (h : At E bs s iv x pos g) (c : Spec.CTR.Call) :
    match Spec.CTR.step E bs s iv (pos, g) c with
    | none => step E x c = none
    | some (st, r) => ∃ x', step E x c = some (x', r) ∧ At E bs s iv x' st.1 st.2 := by
  cases c with
  | xor out inp =>
    have := xorLoop_eq hb hE hs hiv inp.length x out inp pos g (Nat.le_refl _) h
    unfold Spec.CTR.step step xor
    dsimp only
    by_cases hl : inp.length ≤ out.length
    · rw [if_pos hl] at this ⊢
      obtain ⟨x', e, hA⟩ := this
      exact ⟨x', e, hA⟩
    · rw [if_neg hl] at this ⊢
      exact this
  | refill n =>
    unfold Spec.CTR.step step refillInt
    dsimp only
    by_cases hp : pos = g * bs
    · have hne : ¬ pos ≠ g * bs := by simpa using hp
      have hne2 : ¬ x.Out.length ≠ 0 := by simpa using h.empty.2 hp
      rw [if_neg hne, if_neg hne2]
      by_cases hn : 0 ≤ n ∧ n ≤ 8
      · rw [if_pos hn, if_neg (by omega)]
        exact ⟨_, rfl, h.refill hb hE hs hiv hp (by omega)⟩
      · rw [if_neg hn, if_pos (by omega)]; rfl
    · rw [if_pos hp, if_pos (fun e => hp (h.empty.1 e))]
      exact ⟨x, rfl, h⟩
  | copyCTR b =>
    unfold Spec.CTR.step step copyCTR
    dsimp only
    have hl := counter_length hs hiv g
    rw [h.ctr, hl]
    by_cases hbl : b.length = bs
    · rw [if_pos hbl, if_neg (by simpa using hbl), goCopy_zero_all _ _ (by rw [hl, hbl])]
      exact ⟨x, rfl, h⟩
    · rw [if_neg hbl, if_pos hbl]; rfl

theorem run_eq {E : Bytes → Bytes} {bs s : Nat} {iv : Bytes} (hb : 0 < bs) (hE : ∀ b : Bytes, b.length = bs → (E b).length = bs)
    (hs : s ≤ bs) (hiv : iv.length = bs) : ∀ (cs : List Spec.CTR.Call) (x : CTR) (pos g : Nat), At E bs s iv x pos g →
    run E x cs = Spec.CTR.run E bs s iv (pos, g) cs
  | [], _, _, _, _ => rfl
  | c :: cs, x, pos, g, h => by
    have := step_eq hb hE hs hiv x pos g h c
    unfold run Spec.CTR.run
    cases hstep : Spec.CTR.step E bs s iv (pos, g) c with
    | none => rw [hstep] at this; dsimp only at this; rw [this]
    | some q =>
      obtain ⟨st, r⟩ := q
      rw [hstep] at this
      dsimp only at this
      obtain ⟨x', e, hA⟩ := this
      rw [e]
      dsimp only
      rw [run_eq hb hE hs hiv cs x' st.1 st.2 hA]

/-- `GCMCounterCrypt` -/
theorem counterCrypt_eq {E : Bytes → Bytes} (hE : ∀ b : Bytes, b.length = 16 → (E b).length = 16) (iv : Bytes) (hiv : iv.length = 16) (out inp : Bytes) :
    counterCrypt E out inp iv = if inp.length ≤ out.length then
      some (crypt E 16 4 iv 0 inp ++ out.drop inp.length, counter 4 iv ((inp.length + 15) / 16)) else none := by
  have := xorLoop_eq (by omega) hE (show 4 ≤ 16 by omega) hiv inp.length (init 16 iv 4) out inp 0 0 (Nat.le_refl _) (init_at hiv 4 (by omega))
  unfold counterCrypt xor
  by_cases hl : inp.length ≤ out.length
  · rw [if_pos hl] at this ⊢
    obtain ⟨x', e, hA⟩ := this
    rw [e]
    have hcl := counter_length (show 4 ≤ 16 by omega) hiv (max 0 ((0 + inp.length + 16 - 1) / 16))
    have hcc : copyCTR x' iv = some (counter 4 iv ((inp.length + 15) / 16)) := by
      unfold copyCTR
      rw [hA.ctr, hcl, hiv, if_neg (by simp), goCopy_zero_all _ _ (by rw [hcl, hiv])]
      simp
    show (copyCTR x' iv).bind (fun c => some (_, c)) = _
    rw [hcc]; rfl
  · rw [if_neg hl] at this ⊢
    rw [this]; rfl

/-- The tag. -/
theorem auth_eq (key C A mask : Bytes) : auth (GMAC.gcmInit key) C A mask = Spec.GCM.tag (Spec.GCM.block key) A C mask := by
  unfold auth Spec.GCM.tag GMAC.gcmFinish
  dsimp only
  rw [GMAC.bytes_bv, GMAC.gcmMul_eq, GMAC.fe_xor, GMAC.ofNat_mul8, GMAC.ofNat_mul8, GMAC.gcmUpdate_eq, GMAC.gcmUpdate_eq, GMAC.fe_zero,
    List.append_assoc (_ ++ _), GMAC.ghash_len _ _ _ (by
      have h1 := GMAC.pad16_mod A
      have h2 := GMAC.pad16_mod C
      rw [List.length_append]; omega) rfl, fullBlocks_append _ _ _ (by omega) (GMAC.pad16_mod A), List.foldl_append]
  conv => rhs; unfold GMAC.gstep
  rw [show Spec.GCM.bitLen A ++ Spec.GCM.bitLen C = be64 (BitVec.ofNat 64 (8 * A.length)) ++ be64 (BitVec.ofNat 64 (8 * C.length)) from rfl,
    GMAC.lenBlock]
  rfl

end Verif.GCMCtr
