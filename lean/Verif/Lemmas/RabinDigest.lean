import Verif.Lemmas.Rabin
namespace Verif.Rabin
open Spec.Rabin

theorem shl_add_xor (a k b : Nat) (h : b < 2 ^ k) : a * 2 ^ k + b = (a <<< k) ^^^ b := by
  have h1 : a * 2 ^ k + b = (a <<< k) ||| b := by
    rw [← Nat.shiftLeft_eq]; exact Nat.shiftLeft_add_eq_or_of_lt h a
  rw [h1]
  apply Nat.eq_of_testBit_eq
  intro i
  rw [Nat.testBit_or, Nat.testBit_xor, Nat.testBit_shiftLeft]
  by_cases hi : k ≤ i
  · rw [bit_of_lt h hi]; simp
  · simp [hi]

theorem num_append (a b : Bytes) : num (a ++ b) = num a * 256 ^ b.length + num b := by
  have key : ∀ (l : Bytes) (v : Nat), l.foldl (fun v (b : Byte) => v * 256 + b.toNat) v =
      v * 256 ^ l.length + l.foldl (fun v (b : Byte) => v * 256 + b.toNat) 0 := by
    intro l
    induction l with
    | nil => intro v; simp
    | cons x l ih =>
      intro v
      rw [List.foldl_cons, ih, List.foldl_cons, ih (0 * 256 + x.toNat), List.length_cons, Nat.pow_succ]
      ring
  unfold num
  rw [List.foldl_append, key]

theorem num_lt (m : Bytes) : num m < 2 ^ (8 * m.length) := by
  induction m with
  | nil => simp [num]
  | cons x l ih =>
    have := num_append [x] l
    rw [List.singleton_append] at this
    rw [this, List.length_cons]
    have hx : num [x] < 256 := by simp only [num, List.foldl_cons, List.foldl_nil]; have := x.isLt; omega
    have hp : 256 ^ l.length = 2 ^ (8 * l.length) := by rw [Nat.pow_mul]
    rw [hp, show 8 * (l.length + 1) = 8 * l.length + 8 by ring, Nat.pow_add]
    have : (num [x] + 1) * 2 ^ (8 * l.length) ≤ 256 * 2 ^ (8 * l.length) := Nat.mul_le_mul_right _ hx
    calc num [x] * 2 ^ (8 * l.length) + num l < num [x] * 2 ^ (8 * l.length) + 2 ^ (8 * l.length) := by omega
      _ = (num [x] + 1) * 2 ^ (8 * l.length) := by ring
      _ ≤ _ := by rw [Nat.mul_comm _ (2 ^ 8)]; exact this

theorem num_snoc (m : Bytes) (b : Byte) : num (m ++ [b]) = (num m <<< 8) ^^^ b.toNat := by
  rw [← shl_add_xor _ _ _ b.isLt, num_append]
  simp [num]

theorem num_cons (x : Byte) (m : Bytes) : num (x :: m) = (x.toNat <<< (m.length * 8)) ^^^ num m := by
  have := num_append [x] m
  rw [List.singleton_append] at this
  rw [this, Nat.mul_comm m.length, ← shl_add_xor _ _ _ (num_lt m), Nat.pow_mul]
  simp [num]

theorem num_zeros (k : Nat) (m : Bytes) : num (zeros k ++ m) = num m := by
  induction k with
  | zero => rfl
  | succ k ih =>
    have : zeros (k+1) ++ m = 0#8 :: (zeros k ++ m) := rfl
    rw [this, num_cons, ih]
    simp

/-- A table made by `NewTable`. -/
structure Ok (tab : Table) (p : Nat) (w : Int) : Prop where
  lo : 9 ≤ p.size
  hi : p.size ≤ 64
  push : ∀ i, i < 256 → tab.push.getD i 0 = pushEntry p i
  pop : ∀ i, i < 256 → 0 < w → tab.pop.getD i 0 = popEntry p w.toNat i
  degree : tab.degree = p.size - 1
  shift : tab.shift = p.size - 9
  window : tab.window = w

theorem newTable_ok {polynomial : U64} {w : Int} {tab : Table} (h : newTable polynomial w = some tab) :
    Ok tab polynomial.toNat w := by
  unfold newTable at h
  simp only at h
  by_cases h9 : bitLen polynomial.toNat < 9
  · rw [if_pos h9] at h; exact absurd h (by simp)
  · rw [if_neg h9] at h
    have h := Option.some.inj h
    subst h
    have hg : ∀ (f : Nat → U64) i, i < 256 → ((List.range 256).map f).getD i 0 = f i := by
      intro f i hi
      rw [List.getD_eq_getElem?_getD, List.getElem?_map, List.getElem?_range hi]; rfl
    have h9 : ¬ polynomial.toNat.size < 9 := h9
    refine ⟨by omega, Nat.size_le.mpr polynomial.isLt, fun i hi => hg _ i hi, ?_, rfl, by simp only [bitLen]; omega, rfl⟩
    intro i hi hw
    simp only [if_pos hw]
    exact hg _ i hi

theorem pushByte_spec {tab : Table} {p : Nat} {w : Int} (ok : Ok tab p w) (h : U64) (b : Byte)
    (hlt : h.toNat < 2 ^ (p.size - 1)) :
    (pushByte tab h b).toNat < 2 ^ (p.size - 1) ∧ Cg p (pushByte tab h b).toNat ((h.toNat <<< 8) ^^^ b.toNat) := by
  have hlo := ok.lo
  have hhi := ok.hi
  have htop : ((h >>> (tab.shift % 64)).setWidth 8 : Byte).toNat = h.toNat >>> (p.size - 9) := by
    rw [BitVec.toNat_setWidth, BitVec.toNat_ushiftRight, ok.shift, Nat.mod_eq_of_lt (by omega : p.size - 9 < 64)]
    apply Nat.mod_eq_of_lt
    rw [Nat.shiftRight_eq_div_pow]
    apply Nat.div_lt_of_lt_mul
    rw [← Nat.pow_add]
    rw [show p.size - 9 + 8 = p.size - 1 by omega]; exact hlt
  have htlt : h.toNat >>> (p.size - 9) < 256 := by rw [← htop]; exact BitVec.isLt _
  generalize ht : h.toNat >>> (p.size - 9) = top at *
  obtain ⟨hr1, hr2⟩ := mod_spec (top <<< (p.size - 1)) p (by omega)
  generalize hr : mod (top <<< (p.size - 1)) p = r at *
  -- the value before truncation
  have hval : (pushByte tab h b).toNat = ((h.toNat <<< 8 ^^^ b.toNat) ^^^ (top <<< (p.size - 1) ^^^ r)) % 2 ^ 64 := by
    unfold pushByte
    simp only
    rw [htop, ok.push top htlt, pushEntry]
    simp only [mulX, bitLen, add, hr]
    rw [BitVec.toNat_xor, BitVec.toNat_or, BitVec.toNat_shiftLeft, BitVec.toNat_setWidth, BitVec.toNat_ofNat,
      Nat.xor_mod_two_pow (a := h.toNat <<< 8 ^^^ b.toNat)]
    congr 1
    have hb : b.toNat % 2 ^ 64 = b.toNat := Nat.mod_eq_of_lt (by have := b.isLt; omega)
    rw [hb]
    apply Nat.eq_of_testBit_eq
    intro i
    rw [Nat.testBit_or, Nat.testBit_mod_two_pow, Nat.testBit_mod_two_pow, Nat.testBit_xor, Nat.testBit_shiftLeft]
    by_cases hi : 8 ≤ i
    · rw [bit_of_lt (k := 8) b.isLt hi]; simp
    · simp [hi, show i < 64 by omega]
  have hfull : ((h.toNat <<< 8 ^^^ b.toNat) ^^^ (top <<< (p.size - 1) ^^^ r)) < 2 ^ (p.size - 1) := by
    apply lt_pow_of_bits
    intro i hi
    rw [Nat.testBit_xor, Nat.testBit_xor, Nat.testBit_xor, Nat.testBit_shiftLeft, Nat.testBit_shiftLeft,
      bit_of_lt (k := 8) b.isLt (by omega), bit_of_lt hr1 hi, ← ht, Nat.testBit_shiftRight,
      show p.size - 9 + (i - (p.size - 1)) = i - 8 by omega]
    simp [show 8 ≤ i by omega, hi]
  have h64 : 2 ^ (p.size - 1) ≤ 2 ^ 64 := Nat.pow_le_pow_right (by decide) (by omega)
  rw [Nat.mod_eq_of_lt (by omega)] at hval
  rw [hval]
  refine ⟨hfull, ?_⟩
  have hz : Cg p (top <<< (p.size - 1) ^^^ r) 0 := by
    have := (Cg.refl p (top <<< (p.size - 1))).xor hr2
    rwa [Nat.xor_self] at this
  have := (Cg.refl p (h.toNat <<< 8 ^^^ b.toNat)).xor hz
  rwa [Nat.xor_zero] at this

/-- The fingerprint of `M` is in the register. -/
structure Fp (p : Nat) (h : U64) (M : Bytes) : Prop where
  lt : h.toNat < 2 ^ (p.size - 1)
  cg : Cg p h.toNat (num M)

theorem Fp.nil (p : Nat) : Fp p 0#64 [] := by
  refine ⟨?_, ?_⟩
  · exact Nat.two_pow_pos _
  · exact Cg.refl _ _

theorem Fp.push {tab : Table} {p : Nat} {w : Int} (ok : Ok tab p w) {h : U64} {M : Bytes} (f : Fp p h M) (b : Byte) :
    Fp p (pushByte tab h b) (M ++ [b]) := by
  obtain ⟨h1, h2⟩ := pushByte_spec ok h b f.lt
  refine ⟨h1, h2.trans ?_⟩
  rw [num_snoc]
  exact (f.cg.shl 8).xor (Cg.refl _ _)

theorem Fp.update {tab : Table} {p : Nat} {w : Int} (ok : Ok tab p w) (q : Bytes) :
    ∀ {h : U64} {M : Bytes}, Fp p h M → Fp p (update tab h q) (M ++ q) := by
  induction q with
  | nil => intro h M f; rw [List.append_nil]; exact f
  | cons b q ih =>
    intro h M f
    have := ih (f.push ok b)
    rw [List.append_assoc, List.singleton_append] at this
    exact this

theorem Fp.pop {tab : Table} {p : Nat} {w : Int} (ok : Ok tab p w) (hw : 0 < w) {h : U64} {x : Byte} {M : Bytes}
    (hl : M.length = w.toNat - 1) (f : Fp p h (x :: M)) : Fp p (h ^^^ tab.pop.getD x.toNat 0) M := by
  obtain ⟨hr1, hr2⟩ := mod_spec (x.toNat <<< ((w.toNat - 1) * 8)) p (by have := ok.lo; omega)
  rw [ok.pop x.toNat x.isLt hw, popEntry]
  simp only [mulX]
  generalize mod (x.toNat <<< ((w.toNat - 1) * 8)) p = r at *
  have h64 : 2 ^ (p.size - 1) ≤ 2 ^ 64 := Nat.pow_le_pow_right (by decide) (by have := ok.hi; omega)
  have hv : (h ^^^ BitVec.ofNat 64 r).toNat = h.toNat ^^^ r := by
    rw [BitVec.toNat_xor, BitVec.toNat_ofNat, Nat.mod_eq_of_lt (by omega)]
  refine ⟨?_, ?_⟩
  · rw [hv]; exact Nat.xor_lt_two_pow f.lt hr1
  · rw [hv]
    have h1 := f.cg.xor hr2
    rw [num_cons, hl, Nat.xor_comm (x.toNat <<< _), Nat.xor_assoc, Nat.xor_self, Nat.xor_zero] at h1
    exact h1

/-- The window of a circular buffer. -/
def ring (msg : Bytes) (pos : Nat) : Bytes := msg.drop pos ++ msg.take pos

/-- The state of a windowed digest. -/
structure Win (p w : Nat) (s : Bytes × Nat × U64) (W : Bytes) : Prop where
  len : s.1.length = w
  pos : s.2.1 < w
  ring : ring s.1 s.2.1 = W
  fp : Fp p s.2.2 W

theorem roll_spec {tab : Table} {p : Nat} {w : Int} (ok : Ok tab p w) (hw : 0 < w) {s : Bytes × Nat × U64} {W : Bytes}
    (h : Win p w.toNat s W) (b : Byte) : Win p w.toNat (roll tab w.toNat s b) (W.drop 1 ++ [b]) := by
  obtain ⟨msg, pos, hash⟩ := s
  obtain ⟨h1, h2, h3, h4⟩ := h
  simp only at h1 h2 h3 h4
  obtain ⟨A, x, B, rfl, hA⟩ : ∃ A x B, msg = A ++ x :: B ∧ A.length = pos := by
    refine ⟨msg.take pos, msg[pos], msg.drop (pos+1), ?_, by rw [List.length_take]; omega⟩
    rw [List.getElem_cons_drop, List.take_append_drop]
  have hW : W = x :: (B ++ A) := by
    rw [← h3, Rabin.ring, List.drop_left' hA, List.take_left' hA]; rfl
  have hx : at8 (A ++ x :: B) pos = x := by
    unfold at8; rw [List.getD_eq_getElem?_getD, List.getElem?_append_right (by omega), hA]; simp
  have hset : (A ++ x :: B).set pos b = A ++ b :: B := by
    rw [List.set_append_right _ _ (by omega), hA]; simp
  have hl : (B ++ A).length = w.toNat - 1 := by
    rw [List.length_append, List.length_cons] at h1
    rw [List.length_append]; omega
  rw [hW] at h4
  have hf := (h4.pop ok hw hl).push ok b
  unfold roll
  simp only [hx, hset, hW, List.drop_succ_cons, List.drop_zero]
  have hlen : (A ++ b :: B).length = w.toNat := by
    rw [List.length_append, List.length_cons] at *; omega
  by_cases hp : pos + 1 = w.toNat
  · rw [if_pos hp]
    have hB : B = [] := by
      rw [List.length_append, List.length_cons] at h1
      exact List.eq_nil_of_length_eq_zero (by omega)
    subst hB
    refine ⟨hlen, by simp only; omega, ?_, hf⟩
    simp [Rabin.ring]
  · rw [if_neg hp]
    refine ⟨hlen, by simp only; omega, ?_, hf⟩
    have e : A ++ b :: B = (A ++ [b]) ++ B := by simp
    have hAl : (A ++ [b]).length = pos + 1 := by simp [hA]
    simp only [Rabin.ring]
    rw [e, List.drop_left' hAl, List.take_left' hAl, List.append_assoc]

theorem rolls_spec {tab : Table} {p : Nat} {w : Int} (ok : Ok tab p w) (hw : 0 < w) (q : Bytes) :
    ∀ {s : Bytes × Nat × U64} {W : Bytes}, Win p w.toNat s W →
      Win p w.toNat (q.foldl (roll tab w.toNat) s) ((W ++ q).drop q.length) := by
  induction q with
  | nil => intro s W h; simpa using h
  | cons b q ih =>
    intro s W h
    have h' := ih (roll_spec ok hw h b)
    have hWl : 1 ≤ W.length := by
      rw [← h.ring]
      have h1 := h.len
      have h2 := h.pos
      simp only [Rabin.ring, List.length_append, List.length_drop, List.length_take]
      omega
    rw [List.foldl_cons]
    have e : (W ++ b :: q).drop (b :: q).length = (W.drop 1 ++ [b] ++ q).drop q.length := by
      rw [List.length_cons, Nat.add_comm, ← List.drop_drop, List.drop_append_of_le_length hWl]
      simp
    rw [e]; exact h'

/-- The last `w` bytes of the message preceded by zeros. -/
def lastW (w : Nat) (m : Bytes) : Bytes := (zeros w ++ m).drop m.length

theorem lastW_length (w : Nat) (m : Bytes) : (lastW w m).length = w := by
  unfold lastW; rw [List.length_drop, List.length_append, zeros_length]; omega

theorem lastW_append (w : Nat) (m q : Bytes) : lastW w (m ++ q) = (lastW w m ++ q).drop q.length := by
  unfold lastW
  rw [← List.append_assoc, List.length_append, ← List.drop_drop, List.drop_append_of_le_length (l₁ := zeros w ++ m)]
  rw [List.length_append]; omega

theorem num_lastW (w : Int) (hw : 0 < w) (m : Bytes) : num (lastW w.toNat m) = num (window w m) := by
  unfold window lastW
  rw [if_pos hw]
  by_cases h : m.length ≤ w.toNat
  · rw [List.drop_append_of_le_length (by rw [zeros_length]; exact h), show m.length - w.toNat = 0 by omega, List.drop_zero]
    have : (zeros w.toNat).drop m.length = zeros (w.toNat - m.length) := by simp [zeros]
    rw [this, num_zeros]
  · have : (zeros w.toNat ++ m).drop m.length = m.drop (m.length - w.toNat) := by
      rw [show m.length = (zeros w.toNat).length + (m.length - w.toNat) by rw [zeros_length]; omega, ← List.drop_drop,
        List.drop_left' rfl]
      rw [zeros_length]
      congr 1
      omega
    rw [this]

/-- What a digest must remember. -/
structure Repr (p : Nat) (w : Int) (d : Digest) (m : Bytes) : Prop where
  ok : Ok d.tab p w
  nowin : ¬ 0 < w → d.msg = none ∧ Fp p d.hash m
  win : 0 < w → ∃ msg, d.msg = some msg ∧ Win p w.toNat (msg, d.pos, d.hash) (lastW w.toNat m)

theorem Fp.zeros (p k : Nat) : Fp p 0#64 (zeros k) := by
  refine ⟨(Fp.nil p).lt, ?_⟩
  have := num_zeros k []
  rw [List.append_nil] at this
  rw [this]
  exact (Fp.nil p).cg

theorem lastW_nil (w : Nat) : lastW w [] = Verif.zeros w := by simp [lastW]

theorem ring_zeros (w : Nat) : ring (zeros w) 0 = zeros w := by simp [ring]

theorem new_repr {tab : Table} {p : Nat} {w : Int} (ok : Ok tab p w) : Repr p w (new tab) [] := by
  have hwin := ok.window
  refine ⟨ok, ?_, ?_⟩
  · intro h; exact ⟨by simp only [new, hwin, if_neg h], Fp.nil p⟩
  · intro h
    refine ⟨Verif.zeros w.toNat, by simp only [new, hwin, if_pos h], zeros_length _, by simp only [new]; omega, ?_, ?_⟩
    · simp only [new, ring_zeros, lastW_nil]
    · rw [lastW_nil]; exact Fp.zeros p _

theorem reset_repr {p : Nat} {w : Int} {d : Digest} {m : Bytes} (h : Repr p w d m) : Repr p w (reset d) [] := by
  obtain ⟨ok, hn, hw⟩ := h
  obtain ⟨tab, hash, msg, pos⟩ := d
  by_cases hw0 : 0 < w
  · obtain ⟨ms, e, hl, hp, hr, hf⟩ := hw hw0
    simp only at e hl
    subst e
    simp only [reset, hl]
    refine ⟨ok, fun h => absurd hw0 h, fun _ => ⟨_, rfl, zeros_length _, by simp only; omega, ?_, ?_⟩⟩
    · simp only [ring_zeros, lastW_nil]
    · rw [lastW_nil]; exact Fp.zeros p _
  · obtain ⟨e, hf⟩ := hn hw0
    simp only at e
    subst e
    exact ⟨ok, fun _ => ⟨rfl, Fp.nil p⟩, fun h => absurd h hw0⟩

theorem write_repr {p : Nat} {w : Int} {d : Digest} {m : Bytes} (h : Repr p w d m) (q : Bytes) :
    Repr p w (write d q) (m ++ q) := by
  obtain ⟨ok, hn, hw⟩ := h
  obtain ⟨tab, hash, msg, pos⟩ := d
  simp only at ok hn hw
  by_cases hw0 : 0 < w
  · obtain ⟨ms, e, W⟩ := hw hw0
    subst e
    have hl : ms.length = w.toNat := W.len
    simp only [write]
    by_cases hc : ms.length ≤ q.length
    · simp only [if_pos hc]
      have hdl : (q.drop (q.length - ms.length)).length = w.toNat := by rw [List.length_drop]; omega
      have hcopy : goCopy ms 0 (q.drop (q.length - ms.length)) = q.drop (q.length - ms.length) := by
        generalize hQ : q.drop (q.length - ms.length) = Q at *
        unfold goCopy
        rw [List.take_zero, List.nil_append, Nat.sub_zero, Nat.zero_add, List.take_of_length_le (by omega),
          List.drop_of_length_le (by omega), List.append_nil]
      have hlast : lastW w.toNat (m ++ q) = q.drop (q.length - ms.length) := by
        rw [lastW_append, ← hl]
        have h1 := lastW_length ms.length m
        rw [show q.length = (lastW ms.length m).length + (q.length - ms.length) by omega, ← List.drop_drop,
          List.drop_left' rfl]
        congr 1
        omega
      refine ⟨ok, fun h => absurd hw0 h, fun _ => ⟨_, rfl, ?_⟩⟩
      rw [hcopy, hlast]
      refine ⟨hdl, by simp only; omega, by simp [ring], ?_⟩
      have := (Fp.nil p).update ok (q.drop (q.length - ms.length))
      rw [List.nil_append] at this
      exact this
    · simp only [if_neg hc]
      refine ⟨ok, fun h => absurd hw0 h, fun _ => ⟨_, rfl, ?_⟩⟩
      have h1 := rolls_spec ok hw0 q W
      rw [lastW_append, hl]
      exact h1
  · obtain ⟨e, hf⟩ := hn hw0
    subst e
    exact ⟨ok, fun _ => ⟨rfl, hf.update ok q⟩, fun h => absurd h hw0⟩

/-- The register holds the fingerprint of the window. -/
theorem hash_eq {p : Nat} {w : Int} {d : Digest} {m : Bytes} (h : Repr p w d m) :
    d.hash = fingerprint p (window w m) := by
  have hp : 0 < p.size := by have := h.ok.lo; omega
  by_cases hw : 0 < w
  · obtain ⟨ms, _, W⟩ := h.win hw
    refine fingerprint_eq hp W.fp.lt ?_
    rw [← num_lastW w hw]
    exact W.fp.cg
  · have hf := (h.nowin hw).2
    refine fingerprint_eq hp hf.lt ?_
    have : window w m = m := by unfold window; rw [if_neg hw]
    rw [this]; exact hf.cg

theorem lt_repr {p : Nat} {w : Int} {d : Digest} {m : Bytes} (h : Repr p w d m) : d.hash.toNat < 2 ^ (p.size - 1) := by
  by_cases hw : 0 < w
  · obtain ⟨ms, _, W⟩ := h.win hw; exact W.fp.lt
  · exact (h.nowin hw).2.lt

theorem blockSize_eq {p : Nat} {w : Int} {d : Digest} {m : Bytes} (h : Repr p w d m) :
    blockSize d = if 0 < w then w.toNat else 1 := by
  by_cases hw : 0 < w
  · obtain ⟨ms, e, W⟩ := h.win hw
    unfold blockSize
    simp only [e, if_pos hw]; exact W.len
  · unfold blockSize; simp only [(h.nowin hw).1, if_neg hw]

theorem size_eq {p : Nat} {w : Int} {d : Digest} {m : Bytes} (h : Repr p w d m) : size d = (p.size + 7) / 8 := by
  have := h.ok.lo
  unfold size
  simp only [h.ok.degree]
  congr 1
  omega

end Verif.Rabin
