import Verif.Lemmas.EchoComp
/-
Package echo: BIG.Final, Write and Sum.
-/
namespace Verif.Echo
open LSH (getD_set' getD_map_range ext_getD)

/-- A loop that sets entry i from the entries at i and after. -/
theorem setLoop (s : List U64) (F : List U64 → Nat → U64) (n : Nat) (hn : n ≤ s.length)
    (hF : ∀ h i, i < n → (∀ j, i ≤ j → h.getD j 0 = s.getD j 0) → F h i = F s i) :
    (forLoop 0 n (fun h i => h.set i (F h i)) s).length = s.length ∧
      (∀ i, i < n → (forLoop 0 n (fun h i => h.set i (F h i)) s).getD i 0 = F s i) ∧
      (∀ j, n ≤ j → (forLoop 0 n (fun h i => h.set i (F h i)) s).getD j 0 = s.getD j 0) := by
  have key := forLoop_inv (P := fun k h => h.length = s.length ∧ (∀ i, i < k → h.getD i 0 = F s i) ∧ (∀ j, k ≤ j → h.getD j 0 = s.getD j 0))
    (a := 0) (b := n) (body := fun h i => h.set i (F h i)) (s := s) (Nat.zero_le n) ⟨rfl, fun i h => absurd h (by omega), fun _ _ => rfl⟩ ?_
  · exact key
  · intro k h _ hk ⟨i1, i2, i3⟩
    refine ⟨by rw [List.length_set, i1], ?_, ?_⟩
    · intro i hi
      rw [getD_set']
      by_cases e : k = i
      · rw [if_pos ⟨e, by omega⟩, hF h k hk i3, e]
      · rw [if_neg (fun h => e h.1), i2 i (by omega)]
    · intro j hj
      rw [getD_set', if_neg (by omega), i3 j (by omega)]

theorem load_abs (x : Bytes) (h : x.length % 8 = 0) : abs (bytesToUint64s x) = x := by
  have hl : (bytesToUint64s x).length = x.length / 8 := by simp [bytesToUint64s]
  apply ext_at8 (by rw [abs_length, hl]; omega)
  intro i hi
  rw [abs_length, hl] at hi
  rw [abs_at _ _ (by rw [hl]; exact hi)]
  unfold bytesToUint64s
  rw [getD_map_range _ _ _ _ (by omega), getLE64_extract _ _ _ (by omega)]
  congr 1; omega

theorem abs_append (a b : List U64) : abs (a ++ b) = abs a ++ abs b := List.flatMap_append

theorem abs_take (s : List U64) (k : Nat) : abs (s.take k) = (abs s).take (8 * k) := by
  induction s generalizing k with
  | nil => simp
  | cons a t ih =>
    cases k with
    | zero => simp
    | succ k =>
      show le64 a ++ abs (t.take k) = (le64 a ++ abs t).take (8 * (k + 1))
      rw [ih, List.take_append, List.take_of_length_le (l := le64 a) (by rw [le64_length]; omega), le64_length, show 8 * (k + 1) - 8 = 8 * k by omega]

theorem xor_ext (k : Nat) (x y : U64) : (x ^^^ y).extractLsb' (8 * k) 8 = x.extractLsb' (8 * k) 8 ^^^ y.extractLsb' (8 * k) 8 := by
  rw [BitVec.extractLsb'_xor]

theorem fold4' (f g : Nat → Byte) : (List.range 4).foldl (fun a k => a ^^^ f k ^^^ g k) 0 = f 0 ^^^ g 0 ^^^ f 1 ^^^ g 1 ^^^ f 2 ^^^ g 2 ^^^ f 3 ^^^ g 3 := by
  show (0 ^^^ _) ^^^ _ ^^^ _ ^^^ _ ^^^ _ ^^^ _ ^^^ _ ^^^ _ = _
  rw [show ∀ x : Byte, (0 : Byte) ^^^ x = x from fun x => BitVec.zero_xor]
theorem fold2' (f g : Nat → Byte) : (List.range 2).foldl (fun a k => a ^^^ f k ^^^ g k) 0 = f 0 ^^^ g 0 ^^^ f 1 ^^^ g 1 := by
  show (0 ^^^ _) ^^^ _ ^^^ _ ^^^ _ = _
  rw [show ∀ x : Byte, (0 : Byte) ^^^ x = x from fun x => BitVec.zero_xor]

/-- The salt as bytes. -/
def saltBytes (salt : U64 × U64) : Bytes := le64 salt.1 ++ le64 salt.2

theorem transform_eq (n : Nat) (salt : U64 × U64) (s : List U64) (hs : s.length = 32) (x : Bytes) (hx : x.length = Spec.Echo.blockLen n)
    (len : U64) (ab : Bool) (add : U64) :
    (transform (8 * (n : Int)) salt s len x ab add).length = 32 ∧ (abs (transform (8 * (n : Int)) salt s len x ab add)).take (Spec.Echo.vLen n) =
      Spec.Echo.compress n (saltBytes salt) ((abs s).take (Spec.Echo.vLen n)) x (if ab then len + add else 0) := by
  unfold transform
  dsimp only
  have hb : x.length % 8 = 0 := by rw [hx]; unfold Spec.Echo.blockLen Spec.Echo.vLen; split <;> rfl
  have hxl : (bytesToUint64s x).length = x.length / 8 := by simp [bytesToUint64s]
  generalize hκ : (if ab = true then len + add else 0) = κ
  generalize hs1 : s.take (32 - (bytesToUint64s x).length) ++ bytesToUint64s x = s1
  have hv : 8 * (32 - (bytesToUint64s x).length) = Spec.Echo.vLen n := by
    rw [hxl, hx]; unfold Spec.Echo.blockLen Spec.Echo.vLen; split <;> rfl
  have hs1l : s1.length = 32 := by
    rw [← hs1, List.length_append, List.length_take, hs, hxl, hx]; unfold Spec.Echo.blockLen Spec.Echo.vLen; split <;> rfl
  have ha : abs s1 = (abs s).take (Spec.Echo.vLen n) ++ x := by
    rw [← hs1, abs_append, abs_take, load_abs x hb, hv]
  unfold Spec.Echo.compress
  rw [← ha]
  have hr : (if (8 * (n : Int)) > 256 then 10 else 8) = Spec.Echo.numRounds n := by
    unfold Spec.Echo.numRounds
    by_cases h : n ≤ 32
    · rw [if_pos h, if_neg (by omega)]
    · rw [if_neg h, if_pos (by omega)]
  rw [hr]
  obtain ⟨g1, -, g3⟩ := rounds_eq salt.1 salt.2 s1 κ hs1l (Spec.Echo.numRounds n)
  unfold saltBytes
  rw [← g3]
  generalize (forLoop 0 (Spec.Echo.numRounds n) (fun st _ => round salt.1 salt.2 st) (s1, κ)).1 = w at g1
  clear hr hs1 hκ ha g3
  by_cases hn : n ≤ 32
  · have e1 : Spec.Echo.vLen n = 64 := by unfold Spec.Echo.vLen; rw [if_pos hn]
    rw [e1, if_pos (by omega), show 256 / 64 = 4 from rfl]
    have L := setLoop s1 (fun h i => h.getD i 0 ^^^ h.getD (i + 8) 0 ^^^ h.getD (i + 16) 0 ^^^ h.getD (i + 24) 0 ^^^
      w.getD i 0 ^^^ w.getD (i + 8) 0 ^^^ w.getD (i + 16) 0 ^^^ w.getD (i + 24) 0) 8 (by omega)
      (fun h i _ hh => by rw [hh i (by omega), hh (i + 8) (by omega), hh (i + 16) (by omega), hh (i + 24) (by omega)])
    obtain ⟨l1, l2, -⟩ := L
    generalize forLoop 0 8 _ s1 = r at l1 l2
    refine ⟨by rw [l1, hs1l], ?_⟩
    apply ext_at8 (by rw [List.length_take, abs_length, l1, hs1l]; simp)
    intro i hi
    rw [List.length_take, abs_length, l1, hs1l] at hi
    rw [at8_map_range _ _ _ (by omega), at8_take (by omega), abs_at _ _ (by omega), l2 _ (by omega)]
    rw [fold4' (fun k => at8 (abs s1) (i + 64 * k)) (fun k => at8 (abs w) (i + 64 * k))]
    have hq : ∀ (u : List U64), u.length = 32 → ∀ k, k < 4 → at8 (abs u) (i + 64 * k) = (u.getD (i / 8 + 8 * k) 0).extractLsb' (8 * (i % 8)) 8 := by
      intro u hu k hk
      rw [abs_at _ _ (by omega), show (i + 64 * k) / 8 = i / 8 + 8 * k by omega, show (i + 64 * k) % 8 = i % 8 by omega]
    rw [hq s1 hs1l 0 (by decide), hq s1 hs1l 1 (by decide), hq s1 hs1l 2 (by decide), hq s1 hs1l 3 (by decide),
      hq w g1 0 (by decide), hq w g1 1 (by decide), hq w g1 2 (by decide), hq w g1 3 (by decide)]
    rw [xor_ext, xor_ext, xor_ext, xor_ext, xor_ext, xor_ext, xor_ext]
    simp only [Nat.mul_zero, Nat.add_zero, Nat.mul_one, Nat.reduceMul]
    ac_rfl
  · have e1 : Spec.Echo.vLen n = 128 := by unfold Spec.Echo.vLen; rw [if_neg hn]
    rw [e1, if_neg (by omega), show 256 / 128 = 2 from rfl]
    have L := setLoop s1 (fun h i => h.getD i 0 ^^^ h.getD (i + 16) 0 ^^^ w.getD i 0 ^^^ w.getD (i + 16) 0) 16 (by omega)
      (fun h i _ hh => by rw [hh i (by omega), hh (i + 16) (by omega)])
    obtain ⟨l1, l2, -⟩ := L
    generalize forLoop 0 16 _ s1 = r at l1 l2
    refine ⟨by rw [l1, hs1l], ?_⟩
    apply ext_at8 (by rw [List.length_take, abs_length, l1, hs1l]; simp)
    intro i hi
    rw [List.length_take, abs_length, l1, hs1l] at hi
    rw [at8_map_range _ _ _ (by omega), at8_take (by omega), abs_at _ _ (by omega), l2 _ (by omega)]
    rw [fold2' (fun k => at8 (abs s1) (i + 128 * k)) (fun k => at8 (abs w) (i + 128 * k))]
    have hq : ∀ (u : List U64), u.length = 32 → ∀ k, k < 2 → at8 (abs u) (i + 128 * k) = (u.getD (i / 8 + 16 * k) 0).extractLsb' (8 * (i % 8)) 8 := by
      intro u hu k hk
      rw [abs_at _ _ (by omega), show (i + 128 * k) / 8 = i / 8 + 16 * k by omega, show (i + 128 * k) % 8 = i % 8 by omega]
    rw [hq s1 hs1l 0 (by decide), hq s1 hs1l 1 (by decide), hq w g1 0 (by decide), hq w g1 1 (by decide)]
    rw [xor_ext, xor_ext, xor_ext]
    simp only [Nat.mul_zero, Nat.add_zero, Nat.mul_one]
    ac_rfl

/-- The chaining value after the full blocks of a message. -/
def chain (n : Nat) (salt m : Bytes) : Bytes :=
  ((fullBlocks (Spec.Echo.blockLen n) m).zipIdx).foldl
    (fun V b => Spec.Echo.compress n salt V b.1 (BitVec.ofNat 64 (8 * (Spec.Echo.blockLen n * (b.2 + 1))))) (Spec.Echo.iv n)

structure Good (n : Nat) (salt : U64 × U64) (c : List U64 × U64) (m : Bytes) : Prop where
  sl : c.1.length = 32
  st : (abs c.1).take (Spec.Echo.vLen n) = chain n (saltBytes salt) m
  len : c.2 = BitVec.ofNat 64 (8 * m.length)

structure Rep (n : Nat) (salt : U64 × U64) (d : Digest) (m : Bytes) : Prop where
  hs : d.hs = 8 * (n : Int)
  bs : d.bs = 8 * Spec.Echo.blockLen n
  slt : d.salt = salt
  rep : LoopRep (Spec.Echo.blockLen n) (Spec.Echo.blockLen n) (Good n salt) (d.s, d.len) d.x d.nx m

theorem block_pos (n : Nat) : 0 < Spec.Echo.blockLen n := by unfold Spec.Echo.blockLen Spec.Echo.vLen; split <;> decide
theorem block_cases (n : Nat) : Spec.Echo.blockLen n = 192 ∨ Spec.Echo.blockLen n = 128 := by unfold Spec.Echo.blockLen Spec.Echo.vLen; split <;> simp

theorem len_add (m p : Bytes) : (BitVec.ofNat 64 (8 * m.length) + BitVec.ofNat 64 p.length * 8 : U64) = BitVec.ofNat 64 (8 * (m ++ p).length) := by
  apply BitVec.eq_of_toNat_eq
  rw [List.length_append]
  simp only [BitVec.toNat_add, BitVec.toNat_mul, BitVec.toNat_ofNat, show (8 : U64).toNat = 8 from rfl]
  simp only [Nat.reducePow]; omega

theorem write_rep (n : Nat) (salt : U64 × U64) (d : Digest) (m p : Bytes) (h : Rep n salt d m) : Rep n salt (d.write p) (m ++ p) := by
  obtain ⟨h1, h2, h3, h4⟩ := h
  refine ⟨h1, h2, h3, ?_⟩
  show LoopRep _ _ _ (_, _) _ _ _
  unfold Digest.write
  rw [h2, h1, h3, Nat.mul_div_cancel_left _ (by decide : 0 < 8)]
  have hB := block_pos n
  generalize hBB : Spec.Echo.blockLen n = B at hB h4 ⊢
  apply loopWrite_rep B B hB (Nat.le_refl _) (Good n salt) _ _ ?_ ?_ _ _ _ _ _ _ h4 (Nat.lt_succ_self _)
  · intro c x m p hR hxl hl hx hf hr
    obtain ⟨r1, r2, r3⟩ := hR
    obtain ⟨t1, t2⟩ := transform_eq n salt c.1 r1 x (by rw [hxl, hBB]) c.2 true (BitVec.ofNat 64 p.length * 8)
    have hxx : x = restBlock B m ++ p := by rw [← hx, List.take_of_length_le (by omega)]
    refine ⟨t1, ?_, ?_⟩
    · show (abs (transform _ _ _ _ _ _ _)).take _ = _
      rw [t2, r2]
      unfold chain
      rw [hBB, hf, List.zipIdx_append, List.foldl_append]
      show Spec.Echo.compress n _ _ x _ = Spec.Echo.compress n _ _ _ _
      rw [hxx, if_pos rfl, r3, len_add]
      congr 2
      have hm := fullBlocks_flatten_append_rest B m
      have e1 := List.length_append (as := m) (bs := p)
      have e2 := Nat.div_add_mod m.length B
      rw [restBlock_length] at hl
      rw [fullBlocks_length, e1, Nat.zero_add]
      show 8 * (m.length + p.length) = 8 * (B * (m.length / B + 1))
      rw [Nat.mul_add B, Nat.mul_one]
      omega
    · show c.2 + _ = _
      rw [r3, len_add]
  · intro c m p hR hl hf hr
    obtain ⟨r1, r2, r3⟩ := hR
    refine ⟨r1, ?_, ?_⟩
    · show (abs c.1).take _ = _
      rw [r2]; unfold chain; rw [hBB, hf]
    · show c.2 + _ = _
      rw [r3, len_add]

def encode (n : Nat) (m : Bytes) : Bytes :=
  [BitVec.ofNat 8 (8 * n), BitVec.ofNat 8 (8 * n / 256)] ++ le64 (BitVec.ofNat 64 (8 * m.length)) ++ zeros 8

theorem pad_eq (n : Nat) (m : Bytes) : Spec.Echo.pad n m = mdPad (Spec.Echo.blockLen n) 0x80#8 (encode n m) m := by
  unfold Spec.Echo.pad mdPad encode
  have : (2 * Spec.Echo.blockLen n - 19 - m.length % Spec.Echo.blockLen n) % Spec.Echo.blockLen n =
      (Spec.Echo.blockLen n - (m.length + 1 + 18) % Spec.Echo.blockLen n) % Spec.Echo.blockLen n := by
    rcases block_cases n with h | h <;> rw [h] <;> omega
  rw [this]
  simp only [List.append_assoc, List.length_append, le64_length, zeros_length, List.length_cons, List.length_nil, Nat.reduceAdd, List.cons_append, List.nil_append]

theorem encode_length (n : Nat) (m : Bytes) : (encode n m).length = 18 := by simp [encode]

/-- The tail of the buffer, written in three steps. -/
theorem tail3 (X h2 l8 : Bytes) (L : Nat) (hX : X.length = L) (hL : 18 ≤ L) (e2 : h2.length = 2) (e8 : l8.length = 8) :
    goCopy (goCopy (goCopy X (L - 18) h2) (L - 16) l8) (L - 8) (zeros L) = X.take (L - 18) ++ h2 ++ l8 ++ zeros 8 := by
  have a1 : goCopy X (L - 18) h2 = (X.take (L - 18) ++ h2) ++ X.drop (L - 16) := by
    unfold goCopy
    rw [List.take_of_length_le (l := h2) (by omega), e2, show L - 18 + 2 = L - 16 by omega]
  have n1 : (X.take (L - 18) ++ h2).length = L - 16 := by rw [List.length_append, List.length_take, e2]; omega
  have a2 : goCopy ((X.take (L - 18) ++ h2) ++ X.drop (L - 16)) (L - 16) l8 = (X.take (L - 18) ++ h2 ++ l8) ++ X.drop (L - 8) := by
    unfold goCopy
    rw [List.take_left' n1, List.take_of_length_le (l := l8) (by rw [List.length_append, n1, List.length_drop]; omega), e8]
    congr 1
    rw [List.drop_append, n1, List.drop_of_length_le (by rw [n1]; omega), List.nil_append, List.drop_drop]
    congr 1
    omega
  have n2 : (X.take (L - 18) ++ h2 ++ l8).length = L - 8 := by rw [List.length_append, n1, e8]; omega
  rw [a1, a2]
  unfold goCopy
  rw [List.take_left' n2, List.length_append, n2, List.length_drop, take_zeros _ _ (by omega), zeros_length,
    List.drop_of_length_le (by rw [List.length_append, n2, List.length_drop]; omega), List.append_nil]
  congr 2; omega

theorem fold_mem {α β} (f g : α → β → α) (l : List β) (a : α) (h : ∀ a, ∀ b ∈ l, f a b = g a b) : l.foldl f a = l.foldl g a := by
  induction l generalizing a with
  | nil => rfl
  | cons b t ih => rw [List.foldl_cons, List.foldl_cons, h a b List.mem_cons_self, ih _ (fun a c hc => h a c (List.mem_cons_of_mem _ hc))]

/-- The counters of the full blocks of the message. -/
theorem chain_counter (n : Nat) (salt m : Bytes) :
    ((fullBlocks (Spec.Echo.blockLen n) m).zipIdx).foldl (fun V b => Spec.Echo.compress n salt V b.1 (Spec.Echo.counter n m b.2)) (Spec.Echo.iv n) =
      chain n salt m := by
  unfold chain
  apply fold_mem
  intro V b hb
  have hi : b.2 < (fullBlocks (Spec.Echo.blockLen n) m).length := by
    have := List.snd_lt_of_mem_zipIdx hb
    simpa using this
  rw [fullBlocks_length] at hi
  have hB := block_pos n
  have h1 : Spec.Echo.blockLen n * (b.2 + 1) ≤ m.length := by
    rw [Nat.mul_comm]; exact (Nat.le_div_iff_mul_le hB).1 hi
  have h2 : Spec.Echo.blockLen n * b.2 < m.length := by
    rw [Nat.mul_add, Nat.mul_one] at h1; omega
  unfold Spec.Echo.counter
  rw [if_pos h2, Nat.min_eq_left h1]

theorem checkSum_eq (n : Nat) (hn : n ≤ 64) (salt : U64 × U64) (d : Digest) (m : Bytes) (h : Rep n salt d m) :
    d.checkSum = some (Spec.Echo.hash n (saltBytes salt) m) := by
  obtain ⟨h1, h2, h3, h4⟩ := h
  have hB := block_pos n
  have hB18 : 18 < Spec.Echo.blockLen n := by rcases block_cases n with h | h <;> rw [h] <;> decide
  have hnx := h4.nx_lt hB
  obtain ⟨⟨g1, g2, g3⟩, xl, hr, pend⟩ := h4
  dsimp only at g1 g2 g3
  have hrl := restBlock_length (Spec.Echo.blockLen n) m
  unfold Digest.checkSum
  rw [h1, h2, h3, Nat.mul_div_cancel_left _ (by decide : 0 < 8), g3]
  have hq : (8 * (n : Int)).tdiv 8 = n := by rw [Int.mul_tdiv_cancel_left _ (by decide)]
  rw [hq]
  have henc : encode n m = [((BitVec.ofInt 16 (8 * (n : Int))).setWidth 8 : Byte), ((BitVec.ofInt 16 (8 * (n : Int)) >>> 8).setWidth 8 : Byte)] ++
      le64 (BitVec.ofNat 64 (8 * m.length)) ++ zeros 8 := by
    unfold encode
    have : BitVec.ofInt 16 (8 * (n : Int)) = BitVec.ofNat 16 (8 * n) := by
      rw [show (8 * (n : Int)) = ((8 * n : Nat) : Int) by omega, BitVec.ofInt_natCast]
    rw [this]
    congr 3
    · apply BitVec.eq_of_toNat_eq; simp [BitVec.toNat_setWidth]
    · congr 1
      apply BitVec.eq_of_toNat_eq
      simp only [BitVec.toNat_setWidth, BitVec.toNat_ushiftRight, BitVec.toNat_ofNat, Nat.shiftRight_eq_div_pow]
      simp only [Nat.reducePow]
      omega
  have hfin : ∀ (s : List U64) (V : Bytes), s.length = 32 → V = (abs s).take (Spec.Echo.vLen n) →
      (if 0 ≤ (n : Int) ∧ ((n : Int)).toNat ≤ (uint64sToBytes s).length then some ((uint64sToBytes s).take ((n : Int)).toNat) else none) = some (V.take n) := by
    intro s V hs hV
    have hl : (uint64sToBytes s).length = 256 := by
      show (abs s).length = 256; rw [abs_length, hs]
    rw [if_pos ⟨by omega, by rw [hl]; omega⟩, hV, List.take_take, Nat.min_eq_left]
    · rfl
    · unfold Spec.Echo.vLen; split <;> omega
  have hH : ∀ V, V = ((fullBlocks (Spec.Echo.blockLen n) (Spec.Echo.pad n m)).zipIdx).foldl
      (fun V b => Spec.Echo.compress n (saltBytes salt) V b.1 (Spec.Echo.counter n m b.2)) (Spec.Echo.iv n) → Spec.Echo.hash n (saltBytes salt) m = V.take n := by
    intro V hV; rw [hV]; rfl
  have hclose : goCopy (d.x.set d.nx 0x80#8) (d.nx + 1) (zeros (Spec.Echo.blockLen n)) =
      restBlock (Spec.Echo.blockLen n) m ++ 0x80#8 :: zeros (Spec.Echo.blockLen n - 1 - d.nx) := by
    have := closeBuf 0x80#8 d.x d.nx (Spec.Echo.blockLen n) _ (by omega) hnx pend
    rwa [List.take_of_length_le] at this
    rw [goCopy_length _ _ _ (by rw [List.length_set]; omega), List.length_set]; omega
  have hdm := Nat.div_add_mod m.length (Spec.Echo.blockLen n)
  generalize hBB : Spec.Echo.blockLen n = B at *
  dsimp only
  by_cases hc : d.nx + 1 > B - 18
  · rw [if_pos hc]
    dsimp only
    have hcl : (goCopy (d.x.set d.nx 0x80#8) (d.nx + 1) (zeros B)).length = B := by
      rw [hclose]; simp only [List.length_append, List.length_cons, zeros_length, hrl]; omega
    obtain ⟨t1, t2⟩ := transform_eq n salt d.s g1 (goCopy (d.x.set d.nx 0x80#8) (d.nx + 1) (zeros B)) (by rw [hcl, hBB])
      (BitVec.ofNat 64 (8 * m.length)) true 0
    generalize transform (8 * (n : Int)) salt d.s (BitVec.ofNat 64 (8 * m.length)) (goCopy (d.x.set d.nx 0x80#8) (d.nx + 1) (zeros B)) true 0 = s1 at t1 t2
    have hz : goCopy (goCopy (d.x.set d.nx 0x80#8) (d.nx + 1) (zeros B)) 0 (zeros B) = zeros B := by
      have := zeroBuf (goCopy (d.x.set d.nx 0x80#8) (d.nx + 1) (zeros B)) B (by omega)
      rwa [List.take_of_length_le] at this
      rw [goCopy_length _ _ _ (by omega), hcl]
    rw [hz, tail3 (zeros B) _ _ B (zeros_length B) (by omega) rfl rfl, List.append_assoc, List.append_assoc, ← List.append_assoc _ (le64 _), ← henc,
      take_zeros _ _ (by omega)]
    obtain ⟨u1, u2⟩ := transform_eq n salt s1 t1 (zeros (B - 18) ++ encode n m) (by rw [List.length_append, zeros_length, encode_length, hBB]; omega)
      (BitVec.ofNat 64 (8 * m.length)) (decide (0 > 1)) 0
    rw [hfin _ _ u1 rfl]
    congr 1
    symm
    apply hH
    rw [u2, t2, g2, hclose, pad_eq, hBB, fullBlocks_mdPad_two B _ _ _ hB (by rw [encode_length]; omega) (by rw [encode_length]; omega),
      List.zipIdx_append, List.foldl_append, ← chain_counter, hBB, encode_length, fullBlocks_length, ← hrl, ← hr]
    show _ = Spec.Echo.compress n _ (Spec.Echo.compress n _ _ _ (Spec.Echo.counter n m _)) _ (Spec.Echo.counter n m _)
    dsimp only
    have c1 : Spec.Echo.counter n m (0 + m.length / B) = BitVec.ofNat 64 (8 * m.length) + 0 := by
      unfold Spec.Echo.counter
      rw [hBB, Nat.zero_add, if_pos (by omega), Nat.min_eq_right (by rw [Nat.mul_add]; omega)]
      exact (BitVec.add_zero _).symm
    have c2 : Spec.Echo.counter n m (0 + m.length / B + 1) = 0 := by
      unfold Spec.Echo.counter
      rw [hBB, Nat.zero_add, if_neg (by rw [Nat.mul_add]; omega)]
    rw [c1, c2]
    rfl
  · rw [if_neg hc]
    dsimp only
    have hcl : (goCopy (d.x.set d.nx 0x80#8) (d.nx + 1) (zeros B)).length = B := by
      rw [hclose]; simp only [List.length_append, List.length_cons, zeros_length, hrl]; omega
    rw [tail3 _ _ _ B hcl (by omega) rfl rfl, List.append_assoc, List.append_assoc, ← List.append_assoc _ (le64 _), ← henc, hclose]
    have ht : (restBlock B m ++ 0x80#8 :: zeros (B - 1 - d.nx)).take (B - 18) = restBlock B m ++ 0x80#8 :: zeros (B - 1 - d.nx - 18) := by
      rw [List.take_append, List.take_of_length_le (by omega), show B - 18 - (restBlock B m).length = (B - 1 - d.nx - 18) + 1 by omega, List.take_succ_cons,
        take_zeros _ _ (by omega)]
    rw [ht]
    obtain ⟨u1, u2⟩ := transform_eq n salt d.s g1 (restBlock B m ++ 0x80#8 :: zeros (B - 1 - d.nx - 18) ++ encode n m)
      (by simp only [List.length_append, List.length_cons, zeros_length, encode_length, hBB, hrl]; omega)
      (BitVec.ofNat 64 (8 * m.length)) (decide (d.nx + 1 > 1)) 0
    rw [hfin _ _ u1 rfl]
    congr 1
    symm
    apply hH
    rw [u2, g2, pad_eq, hBB, fullBlocks_mdPad_one B _ _ _ hB (by rw [encode_length]; omega),
      List.zipIdx_append, List.foldl_append, ← chain_counter, hBB, encode_length, fullBlocks_length, ← hrl, ← hr]
    show _ = Spec.Echo.compress n _ _ _ (Spec.Echo.counter n m _)
    dsimp only
    have c1 : Spec.Echo.counter n m (0 + m.length / B) = if decide (d.nx + 1 > 1) = true then BitVec.ofNat 64 (8 * m.length) + 0 else 0 := by
      unfold Spec.Echo.counter
      rw [hBB, Nat.zero_add]
      by_cases hz : d.nx = 0
      · rw [if_neg (by omega), if_neg (by simp [hz])]
      · rw [if_pos (by omega), Nat.min_eq_right (by rw [Nat.mul_add]; omega), if_pos (by simp; omega)]
        exact (BitVec.add_zero _).symm
    rw [c1, List.append_assoc]


end Verif.Echo
