import Verif.Spec.VMAC
import Verif.Model.VMAC
/-
Package vmac computes VMAC.
-/
namespace Verif.VMAC
open Verif.Spec (beNat beBytes)

theorem m64_eq : m64 = 2 ^ 64 := by decide
theorem m126_eq : m126 = 2 ^ 126 := by decide
theorem m128_eq : m128 = 2 ^ 128 := by decide
theorem p64_eq : p64 = 2 ^ 64 - 257 := by decide
theorem p64p32_eq : p64p32 = 2 ^ 64 - 2 ^ 32 := by decide
theorem p127_eq : p127 = 2 ^ 127 - 1 := by decide

/-- A list of `n` blocks of `b` bytes written one after the other into a zero buffer. -/
theorem fillLoop (b n : Nat) (f : Nat → Bytes) (hf : ∀ i, i < n → (f i).length = b) :
    forLoop 0 n (fun y i => goCopy y (i * b) (f i)) (zeros (n * b)) = ((List.range n).map f).flatten := by
  have key := forLoop_inv (a := 0) (b := n) (body := fun y i => goCopy y (i * b) (f i)) (s := zeros (n * b))
    (fun i y => y = ((List.range i).map f).flatten ++ zeros ((n - i) * b)) (Nat.zero_le _) (by simp) (by
      intro i y _ hi hy
      subst hy
      have hl : ∀ k, k ≤ n → (((List.range k).map f).flatten).length = k * b := by
        intro k hk
        induction k with
        | zero => simp
        | succ k ih =>
          rw [List.range_succ, List.map_append, List.flatten_append, List.length_append, ih (by omega)]
          simp [hf k (by omega), Nat.add_mul]
      have h1 := hl i (by omega)
      unfold goCopy
      have e2 : (n - i) * b = b + (n - (i + 1)) * b := by
        rw [show n - i = 1 + (n - (i + 1)) from by omega, Nat.add_mul, Nat.one_mul]
      rw [List.length_append, h1, zeros_length, List.take_left' h1]
      rw [List.take_of_length_le (l := f i) (by rw [hf i hi, e2]; omega), hf i hi]
      rw [List.range_succ, List.map_append, List.flatten_append]
      simp only [List.map_cons, List.map_nil, List.flatten_cons, List.flatten_nil, List.append_nil]
      congr 1
      rw [List.drop_append, h1, List.drop_eq_nil_of_le (by omega), List.nil_append, e2]
      unfold zeros
      rw [List.drop_replicate]
      congr 1; omega)
  rw [key]; simp [zeros]

theorem flatten_slice (b n : Nat) (f : Nat → Bytes) (hf : ∀ i, i < n → (f i).length = b) (i : Nat) (hi : i < n) :
    ((((List.range n).map f).flatten).drop (b * i)).take b = f i := by
  induction n generalizing f i with
  | zero => omega
  | succ n ih =>
    rw [List.range_succ_eq_map, List.map_cons, List.map_map, List.flatten_cons]
    cases i with
    | zero => rw [Nat.mul_zero, List.drop_zero, List.take_left' (hf 0 (by omega))]
    | succ i =>
      rw [List.drop_append, hf 0 (by omega), List.drop_eq_nil_of_le (by rw [hf 0 (by omega), Nat.mul_succ]; omega), List.nil_append,
        show b * (i + 1) - b = b * i from by rw [Nat.mul_succ]; omega]
      exact ih (f ∘ Nat.succ) (fun j hj => hf (j + 1) (by omega)) i (by omega)

theorem flatten_len (b n : Nat) (f : Nat → Bytes) (hf : ∀ i, i < n → (f i).length = b) : (((List.range n).map f).flatten).length = b * n := by
  induction n with
  | zero => simp
  | succ k ih =>
    rw [List.range_succ, List.map_append, List.flatten_append, List.length_append, ih (fun i hi => hf i (by omega))]
    simp [hf k (by omega), Nat.mul_succ]

theorem flatten_drop (b n k : Nat) (f : Nat → Bytes) (hf : ∀ i, i < k + n → (f i).length = b) :
    (((List.range (k + n)).map f).flatten).drop (b * k) = ((List.range n).map fun i => f (k + i)).flatten := by
  rw [show List.range (k + n) = List.range k ++ (List.range n).map (k + ·) from List.range_add, List.map_append, List.flatten_append,
    List.drop_left' (flatten_len b k f (fun i hi => hf i (by omega))), List.map_map]
  rfl

variable {E : Bytes → Bytes} (hE : ∀ b, (E b).length = 16)
include hE

theorem kdf_eq (index n : Nat) : kdf E index (128 * n) = ((List.range n).map fun i => Spec.VMAC.kdf E (BitVec.ofNat 8 index) i).flatten := by
  unfold kdf
  dsimp only
  rw [show (128 * n + 128 - 1) / 128 = n from by omega, show 128 * n / 8 = n * 16 from by omega]
  have hf : ∀ i, i < n → (Spec.VMAC.kdf E (BitVec.ofNat 8 index) i).length = 16 := fun i _ => hE _
  have key := forLoop_inv (a := 0) (b := n) (body := fun y i => goCopy y (i * 16) (E (((slice y (i * 16) ((i + 1) * 16)).set 0 (BitVec.ofNat 8 index)).set (16 - 1) (BitVec.ofNat 8 i))))
    (s := zeros (n * 16))
    (fun i y => y = forLoop 0 i (fun y i => goCopy y (i * 16) (Spec.VMAC.kdf E (BitVec.ofNat 8 index) i)) (zeros (n * 16)) ∧ y.length = n * 16 ∧ y.drop (i * 16) = zeros ((n - i) * 16))
    (Nat.zero_le _) ⟨rfl, zeros_length _, by simp⟩ (by
      intro i y _ hi ⟨h1, h2, h3⟩
      have hz : slice y (i * 16) ((i + 1) * 16) = zeros 16 := by
        unfold slice
        rw [h3, show (n - i) * 16 = 16 + (n - (i + 1)) * 16 from by omega, show (i + 1) * 16 - i * 16 = 16 from by omega]
        unfold zeros; rw [List.take_replicate]; congr 1; omega
      have hblk : E (((slice y (i * 16) ((i + 1) * 16)).set 0 (BitVec.ofNat 8 index)).set (16 - 1) (BitVec.ofNat 8 i)) = Spec.VMAC.kdf E (BitVec.ofNat 8 index) i := by
        rw [hz]; rfl
      refine ⟨?_, ?_, ?_⟩
      · rw [hblk, forLoop_succ _ _ _ _ (Nat.zero_le _), ← h1]
      · rw [goCopy_length _ _ _ (by omega)]; exact h2
      · unfold goCopy
        have hdl := hE (((slice y (i * 16) ((i + 1) * 16)).set 0 (BitVec.ofNat 8 index)).set (16 - 1) (BitVec.ofNat 8 i))
        have e : (i + 1) * 16 = (y.take (i * 16) ++ (E (((slice y (i * 16) ((i + 1) * 16)).set 0 (BitVec.ofNat 8 index)).set (16 - 1) (BitVec.ofNat 8 i))).take (y.length - i * 16)).length := by
          rw [List.length_append, List.length_take, List.length_take, h2, hdl]; omega
        rw [List.drop_left' e.symm]
        rw [hdl, show i * 16 + 16 = i * 16 + 16 from rfl, ← List.drop_drop, h3]
        unfold zeros; rw [List.drop_replicate]; congr 1; omega)
  rw [key.1, fillLoop 16 n _ hf, List.take_of_length_le (by rw [flatten_len 16 n _ hf]; omega)]

theorem kdf_slice (index n i : Nat) (hi : i < n) : slice (kdf E index (128 * n)) (16 * i) (16 * (i + 1)) = Spec.VMAC.kdf E (BitVec.ofNat 8 index) i := by
  unfold slice
  rw [kdf_eq hE, show 16 * (i + 1) - 16 * i = 16 from by omega, flatten_slice 16 n (fun i => Spec.VMAC.kdf E (BitVec.ofNat 8 index) i) (fun i _ => hE _) i hi]

theorem l1Key_eq (iter : Nat) : slice (kdf E 128 (1024 + 128 * iter)) (16 * iter) (128 + 16 * iter) = Spec.VMAC.l1Key E iter := by
  unfold slice
  rw [show 1024 + 128 * iter = 128 * (iter + 8) from by omega, kdf_eq hE, flatten_drop 16 8 iter (fun i => Spec.VMAC.kdf E (BitVec.ofNat 8 128) i) (fun i _ => hE _), show 128 + 16 * iter - 16 * iter = 128 from by omega,
    List.take_of_length_le (by rw [flatten_len 16 8 (fun i => Spec.VMAC.kdf E (BitVec.ofNat 8 128) (iter + i)) (fun i _ => hE _)]; omega)]
  rfl

omit hE in
theorem zeroPad_eq (s : Bytes) : zeroPad s = Spec.VMAC.pad16 s := by
  unfold zeroPad Spec.VMAC.pad16
  dsimp only
  by_cases h : s.length % 16 = 0
  · rw [if_neg (by omega), h]; simp [zeros]
  · rw [if_pos h]
    unfold goCopy
    rw [zeros_length, List.take_zero, List.nil_append, Nat.sub_zero, List.take_of_length_le (by omega), Nat.zero_add]
    congr 1
    unfold zeros; rw [List.drop_replicate]; congr 1; omega

omit hE in
theorem swap_len (s : Bytes) (h : s.length % 8 = 0) : (endianSwap s).length = s.length := by
  unfold endianSwap
  rw [flatten_len 8 _ _ (fun i _ => rfl)]; omega

omit hE in
theorem swap_slice (s : Bytes) (i : Nat) (h : 8 * i + 8 ≤ s.length) : ((endianSwap s).drop (8 * i)).take 8 = ((s.drop (8 * i)).take 8).reverse := by
  unfold endianSwap
  rw [flatten_slice 8 _ _ (fun i _ => rfl) i (by omega)]
  have hl : ((s.drop (8 * i)).take 8).length = 8 := by rw [List.length_take, List.length_drop]; omega
  refine ext_at8 (by rw [List.length_reverse, hl]; rfl) fun j hj => ?_
  have hj' : j < 8 := hj
  unfold at8
  rw [List.getD_eq_getElem?_getD (l := List.reverse _), List.getElem?_reverse (by rw [hl]; exact hj'), hl, List.getElem?_take_of_lt (by omega), List.getElem?_drop]
  rw [← List.getD_eq_getElem?_getD]
  have : j = 0 ∨ j = 1 ∨ j = 2 ∨ j = 3 ∨ j = 4 ∨ j = 5 ∨ j = 6 ∨ j = 7 := by omega
  rcases this with rfl | rfl | rfl | rfl | rfl | rfl | rfl | rfl <;> rfl

omit hE in
theorem sum_range_succ (f : Nat → Nat) (n : Nat) : ((List.range (n + 1)).map f).sum = ((List.range n).map f).sum + f n := by
  rw [List.range_succ, List.map_append, List.sum_append]; simp

omit hE in
theorem nh_eq (k m : Bytes) (h : m.length % 16 = 0) : nh k (endianSwap m) = beBytes 16 (Spec.VMAC.nh k m) := by
  unfold nh
  dsimp only
  rw [swap_len m (by omega)]
  rw [show (m.length / 8 + 1) / 2 = m.length / 16 from by omega, m128_eq, m126_eq, m64_eq]
  have key := forLoop_inv (a := 0) (b := m.length / 16) (s := 0) (body := fun y j =>
      (y + ((beNat (slice (endianSwap m) (2 * j * 8) ((2 * j + 1) * 8)) + beNat (slice k (2 * j * 8) ((2 * j + 1) * 8))) % 2 ^ 64 *
        ((beNat (slice (endianSwap m) ((2 * j + 1) * 8) ((2 * j + 2) * 8)) + beNat (slice k ((2 * j + 1) * 8) ((2 * j + 2) * 8))) % 2 ^ 64)) % 2 ^ 128) % 2 ^ 128)
    (fun j y => y = ((List.range j).map fun i => ((Spec.VMAC.le m (16 * i) + Spec.VMAC.be k (16 * i)) % 2 ^ 64) *
      ((Spec.VMAC.le m (16 * i + 8) + Spec.VMAC.be k (16 * i + 8)) % 2 ^ 64)).sum % 2 ^ 128) (Nat.zero_le _) rfl (by
      intro j y _ hj hy
      have a1 : ∀ b : Bytes, beNat (slice b (2 * j * 8) ((2 * j + 1) * 8)) = Spec.VMAC.be b (16 * j) := by
        intro b; unfold slice Spec.VMAC.be; rw [show (2 * j + 1) * 8 - 2 * j * 8 = 8 from by omega, show 2 * j * 8 = 16 * j from by omega]
      have a2 : ∀ b : Bytes, beNat (slice b ((2 * j + 1) * 8) ((2 * j + 2) * 8)) = Spec.VMAC.be b (16 * j + 8) := by
        intro b; unfold slice Spec.VMAC.be; rw [show (2 * j + 2) * 8 - (2 * j + 1) * 8 = 8 from by omega, show (2 * j + 1) * 8 = 16 * j + 8 from by omega]
      have s1 : Spec.VMAC.be (endianSwap m) (16 * j) = Spec.VMAC.le m (16 * j) := by
        unfold Spec.VMAC.be Spec.VMAC.le
        have := swap_slice m (2 * j) (by omega)
        rw [show 8 * (2 * j) = 16 * j from by omega] at this; rw [this]
      have s2 : Spec.VMAC.be (endianSwap m) (16 * j + 8) = Spec.VMAC.le m (16 * j + 8) := by
        unfold Spec.VMAC.be Spec.VMAC.le
        have := swap_slice m (2 * j + 1) (by omega)
        rw [show 8 * (2 * j + 1) = 16 * j + 8 from by omega] at this; rw [this]
      rw [hy, a1, a1, a2, a2, s1, s2, sum_range_succ, ← Nat.add_mod])
  rw [key]
  unfold Spec.VMAC.nh
  rw [Nat.mod_mod_of_dvd _ (by decide : (2 : Nat) ^ 126 ∣ 2 ^ 128), Big.fill_eq _ _ (Nat.lt_of_lt_of_le (Nat.mod_lt _ (by decide)) (by decide))]

theorem l1_eq (h : Digest) (hh : h.E = E) (iter : Nat) : h.l1 iter = ((Spec.VMAC.l1 E iter h.message).map (beBytes 16)).flatten := by
  unfold Digest.l1
  dsimp only
  rw [hh, l1Key_eq hE]
  have hb : ∀ i, i < (h.message.length + 128 - 1) / 128 →
      (nh (Spec.VMAC.l1Key E iter) (endianSwap (zeroPad (if h.message.length < (i + 1) * 128 then h.message.drop (i * 128) else slice h.message (i * 128) ((i + 1) * 128))))).take 16 =
      beBytes 16 (Spec.VMAC.nh (Spec.VMAC.l1Key E iter) (Spec.VMAC.pad16 ((h.message.drop (128 * i)).take 128))) := by
    intro i hi
    have e : (if h.message.length < (i + 1) * 128 then h.message.drop (i * 128) else slice h.message (i * 128) ((i + 1) * 128)) = (h.message.drop (128 * i)).take 128 := by
      rw [Nat.mul_comm i 128]
      split
      · rw [List.take_of_length_le (by rw [List.length_drop]; omega)]
      · unfold slice; rw [show (i + 1) * 128 - 128 * i = 128 from by omega]
    rw [e, zeroPad_eq, nh_eq _ _ (by unfold Spec.VMAC.pad16; rw [List.length_append, zeros_length]; omega),
      List.take_of_length_le (by rw [Spec.beBytes_length]; omega)]
  have hg : ∀ s, forLoop 0 ((h.message.length + 128 - 1) / 128) (fun y i => goCopy y (i * 16)
      ((nh (Spec.VMAC.l1Key E iter) (endianSwap (zeroPad (if h.message.length < (i + 1) * 128 then h.message.drop (i * 128) else slice h.message (i * 128) ((i + 1) * 128))))).take 16)) s =
      forLoop 0 ((h.message.length + 128 - 1) / 128) (fun y i => goCopy y (i * 16) (beBytes 16 (Spec.VMAC.nh (Spec.VMAC.l1Key E iter) (Spec.VMAC.pad16 ((h.message.drop (128 * i)).take 128))))) s := by
    intro s
    exact forLoop_inv (a := 0) (b := (h.message.length + 128 - 1) / 128) (s := s) (fun i y => y = forLoop 0 i (fun y i => goCopy y (i * 16) (beBytes 16 (Spec.VMAC.nh (Spec.VMAC.l1Key E iter) (Spec.VMAC.pad16 ((h.message.drop (128 * i)).take 128))))) s)
      (Nat.zero_le _) rfl (by intro i y _ hi hy; rw [hb i hi, forLoop_succ _ _ _ _ (Nat.zero_le _), ← hy])
  rw [hg, fillLoop 16 _ _ (fun i _ => Spec.beBytes_length _ _)]
  unfold Spec.VMAC.l1
  rw [List.map_map]; rfl

theorem l2Key_eq (iter : Nat) : beNat (forLoop 0 4 (fun t j => t.set (4 * j) (at8 t (4 * j) &&& 31))
    (slice (kdf E 192 (128 * (iter + 1))) (16 * iter) (16 * (iter + 1)))) = Spec.VMAC.l2Key E iter := by
  rw [kdf_slice hE 192 (iter + 1) iter (by omega)]
  unfold Spec.VMAC.l2Key
  show _ = beNat (List.zipWith _ (Spec.VMAC.kdf E (BitVec.ofNat 8 192) iter) _)
  have hl : (Spec.VMAC.kdf E (BitVec.ofNat 8 192) iter).length = 16 := hE _
  generalize Spec.VMAC.kdf E (BitVec.ofNat 8 192) iter = t at hl
  congr 1
  match t, hl with
  | [a, b, c, d, e, f, g, h, i, j, k, l, m, n, o, p], _ =>
    have h255 : ∀ x : Byte, x &&& 255 = x := by decide
    show [a &&& 31, b, c, d, e &&& 31, f, g, h, i &&& 31, j, k, l, m &&& 31, n, o, p] =
      [a &&& 31, b &&& 255, c &&& 255, d &&& 255, e &&& 31, f &&& 255, g &&& 255, h &&& 255, i &&& 31, j &&& 255, k &&& 255, l &&& 255, m &&& 31, n &&& 255, o &&& 255, p &&& 255]
    simp only [h255]

omit hE in
theorem nh_lt (k m : Bytes) : Spec.VMAC.nh k m < 256 ^ 16 := Nat.lt_of_lt_of_le (Nat.mod_lt _ (by decide)) (by decide)

theorem l2_eq (h : Digest) (hh : h.E = E) (ms : List Nat) (hms : ∀ x ∈ ms, x < 256 ^ 16) (n iter : Nat) :
    h.l2 ((ms.map (beBytes 16)).flatten) (n * 8) iter = beBytes 16 (Spec.VMAC.l2 (Spec.VMAC.l2Key E iter) ms n) := by
  unfold Digest.l2
  dsimp only
  rw [hh, l2Key_eq hE, p127_eq]
  have hlen : ∀ ms : List Nat, ((ms.map (beBytes 16)).flatten).length = 16 * ms.length := by
    intro ms
    induction ms with
    | nil => rfl
    | cons x xs ih => rw [List.map_cons, List.flatten_cons, List.length_append, ih, Spec.beBytes_length, List.length_cons]; omega
  rw [hlen ms, Nat.mul_div_cancel_left _ (by decide : 0 < 16)]
  have hy : forLoop 0 ms.length (fun y i => (y * Spec.VMAC.l2Key E iter + beNat (slice ((ms.map (beBytes 16)).flatten) (16 * i) (16 * (i + 1)))) % (2 ^ 127 - 1)) 1 =
      ms.foldl (fun y m => (y * Spec.VMAC.l2Key E iter + m) % (2 ^ 127 - 1)) 1 := by
    have := forLoop_inv (a := 0) (b := ms.length) (s := 1)
      (body := fun y i => (y * Spec.VMAC.l2Key E iter + beNat (slice ((ms.map (beBytes 16)).flatten) (16 * i) (16 * (i + 1)))) % (2 ^ 127 - 1))
      (fun i y => y = (ms.take i).foldl (fun y m => (y * Spec.VMAC.l2Key E iter + m) % (2 ^ 127 - 1)) 1) (Nat.zero_le _) rfl (by
        intro i y _ hi hy
        have hs : slice ((ms.map (beBytes 16)).flatten) (16 * i) (16 * (i + 1)) = beBytes 16 (ms[i]) := by
          unfold slice
          rw [show 16 * (i + 1) - 16 * i = 16 from by omega]
          have e : ms = ms.take i ++ ms[i] :: ms.drop (i + 1) := by rw [List.getElem_cons_drop, List.take_append_drop]
          conv => lhs; rw [e]
          rw [List.map_append, List.flatten_append, List.drop_left' (by rw [hlen, List.length_take]; omega), List.map_cons, List.flatten_cons,
            List.take_left' (Spec.beBytes_length _ _)]
        rw [hs, Big.beNat_beBytes _ _ (hms _ (List.getElem_mem _)), List.take_succ_eq_append_getElem hi, List.foldl_append, ← hy]
        rfl)
    rw [this, List.take_length]
  rw [hy]
  unfold Spec.VMAC.l2
  have hc : (if ms.length ≠ 0 then ms.foldl (fun y m => (y * Spec.VMAC.l2Key E iter + m) % (2 ^ 127 - 1)) 1 else Spec.VMAC.l2Key E iter) =
      if ms = [] then Spec.VMAC.l2Key E iter else ms.foldl (fun y m => (y * Spec.VMAC.l2Key E iter + m) % (2 ^ 127 - 1)) 1 := by
    cases ms with
    | nil => rfl
    | cons => rfl
  rw [hc, Nat.shiftLeft_eq, Nat.mul_comm n 8, Big.fill_eq _ _ (Nat.lt_of_lt_of_le (Nat.mod_lt _ (by decide)) (by decide))]

theorem l3Loop_eq (fuel i need : Nat) (k : Nat × Nat) :
    l3Loop E fuel i (need + 1) k = (((List.range' i fuel).map (Spec.VMAC.l3Pair E)).filter Spec.VMAC.l3Ok)[need]? := by
  induction fuel generalizing i need k with
  | zero => rfl
  | succ fuel ih =>
    rw [List.range'_succ, List.map_cons]
    unfold l3Loop
    dsimp only
    rw [kdf_slice hE 224 (i + 1) i (by omega)]
    have hp : (beNat ((Spec.VMAC.kdf E (BitVec.ofNat 8 224) i).take 8), beNat ((Spec.VMAC.kdf E (BitVec.ofNat 8 224) i).drop 8)) = Spec.VMAC.l3Pair E i := by
      unfold Spec.VMAC.l3Pair Spec.VMAC.be
      rw [List.drop_zero, List.take_of_length_le (l := List.drop 8 _) (by rw [List.length_drop]; have : (Spec.VMAC.kdf E 224 i).length = 16 := hE _; omega)]
      rfl
    rw [hp]
    have hc : (beNat ((Spec.VMAC.kdf E (BitVec.ofNat 8 224) i).take 8) < p64 ∧ beNat ((Spec.VMAC.kdf E (BitVec.ofNat 8 224) i).drop 8) < p64) ↔
        Spec.VMAC.l3Ok (Spec.VMAC.l3Pair E i) = true := by
      rw [← hp]; unfold Spec.VMAC.l3Ok; rw [p64_eq]; simp
    by_cases ho : Spec.VMAC.l3Ok (Spec.VMAC.l3Pair E i) = true
    · rw [if_pos (hc.2 ho), List.filter_cons_of_pos ho]
      cases need with
      | zero => cases fuel <;> rfl
      | succ n => rw [ih, List.getElem?_cons_succ]
    · rw [if_neg (fun h => ho (hc.1 h)), List.filter_cons_of_neg ho, ih]

omit hE in
theorem p64_lt (x : Nat) : x % (2 ^ 64 - 257) < 256 ^ 8 := Nat.lt_of_lt_of_le (Nat.mod_lt _ (by decide)) (by decide)

theorem l3_eq (h : Digest) (hh : h.E = E) (x iter : Nat) (hx : x < 256 ^ 16) (hk : (Spec.VMAC.l3Key E iter).isSome) :
    h.l3 (beBytes 16 x) iter = some (beBytes 8 (Spec.VMAC.l3 ((Spec.VMAC.l3Key E iter).getD (0, 0)) x)) := by
  unfold Digest.l3
  rw [hh, l3Loop_eq hE, ← List.range_eq_range']
  obtain ⟨k, hk'⟩ := Option.isSome_iff_exists.1 hk
  have e : ((List.map (Spec.VMAC.l3Pair E) (List.range 512)).filter Spec.VMAC.l3Ok)[iter]? = some k := hk'
  rw [e, hk', Option.map_some, Option.getD_some]
  dsimp only
  rw [Big.beNat_beBytes _ _ hx, p64_eq, p64p32_eq, Big.fill_eq _ _ (p64_lt _)]
  rfl

omit hE in
theorem l2_lt (k : Nat) (ms : List Nat) (n : Nat) : Spec.VMAC.l2 k ms n < 256 ^ 16 := Nat.lt_of_lt_of_le (Nat.mod_lt _ (by decide)) (by decide)

theorem vhash_eq (h : Digest) (hh : h.E = E) (size : Nat) (hs : h.size = size) (hk : ∀ i, i < size / 8 → (Spec.VMAC.l3Key E i).isSome) :
    h.vhash = some (((List.range (size / 8)).map fun i => beBytes 8 (Spec.VMAC.vhash E i h.message)).flatten) := by
  unfold Digest.vhash
  rw [if_neg (by omega), hs, Int.toNat_natCast]
  exact forLoop_inv (a := 0) (b := size / 8) (s := some []) (fun i y => y = some (((List.range i).map fun i => beBytes 8 (Spec.VMAC.vhash E i h.message)).flatten)) (Nat.zero_le _) rfl (by
    intro i y _ hi hy
    subst hy
    rw [Option.bind_some]
    dsimp only
    rw [l1_eq hE h hh, l2_eq hE h hh _ (by
      intro x hx; unfold Spec.VMAC.l1 at hx; rw [List.mem_map] at hx; obtain ⟨j, _, rfl⟩ := hx; exact nh_lt _ _), l3_eq hE h hh _ _ (l2_lt _ _ _) (hk i hi)]
    rw [Option.map_some, List.range_succ, List.map_append, List.flatten_append, List.map_cons, List.map_nil, List.flatten_cons, List.flatten_nil, List.append_nil]
    rfl)

omit hE in
theorem beNat_append (a b : Bytes) : beNat (a ++ b) = beNat a * 256 ^ b.length + beNat b := by
  unfold beNat; rw [List.foldl_append, Spec.beNat_foldl]; rfl

omit hE in
theorem padBytes (nonce : Bytes) (hn : nonce ≠ []) (hl : nonce.length < 16) : ∃ u x, zeros (16 - nonce.length) ++ nonce = u ++ [x] ∧ u.length = 15 ∧
    at8 nonce (nonce.length - 1) = x ∧ beNat nonce = beNat u * 256 + x.toNat := by
  obtain ⟨v, x, rfl⟩ : ∃ v x, nonce = v ++ [x] := ⟨nonce.dropLast, nonce.getLast hn, (List.dropLast_concat_getLast _).symm⟩
  have hvl : (v ++ [x]).length = v.length + 1 := by simp
  refine ⟨zeros (16 - (v ++ [x]).length) ++ v, x, by rw [List.append_assoc], ?_, ?_, ?_⟩
  · rw [List.length_append, zeros_length, hvl]; rw [hvl] at hl; omega
  · unfold at8; rw [hvl, Nat.add_sub_cancel, List.getD_eq_getElem?_getD, List.getElem?_append_right (Nat.le_refl _), Nat.sub_self]; rfl
  · rw [Big.beNat_zeros_append, Spec.beNat_snoc]

omit hE in
theorem pdf_eq (h : Digest) (hh : h.E = E) (size : Nat) (hs : h.size = size) (h816 : size = 8 ∨ size = 16) (hn : h.nonce ≠ []) (hl : h.nonce.length < 16) :
    h.pdf = some (Spec.VMAC.pdf E h.nonce size) := by
  obtain ⟨u, x, e1, e2, e3, e4⟩ := padBytes h.nonce hn hl
  have hcopy : goCopy (zeros 16) (16 - h.nonce.length) h.nonce = u ++ [x] := by
    rw [← e1]
    unfold goCopy
    rw [zeros_length, List.drop_eq_nil_of_le (by rw [zeros_length]; omega), List.append_nil, List.take_of_length_le (l := h.nonce) (by omega)]
    congr 1
    unfold zeros; rw [List.take_replicate, Nat.min_eq_left (by omega)]
  have hset : ∀ y, (u ++ [x]).set (16 - 1) y = u ++ [y] := by
    intro y; rw [List.set_append_right _ _ (by omega), e2]; rfl
  have hat : at8 (u ++ [x]) (16 - 1) = x := by
    unfold at8; rw [List.getD_eq_getElem?_getD, List.getElem?_append_right (by omega), e2]; rfl
  unfold Digest.pdf Spec.VMAC.pdf
  rw [if_neg (by rintro (h' | h'); exact hn h'; omega)]
  dsimp only
  rw [hcopy, hat, e3, hset, hh, hs]
  rcases h816 with rfl | rfl
  · have hm : BitVec.ofInt 8 ((16 : Int).tdiv ((8 : Nat) : Int) - 1) = (1 : Byte) := by decide
    rw [hm]
    have hx1 : ∀ x : Byte, (x &&& 1).toNat = x.toNat % 2 ∧ (x - (x &&& 1)).toNat = x.toNat - x.toNat % 2 := by decide
    obtain ⟨q1, q2⟩ := hx1 x
    have hmod : beNat h.nonce % (16 / 8) = x.toNat % 2 := by rw [e4]; omega
    rw [hmod]
    have hblk : u ++ [x - (x &&& 1)] = beBytes 16 (beNat h.nonce - x.toNat % 2) := by
      refine Spec.eq_beBytes (by rw [List.length_append, e2]; rfl) ?_
      rw [Spec.beNat_snoc, q2, e4]; omega
    rw [hblk, q1, if_pos (by omega)]
    unfold slice
    rw [show (((x.toNat % 2 : Nat) : Int) * ((8 : Nat) : Int)).toNat = x.toNat % 2 * 8 from by omega,
      show (((x.toNat % 2 : Nat) : Int) * ((8 : Nat) : Int) + ((8 : Nat) : Int)).toNat - x.toNat % 2 * 8 = 8 from by omega]
  · have hm : BitVec.ofInt 8 ((16 : Int).tdiv ((16 : Nat) : Int) - 1) = (0 : Byte) := by decide
    rw [hm]
    have hx1 : ∀ x : Byte, (x &&& 0).toNat = 0 ∧ (x - (x &&& 0)) = x := by decide
    obtain ⟨q1, q2⟩ := hx1 x
    have hmod : beNat h.nonce % (16 / 16) = 0 := Nat.mod_one _
    rw [hmod, q1, q2, Nat.sub_zero]
    have hblk : u ++ [x] = beBytes 16 (beNat h.nonce) := by
      refine Spec.eq_beBytes (by rw [List.length_append, e2]; rfl) ?_
      rw [Spec.beNat_snoc, e4]
    rw [hblk]
    rfl

omit hE in
theorem goCopy_parts (A B C D : Bytes) (n : Nat) (hn : A.length = n) (h : D.length = B.length) : goCopy (A ++ (B ++ C)) n D = A ++ (D ++ C) := by
  subst hn
  unfold goCopy
  rw [List.take_left' rfl, List.length_append, List.length_append, List.take_of_length_le (by omega), ← List.drop_drop, List.drop_left' rfl, h, List.drop_left' rfl,
    List.append_assoc]

omit hE in
theorem put_step {s : Bytes} (y : Bytes) (i N v : Nat) (hi : i < N) (h2 : y.length = N * 8) (h3 : y.drop (i * 8) = zeros ((N - i) * 8)) (hv : v < 256 ^ 8)
    (h1 : y = s) : goCopy y (8 * (i + 1) - (Big.bytes v).length) (Big.bytes v) = goCopy s (i * 8) (beBytes 8 v) ∧
    (goCopy y (8 * (i + 1) - (Big.bytes v).length) (Big.bytes v)).length = N * 8 ∧
    (goCopy y (8 * (i + 1) - (Big.bytes v).length) (Big.bytes v)).drop ((i + 1) * 8) = zeros ((N - (i + 1)) * 8) := by
  subst h1
  have hl := Big.bytes_length_le v 8 hv
  have ht : (y.take (i * 8)).length = i * 8 := by rw [List.length_take]; omega
  have ez : ∀ a b, zeros (a + b) = zeros a ++ zeros b := fun a b => by unfold zeros; rw [List.replicate_append_replicate]
  have e : y = y.take (i * 8) ++ (zeros 8 ++ zeros ((N - (i + 1)) * 8)) := by
    rw [← ez, show 8 + (N - (i + 1)) * 8 = (N - i) * 8 from by omega, ← h3, List.take_append_drop]
  have a1 : goCopy y (8 * (i + 1) - (Big.bytes v).length) (Big.bytes v) = y.take (i * 8) ++ (beBytes 8 v ++ zeros ((N - (i + 1)) * 8)) := by
    rw [← Big.pad_bytes 8 v hv]
    conv => lhs; rw [e, show (8 : Nat) = (8 - (Big.bytes v).length) + (Big.bytes v).length from by omega, ez]
    rw [show 8 - (Big.bytes v).length + (Big.bytes v).length = 8 from by omega, List.append_assoc, ← List.append_assoc (y.take (i * 8))]
    rw [goCopy_parts _ _ _ _ _ (by rw [List.length_append, ht, zeros_length]; omega) (by rw [zeros_length])]
    simp only [List.append_assoc]
  have a2 : goCopy y (i * 8) (beBytes 8 v) = y.take (i * 8) ++ (beBytes 8 v ++ zeros ((N - (i + 1)) * 8)) := by
    conv => lhs; rw [e]
    rw [goCopy_parts _ _ _ _ _ ht (by rw [zeros_length, Spec.beBytes_length])]
  refine ⟨by rw [a1, a2], ?_, ?_⟩
  · rw [a1, List.length_append, List.length_append, ht, Spec.beBytes_length, zeros_length]; omega
  · rw [a1, ← List.append_assoc, List.drop_left' (by rw [List.length_append, ht, Spec.beBytes_length]; omega)]

theorem checkSum_eq (h : Digest) (hh : h.E = E) (size : Nat) (hs : h.size = size) (h816 : size = 8 ∨ size = 16) (hn : h.nonce ≠ []) (hl : h.nonce.length < 16)
    (hk : ∀ i, i < 2 → (Spec.VMAC.l3Key E i).isSome) : h.checkSum = some (Spec.VMAC.vmac E h.nonce size h.message) := by
  unfold Digest.checkSum
  rw [vhash_eq hE h hh size hs (fun i hi => hk i (by rcases h816 with rfl | rfl <;> omega)), Option.bind_some, pdf_eq h hh size hs h816 hn hl, Option.bind_some]
  congr 1
  unfold Spec.VMAC.vmac
  rw [hs, Int.toNat_natCast]
  have hsz : size = size / 8 * 8 := by rcases h816 with rfl | rfl <;> rfl
  have hz : zeros size = zeros (size / 8 * 8) := by rw [← hsz]
  rw [hz]
  have vl : ∀ i, Spec.VMAC.vhash E i h.message < 256 ^ 8 := fun i => p64_lt _
  have hstep : ∀ (s : Bytes) (i : Nat), i < size / 8 → goCopy s (8 * (i + 1) - (Big.bytes ((beNat (slice (Spec.VMAC.pdf E h.nonce size) (8 * i) (8 * (i + 1))) +
      beNat (slice (((List.range (size / 8)).map fun i => beBytes 8 (Spec.VMAC.vhash E i h.message)).flatten) (8 * i) (8 * (i + 1)))) % m64)).length)
      (Big.bytes ((beNat (slice (Spec.VMAC.pdf E h.nonce size) (8 * i) (8 * (i + 1))) +
      beNat (slice (((List.range (size / 8)).map fun i => beBytes 8 (Spec.VMAC.vhash E i h.message)).flatten) (8 * i) (8 * (i + 1)))) % m64)) =
      goCopy s (8 * (i + 1) - (Big.bytes ((Spec.VMAC.be (Spec.VMAC.pdf E h.nonce size) (8 * i) + Spec.VMAC.vhash E i h.message) % 2 ^ 64)).length)
        (Big.bytes ((Spec.VMAC.be (Spec.VMAC.pdf E h.nonce size) (8 * i) + Spec.VMAC.vhash E i h.message) % 2 ^ 64)) := by
    intro s i hi
    have e1 : beNat (slice (((List.range (size / 8)).map fun i => beBytes 8 (Spec.VMAC.vhash E i h.message)).flatten) (8 * i) (8 * (i + 1))) = Spec.VMAC.vhash E i h.message := by
      unfold slice
      rw [show 8 * (i + 1) - 8 * i = 8 from by omega, flatten_slice 8 _ _ (fun i _ => Spec.beBytes_length _ _) i hi, Big.beNat_beBytes _ _ (vl i)]
    have e2 : beNat (slice (Spec.VMAC.pdf E h.nonce size) (8 * i) (8 * (i + 1))) = Spec.VMAC.be (Spec.VMAC.pdf E h.nonce size) (8 * i) := by
      unfold slice Spec.VMAC.be; rw [show 8 * (i + 1) - 8 * i = 8 from by omega]
    rw [e1, e2, m64_eq]
  have key := forLoop_inv (a := 0) (b := size / 8) (s := zeros (size / 8 * 8)) (body := fun sum i =>
      goCopy sum (8 * (i + 1) - (Big.bytes ((beNat (slice (Spec.VMAC.pdf E h.nonce size) (8 * i) (8 * (i + 1))) +
      beNat (slice (((List.range (size / 8)).map fun i => beBytes 8 (Spec.VMAC.vhash E i h.message)).flatten) (8 * i) (8 * (i + 1)))) % m64)).length)
      (Big.bytes ((beNat (slice (Spec.VMAC.pdf E h.nonce size) (8 * i) (8 * (i + 1))) +
      beNat (slice (((List.range (size / 8)).map fun i => beBytes 8 (Spec.VMAC.vhash E i h.message)).flatten) (8 * i) (8 * (i + 1)))) % m64)))
    (fun i y => y = forLoop 0 i (fun y i => goCopy y (i * 8) (beBytes 8 ((Spec.VMAC.be (Spec.VMAC.pdf E h.nonce size) (8 * i) + Spec.VMAC.vhash E i h.message) % 2 ^ 64))) (zeros (size / 8 * 8)) ∧
      y.length = size / 8 * 8 ∧ y.drop (i * 8) = zeros ((size / 8 - i) * 8)) (Nat.zero_le _) ⟨rfl, zeros_length _, by simp⟩ (by
      intro i y _ hi ⟨h1, h2, h3⟩
      rw [hstep y i hi]
      have hlt : (Spec.VMAC.be (Spec.VMAC.pdf E h.nonce size) (8 * i) + Spec.VMAC.vhash E i h.message) % 2 ^ 64 < 256 ^ 8 :=
        Nat.lt_of_lt_of_le (Nat.mod_lt _ (by decide)) (by decide)
      generalize hv2 : (Spec.VMAC.be (Spec.VMAC.pdf E h.nonce size) (8 * i) + Spec.VMAC.vhash E i h.message) % 2 ^ 64 = v at hlt ⊢
      rw [forLoop_succ _ _ _ _ (Nat.zero_le _), hv2]
      exact put_step y i (size / 8) v hi h2 h3 hlt h1)
  exact key.1.trans (fillLoop 8 (size / 8) _ (fun i _ => Spec.beBytes_length _ _))

end Verif.VMAC
