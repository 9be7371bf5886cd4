import Verif.Lemmas.KupynaFast
import Verif.LoopBuf
import Verif.HistAuto
/-
C45, package kupyna.
-/
namespace Verif.Props
open Verif.Kupyna

/-- The hash objects, for every history. -/
theorem kupyna_contract {F : Fns} {c : Nat} (h : Kupyna.Fits F c) (n cut : Nat) (hn : F.skip + cut + n = 8 * c) :
    Refines (Kupyna.impl F n cut) (Kupyna.reset F) { H := Spec.Kupyna.hash c n, size := n, blockSize := 8 * c } :=
  refines_of_sim _ _ _ (Kupyna.Rep F c) (reset_rep h)
    (fun d m p hr => ⟨_, rfl, write_rep h d m p hr⟩)
    (fun d m b hr => ⟨d, congrArg (fun x => some (d, b ++ x)) (checkSum_eq h d m n hr cut hn), hr⟩)
    (fun _ _ _ => reset_rep h) (fun _ _ _ => rfl) (fun _ _ _ => h.block)

/-- kupyna.New256, New384 and New512 behave, for every history of calls, like Kupyna-256, -384 and -512 of the bytes written since the last Reset. -/
theorem C45_kupyna :
    Refines Kupyna.impl256 (Kupyna.reset fns256) { H := Spec.Kupyna.hash 8 32, size := 32, blockSize := 64 } ∧
    Refines Kupyna.impl384 (Kupyna.reset fns512) { H := Spec.Kupyna.hash 16 48, size := 48, blockSize := 128 } ∧
    Refines Kupyna.impl512 (Kupyna.reset fns512) { H := Spec.Kupyna.hash 16 64, size := 64, blockSize := 128 } :=
  ⟨kupyna_contract fits256 32 0 rfl, kupyna_contract fits512 48 16 rfl, kupyna_contract fits512 64 0 rfl⟩

theorem kupyna_hash_length (c n : Nat) (hn : n ≤ 8 * c) (m : Bytes) : (Spec.Kupyna.hash c n m).length = n := by
  unfold Spec.Kupyna.hash Spec.Kupyna.digest Spec.Kupyna.add
  simp; omega

/-- The functions Sum256, Sum384 and Sum512. -/
theorem C45_kupyna_sum (m : Bytes) : Kupyna.sum fns256 32 0 m = Spec.Kupyna.hash 8 32 m ∧ Kupyna.sum fns512 48 16 m = Spec.Kupyna.hash 16 48 m ∧
    Kupyna.sum fns512 64 0 m = Spec.Kupyna.hash 16 64 m := by
  have key : ∀ {F : Fns} {c : Nat} (h : Kupyna.Fits F c) (n cut : Nat) (hn : F.skip + cut + n = 8 * c), Kupyna.sum F n cut m = Spec.Kupyna.hash c n m := by
    intro F c h n cut hn
    unfold Kupyna.sum
    have hr := write_rep h _ _ m (reset_rep h)
    rw [List.nil_append] at hr
    rw [checkSum_eq h _ m n hr cut hn, goCopy_zero_all _ _ (by rw [zeros_length, kupyna_hash_length c n (by omega)])]
  exact ⟨key fits256 32 0 rfl, key fits512 48 16 rfl, key fits512 64 0 rfl⟩

/-- The length field of the specification is that of the standard for every message below 2^61 bytes. -/
theorem C45_kupyna_enc (m : Bytes) (h : m.length < 2 ^ 61) :
    Spec.Kupyna.enc m = (List.range 12).map fun i => BitVec.ofNat 8 (8 * m.length / 256 ^ i) := by
  have h' : 8 * m.length < 2 ^ 64 := by simp only [Nat.reducePow] at *; omega
  unfold Spec.Kupyna.enc
  generalize 8 * m.length = L at *
  apply ext_at8 (by simp)
  intro i hi
  rw [List.length_append, le64_length, zeros_length] at hi
  rw [at8_map_range _ _ _ (by omega)]
  by_cases h8 : i < 8
  · rw [at8_append_left _ _ _ (by rw [le64_length]; exact h8), le64_get h8]
    apply BitVec.eq_of_toNat_eq
    rw [BitVec.extractLsb'_toNat, BitVec.toNat_ofNat, BitVec.toNat_ofNat, Nat.mod_eq_of_lt h', Nat.shiftRight_eq_div_pow, Nat.pow_mul]
  · rw [at8_append_right _ _ _ (by rw [le64_length]; omega), at8_zeros, Nat.div_eq_of_lt]
    · rfl
    · exact Nat.lt_of_lt_of_le h' (by rw [show (2 : Nat) ^ 64 = 256 ^ 8 from rfl]; exact Nat.pow_le_pow_right (by omega) (by omega))

/-! ## KMAC -/

/-- What is needed of a variant of KMAC. -/
structure KFits (V : KFns) (c : Nat) : Prop where
  fits : Kupyna.Fits V.F c
  size : V.F.skip + V.cut + V.size = 8 * c
  kpad : ∀ K : Bytes, K.length = V.size → K ++ V.kpad = Spec.Kupyna.pad c K

theorem kpad_of (c n : Nat) (p : Bytes) (h : p = 0x80 :: (zeros ((8 * c - (n + 1 + 12) % (8 * c)) % (8 * c)) ++ (le64 (BitVec.ofNat 64 (8 * n)) ++ zeros 4))) (K : Bytes) (hK : K.length = n) :
    K ++ p = Spec.Kupyna.pad c K := by
  unfold Spec.Kupyna.pad mdPad Spec.Kupyna.enc
  subst hK
  rw [h, show (le64 (BitVec.ofNat 64 (8 * K.length)) ++ zeros 4).length = 12 by simp]
  simp

theorem kfits256 : KFits kfns256 8 := ⟨fits256, rfl, kpad_of 8 32 kpad32 (by decide +kernel)⟩
theorem kfits384 : KFits kfns384 16 := ⟨fits512, rfl, kpad_of 16 48 kpad48 (by decide +kernel)⟩
theorem kfits512 : KFits kfns512 16 := ⟨fits512, rfl, kpad_of 16 64 kpad64 (by decide +kernel)⟩

variable {V : KFns} {c : Nat}

/-- The object after the message m. -/
structure KRep (V : KFns) (c : Nat) (K : Bytes) (d : Kmac) (m : Bytes) : Prop where
  h : Kupyna.Rep V.F c d.h (Spec.Kupyna.pad c K ++ m)
  ik : d.ik = K.map fun b => ~~~b
  len : d.len = BitVec.ofNat 64 m.length

theorem newKmac_rep (h : KFits V c) (K : Bytes) (hK : K.length = V.size) : ∃ d, newKmac V K = some d ∧ KRep V c K d [] := by
  unfold newKmac
  rw [if_neg (by omega)]
  refine ⟨_, rfl, ?_, ?_, rfl⟩
  · dsimp only
    have := write_rep h.fits _ _ V.kpad (write_rep h.fits _ _ K (reset_rep h.fits))
    rw [List.nil_append, h.kpad K hK] at this
    rw [List.append_nil]
    exact this
  · dsimp only
    rw [show forLoop 0 V.size (fun ik i => ik.set i (~~~ at8 K i)) (zeros V.size) = (List.range V.size).map fun i => ~~~ at8 K i from ?_]
    · apply ext_at8 (by simp [hK])
      intro i hi
      rw [List.length_map, List.length_range] at hi
      rw [at8_map_range _ _ _ hi]
      unfold at8
      rw [List.getD_eq_getElem?_getD, List.getD_eq_getElem?_getD, List.getElem?_map, List.getElem?_eq_getElem (by omega)]
      rfl
    · have key := forLoop_inv (P := fun k h => h.length = V.size ∧ ∀ i, i < k → at8 h i = ~~~ at8 K i) (a := 0) (b := V.size)
        (body := fun ik i => ik.set i (~~~ at8 K i)) (s := zeros V.size) (Nat.zero_le _) ⟨zeros_length _, fun i h => absurd h (by omega)⟩ ?_
      · obtain ⟨a, b⟩ := key
        apply ext_at8 (by rw [a]; simp)
        intro i hi
        rw [b i (by omega), at8_map_range _ _ _ (by omega)]
      · intro k s _ hk ⟨a, b⟩
        refine ⟨by rw [List.length_set, a], ?_⟩
        intro i hi
        rw [at8_set]
        by_cases e : k = i
        · subst e; rw [if_pos ⟨rfl, by omega⟩]
        · rw [if_neg (fun h => e h.1), b i (by omega)]

/-- The padding of the message as the code computes it. -/
theorem kmac_pad (h : KFits V c) (m : Bytes) (n : U64) (hn : n = BitVec.ofNat 64 m.length) :
    m ++ dpad.take ((if n < BitVec.ofNat 64 V.F.lenAt then BitVec.ofNat 64 V.F.lenAt - 1 - n
      else BitVec.ofNat 64 (V.F.block - 1) - ((n - BitVec.ofNat 64 V.F.lenAt) % BitVec.ofNat 64 V.F.block)) + 1 : U64).toNat ++ uint64sToBytes [n * 8] ++ (dpad.drop 16).take 4 =
      Spec.Kupyna.pad c m := by
  have hc := h.fits.c_eq
  have hmul : n * 8 = BitVec.ofNat 64 (8 * m.length) := by rw [hn, Nat.mul_comm, BitVec.ofNat_mul]; rfl
  have hdp : ∀ k, 0 < k → k ≤ 128 → dpad.take k = 0x80 :: zeros (k - 1) := by
    intro k h0 h1
    rw [show dpad = 0x80 :: zeros 127 by decide +kernel]
    obtain ⟨j, rfl⟩ : ∃ j, k = j + 1 := ⟨k - 1, by omega⟩
    rw [List.take_succ_cons, take_zeros _ _ (by omega)]; rfl
  have hcount : ((if n < BitVec.ofNat 64 V.F.lenAt then BitVec.ofNat 64 V.F.lenAt - 1 - n
      else BitVec.ofNat 64 (V.F.block - 1) - ((n - BitVec.ofNat 64 V.F.lenAt) % BitVec.ofNat 64 V.F.block)) + 1 : U64).toNat =
      (8 * c - (m.length + 1 + 12) % (8 * c)) % (8 * c) + 1 := by
    have hv : n.toNat = m.length % 2 ^ 64 := by rw [hn, BitVec.toNat_ofNat]
    rw [h.fits.lenAt, h.fits.block]
    rcases hc with e | e <;> subst e
    · by_cases hl : n < BitVec.ofNat 64 (8 * 8 - 12)
      · rw [if_pos hl]
        rw [BitVec.lt_def] at hl
        simp only [Nat.reduceMul, Nat.reduceSub, BitVec.toNat_add, BitVec.toNat_sub, BitVec.toNat_ofNat, hv, BitVec.toNat_umod, Nat.reducePow, Nat.reduceMod, show (1 : U64).toNat = 1 from rfl] at *
        omega
      · rw [if_neg hl]
        rw [BitVec.lt_def] at hl
        simp only [Nat.reduceMul, Nat.reduceSub, BitVec.toNat_add, BitVec.toNat_sub, BitVec.toNat_ofNat, hv, BitVec.toNat_umod, Nat.reducePow, Nat.reduceMod, show (1 : U64).toNat = 1 from rfl] at *
        omega
    · by_cases hl : n < BitVec.ofNat 64 (8 * 16 - 12)
      · rw [if_pos hl]
        rw [BitVec.lt_def] at hl
        simp only [Nat.reduceMul, Nat.reduceSub, BitVec.toNat_add, BitVec.toNat_sub, BitVec.toNat_ofNat, hv, BitVec.toNat_umod, Nat.reducePow, Nat.reduceMod, show (1 : U64).toNat = 1 from rfl] at *
        omega
      · rw [if_neg hl]
        rw [BitVec.lt_def] at hl
        simp only [Nat.reduceMul, Nat.reduceSub, BitVec.toNat_add, BitVec.toNat_sub, BitVec.toNat_ofNat, hv, BitVec.toNat_umod, Nat.reducePow, Nat.reduceMod, show (1 : U64).toNat = 1 from rfl] at *
        omega
  rw [hcount, hdp _ (by omega) (by rcases hc with e | e <;> subst e <;> omega), show (dpad.drop 16).take 4 = zeros 4 by decide +kernel]
  unfold Spec.Kupyna.pad mdPad Spec.Kupyna.enc
  rw [show (le64 (BitVec.ofNat 64 (8 * m.length)) ++ zeros 4).length = 12 by simp, hmul]
  simp [uint64sToBytes]

/-- The object h after the writes of Sum, and the tag. -/
theorem kmac_checkSum (h : KFits V c) (K : Bytes) (d : Kmac) (x m : Bytes) (hx : Kupyna.Rep V.F c d.h (x ++ m)) (h2 : d.ik = K.map fun b => ~~~b)
    (h3 : d.len = BitVec.ofNat 64 m.length) :
    Kupyna.Rep V.F c (d.checkSum V).1 (x ++ Spec.Kupyna.pad c m ++ K.map fun b => ~~~b) ∧
      (d.checkSum V).2 = Spec.Kupyna.hash c V.size (x ++ Spec.Kupyna.pad c m ++ K.map fun b => ~~~b) := by
  unfold Kmac.checkSum
  dsimp only
  have e := kmac_pad h m d.len h3
  generalize ((if d.len < BitVec.ofNat 64 V.F.lenAt then BitVec.ofNat 64 V.F.lenAt - 1 - d.len
      else BitVec.ofNat 64 (V.F.block - 1) - ((d.len - BitVec.ofNat 64 V.F.lenAt) % BitVec.ofNat 64 V.F.block)) + 1 : U64).toNat = k at *
  have r := write_rep h.fits _ _ d.ik (write_rep h.fits _ _ ((dpad.drop 16).take 4) (write_rep h.fits _ _ (uint64sToBytes [d.len * 8]) (write_rep h.fits _ _ (dpad.take k) hx)))
  rw [h2] at r ⊢
  rw [checkSum_eq h.fits _ _ V.size r V.cut h.size]
  rw [← e]
  simp only [List.append_assoc] at r ⊢
  exact ⟨r, trivial⟩

/-- In the histories considered, Sum comes at most once and not after a Reset; everything else is free. -/
def kmacOk (dead : Bool) : Op → Prop
  | .sum _ => dead = false
  | _ => True
def kmacNext (dead : Bool) : Op → Bool
  | .sum _ => true
  | .reset => true
  | _ => dead

/-- The contract of C45 for NewKmac256, NewKmac384 and NewKmac512, for the histories with one Sum and no Reset before it: the tag is that of the
standard, for every key of the right length and every division of the message into Writes.  Missing: a second Sum and Reset, for which it is false
(`C45_kmac_sum_violated`, `C45_kmac_reset_violated`). -/
theorem kmac_oneSum (h : KFits V c) (K : Bytes) (hK : K.length = V.size) : ∃ d, newKmac V K = some d ∧
    RefinesOn (Permits kmacOk kmacNext false) (kmacImpl V) d { H := Spec.Kupyna.kmac c V.size K, size := V.size, blockSize := 8 * c } := by
  obtain ⟨d, hd, hr⟩ := newKmac_rep h K hK
  refine ⟨d, hd, refinesOn_permits_of_sim _ _ _ _ _ _ (fun d t m => t = false → KRep V c K d m) (fun _ => hr) ?_ ?_ ?_ ?_ ?_⟩
  · intro s t m p hR _
    refine ⟨_, rfl, fun ht => ?_⟩
    obtain ⟨a1, a2, a3⟩ := hR ht
    refine ⟨?_, a2, ?_⟩
    · rw [← List.append_assoc]; exact write_rep h.fits _ _ p a1
    · show s.len + _ = _; rw [a3, ofNat64_add, List.length_append]
  · intro s t m b hR hok
    exact ⟨_, congrArg (fun x => some (({ s with h := (s.checkSum V).1 } : Kmac), b ++ x)) (kmac_checkSum h K s _ m (hR hok).h (hR hok).ik (hR hok).len).2, fun ht => absurd ht (by simp [kmacNext])⟩
  · intro s t m hR _ ht; exact absurd ht (by simp [kmacNext])
  · intro s t m hR; exact ⟨rfl, fun _ => hR⟩
  · intro s t m hR; exact ⟨h.fits.block, fun _ => hR⟩

theorem C45_kmac_partial (K : Bytes) :
    (K.length = 32 → ∃ d, newKmac kfns256 K = some d ∧
      RefinesOn (Permits kmacOk kmacNext false) (kmacImpl kfns256) d { H := Spec.Kupyna.kmac 8 32 K, size := 32, blockSize := 64 }) ∧
    (K.length = 48 → ∃ d, newKmac kfns384 K = some d ∧
      RefinesOn (Permits kmacOk kmacNext false) (kmacImpl kfns384) d { H := Spec.Kupyna.kmac 16 48 K, size := 48, blockSize := 128 }) ∧
    (K.length = 64 → ∃ d, newKmac kfns512 K = some d ∧
      RefinesOn (Permits kmacOk kmacNext false) (kmacImpl kfns512) d { H := Spec.Kupyna.kmac 16 64 K, size := 64, blockSize := 128 }) :=
  ⟨fun h => kmac_oneSum kfits256 K h, fun h => kmac_oneSum kfits384 K h, fun h => kmac_oneSum kfits512 K h⟩

/-- The constructors accept exactly the keys of 32, 48 and 64 bytes, and NewKmac picks the variant by the length of the key. -/
theorem C45_kmac_new (K : Bytes) :
    ((newKmac kfns256 K).isSome ↔ K.length = 32) ∧ ((newKmac kfns384 K).isSome ↔ K.length = 48) ∧ ((newKmac kfns512 K).isSome ↔ K.length = 64) ∧
    (K.length = 32 → newKmacAny K = (newKmac kfns256 K).map (kfns256, ·)) ∧ (K.length = 48 → newKmacAny K = (newKmac kfns384 K).map (kfns384, ·)) ∧
    (K.length = 64 → newKmacAny K = (newKmac kfns512 K).map (kfns512, ·)) ∧
    ((newKmacAny K).isSome ↔ K.length = 32 ∨ K.length = 48 ∨ K.length = 64) := by
  have key : ∀ V : KFns, (newKmac V K).isSome ↔ K.length = V.size := by
    intro V
    unfold newKmac
    by_cases h : K.length = V.size
    · rw [if_neg (by omega)]; simp [h]
    · rw [if_pos h]; simp [h]
  have k1 : (newKmac kfns256 K).isSome ↔ K.length = 32 := key kfns256
  have k2 : (newKmac kfns384 K).isSome ↔ K.length = 48 := key kfns384
  have k3 : (newKmac kfns512 K).isSome ↔ K.length = 64 := key kfns512
  refine ⟨k1, k2, k3, ?_, ?_, ?_, ?_⟩
  · intro h; unfold newKmacAny; rw [if_pos h]
  · intro h; unfold newKmacAny; rw [if_neg (by omega), if_pos h]
  · intro h; unfold newKmacAny; rw [if_neg (by omega), if_neg (by omega), if_pos h]
  · unfold newKmacAny
    by_cases h1 : K.length = 32
    · rw [if_pos h1, Option.isSome_map, k1]; simp [h1]
    · rw [if_neg h1]
      by_cases h2 : K.length = 48
      · rw [if_pos h2, Option.isSome_map, k2]; simp [h2]
      · rw [if_neg h2]
        by_cases h3 : K.length = 64
        · rw [if_pos h3, Option.isSome_map, k3]; simp [h3]
        · rw [if_neg h3]; simp [h1, h2, h3]

/-- A history the theorem covers. -/
example : Permits kmacOk kmacNext false [.size, .write [1, 2, 3], .write [], .blockSize, .write (zeros 100), .sum [7], .write [4], .reset, .write [5]] := by
  simp [Permits, kmacOk, kmacNext]

theorem kupyna_fast (m : Bytes) : Spec.Kupyna.hash 8 32 m = fastHash fns256 (Spec.Kupyna.pad 8 m) (fun o => o.drop 32) := (fastHash_eq fits256 32 m id).symm

/-- What a second Sum returns: the hash of the padded key, the message, and twice its padding and the complemented key. -/
theorem kmac_second (h : KFits V c) (K : Bytes) (hK : K.length = V.size) (m : Bytes) : ∃ d, newKmac V K = some d ∧
    (kmacImpl V).run d [.write m, .sum [], .sum []] = [.wrote m.length, .bytes (Spec.Kupyna.kmac c V.size K m),
      .bytes (Spec.Kupyna.hash c V.size (Spec.Kupyna.pad c K ++ Spec.Kupyna.pad c m ++ K.map (fun b => ~~~b) ++ (Spec.Kupyna.pad c m).drop m.length ++ K.map fun b => ~~~b))] := by
  obtain ⟨d, hd, hr⟩ := newKmac_rep h K hK
  refine ⟨d, hd, ?_⟩
  have h1 : Kupyna.Rep V.F c (d.write V m).h (Spec.Kupyna.pad c K ++ m) := by
    have := write_rep h.fits _ _ m hr.h
    rwa [List.append_nil] at this
  have hl : (d.write V m).len = BitVec.ofNat 64 m.length := by
    show d.len + _ = _; rw [hr.len, ofNat64_add, List.length_nil, Nat.zero_add]
  obtain ⟨a1, a2⟩ := kmac_checkSum h K (d.write V m) _ m h1 hr.ik hl
  have b : (({ d.write V m with h := ((d.write V m).checkSum V).1 } : Kmac).checkSum V).2 =
      Spec.Kupyna.hash c V.size (Spec.Kupyna.pad c K ++ Spec.Kupyna.pad c m ++ K.map (fun b => ~~~b) ++ (Spec.Kupyna.pad c m).drop m.length ++ K.map fun b => ~~~b) := by
    have e := kmac_pad h m _ hl
    unfold Kmac.checkSum at a1 ⊢
    dsimp only at a1 ⊢
    generalize ((if (d.write V m).len < BitVec.ofNat 64 V.F.lenAt then BitVec.ofNat 64 V.F.lenAt - 1 - (d.write V m).len
      else BitVec.ofNat 64 (V.F.block - 1) - (((d.write V m).len - BitVec.ofNat 64 V.F.lenAt) % BitVec.ofNat 64 V.F.block)) + 1 : U64).toNat = k at *
    have r := write_rep h.fits _ _ (d.write V m).ik (write_rep h.fits _ _ ((dpad.drop 16).take 4) (write_rep h.fits _ _ (uint64sToBytes [(d.write V m).len * 8]) (write_rep h.fits _ _ (dpad.take k) a1)))
    rw [checkSum_eq h.fits _ _ V.size r V.cut h.size]
    congr 1
    rw [← e, show (d.write V m).ik = K.map fun b => ~~~b from hr.ik]
    simp only [List.append_assoc, List.drop_left]
  show [Out.wrote m.length, .bytes ([] ++ ((d.write V m).checkSum V).2), .bytes ([] ++ (({ d.write V m with h := ((d.write V m).checkSum V).1 } : Kmac).checkSum V).2)] = _
  rw [List.nil_append, List.nil_append, a2, b]
  rfl

set_option maxRecDepth 100000 in
/-- Sum changes the object: the second Sum of the same message gives another tag than the first. -/
theorem C45_kmac_sum_violated : ∃ d t u, newKmac kfns256 (zeros 32) = some d ∧
    (kmacImpl kfns256).run d [.write [0x61], .sum [], .sum []] = [.wrote 1, .bytes t, .bytes u] ∧ t ≠ u := by
  obtain ⟨d, hd, h⟩ := kmac_second kfits256 (zeros 32) (zeros_length 32) [0x61]
  refine ⟨d, _, _, hd, h, ?_⟩
  unfold Spec.Kupyna.kmac
  rw [show kfns256.size = 32 from rfl, kupyna_fast, kupyna_fast]
  decide +kernel

set_option maxRecDepth 100000 in
/-- Reset forgets the key: afterwards Sum does not return the tag of the message. -/
theorem C45_kmac_reset_violated : ∃ d t, newKmac kfns256 (zeros 32) = some d ∧
    (kmacImpl kfns256).run d [.reset, .write [0x61], .sum []] = [.done, .wrote 1, .bytes t] ∧ t ≠ Spec.Kupyna.kmac 8 32 (zeros 32) [0x61] := by
  obtain ⟨d, hd, hr⟩ := newKmac_rep kfits256 (zeros 32) (zeros_length 32)
  have h1 := write_rep fits256 _ _ [0x61] (reset_rep fits256)
  have hl : (({ d with h := Kupyna.reset fns256 } : Kmac).write kfns256 [0x61]).len = BitVec.ofNat 64 1 := by
    show d.len + _ = _; rw [hr.len]; rfl
  obtain ⟨a1, a2⟩ := kmac_checkSum kfits256 (zeros 32) (({ d with h := Kupyna.reset fns256 } : Kmac).write kfns256 [0x61]) [] [0x61] h1 hr.ik hl
  refine ⟨d, Spec.Kupyna.hash 8 32 ([] ++ Spec.Kupyna.pad 8 [0x61] ++ (zeros 32).map fun b => ~~~b), hd, ?_, ?_⟩
  · show [Out.done, .wrote 1, .bytes ([] ++ ((({ d with h := Kupyna.reset fns256 } : Kmac).write kfns256 [0x61]).checkSum kfns256).2)] = _
    rw [a2]; rfl
  · unfold Spec.Kupyna.kmac
    rw [kupyna_fast, kupyna_fast]
    decide +kernel

/-- For instance, a message cut in two. -/
example (a b : Bytes) : Kupyna.impl384.run (Kupyna.reset fns512) [.write a, .sum [], .write b, .sum []] =
    [.wrote a.length, .bytes (Spec.Kupyna.hash 16 48 a), .wrote b.length, .bytes (Spec.Kupyna.hash 16 48 (a ++ b))] := C45_kupyna.2.1.cut a b

/-! A test, not a proof: the digest of the empty message from the literature. -/
set_option maxRecDepth 100000 in
example : Spec.Kupyna.hash 8 32 [] = [0xcd, 0x51, 0x01, 0xd1, 0xcc, 0xdf, 0x0d, 0x1d, 0x1f, 0x4a, 0xda, 0x56, 0xe8, 0x88, 0xcd, 0x72, 0x4c, 0xa1, 0xa0, 0x83,
  0x8a, 0x35, 0x21, 0xe7, 0x13, 0x1d, 0x4f, 0xb7, 0x8d, 0x0f, 0x5e, 0xb6] := by
  rw [kupyna_fast]
  decide +kernel

end Verif.Props

