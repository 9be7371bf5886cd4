import Verif.Lemmas.EchoObj
import Verif.LoopBuf
/-
C50 (package echo): the digests of echo.New and echo.NewWithSalt satisfy the hash.Hash contract against ECHO, for every size and salt the package is
meant to accept; the constructors also accept negative sizes, whose digests panic in Sum.
-/
namespace Verif.Props
open Echo

/-- What the salt argument stands for: no salt is a salt of zeros. -/
def echoSalt (salt : Bytes) : Bytes := if salt.length = 0 then zeros 16 else salt

theorem echo_iv4 (w : U64) : forLoop 0 4 (fun s i => (s.set (2 * i) w).set (2 * i + 1) 0) (List.replicate 32 (0 : U64)) =
    [w, 0, w, 0, w, 0, w, 0] ++ List.replicate 24 0 := rfl
theorem echo_iv8 (w : U64) : forLoop 0 8 (fun s i => (s.set (2 * i) w).set (2 * i + 1) 0) (List.replicate 32 (0 : U64)) =
    [w, 0, w, 0, w, 0, w, 0, w, 0, w, 0, w, 0, w, 0] ++ List.replicate 16 0 := rfl

theorem echo_reset_rep (n : Nat) (salt : U64 × U64) : Echo.Rep n salt (Echo.reset (8 * (n : Int)) salt) [] := by
  have hi : (BitVec.ofInt 64 (8 * (n : Int))) = BitVec.ofNat 64 (8 * n) := by
    rw [show (8 * (n : Int)) = ((8 * n : Nat) : Int) by omega, BitVec.ofInt_natCast]
  have hI : ∀ w : U64, ∀ k : Nat, k = 4 ∨ k = 8 → (forLoop 0 k (fun s i => (s.set (2 * i) w).set (2 * i + 1) 0) (List.replicate 32 (0 : U64))).length = 32 ∧
      (Echo.abs (forLoop 0 k (fun s i => (s.set (2 * i) w).set (2 * i + 1) 0) (List.replicate 32 (0 : U64)))).take (16 * k) =
        (List.range k).flatMap (fun _ => le64 w ++ zeros 8) := by
    intro w k hk
    rcases hk with rfl | rfl
    · rw [echo_iv4]
      refine ⟨rfl, ?_⟩
      rw [Echo.abs_append, List.take_left' (by rw [Echo.abs_length]; rfl)]
      simp only [Echo.abs, List.flatMap_cons, List.flatMap_nil, List.append_nil, List.append_assoc, show le64 0 = zeros 8 from rfl,
        show List.range 4 = [0, 1, 2, 3] from rfl]
    · rw [echo_iv8]
      refine ⟨rfl, ?_⟩
      rw [Echo.abs_append, List.take_left' (by rw [Echo.abs_length]; rfl)]
      simp only [Echo.abs, List.flatMap_cons, List.flatMap_nil, List.append_nil, List.append_assoc, show le64 0 = zeros 8 from rfl,
        show List.range 8 = [0, 1, 2, 3, 4, 5, 6, 7] from rfl]
  unfold Echo.reset
  dsimp only
  rw [hi]
  have hB : (if (8 * (n : Int)) > 256 then 1024 else 1536) = 8 * Spec.Echo.blockLen n := by
    unfold Spec.Echo.blockLen Spec.Echo.vLen
    by_cases h : n ≤ 32
    · rw [if_pos h, if_neg (by omega)]
    · rw [if_neg h, if_pos (by omega)]
  have hk : (if (8 * (n : Int)) > 256 then 8 else 4) = Spec.Echo.vLen n / 16 := by
    unfold Spec.Echo.vLen
    by_cases h : n ≤ 32
    · rw [if_pos h, if_neg (by omega)]
    · rw [if_neg h, if_pos (by omega)]
  have hk2 : Spec.Echo.vLen n / 16 = 4 ∨ Spec.Echo.vLen n / 16 = 8 := by unfold Spec.Echo.vLen; split <;> simp
  have hk3 : 16 * (Spec.Echo.vLen n / 16) = Spec.Echo.vLen n := by unfold Spec.Echo.vLen; split <;> rfl
  rw [hB, hk, Nat.mul_div_cancel_left _ (by decide : 0 < 8)]
  obtain ⟨i1, i2⟩ := hI (BitVec.ofNat 64 (8 * n)) _ hk2
  refine ⟨rfl, rfl, rfl, LoopRep.init _ _ _ _ ⟨i1, ?_, rfl⟩⟩
  rw [hk3] at i2
  dsimp only
  rw [i2]
  have hz : fullBlocks (Spec.Echo.blockLen n) ([] : Bytes) = [] := by simp [fullBlocks]
  unfold Echo.chain
  rw [hz]
  rfl

theorem echo_new (n : Nat) (h1 : 1 ≤ n) (h2 : n ≤ 64) (salt : Bytes) (hs : salt.length = 0 ∨ salt.length = 16) :
    ∃ sl, newDigest (8 * (n : Int)) salt = some (Echo.reset (8 * (n : Int)) sl) ∧ Echo.saltBytes sl = echoSalt salt := by
  unfold newDigest
  rw [if_neg (by omega), if_neg (by rw [Int.mul_tmod_right]; decide), if_neg (by omega)]
  rcases hs with h | h
  · exact ⟨(0, 0), by rw [if_neg (by omega)], by unfold echoSalt; rw [if_pos h]; rfl⟩
  · rw [if_pos (by omega), if_neg (by omega)]
    refine ⟨_, rfl, ?_⟩
    unfold echoSalt
    rw [if_neg (by omega)]
    have := Echo.load_abs salt (by omega)
    unfold bytesToUint64s at this ⊢
    rw [h] at this ⊢
    exact this

/-- The digest of echo.New / NewWithSalt behaves, for every history of calls, like ECHO with that size and salt of the bytes written since the last Reset. -/
theorem C50_echo (n : Nat) (h1 : 1 ≤ n) (h2 : n ≤ 64) (salt : Bytes) (hs : salt.length = 0 ∨ salt.length = 16) :
    ∃ d, newDigest (8 * (n : Int)) salt = some d ∧
      Refines Echo.impl d { H := Spec.Echo.hash n (echoSalt salt), size := n, blockSize := Spec.Echo.blockLen n } := by
  obtain ⟨sl, e1, e2⟩ := echo_new n h1 h2 salt hs
  refine ⟨_, e1, ?_⟩
  rw [← e2]
  exact refines_of_sim _ _ _ (Echo.Rep n sl) (echo_reset_rep n sl)
    (fun d m p h => ⟨_, rfl, Echo.write_rep n sl d m p h⟩)
    (fun d m b h => ⟨d, by show d.checkSum.map _ = _; rw [Echo.checkSum_eq n h2 sl d m h]; rfl, h⟩)
    (fun d m h => by show Echo.Rep n sl (Echo.reset d.hs d.salt) []; rw [h.hs, h.slt]; exact echo_reset_rep n sl)
    (fun d m h => by
      show (d.hs.tdiv 8).toNat = n
      rw [h.hs, Int.mul_tdiv_cancel_left _ (by decide)]; omega)
    (fun d m h => by show d.bs / 8 = _; rw [h.bs, Nat.mul_div_cancel_left _ (by decide : 0 < 8)])

/-- For instance, a message cut in two, with a salt. -/
example (n : Nat) (h1 : 1 ≤ n) (h2 : n ≤ 64) (salt : Bytes) (hs : salt.length = 16) (a b : Bytes) : ∃ d, newDigest (8 * (n : Int)) salt = some d ∧
    Echo.impl.run d [.write a, .sum [], .write b, .sum []] =
    [.wrote a.length, .bytes (Spec.Echo.hash n salt a), .wrote b.length, .bytes (Spec.Echo.hash n salt (a ++ b))] := by
  obtain ⟨d, h, hr⟩ := C50_echo n h1 h2 salt (Or.inr hs)
  have := hr.cut a b
  unfold echoSalt at this
  rw [if_neg (by omega)] at this
  exact ⟨d, h, this⟩

/-- Which arguments the constructors accept: besides the sizes of ECHO, every negative one. -/
theorem C50_echo_new (size : Int) (salt : Bytes) : (newDigest size salt).isSome ↔
    ((∃ n : Nat, 1 ≤ n ∧ n ≤ 64 ∧ size = 8 * n) ∨ size < 0) ∧ (salt.length = 0 ∨ salt.length = 16) := by
  unfold newDigest
  by_cases h0 : size = 0
  · rw [if_pos h0]
    simp only [Option.isSome_none, Bool.false_eq_true, false_iff]
    rintro ⟨⟨n, a, b, c⟩ | h, -⟩ <;> omega
  rw [if_neg h0]
  by_cases hneg : size < 0
  · have : ¬ size.tmod 8 > 0 := by
      rw [show size = -(-size) by omega, Int.neg_tmod]
      have := Int.tmod_nonneg (a := -size) 8 (by omega)
      omega
    rw [if_neg this, if_neg (by omega)]
    by_cases hs : salt.length > 0
    · rw [if_pos hs]
      by_cases h16 : salt.length ≠ 16
      · rw [if_pos h16]
        simp only [Option.isSome_none, Bool.false_eq_true, false_iff]
        rintro ⟨-, h⟩; omega
      · rw [if_neg h16]
        exact ⟨fun _ => ⟨Or.inr hneg, Or.inr (by omega)⟩, fun _ => rfl⟩
    · rw [if_neg hs]
      exact ⟨fun _ => ⟨Or.inr hneg, Or.inl (by omega)⟩, fun _ => rfl⟩
  · have hm : size.tmod 8 = size % 8 := by rw [Int.tmod_eq_emod_of_nonneg (by omega)]
    rw [hm]
    by_cases h8 : size % 8 > 0
    · rw [if_pos h8]
      simp only [Option.isSome_none, Bool.false_eq_true, false_iff]
      rintro ⟨⟨n, a, b, c⟩ | h, -⟩ <;> omega
    rw [if_neg h8]
    by_cases hb : size > 512
    · rw [if_pos hb]
      simp only [Option.isSome_none, Bool.false_eq_true, false_iff]
      rintro ⟨⟨n, a, b, c⟩ | h, -⟩ <;> omega
    rw [if_neg hb]
    have hn : ∃ n : Nat, 1 ≤ n ∧ n ≤ 64 ∧ size = 8 * n := ⟨(size / 8).toNat, by omega, by omega, by omega⟩
    by_cases hs : salt.length > 0
    · rw [if_pos hs]
      by_cases h16 : salt.length ≠ 16
      · rw [if_pos h16]
        simp only [Option.isSome_none, Bool.false_eq_true, false_iff]
        rintro ⟨-, h⟩; omega
      · rw [if_neg h16]
        exact ⟨fun _ => ⟨Or.inl hn, Or.inr (by omega)⟩, fun _ => rfl⟩
    · rw [if_neg hs]
      exact ⟨fun _ => ⟨Or.inl hn, Or.inl (by omega)⟩, fun _ => rfl⟩

theorem echo_sum_none (d : Echo.Digest) (h : d.hs = -8) : d.checkSum = none := by
  unfold Echo.Digest.checkSum
  rw [h]
  dsimp only
  rw [if_neg]
  rintro ⟨h, -⟩
  exact absurd h (by decide)

/-- echo.New(-8) succeeds, but Sum of its digest panics, whatever was written. -/
theorem C50_echo_negative_violated (p b : Bytes) : ∃ d, newDigest (-8) [] = some d ∧ Echo.impl.sum (d.write p) b = none := by
  refine ⟨Echo.reset (-8) (0, 0), rfl, ?_⟩
  have h : Echo.Digest.checkSum ((Echo.reset (-8) (0, 0)).write p) = none := echo_sum_none _ rfl
  unfold Echo.impl
  dsimp only
  rw [h]
  rfl

end Verif.Props
