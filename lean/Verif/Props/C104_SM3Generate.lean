import Verif.Props.C103_SM3Rand
/-
sm3/rand.go: the addition and the generator (C104 to C106).
-/
namespace Verif.Props
open Verif.SM3Rand

theorem num_append_aux (b : Bytes) : ∀ n, b.foldl (fun n x => 256 * n + x.toNat) n = n * 256 ^ b.length + b.foldl (fun n x => 256 * n + x.toNat) 0 := by
  induction b with
  | nil => intro n; simp
  | cons x b ih =>
    intro n
    rw [List.foldl_cons, List.foldl_cons, ih, ih (256 * 0 + x.toNat), List.length_cons, Nat.pow_succ]
    rw [Nat.add_mul, Nat.add_mul, Nat.mul_zero, Nat.zero_mul, Nat.zero_add, Nat.mul_comm 256 n, Nat.mul_assoc, Nat.mul_comm 256 (256 ^ b.length), Nat.add_assoc]
theorem num_append (a b : Bytes) : Spec.SM3Rand.num (a ++ b) = Spec.SM3Rand.num a * 256 ^ b.length + Spec.SM3Rand.num b := by
  unfold Spec.SM3Rand.num
  rw [List.foldl_append, num_append_aux]
theorem num_cons (x : Byte) (b : Bytes) : Spec.SM3Rand.num (x :: b) = x.toNat * 256 ^ b.length + Spec.SM3Rand.num b := by
  have := num_append [x] b
  rw [List.singleton_append] at this
  rw [this]; simp [Spec.SM3Rand.num]
theorem num_lt (b : Bytes) : Spec.SM3Rand.num b < 256 ^ b.length := by
  induction b with
  | nil => exact Nat.one_pos
  | cons x b ih =>
    rw [num_cons, List.length_cons, Nat.pow_succ]
    have := x.isLt
    calc x.toNat * 256 ^ b.length + Spec.SM3Rand.num b < x.toNat * 256 ^ b.length + 256 ^ b.length := by omega
      _ = (x.toNat + 1) * 256 ^ b.length := by rw [Nat.add_mul, Nat.one_mul]
      _ ≤ 256 * 256 ^ b.length := Nat.mul_le_mul_right _ (by omega)
      _ = 256 ^ b.length * 256 := Nat.mul_comm _ _
theorem bytes_num (b : Bytes) : Spec.SM3Rand.bytes b.length (Spec.SM3Rand.num b) = b := by
  suffices h : ∀ n (b : Bytes), b.length = n → Spec.SM3Rand.bytes n (Spec.SM3Rand.num b) = b from h _ b rfl
  intro n
  induction n with
  | zero => intro b hb; rw [List.eq_nil_of_length_eq_zero hb]; rfl
  | succ n ih =>
    intro b hb
    obtain ⟨c, x, rfl⟩ : ∃ c x, b = c ++ [x] := ⟨b.dropLast, b.getLast (by intro e; rw [e] at hb; simp at hb), (List.dropLast_concat_getLast _).symm⟩
    have hc : c.length = n := by simpa using hb
    have h : Spec.SM3Rand.num (c ++ [x]) = 256 * Spec.SM3Rand.num c + x.toNat := by
      rw [num_append, Nat.mul_comm]; simp [Spec.SM3Rand.num]
    have hx := x.isLt
    rw [Spec.SM3Rand.bytes, h, show (256 * Spec.SM3Rand.num c + x.toNat) / 256 = Spec.SM3Rand.num c by omega, ih c hc]
    congr 1
    rw [List.singleton_inj]
    apply BitVec.eq_of_toNat_eq
    rw [BitVec.toNat_ofNat]; omega

theorem num_zip : ∀ (a b : Bytes), a.length = b.length → (∀ i, i < b.length → (at8 a i).toNat + (at8 b i).toNat < 256) →
    Spec.SM3Rand.num (List.zipWith (· + ·) a b) = Spec.SM3Rand.num a + Spec.SM3Rand.num b
  | [], [], _, _ => rfl
  | x :: a, y :: b, h, hi => by
    have h' : a.length = b.length := by simpa using h
    have hxy : x.toNat + y.toNat < 256 := hi 0 (by simp)
    have ih := num_zip a b h' fun i hl => by
      have := hi (i + 1) (by rw [List.length_cons]; omega)
      exact this
    rw [List.zipWith_cons_cons, num_cons, num_cons, num_cons, ih, List.length_zipWith, h', Nat.min_self, BitVec.toNat_add, Nat.mod_eq_of_lt hxy, Nat.add_mul]
    omega

/-- C104: when no byte overflows, the code adds modulo 2^440. -/
theorem sm3rand_add_partial (V a : Bytes) (hV : V.length = 55) (ha : a.length ≤ 55)
    (h : ∀ i, i < a.length → (at8 V (55 - a.length + i)).toNat + (at8 a i).toNat < 256) : beAdd V a = Spec.SM3Rand.add V a := by
  rw [beAdd_exact V a hV ha]
  have hl : (addActual V a).length = 55 := by
    unfold addActual
    rw [List.length_append, List.length_take, List.length_zipWith, List.length_drop]; omega
  have hn : Spec.SM3Rand.num (addActual V a) = Spec.SM3Rand.num V + Spec.SM3Rand.num a := by
    unfold addActual
    rw [num_append, num_zip, List.length_zipWith, List.length_drop, hV, show min (55 - (55 - a.length)) a.length = (V.drop (55 - a.length)).length by rw [List.length_drop]; omega,
      ← Nat.add_assoc, ← num_append, List.take_append_drop]
    · rw [List.length_drop]; omega
    · intro i hi
      have := h i hi
      unfold at8 at this ⊢
      rwa [List.getD_eq_getElem?_getD, List.getElem?_drop, ← List.getD_eq_getElem?_getD]
  have hlt := num_lt (addActual V a)
  unfold Spec.SM3Rand.add
  rw [← hn, Nat.mod_eq_of_lt (by rw [hl] at hlt; rw [show (2 : Nat) ^ 440 = 256 ^ 55 by rw [show (256 : Nat) = 2 ^ 8 from rfl, ← Nat.pow_mul]]; exact hlt), ← hl]
  exact (bytes_num _).symm

/-- C104 (violated): the carry is lost: 255 + 1 leaves the state at zero. -/
theorem sm3rand_add_violated : beAdd (zeros 54 ++ [255#8]) [1#8] = zeros 55 ∧ beAdd (zeros 54 ++ [255#8]) [1#8] ≠ Spec.SM3Rand.add (zeros 54 ++ [255#8]) [1#8] := by
  constructor <;> decide +kernel

example : ∀ i, i < [1#8, 2#8].length → (at8 (zeros 55) (55 - 2 + i)).toNat + (at8 [1#8, 2#8] i).toNat < 256 := by decide +kernel

theorem sm3Of_eq (ps : List Bytes) : sm3Of ps = Spec.SM3.hash ps.flatten := by
  have h : ∀ (ps : List Bytes) (d : SM3.Digest) (m : Bytes), d.Repr 64 SM3.block SM3.iv m → (ps.foldl SM3.write d).Repr 64 SM3.block SM3.iv (m ++ ps.flatten) := by
    intro ps
    induction ps with
    | nil => intro d m h; simpa using h
    | cons p ps ih =>
      intro d m h
      have := ih _ _ (sm3_write_rep h p)
      rw [List.foldl_cons, List.flatten_cons, ← List.append_assoc]; exact this
  have := h ps SM3.new [] sm3_init
  unfold sm3Of SM3.sum
  rw [SM3.checkSum_eq _ _ this]; rfl

theorem dfOf_eq (ps : List Bytes) : dfOf ps = dfActual ps.flatten := by
  have h : ∀ (ps : List Bytes) (d : DF) (m : Bytes), DFRep d m → DFRep (ps.foldl DF.write d) (m ++ ps.flatten) := by
    intro ps
    induction ps with
    | nil => intro d m h; simpa using h
    | cons p ps ih =>
      intro d m h
      have := ih _ _ (df_write_rep h p)
      rw [List.foldl_cons, List.flatten_cons, ← List.append_assoc]; exact this
  have := h ps newDF [] (df_reset_rep _)
  unfold dfOf
  rw [df_sum_eq this, List.nil_append, List.nil_append]

/-- The state of a generator that has been made by `NewRand`, `reseed` or `Generate`. -/
def RandOk (r : Rand) : Prop := r.V.length = 55 ∧ r.C.length = 55

theorem addActual_length (V a : Bytes) (hV : V.length = 55) (ha : a.length ≤ 55) : (addActual V a).length = 55 := by
  unfold addActual
  rw [List.length_append, List.length_take, List.length_zipWith, List.length_drop]; omega

theorem sm3rand_new_ok (draws : List Nat) (now : Nat) (nonce label : Bytes) : RandOk (newRand draws now nonce label) := by
  unfold newRand RandOk
  dsimp only
  rw [dfOf_eq, dfOf_eq]
  exact ⟨dfActual_length _, dfActual_length _⟩

/-- What one request does when it does not reseed: `V1` is the state with the additional input. -/
def inputActual (V addin : Bytes) : Bytes := if addin = [] then V else addActual V (Spec.SM3.hash (2#8 :: V ++ addin))

theorem second_lt (t : Nat) : second t < 60 := Nat.mod_lt _ (by decide)

/-- C105: `Generate` reseeds exactly when the counter has passed 2^20, whatever the clock says. -/
theorem sm3rand_reseed_iff (r : Rand) (draws : List Nat) (now now' : Nat) (out addin : Bytes) :
    r.generate draws now now' out addin =
      if r.reseedCounter.toNat > 2 ^ 20 then (r.reseed draws now' addin).generate draws now' now' out [] else r.generate draws r.lastReseedTime now' out addin := by
  have h1 : ∀ a b : Nat, ¬ ((second a : Int) - (second b : Int) > 600) := fun a b => by
    have := second_lt a
    have := second_lt b
    omega
  have h2 : ∀ (l : Bytes), (if l.length > 0 then [] else l) = [] := fun l => by
    split
    · rfl
    · exact List.eq_nil_of_length_eq_zero (by omega)
  have h3 : (r.reseed draws now' addin).reseedCounter = 1#32 := rfl
  by_cases hc : r.reseedCounter.toNat > 2 ^ 20
  · rw [if_pos hc]
    unfold Rand.generate
    rw [if_pos (Or.inl hc), if_neg (not_or.2 ⟨by rw [h3]; decide, h1 _ _⟩), h2]
  · rw [if_neg hc]
    unfold Rand.generate
    rw [if_neg (not_or.2 ⟨hc, h1 _ _⟩), if_neg (not_or.2 ⟨hc, h1 _ _⟩)]

/-- C105 (violated): no time is late enough: with the counter at most 2^20 the stored V, C survive any delay, although reseeding is due after 600 seconds. -/
theorem sm3rand_time_violated (r : Rand) (hc : r.reseedCounter.toNat ≤ 2 ^ 20) (draws draws' : List Nat) (delay : Nat) (t u : Nat) (out addin : Bytes) :
    r.generate draws (r.lastReseedTime + delay) t out addin = r.generate draws' r.lastReseedTime u out addin := by
  have h := sm3rand_reseed_iff r draws (r.lastReseedTime + delay) t out addin
  rw [if_neg (by omega)] at h
  rw [h]
  unfold Rand.generate
  have h1 : ¬ (r.reseedCounter.toNat > 2 ^ 20 ∨ (second r.lastReseedTime : Int) - (second r.lastReseedTime : Int) > 600) := by
    rw [Int.sub_self]; exact not_or.2 ⟨by omega, by omega⟩
  rw [if_neg h1, if_neg h1]

/-- C106: what `Generate` writes and the next state, for a request that does not reseed. -/
theorem sm3rand_generate (r : Rand) (hr : RandOk r) (hc : r.reseedCounter.toNat ≤ 2 ^ 20) (draws : List Nat) (now now' : Nat) (out addin : Bytes) :
    let V1 := inputActual r.V addin
    r.generate draws now now' out addin =
      ({ r with V := addActual (addActual (addActual V1 (Spec.SM3.hash (3#8 :: V1))) r.C) (be32 r.reseedCounter), reseedCounter := r.reseedCounter + 1#32 },
       (Spec.SM3.hash V1).take out.length ++ out.drop 32) ∧
    RandOk (r.generate draws now now' out addin).1 := by
  intro V1
  have hlV1 : V1.length = 55 := by
    show (inputActual r.V addin).length = 55
    unfold inputActual
    split
    · exact hr.1
    · exact addActual_length _ _ hr.1 (by rw [C01_sm3_size]; decide)
  have hV1 : (if addin.length > 0 then beAdd r.V (sm3Of [[2#8], r.V, addin]) else r.V) = V1 := by
    show _ = inputActual r.V addin
    unfold inputActual
    by_cases ha : addin = []
    · rw [if_pos ha, ha]; rfl
    · rw [if_neg ha, if_pos (List.length_pos_iff.2 ha), sm3Of_eq, beAdd_exact _ _ hr.1 (by rw [C01_sm3_size]; decide)]
      simp
  have hcnt : [(r.reseedCounter >>> 24).setWidth 8, (r.reseedCounter >>> 16).setWidth 8, (r.reseedCounter >>> 8).setWidth 8, r.reseedCounter.setWidth 8] = be32 r.reseedCounter := by
    unfold be32
    have h : ∀ k, k ≤ 24 → (r.reseedCounter >>> k).setWidth 8 = r.reseedCounter.extractLsb' k 8 := by
      intro k _
      apply BitVec.eq_of_getLsbD_eq
      intro j hj
      simp [-BitVec.getLsbD_eq_getElem]
    rw [← h 24 (by decide), ← h 16 (by decide), ← h 8 (by decide), ← h 0 (by decide)]; simp
  have hout : ∀ buf : Bytes, buf.length = 32 → (if out.length < 32 then goCopy out 0 (buf.take out.length) else goCopy out 0 buf) = buf.take out.length ++ out.drop 32 := by
    intro buf hb
    unfold goCopy
    by_cases ho : out.length < 32
    · rw [if_pos ho, List.take_zero, List.nil_append, List.length_take, hb, List.take_of_length_le (l := buf.take out.length) (by rw [List.length_take]; omega),
        List.drop_of_length_le (by omega), List.drop_of_length_le (by omega)]
    · rw [if_neg ho, List.take_zero, List.nil_append, hb]; simp
  have lc : (be32 r.reseedCounter).length ≤ 55 := by show 4 ≤ 55; decide
  have hg : r.generate draws now now' out addin =
      ({ r with V := addActual (addActual (addActual V1 (Spec.SM3.hash (3#8 :: V1))) r.C) (be32 r.reseedCounter), reseedCounter := r.reseedCounter + 1#32 },
       (Spec.SM3.hash V1).take out.length ++ out.drop 32) := by
    unfold Rand.generate
    have h1 : ¬ (r.reseedCounter.toNat > 2 ^ 20 ∨ (second now : Int) - (second r.lastReseedTime : Int) > 600) := by
      have := second_lt now
      have := second_lt r.lastReseedTime
      exact not_or.2 ⟨by omega, by omega⟩
    rw [if_neg h1]
    unfold Rand.step
    dsimp only
    rw [hV1, hcnt, sm3Of_eq, sm3Of_eq, hout _ (by rw [C01_sm3_size])]
    have l1 : (Spec.SM3.hash ([[3#8], V1].flatten)).length ≤ 55 := by rw [C01_sm3_size]; decide
    rw [beAdd_exact _ _ hlV1 l1, beAdd_exact _ _ (addActual_length _ _ hlV1 l1) (by rw [hr.2]; exact Nat.le_refl _),
      beAdd_exact _ _ (addActual_length _ _ (addActual_length _ _ hlV1 l1) (by rw [hr.2]; exact Nat.le_refl _)) lc]
    simp
  refine ⟨hg, ?_⟩
  rw [hg]
  have l1 : (Spec.SM3.hash (3#8 :: V1)).length ≤ 55 := by rw [C01_sm3_size]; decide
  exact ⟨addActual_length _ _ (addActual_length _ _ (addActual_length _ _ hlV1 l1) (by rw [hr.2]; exact Nat.le_refl _)) lc, hr.2⟩

/-- C106: for requests of up to 32 bytes without additional input the output is that of the standard for the same V. -/
theorem sm3rand_output_partial (r : Rand) (hr : RandOk r) (hc : r.reseedCounter.toNat ≤ 2 ^ 20) (draws : List Nat) (now now' : Nat) (out : Bytes) (ho : out.length ≤ 32) :
    (r.generate draws now now' out []).2 = (Spec.SM3Rand.block ⟨r.V, r.C, r.reseedCounter⟩ []).take out.length := by
  have h := (sm3rand_generate r hr hc draws now now' out []).1
  rw [h, List.drop_of_length_le (l := out) ho, List.append_nil]
  unfold Spec.SM3Rand.block Spec.SM3Rand.withInput inputActual
  rw [if_pos rfl, if_pos rfl]

/-- C106 (violated): bytes from the 33rd on are left as they were. -/
theorem sm3rand_long_violated (r : Rand) (hr : RandOk r) (hc : r.reseedCounter.toNat ≤ 2 ^ 20) (draws : List Nat) (now now' : Nat) (out addin : Bytes) (ho : 32 < out.length) :
    (r.generate draws now now' out addin).2.drop 32 = out.drop 32 := by
  have h := (sm3rand_generate r hr hc draws now now' out addin).1
  rw [h]
  have l := C01_sm3_size (inputActual r.V addin)
  rw [List.drop_append, List.length_take, l, List.drop_of_length_le (by rw [List.length_take]; omega), List.nil_append, show 32 - min out.length 32 = 0 by omega, List.drop_zero]

example : RandOk (newRand (List.replicate 512 0) 0 [1#8] []) ∧ (newRand (List.replicate 512 0) 0 [1#8] []).reseedCounter.toNat ≤ 2 ^ 20 :=
  ⟨sm3rand_new_ok _ _ _ _, by show (1#32).toNat ≤ _; decide⟩

end Verif.Props
