import Verif.Lemmas.FSBSum
import Verif.Lemmas.FSBComp
import Verif.HistAuto
/-
C56: package fsb.
-/
namespace Verif.Props
open Verif.FSB

/-- Every Write of the history takes at most 2^29 - 256 bytes (so that its bit count, and that plus what is buffered, fits into 32 bits).  The total is not bounded. -/
def FSBWrites (ops : List Op) : Prop := ∀ p, Op.write p ∈ ops → p.length ≤ 2 ^ 29 - 256

/-- The digests of package fsb, by size, and the standard's parameter sets. -/
def fsbSizes : List (Int × Spec.FSB.Params) :=
  [(48, Spec.FSB.fsb48), (160, Spec.FSB.fsb160), (224, Spec.FSB.fsb224), (256, Spec.FSB.fsb256), (384, Spec.FSB.fsb384), (512, Spec.FSB.fsb512)]

/-- New accepts exactly the six sizes and picks the parameters of the standard. -/
theorem C56_fsb_new (n : Int) : (new n).map Cfg.spec = (fsbSizes.find? fun e => e.1 = n).map Prod.snd := by
  unfold FSB.new parameters fsbSizes
  simp only [List.find?_cons, List.find?_nil]
  by_cases h1 : n = 48
  · subst h1; rfl
  by_cases h2 : n = 160
  · subst h2; rfl
  by_cases h3 : n = 224
  · subst h3; rfl
  by_cases h4 : n = 256
  · subst h4; rfl
  by_cases h5 : n = 384
  · subst h5; rfl
  by_cases h6 : n = 512
  · subst h6; rfl
  have c1 : ¬ n = ((48 : Nat) : Int) := h1
  have c2 : ¬ n = ((160 : Nat) : Int) := h2
  have c3 : ¬ n = ((224 : Nat) : Int) := h3
  have c4 : ¬ n = ((256 : Nat) : Int) := h4
  have c5 : ¬ n = ((384 : Nat) : Int) := h5
  have c6 : ¬ n = ((512 : Nat) : Int) := h6
  rw [decide_eq_false c1, decide_eq_false c2, decide_eq_false c3, decide_eq_false c4, decide_eq_false c5, decide_eq_false c6,
    decide_eq_false (fun h => h1 h.symm), decide_eq_false (fun h => h2 h.symm), decide_eq_false (fun h => h3 h.symm), decide_eq_false (fun h => h4 h.symm), decide_eq_false (fun h => h5 h.symm), decide_eq_false (fun h => h6 h.symm)]
  rfl

/-- `c` is what New built for some size. -/
theorem fsb_mem {n : Int} {c : Cfg} (h : new n = some c) : c ∈ parameters := List.mem_of_find?_eq_some h

/-- The columns that a compression adds exist, and reading them stays within the first b·(⌊p/8⌋+1) bytes of Pi, which is less than the 2097152 the array has:
the accesses of Reset and performHash are in range. -/
theorem C56_fsb_in_range (n : Int) (c : Cfg) (h : new n = some c) (s m : Bytes) (i : Nat) (hi : i < c.w) :
    Spec.FSB.select c.spec s m i / c.r < c.b ∧ c.b * (c.p / 8 + 1) ≤ 2048 * 1024 := by
  have hg := parameters_good c (fsb_mem h)
  refine ⟨?_, ?_⟩
  · rw [Nat.div_lt_iff_lt_mul hg.rpos, ← hg.nr]; exact select_lt hg s m i hi
  · have : ∀ c ∈ parameters, c.b * (c.p / 8 + 1) ≤ 2048 * 1024 := by decide +kernel
    exact this c (fsb_mem h)

theorem fsb_hash (pi : Nat → Byte) (c : Cfg) (hg : Good c) (m : Bytes) :
    (Spec.Whirlpool.hash Spec.Whirlpool.final ((fullBlocks c.B (mdPad c.B 0x80 (be64 (BitVec.ofNat 64 (8 * m.length))) m)).foldl (comp pi c) (zeros (c.r / 8)))).take (c.hashbitlen / 8) =
      Spec.FSB.hash pi c.spec m := by
  unfold Spec.FSB.hash Spec.FSB.pad
  rw [inputBits_eq hg]
  have : comp pi c = Spec.FSB.compress pi c.spec := by funext s b; exact comp_eq hg s b
  rw [this]; rfl

/-- Every object New makes is FSB with the standard's parameters, for every history whose Writes are below half a gibibyte each, whatever bytes the matrix is made of. -/
theorem C56_fsb_contract_partial (pi : Nat → Byte) (n : Int) (c : Cfg) (h : new n = some c) :
    RefinesOn FSBWrites (impl pi c) (reset c)
      { H := Spec.FSB.hash pi c.spec, size := c.spec.hashbits / 8, blockSize := Spec.FSB.inputBits c.spec / 8 } := by
  have hg := parameters_good c (fsb_mem h)
  have key := refinesOn_permits_of_sim (τ := Unit) (fun _ o => ∀ p, o = Op.write p → p.length ≤ 2 ^ 29 - 256) (fun _ _ => ()) () (impl pi c) (reset c)
    { H := Spec.FSB.hash pi c.spec, size := c.spec.hashbits / 8, blockSize := Spec.FSB.inputBits c.spec / 8 }
    (fun d _ m => Rep pi c d m ∧ d.databitlen = BitVec.ofNat 64 (8 * m.length)) ⟨reset_rep hg, rfl⟩
    (fun d _ m p hi ho => by
      have hp := ho p rfl
      obtain ⟨d', w1, w2, w3⟩ := writeBits_rep hg (8 * p.length + 2) d m p p.length hi.1 (by simp only [Nat.reducePow] at *; omega) (Nat.le_refl _) (by omega)
      refine ⟨d', ?_, ?_, ?_⟩
      · show (d.write pi c p).map _ = _
        unfold Digest.write
        rw [w1]; rfl
      · rwa [List.take_of_length_le (l := p) (Nat.le_refl _)] at w2
      · rw [w3, hi.2, ← BitVec.ofNat_add, List.length_append, Nat.mul_add])
    (fun d _ m b hi _ => ⟨d, by
      show (d.checkSum pi c).map _ = _
      rw [checkSum_eq hg d m hi.1 hi.2, fsb_hash pi c hg]; rfl, hi⟩)
    (fun _ _ _ _ _ => ⟨reset_rep hg, rfl⟩)
    (fun _ _ _ hi => ⟨by show c.hashbitlen >>> 3 = c.hashbitlen / 8; rw [Nat.shiftRight_eq_div_pow], fun _ => hi⟩)
    (fun _ _ _ hi => ⟨by rw [inputBits_eq hg]; show c.inputsize >>> 3 = c.inputsize / 8; rw [Nat.shiftRight_eq_div_pow], fun _ => hi⟩)
  intro ops hops
  apply key
  clear key
  induction ops with
  | nil => trivial
  | cons o ops ih => exact ⟨fun p e => hops p (by rw [e]; simp), ih (fun p hp => hops p (by simp [hp]))⟩

/-- The bit count of a Write is taken modulo 2^32: a Write of 2^29 bytes (or a multiple) reports success and changes nothing, at any point of any permitted history
(`Rep` holds for every object such a history leads to). -/
theorem C56_fsb_write_violated (pi : Nat → Byte) (n : Int) (c : Cfg) (h : new n = some c) (d : Digest) (m : Bytes) (hd : Rep pi c d m) (p : Bytes) (k : Nat) (hp : p.length = 2 ^ 29 * k) :
    (impl pi c).write d p = some (d, p.length) := by
  have hg := parameters_good c (fsb_mem h)
  have hz : BitVec.ofNat 32 (8 * p.length) = (0 : U32) := by
    apply BitVec.eq_of_toNat_eq
    rw [BitVec.toNat_ofNat, hp]
    show _ = 0
    omega
  show (d.write pi c p).map _ = _
  unfold Digest.write
  rw [hz]
  unfold Digest.writeBits
  have hB0 : 0 < c.B := by have := hg.inpmin; unfold Cfg.B; omega
  have hIB : c.inputsize = 8 * c.B := by have := hg.inp8; unfold Cfg.B; omega
  have hlt : (restBlock c.B m).length < c.B := by rw [restBlock_length]; exact Nat.mod_lt _ hB0
  have him := hg.inpmax
  have h1 : (0 : U32) + d.count < BitVec.ofNat 32 c.inputsize := by
    rw [show (0 : U32) + d.count = d.count by simp, hd.cnt, BitVec.lt_def, BitVec.toNat_ofNat, BitVec.toNat_ofNat]
    simp only [Nat.reducePow]
    omega
  rw [if_pos h1, if_pos (by rw [hd.cnt]; exact and7 _), if_neg (by decide)]
  simp

/-! Non-vacuity. -/
example : (new 256).isSome ∧ (new 100).isNone ∧ (new (-48)).isNone := by decide
example : ∃ (m p : Bytes) (d : Digest), Rep (fun _ => 0) ⟨256, 1 <<< 21, 1 <<< 7, 1 <<< 10, 1061⟩ d m ∧ p.length = 2 ^ 29 * 1 :=
  ⟨[], List.replicate (2 ^ 29 * 1) 0, _, reset_rep (parameters_good _ (by simp [parameters])), List.length_replicate⟩
example : FSBWrites [.write [1, 2, 3], .sum [], .write (zeros 100), .sum [9], .reset, .sum []] := by
  intro p hp
  simp only [List.mem_cons, List.not_mem_nil, or_false, reduceCtorEq, false_or, Op.write.injEq] at hp
  rcases hp with rfl | rfl
  · decide
  · rw [zeros_length]; decide

end Verif.Props
