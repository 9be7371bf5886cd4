import Verif.Lemmas.BLAKE256
/-
C09: `blake256.New`, `New224`, `NewWithSalt`, `New224WithSalt` under every history of calls.
-/
namespace Verif.Props

/-- BLAKE-256 with salt words `s`. -/
def blake256Spec (s : List U32) : HashSpec :=
  { H := Spec.BLAKE.blake256 s, size := 32, blockSize := 64 }
/-- BLAKE-224 with salt words `s`. -/
def blake224Spec (s : List U32) : HashSpec :=
  { H := Spec.BLAKE.blake224 s, size := 28, blockSize := 64 }

/-- The salt of the unsalted variants. -/
def noSalt32 : List U32 := [0, 0, 0, 0]

theorem blake256_sum (s : List U32) (d : BLAKE256.Digest) (m : Bytes)
    (h : d.Repr 64 BLAKE256.compress (BLAKE256.State.mk s BLAKE256.iv256 0#64 false) m) :
    BLAKE256.checkSum 256 d = Spec.BLAKE.blake256 s m := by
  rw [BLAKE256.checkSum_eq 256 _ s d m rfl h]
  unfold Spec.BLAKE.blake256 Spec.BLAKE.hash32
  rw [show BLAKE256.ebit 256 = 1#8 from rfl, show BLAKE256.iv256 = Spec.BLAKE.iv256 from rfl]
  have hl : (List.foldl (Spec.BLAKE.step32 s m.length) Spec.BLAKE.iv256
      (fullBlocks 64 (Spec.BLAKE.pad32 1#8 m)).zipIdx).length = 8 := by
    generalize (fullBlocks 64 (Spec.BLAKE.pad32 1#8 m)).zipIdx = l
    rcases List.eq_nil_or_concat l with rfl | ⟨l', b, rfl⟩
    · rfl
    · simp only [List.concat_eq_append, List.foldl_append, List.foldl_cons, List.foldl_nil]
      exact BLAKE256.step32_length _ _ _ _
  generalize List.foldl (Spec.BLAKE.step32 s m.length) Spec.BLAKE.iv256
      (fullBlocks 64 (Spec.BLAKE.pad32 1#8 m)).zipIdx = l at *
  rw [List.take_of_length_le (l := l) (by omega), List.take_of_length_le]
  rw [map_be32_length]; omega

theorem blake224_sum (s : List U32) (d : BLAKE256.Digest) (m : Bytes)
    (h : d.Repr 64 BLAKE256.compress (BLAKE256.State.mk s BLAKE256.iv224 0#64 false) m) :
    BLAKE256.checkSum 224 d = Spec.BLAKE.blake224 s m := by
  rw [BLAKE256.checkSum_eq 224 _ s d m rfl h]
  unfold Spec.BLAKE.blake224 Spec.BLAKE.hash32
  rw [show BLAKE256.ebit 224 = 0#8 from rfl, show BLAKE256.iv224 = Spec.BLAKE.iv224 from rfl]
  have hl : (List.foldl (Spec.BLAKE.step32 s m.length) Spec.BLAKE.iv224
      (fullBlocks 64 (Spec.BLAKE.pad32 0#8 m)).zipIdx).length = 8 := by
    generalize (fullBlocks 64 (Spec.BLAKE.pad32 0#8 m)).zipIdx = l
    rcases List.eq_nil_or_concat l with rfl | ⟨l', b, rfl⟩
    · rfl
    · simp only [List.concat_eq_append, List.foldl_append, List.foldl_cons, List.foldl_nil]
      exact BLAKE256.step32_length _ _ _ _
  generalize List.foldl (Spec.BLAKE.step32 s m.length) Spec.BLAKE.iv224
      (fullBlocks 64 (Spec.BLAKE.pad32 0#8 m)).zipIdx = l at *
  match l, hl with
  | [a0, a1, a2, a3, a4, a5, a6, a7], _ =>
    simp only [List.map_cons, List.map_nil, List.flatten_cons, List.flatten_nil, List.take_succ_cons,
      be32, List.cons_append, List.nil_append, List.take_zero, Nat.reduceDiv]

theorem blake256_sim : Sim (BLAKE256.impl 256 BLAKE256.iv256) (blake256Spec noSalt32)
    (fun d m => d.Repr 64 BLAKE256.compress (BLAKE256.State.mk noSalt32 BLAKE256.iv256 0#64 false) m) := by
  refine BufDigest.sim (B := 64) (by omega) _ _ _ _ ?_ ?_ ?_ (fun _ => rfl) (fun _ => rfl)
  · intro d p _ _; rfl
  · intro d m b h
    simp only [BLAKE256.impl, blake256_sum _ d m h, blake256Spec]
  · intro d _; exact ⟨rfl, zeros_length 64, rfl, rfl⟩

theorem blake224_sim : Sim (BLAKE256.impl 224 BLAKE256.iv224) (blake224Spec noSalt32)
    (fun d m => d.Repr 64 BLAKE256.compress (BLAKE256.State.mk noSalt32 BLAKE256.iv224 0#64 false) m) := by
  refine BufDigest.sim (B := 64) (by omega) _ _ _ _ ?_ ?_ ?_ (fun _ => rfl) (fun _ => rfl)
  · intro d p _ _; rfl
  · intro d m b h
    simp only [BLAKE256.impl, blake224_sum _ d m h, blake224Spec]
  · intro d _; exact ⟨rfl, zeros_length 64, rfl, rfl⟩

theorem blake256_init : (BLAKE256.new BLAKE256.iv256).Repr 64 BLAKE256.compress
    (BLAKE256.State.mk noSalt32 BLAKE256.iv256 0#64 false) [] :=
  .init ⟨rfl, zeros_length 64, rfl, rfl⟩
theorem blake224_init : (BLAKE256.new BLAKE256.iv224).Repr 64 BLAKE256.compress
    (BLAKE256.State.mk noSalt32 BLAKE256.iv224 0#64 false) [] :=
  .init ⟨rfl, zeros_length 64, rfl, rfl⟩

/-- C09, `blake256.New`: every history of calls. -/
theorem C09_blake256_refines :
    Refines (BLAKE256.impl 256 BLAKE256.iv256) (BLAKE256.new BLAKE256.iv256) (blake256Spec noSalt32) :=
  blake256_sim.refines blake256_init

/-- C09, `blake256.New224`: every history of calls. -/
theorem C09_blake224_refines :
    Refines (BLAKE256.impl 224 BLAKE256.iv224) (BLAKE256.new BLAKE256.iv224) (blake224Spec noSalt32) :=
  blake224_sim.refines blake224_init

theorem salt32_eq (salt : Bytes) (h : salt.length = 16) :
    goCopy noSalt32 0 (BLAKE256.bytesToUint32s salt) = Spec.BLAKE.salt32 salt := by
  simp only [BLAKE256.bytesToUint32s, h, Spec.BLAKE.salt32, Nat.mul_comm 4]
  rfl

/-- `NewWithSalt` panics exactly when the salt is not 16 bytes long. -/
theorem C09_blake256_salt_panics (iv : List U32) (salt : Bytes) :
    BLAKE256.newWithSalt iv salt = none ↔ salt.length ≠ 16 := by
  unfold BLAKE256.newWithSalt; split <;> simp_all

theorem newWithSalt_repr (iv : List U32) (salt : Bytes) (d : BLAKE256.Digest)
    (h : BLAKE256.newWithSalt iv salt = some d) :
    d.Repr 64 BLAKE256.compress (BLAKE256.State.mk (Spec.BLAKE.salt32 salt) iv 0#64 false) [] := by
  unfold BLAKE256.newWithSalt at h
  split at h
  · cases h
  · rename_i hl
    cases h
    refine .init ⟨?_, zeros_length 64, rfl, rfl⟩
    simp only [← salt32_eq salt (by omega)]
    rfl

/-- C09, `blake256.NewWithSalt`, on every history without `Reset`: salted BLAKE-256 (the full
claim, with `Reset`, fails: see `C09_blake256_reset_violated`). -/
theorem C09_blake256_salted_partial (salt : Bytes) (d : BLAKE256.Digest)
    (h : BLAKE256.newWithSalt BLAKE256.iv256 salt = some d) :
    RefinesOn NoReset (BLAKE256.impl 256 BLAKE256.iv256) d (blake256Spec (Spec.BLAKE.salt32 salt)) := by
  refine refinesOn_noReset_of_sim _ _ _ (fun d m => d.Repr 64 BLAKE256.compress
    (BLAKE256.State.mk (Spec.BLAKE.salt32 salt) BLAKE256.iv256 0#64 false) m)
    (newWithSalt_repr _ _ _ h) ?_ ?_ (fun _ _ _ => rfl) (fun _ _ _ => rfl)
  · intro d m p hd; exact ⟨_, rfl, hd.absorb (by omega) p⟩
  · intro d m b hd
    refine ⟨d, ?_, hd⟩
    simp only [BLAKE256.impl, blake256_sum _ d m hd, blake256Spec]

/-- The same for `New224WithSalt`. -/
theorem C09_blake224_salted_partial (salt : Bytes) (d : BLAKE256.Digest)
    (h : BLAKE256.newWithSalt BLAKE256.iv224 salt = some d) :
    RefinesOn NoReset (BLAKE256.impl 224 BLAKE256.iv224) d (blake224Spec (Spec.BLAKE.salt32 salt)) := by
  refine refinesOn_noReset_of_sim _ _ _ (fun d m => d.Repr 64 BLAKE256.compress
    (BLAKE256.State.mk (Spec.BLAKE.salt32 salt) BLAKE256.iv224 0#64 false) m)
    (newWithSalt_repr _ _ _ h) ?_ ?_ (fun _ _ _ => rfl) (fun _ _ _ => rfl)
  · intro d m p hd; exact ⟨_, rfl, hd.absorb (by omega) p⟩
  · intro d m b hd
    refine ⟨d, ?_, hd⟩
    simp only [BLAKE256.impl, blake224_sum _ d m hd, blake224Spec]

/-- What really happens: after `Reset` any object answers every history like an *unsalted* one. -/
theorem C09_blake256_reset_drops_salt (d : BLAKE256.Digest) (ops : List Op) :
    (BLAKE256.impl 256 BLAKE256.iv256).run d (.reset :: ops) =
      (blake256Spec noSalt32).run [] (.reset :: ops) := by
  simp only [HashImpl.run, HashSpec.run]
  congr 1
  exact blake256_sim.run ops _ _ (.init ⟨rfl, zeros_length 64, rfl, rfl⟩)

set_option maxRecDepth 100000 in
/-- The documented behaviour ("Reset ... leaves salt intact") fails: with the salt `01 00..00`,
`Reset` then `Sum` of the empty message does not give the salted digest. -/
theorem C09_blake256_reset_violated : ∃ salt d,
    BLAKE256.newWithSalt BLAKE256.iv256 salt = some d ∧
    ¬ Refines (BLAKE256.impl 256 BLAKE256.iv256) d (blake256Spec (Spec.BLAKE.salt32 salt)) := by
  refine ⟨1#8 :: zeros 15, _, rfl, not_refines [.reset, .sum []] ?_⟩
  rw [C09_blake256_reset_drops_salt]
  decide +kernel

-- Tests (vectors of the proposal and of blake256_test.go); the salted constructor succeeds.
set_option maxRecDepth 100000 in
example : ((BLAKE256.impl 256 BLAKE256.iv256).run (BLAKE256.new BLAKE256.iv256) [.write [0#8], .sum []]).getLast? =
    some (.bytes (hex "0ce8d4ef4dd7cd8d62dfded9d4edb0a774ae6a41929a74da23109e8f11139c87")) := by decide +kernel
set_option maxRecDepth 100000 in
example : ((BLAKE256.impl 224 BLAKE256.iv224).run (BLAKE256.new BLAKE256.iv224)
      [.write (zeros 30), .sum [], .write (zeros 42), .sum []]).getLast? =
    some (.bytes (hex "f5aa00dd1cb847e3140372af7b5c46b4888d82c8c0a917913cfb5d04")) := by decide +kernel
example : (BLAKE256.newWithSalt BLAKE256.iv256 (ascii "1234567890123456")).isSome := by decide +kernel

end Verif.Props
