import Verif.Lemmas.BLAKE512
/-
C10: `blake512.New`, `New384`, `NewWithSalt`, `New384WithSalt` under every history of calls.
-/
namespace Verif.Props

/-- BLAKE-512 with salt words `s`. -/
def blake512Spec (s : List U64) : HashSpec :=
  { H := Spec.BLAKE.blake512 s, size := 64, blockSize := 128 }
/-- BLAKE-384 with salt words `s`. -/
def blake384Spec (s : List U64) : HashSpec :=
  { H := Spec.BLAKE.blake384 s, size := 48, blockSize := 128 }

/-- The salt of the unsalted variants. -/
def noSalt64 : List U64 := [0, 0, 0, 0]

theorem blake512_sum (s : List U64) (d : BLAKE512.Digest) (m : Bytes)
    (h : d.Repr 128 BLAKE512.compress (BLAKE512.State.mk s BLAKE512.iv512 0#64 0#64) m) :
    BLAKE512.checkSum 64 d = Spec.BLAKE.blake512 s m := by
  obtain ⟨H, hH, hl, he⟩ := BLAKE512.checkSum_eq 64 _ s d m rfl h
  unfold Spec.BLAKE.blake512 Spec.BLAKE.hash64
  rw [show BLAKE512.ebit 64 = 1#8 from rfl, show BLAKE512.iv512 = Spec.BLAKE.iv512 from rfl] at hH
  rw [he, ← hH]
  match H, hl with
  | [a0, a1, a2, a3, a4, a5, a6, a7], _ =>
    simp only [List.getD_cons_zero, List.getD_cons_succ, List.map_cons, List.map_nil, List.flatten_cons,
      List.flatten_nil, List.append_assoc, if_true, List.append_nil]

theorem blake384_sum (s : List U64) (d : BLAKE512.Digest) (m : Bytes)
    (h : d.Repr 128 BLAKE512.compress (BLAKE512.State.mk s BLAKE512.iv384 0#64 0#64) m) :
    BLAKE512.checkSum 48 d = Spec.BLAKE.blake384 s m := by
  obtain ⟨H, hH, hl, he⟩ := BLAKE512.checkSum_eq 48 _ s d m rfl h
  unfold Spec.BLAKE.blake384 Spec.BLAKE.hash64
  rw [show BLAKE512.ebit 48 = 0#8 from rfl, show BLAKE512.iv384 = Spec.BLAKE.iv384 from rfl] at hH
  rw [he, ← hH]
  match H, hl with
  | [a0, a1, a2, a3, a4, a5, a6, a7], _ =>
    simp only [List.getD_cons_zero, List.getD_cons_succ, List.map_cons, List.map_nil, List.flatten_cons,
      List.flatten_nil, if_neg (show ¬ (48 = 64) by decide), List.append_nil]
    rw [show be64 a0 ++ (be64 a1 ++ (be64 a2 ++ (be64 a3 ++ (be64 a4 ++ (be64 a5 ++ (be64 a6 ++ be64 a7)))))) =
      (be64 a0 ++ be64 a1 ++ be64 a2 ++ be64 a3 ++ be64 a4 ++ be64 a5) ++ (be64 a6 ++ be64 a7) by
        simp only [List.append_assoc]]
    rw [List.take_left' (by simp only [List.length_append, be64_length])]

theorem blake512_sim : Sim (BLAKE512.impl 64 BLAKE512.iv512) (blake512Spec noSalt64)
    (fun d m => d.Repr 128 BLAKE512.compress (BLAKE512.State.mk noSalt64 BLAKE512.iv512 0#64 0#64) m) := by
  refine BufDigest.sim (B := 128) (by omega) _ _ _ _ ?_ ?_ ?_ (fun _ => rfl) (fun _ => rfl)
  · intro d p _ _; rfl
  · intro d m b h
    simp only [BLAKE512.impl, blake512_sum _ d m h, blake512Spec]
  · intro d _; exact ⟨rfl, zeros_length 128, rfl, rfl⟩

theorem blake384_sim : Sim (BLAKE512.impl 48 BLAKE512.iv384) (blake384Spec noSalt64)
    (fun d m => d.Repr 128 BLAKE512.compress (BLAKE512.State.mk noSalt64 BLAKE512.iv384 0#64 0#64) m) := by
  refine BufDigest.sim (B := 128) (by omega) _ _ _ _ ?_ ?_ ?_ (fun _ => rfl) (fun _ => rfl)
  · intro d p _ _; rfl
  · intro d m b h
    simp only [BLAKE512.impl, blake384_sum _ d m h, blake384Spec]
  · intro d _; exact ⟨rfl, zeros_length 128, rfl, rfl⟩

theorem blake512_init : (BLAKE512.new BLAKE512.iv512).Repr 128 BLAKE512.compress
    (BLAKE512.State.mk noSalt64 BLAKE512.iv512 0#64 0#64) [] :=
  .init ⟨rfl, zeros_length 128, rfl, rfl⟩
theorem blake384_init : (BLAKE512.new BLAKE512.iv384).Repr 128 BLAKE512.compress
    (BLAKE512.State.mk noSalt64 BLAKE512.iv384 0#64 0#64) [] :=
  .init ⟨rfl, zeros_length 128, rfl, rfl⟩

/-- C10, `blake512.New`: every history of calls. -/
theorem C10_blake512_refines :
    Refines (BLAKE512.impl 64 BLAKE512.iv512) (BLAKE512.new BLAKE512.iv512) (blake512Spec noSalt64) :=
  blake512_sim.refines blake512_init

/-- C10, `blake512.New384`: every history of calls. -/
theorem C10_blake384_refines :
    Refines (BLAKE512.impl 48 BLAKE512.iv384) (BLAKE512.new BLAKE512.iv384) (blake384Spec noSalt64) :=
  blake384_sim.refines blake384_init

theorem salt64_eq (salt : Bytes) (h : salt.length = 32) :
    goCopy noSalt64 0 (BLAKE512.bytesToUint64s salt) = Spec.BLAKE.salt64 salt := by
  simp only [BLAKE512.bytesToUint64s, h, Spec.BLAKE.salt64, Nat.mul_comm 8]
  rfl

/-- `NewWithSalt` panics exactly when the salt is not 32 bytes long. -/
theorem C10_blake512_salt_panics (iv : List U64) (salt : Bytes) :
    BLAKE512.newWithSalt iv salt = none ↔ salt.length ≠ 32 := by
  unfold BLAKE512.newWithSalt; split <;> simp_all

theorem newWithSalt64_repr (iv : List U64) (salt : Bytes) (d : BLAKE512.Digest)
    (h : BLAKE512.newWithSalt iv salt = some d) :
    d.Repr 128 BLAKE512.compress (BLAKE512.State.mk (Spec.BLAKE.salt64 salt) iv 0#64 0#64) [] := by
  unfold BLAKE512.newWithSalt at h
  split at h
  · cases h
  · rename_i hl
    cases h
    refine .init ⟨?_, zeros_length 128, rfl, rfl⟩
    simp only [← salt64_eq salt (by omega)]
    rfl

/-- C10, `blake512.NewWithSalt`, on every history without `Reset`: salted BLAKE-512 (the full
claim, with `Reset`, fails: see `C10_blake512_reset_violated`). -/
theorem C10_blake512_salted_partial (salt : Bytes) (d : BLAKE512.Digest)
    (h : BLAKE512.newWithSalt BLAKE512.iv512 salt = some d) :
    RefinesOn NoReset (BLAKE512.impl 64 BLAKE512.iv512) d (blake512Spec (Spec.BLAKE.salt64 salt)) := by
  refine refinesOn_noReset_of_sim _ _ _ (fun d m => d.Repr 128 BLAKE512.compress
    (BLAKE512.State.mk (Spec.BLAKE.salt64 salt) BLAKE512.iv512 0#64 0#64) m)
    (newWithSalt64_repr _ _ _ h) ?_ ?_ (fun _ _ _ => rfl) (fun _ _ _ => rfl)
  · intro d m p hd; exact ⟨_, rfl, hd.absorb (by omega) p⟩
  · intro d m b hd
    refine ⟨d, ?_, hd⟩
    simp only [BLAKE512.impl, blake512_sum _ d m hd, blake512Spec]

/-- The same for `New384WithSalt`. -/
theorem C10_blake384_salted_partial (salt : Bytes) (d : BLAKE512.Digest)
    (h : BLAKE512.newWithSalt BLAKE512.iv384 salt = some d) :
    RefinesOn NoReset (BLAKE512.impl 48 BLAKE512.iv384) d (blake384Spec (Spec.BLAKE.salt64 salt)) := by
  refine refinesOn_noReset_of_sim _ _ _ (fun d m => d.Repr 128 BLAKE512.compress
    (BLAKE512.State.mk (Spec.BLAKE.salt64 salt) BLAKE512.iv384 0#64 0#64) m)
    (newWithSalt64_repr _ _ _ h) ?_ ?_ (fun _ _ _ => rfl) (fun _ _ _ => rfl)
  · intro d m p hd; exact ⟨_, rfl, hd.absorb (by omega) p⟩
  · intro d m b hd
    refine ⟨d, ?_, hd⟩
    simp only [BLAKE512.impl, blake384_sum _ d m hd, blake384Spec]

/-- What really happens: after `Reset` any object answers every history like an *unsalted* one. -/
theorem C10_blake512_reset_drops_salt (d : BLAKE512.Digest) (ops : List Op) :
    (BLAKE512.impl 64 BLAKE512.iv512).run d (.reset :: ops) =
      (blake512Spec noSalt64).run [] (.reset :: ops) := by
  simp only [HashImpl.run, HashSpec.run]
  congr 1
  exact blake512_sim.run ops _ _ (.init ⟨rfl, zeros_length 128, rfl, rfl⟩)

set_option maxRecDepth 100000 in
/-- The documented behaviour ("Reset ... leaves salt intact") fails: with the salt `01 00..00`,
`Reset` then `Sum` of the empty message does not give the salted digest. -/
theorem C10_blake512_reset_violated : ∃ salt d,
    BLAKE512.newWithSalt BLAKE512.iv512 salt = some d ∧
    ¬ Refines (BLAKE512.impl 64 BLAKE512.iv512) d (blake512Spec (Spec.BLAKE.salt64 salt)) := by
  refine ⟨1#8 :: zeros 31, _, rfl, not_refines [.reset, .sum []] ?_⟩
  rw [C10_blake512_reset_drops_salt]
  decide +kernel

-- Tests (vectors of blake512_test.go); the salted constructor succeeds.
set_option maxRecDepth 100000 in
example : ((BLAKE512.impl 48 BLAKE512.iv384).run (BLAKE512.new BLAKE512.iv384) [.write [0xcc#8], .sum []]).getLast? =
    some (.bytes (hex "a77e65c0c03ecb831dbcdd50a3c2bce300d55eac002a9c197095518d8514c0b578e3ecb7415291f99ede91d49197dd05")) := by decide +kernel
set_option maxRecDepth 100000 in
example : ((BLAKE512.impl 64 BLAKE512.iv512).run (BLAKE512.new BLAKE512.iv512)
      [.write (zeros 30), .sum [], .write (zeros 114), .sum []]).getLast? =
    some (.bytes (hex "313717d608e9cf758dcb1eb0f0c3cf9fc150b2d500fb33f51c52afc99d358a2f1374b8a38bba7974e7f6ef79cab16f22ce1e649d6e01ad9589c213045d545dde")) := by decide +kernel
example : (BLAKE512.newWithSalt BLAKE512.iv512 (ascii "12345678901234561234567890123456")).isSome := by decide +kernel

end Verif.Props
