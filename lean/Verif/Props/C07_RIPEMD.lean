import Verif.Lemmas.RIPEMD
/-
C07: `ripemd.New128/New160/New256/New320` are RIPEMD-128/160/256/320 under every history of calls.
-/
namespace Verif.Props

/-- The abstract RIPEMD-128 object. -/
def ripemd128Spec : HashSpec := { H := Spec.RIPEMD.hash128, size := 16, blockSize := 64 }

theorem ripemd128_sim : Sim RIPEMD.impl128 ripemd128Spec
    (fun d m => d.Repr 64 RIPEMD.block128 Spec.RIPEMD.iv128 m) := by
  refine BufDigest.simX (B := 64) (by omega) RIPEMD.block128 Spec.RIPEMD.iv128 RIPEMD.impl128 ripemd128Spec
    ?_ ?_ ?_ (fun _ => rfl) (fun _ => rfl)
  · intro d p; rfl
  · intro d m b h
    simp only [RIPEMD.impl128, RIPEMD.checkSum_eq _ _ RIPEMD.block128_eq _ d m h, Option.map_some,
      ripemd128Spec, Spec.RIPEMD.hash128]
  · intro d hx
    exact ⟨rfl, hx, rfl, rfl⟩

theorem ripemd128_init : RIPEMD.new128.Repr 64 RIPEMD.block128 Spec.RIPEMD.iv128 [] :=
  .init ⟨rfl, zeros_length 64, rfl, rfl⟩

/-- C07 for `New128`. -/
theorem C07_ripemd128_refines : Refines RIPEMD.impl128 RIPEMD.new128 ripemd128Spec :=
  ripemd128_sim.refines ripemd128_init

/-- One-shot form (`ripemd.Sum128`, ripemd/ripemd.go). -/
theorem C07_ripemd128_oneshot (m : Bytes) :
    RIPEMD.checkSum RIPEMD.block128 (RIPEMD.write RIPEMD.block128 RIPEMD.new128 m) =
      some (Spec.RIPEMD.hash128 m) :=
  RIPEMD.checkSum_eq _ _ RIPEMD.block128_eq _ _ m (by
    have := ripemd128_init.absorbX (by omega) m
    rwa [List.nil_append] at this)

/-- The abstract RIPEMD-160 object. -/
def ripemd160Spec : HashSpec := { H := Spec.RIPEMD.hash160, size := 20, blockSize := 64 }

theorem ripemd160_sim : Sim RIPEMD.impl160 ripemd160Spec
    (fun d m => d.Repr 64 RIPEMD.block160 Spec.RIPEMD.iv160 m) := by
  refine BufDigest.simX (B := 64) (by omega) RIPEMD.block160 Spec.RIPEMD.iv160 RIPEMD.impl160 ripemd160Spec
    ?_ ?_ ?_ (fun _ => rfl) (fun _ => rfl)
  · intro d p; rfl
  · intro d m b h
    simp only [RIPEMD.impl160, RIPEMD.checkSum_eq _ _ RIPEMD.block160_eq _ d m h, Option.map_some,
      ripemd160Spec, Spec.RIPEMD.hash160]
  · intro d hx
    exact ⟨rfl, hx, rfl, rfl⟩

theorem ripemd160_init : RIPEMD.new160.Repr 64 RIPEMD.block160 Spec.RIPEMD.iv160 [] :=
  .init ⟨rfl, zeros_length 64, rfl, rfl⟩

/-- C07 for `New160`. -/
theorem C07_ripemd160_refines : Refines RIPEMD.impl160 RIPEMD.new160 ripemd160Spec :=
  ripemd160_sim.refines ripemd160_init

/-- One-shot form (`ripemd.Sum160`, ripemd/ripemd.go). -/
theorem C07_ripemd160_oneshot (m : Bytes) :
    RIPEMD.checkSum RIPEMD.block160 (RIPEMD.write RIPEMD.block160 RIPEMD.new160 m) =
      some (Spec.RIPEMD.hash160 m) :=
  RIPEMD.checkSum_eq _ _ RIPEMD.block160_eq _ _ m (by
    have := ripemd160_init.absorbX (by omega) m
    rwa [List.nil_append] at this)

/-- The abstract RIPEMD-256 object. -/
def ripemd256Spec : HashSpec := { H := Spec.RIPEMD.hash256, size := 32, blockSize := 64 }

theorem ripemd256_sim : Sim RIPEMD.impl256 ripemd256Spec
    (fun d m => d.Repr 64 RIPEMD.block256 Spec.RIPEMD.iv256 m) := by
  refine BufDigest.simX (B := 64) (by omega) RIPEMD.block256 Spec.RIPEMD.iv256 RIPEMD.impl256 ripemd256Spec
    ?_ ?_ ?_ (fun _ => rfl) (fun _ => rfl)
  · intro d p; rfl
  · intro d m b h
    simp only [RIPEMD.impl256, RIPEMD.checkSum_eq _ _ RIPEMD.block256_eq _ d m h, Option.map_some,
      ripemd256Spec, Spec.RIPEMD.hash256]
  · intro d hx
    exact ⟨rfl, hx, rfl, rfl⟩

theorem ripemd256_init : RIPEMD.new256.Repr 64 RIPEMD.block256 Spec.RIPEMD.iv256 [] :=
  .init ⟨rfl, zeros_length 64, rfl, rfl⟩

/-- C07 for `New256`. -/
theorem C07_ripemd256_refines : Refines RIPEMD.impl256 RIPEMD.new256 ripemd256Spec :=
  ripemd256_sim.refines ripemd256_init

/-- One-shot form (`ripemd.Sum256`, ripemd/ripemd.go). -/
theorem C07_ripemd256_oneshot (m : Bytes) :
    RIPEMD.checkSum RIPEMD.block256 (RIPEMD.write RIPEMD.block256 RIPEMD.new256 m) =
      some (Spec.RIPEMD.hash256 m) :=
  RIPEMD.checkSum_eq _ _ RIPEMD.block256_eq _ _ m (by
    have := ripemd256_init.absorbX (by omega) m
    rwa [List.nil_append] at this)

/-- The abstract RIPEMD-320 object. -/
def ripemd320Spec : HashSpec := { H := Spec.RIPEMD.hash320, size := 40, blockSize := 64 }

theorem ripemd320_sim : Sim RIPEMD.impl320 ripemd320Spec
    (fun d m => d.Repr 64 RIPEMD.block320 Spec.RIPEMD.iv320 m) := by
  refine BufDigest.simX (B := 64) (by omega) RIPEMD.block320 Spec.RIPEMD.iv320 RIPEMD.impl320 ripemd320Spec
    ?_ ?_ ?_ (fun _ => rfl) (fun _ => rfl)
  · intro d p; rfl
  · intro d m b h
    simp only [RIPEMD.impl320, RIPEMD.checkSum_eq _ _ RIPEMD.block320_eq _ d m h, Option.map_some,
      ripemd320Spec, Spec.RIPEMD.hash320]
  · intro d hx
    exact ⟨rfl, hx, rfl, rfl⟩

theorem ripemd320_init : RIPEMD.new320.Repr 64 RIPEMD.block320 Spec.RIPEMD.iv320 [] :=
  .init ⟨rfl, zeros_length 64, rfl, rfl⟩

/-- C07 for `New320`. -/
theorem C07_ripemd320_refines : Refines RIPEMD.impl320 RIPEMD.new320 ripemd320Spec :=
  ripemd320_sim.refines ripemd320_init

/-- One-shot form (`ripemd.Sum320`, ripemd/ripemd.go). -/
theorem C07_ripemd320_oneshot (m : Bytes) :
    RIPEMD.checkSum RIPEMD.block320 (RIPEMD.write RIPEMD.block320 RIPEMD.new320 m) =
      some (Spec.RIPEMD.hash320 m) :=
  RIPEMD.checkSum_eq _ _ RIPEMD.block320_eq _ _ m (by
    have := ripemd320_init.absorbX (by omega) m
    rwa [List.nil_append] at this)

-- Tests (vectors of ripemd_test.go).
set_option maxRecDepth 100000 in
example : (RIPEMD.impl128.run RIPEMD.new128 [.write (ascii "12"), .sum [], .write (ascii "3456"), .sum [7#8]]).getLast? =
    some (.bytes (7#8 :: hex "d6d56cab46e0f3af2c756289f2b447e0")) := by decide +kernel
set_option maxRecDepth 100000 in
example : (RIPEMD.impl160.run RIPEMD.new160 [.write (ascii "abcdbcdecdefdefgefghfghighijhijkij"), .sum [], .write (ascii "kljklmklmnlmnomnopnopq"), .sum [7#8]]).getLast? =
    some (.bytes (7#8 :: hex "12a053384a9c0c88e405a06c27dcf49ada62eb2b")) := by decide +kernel
set_option maxRecDepth 100000 in
example : (RIPEMD.impl256.run RIPEMD.new256 [.write (ascii "a"), .sum [], .write (ascii "bc"), .sum [7#8]]).getLast? =
    some (.bytes (7#8 :: hex "afbd6e228b9d8cbbcef5ca2d03e6dba10ac0bc7dcbe4680e1e42d2e975459b65")) := by decide +kernel
set_option maxRecDepth 100000 in
example : (RIPEMD.impl320.run RIPEMD.new320 [.write (ascii "1234"), .sum [], .write (ascii "56"), .sum [7#8]]).getLast? =
    some (.bytes (7#8 :: hex "a2ee4b6b9e3144c7db61b1ffc748bf2c728b65819e3f69a021f515acb044995b90f03d60974b6b4a")) := by decide +kernel

end Verif.Props
