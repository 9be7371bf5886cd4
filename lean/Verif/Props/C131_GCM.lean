import Verif.Lemmas.CTR
/-
C131–C133: package gmac/gcm — the tag, counter mode, and the two together.
-/
namespace Verif.Props
open Verif.Spec

/-- C131: `Init` with a cipher, then `Auth`: the full tag of SP 800-38D for that cipher's hash subkey, for every ciphertext,
additional data and mask. -/
theorem C131_auth (E : Bytes → Bytes) (C A mask : Bytes) :
    GCMCtr.auth (GMAC.gcmInit (E (zeros 16))) C A mask = GCM.tag (GCM.block (E (zeros 16))) A C mask :=
  GCMCtr.auth_eq _ C A mask

/-- C132: `IncCtr` adds one to the whole string as a big-endian number, modulo 256^length. -/
theorem C132_incCtr (b : Bytes) : GCMCtr.incCtr b = beBytes b.length (beNat b + 1) := GCMCtr.incCtr_eq b

/-- C132: every history of `Xor`, `Refill` and `CopyCTR` on an object initialised with a block cipher of `bs`-byte blocks, a
`bs`-byte `iv` and a counter of `c` bytes (`c ≤ 0`: the whole block). -/
theorem C132_ctr (E : Bytes → Bytes) (bs : Nat) (hb : 0 < bs) (hE : ∀ b : Bytes, b.length = bs → (E b).length = bs)
    (iv : Bytes) (hiv : iv.length = bs) (c : Int) (hc : c ≤ bs) (cs : List Spec.CTR.Call) :
    GCMCtr.run E (GCMCtr.init bs iv c) cs = Spec.CTR.run E bs (if c ≤ 0 then bs else c.toNat) iv (0, 0) cs := by
  refine GCMCtr.run_eq hb hE (by split <;> omega) hiv cs _ 0 0 (GCMCtr.init_at hiv c ?_)
  split <;> omega

/-- C132: `GCMCounterCrypt` is GCTR with the 32-bit increment; the caller's counter is moved past the blocks used; it panics
exactly when `out` is shorter than `in`, and leaves the rest of `out` alone. -/
theorem C132_counterCrypt (E : Bytes → Bytes) (hE : ∀ b : Bytes, b.length = 16 → (E b).length = 16) (ctr : Bytes) (hc : ctr.length = 16)
    (out inp : Bytes) :
    GCMCtr.counterCrypt E out inp ctr = if inp.length ≤ out.length then
      some (GCM.gctr E ctr inp ++ out.drop inp.length, Spec.CTR.counter 4 ctr ((inp.length + 15) / 16)) else none :=
  GCMCtr.counterCrypt_eq hE ctr hc out inp

/-- Encryption with the functions of the package as crypto/cipher uses them: derive the counter, encrypt a zero block for the
mask, encrypt the plaintext, authenticate. -/
def gcmSeal (E : Bytes → Bytes) (nonce P A : Bytes) : Option (Bytes × Bytes) := do
  let t := GMAC.gcmInit (E (zeros 16))
  let counter := GMAC.deriveCounter t nonce
  let (mask, counter) ← GCMCtr.counterCrypt E (zeros 16) (zeros 16) counter
  let (C, _) ← GCMCtr.counterCrypt E (zeros P.length) P counter
  some (C, GCMCtr.auth t C A mask)

theorem J0_length (H : BitVec 128) (iv : Bytes) : (GCM.J0 H iv).length = 16 := by
  unfold GCM.J0
  split
  · rename_i h; rw [List.length_append, h]; rfl
  · rfl

theorem zipWith_xor_comm : ∀ a b : Bytes, List.zipWith (· ^^^ ·) a b = List.zipWith (· ^^^ ·) b a
  | [], b => by cases b <;> rfl
  | a :: as, [] => rfl
  | a :: as, b :: bs => by rw [List.zipWith_cons_cons, List.zipWith_cons_cons, zipWith_xor_comm as bs, BitVec.xor_comm]

/-- One block of GCTR. -/
theorem gctr_block (E : Bytes → Bytes) (hE : ∀ b : Bytes, b.length = 16 → (E b).length = 16) (ctr : Bytes) (hc : ctr.length = 16)
    (X : Bytes) (hX : X.length = 16) : GCM.gctr E ctr X = List.zipWith (· ^^^ ·) X (E ctr) := by
  unfold GCM.gctr
  have h0 := GCMCtr.seg_block (show 0 < 16 by omega) hE (show 4 ≤ 16 by omega) hc 0
  rw [GCMCtr.crypt_split E 16 4 ctr 0 X 16 (by omega), List.drop_of_length_le (by omega), List.take_of_length_le (by omega)]
  rw [show (0 : Nat) * 16 = 0 from rfl] at h0
  rw [← h0]
  exact List.append_nil _

theorem zipWith_xor_zeros (b : Bytes) (n : Nat) (h : b.length = n) : List.zipWith (· ^^^ ·) (zeros n) b = b := by
  apply List.ext_getElem
  · simp [h]
  · intro i h1 h2
    simp [zeros]

/-- C133: sealing a message with these functions is GCM authenticated encryption. -/
theorem C133_seal (E : Bytes → Bytes) (hE : ∀ b : Bytes, b.length = 16 → (E b).length = 16) (nonce P A : Bytes) :
    gcmSeal E nonce P A = some (GCM.encrypt E nonce P A) := by
  unfold gcmSeal GCM.encrypt
  dsimp only
  have hJ := J0_length (GCM.block (E (zeros 16))) nonce
  rw [GMAC.deriveCounter_eq]
  generalize GCM.J0 (GCM.block (E (zeros 16))) nonce = J at *
  rw [C132_counterCrypt E hE J hJ, if_pos (by simp), List.drop_of_length_le (by simp), List.append_nil,
    gctr_block E hE J hJ _ (by simp), zipWith_xor_zeros _ _ (hE J hJ), zeros_length]
  show (GCMCtr.counterCrypt E (zeros P.length) P (Spec.CTR.inc 4 J)).bind _ = _
  rw [C132_counterCrypt E hE _ (by rw [GCMCtr.inc_length (by omega), hJ]), if_pos (by simp), List.drop_of_length_le (by simp),
    List.append_nil]
  dsimp only [Option.bind_some]
  rw [C131_auth, gctr_block E hE J hJ _ rfl]
  rfl

/-- C133: counter mode is its own inverse: the same call on the ciphertext gives the plaintext back. -/
theorem C133_inverse (E : Bytes → Bytes) (bs s : Nat) (iv : Bytes) (pos : Nat) (m : Bytes) :
    Spec.CTR.crypt E bs s iv pos (Spec.CTR.crypt E bs s iv pos m) = m := by
  unfold Spec.CTR.crypt
  apply List.ext_getElem
  · simp
  · intro i h1 h2
    simp [BitVec.xor_assoc]

/-- C133: `GCMCounterCrypt` on the ciphertext with the same counter gives the plaintext back. -/
theorem C133_decrypt (E : Bytes → Bytes) (hE : ∀ b : Bytes, b.length = 16 → (E b).length = 16) (ctr : Bytes) (hc : ctr.length = 16)
    (m c ctr' : Bytes) (h : GCMCtr.counterCrypt E (zeros m.length) m ctr = some (c, ctr')) :
    GCMCtr.counterCrypt E (zeros c.length) c ctr = some (m, ctr') := by
  rw [C132_counterCrypt E hE ctr hc, if_pos (by simp), List.drop_of_length_le (by simp), List.append_nil] at h
  have h1 := Prod.mk.inj (Option.some.inj h)
  have hl : c.length = m.length := by rw [← h1.1]; simp [GCM.gctr, Spec.CTR.crypt]
  rw [C132_counterCrypt E hE ctr hc, if_pos (by simp), List.drop_of_length_le (by simp), List.append_nil, ← h1.2, hl, ← h1.1]
  congr 2
  exact C133_inverse ..

/- The hypotheses are met: a toy cipher with 3-byte blocks, a 2-byte counter and messages that end inside a block. -/
example : (0 < 3) ∧ (∀ b : Bytes, b.length = 3 → (b.map (· + 7)).length = 3) ∧ ([1, 255, 255] : Bytes).length = 3 ∧ (2 : Int) ≤ (3 : Nat) := by
  refine ⟨by omega, fun b h => by simp [h], rfl, by omega⟩
example : Spec.CTR.run (·.map (· + 7)) 3 2 [1, 255, 255] (0, 0) [.xor [9, 9, 9, 9, 9] [0, 0, 0, 0], .copyCTR [0, 0, 0], .xor [0] [0, 0]] = none := by
  decide
example : Spec.CTR.run (·.map (· + 7)) 3 2 [1, 255, 255] (0, 0) [.xor [9, 9, 9, 9, 9] [0, 0, 0, 0], .copyCTR [0, 0, 0], .xor [5, 5] [0, 0]] =
    some [[8, 6, 6, 8, 9], [1, 0, 1], [7, 7]] := by decide
example : ∀ b : Bytes, b.length = 16 → (b.reverse).length = 16 := fun b h => by simp [h]

end Verif.Props
