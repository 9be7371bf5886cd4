import Verif.Lemmas.Gost94
/-
C35: package gost/gost341194.
-/
namespace Verif.Props
open Verif.Gost94

/-- The full contract of C35, for every cipher with 64-bit blocks, for messages below 2^61 bytes (the 64-bit length counter of the code). -/
theorem C35_gost341194_contract (E : Bytes → Bytes → Bytes) (hE : ∀ k b, (E k b).length = 8) :
    RefinesOn (Fits (2 ^ 61)) impl (new E) { H := Spec.Gost94.hash E, size := 32, blockSize := 32 } := by
  refine refinesOn_fits_of_sim _ impl _ _ (Rep E) ⟨rfl, rfl, zeros_length _, rfl, rfl, rfl⟩ ?_ ?_ ?_ ?_ ?_
  · intro h m p hr _
    have := write_rep hE h m p hr
    exact ⟨(h.write p).1, by show some (h.write p) = _; rw [← this.2], this.1⟩
  · intro h m b hr hm
    refine ⟨h, ?_, hr⟩
    show some (h, b ++ h.checkSum) = _
    rw [checkSum_eq hE h m hr (by omega)]
  · intro h m hr; exact ⟨hr.cE, rfl, zeros_length _, rfl, rfl, rfl⟩
  · intros; rfl
  · intros; rfl

/-! Non-vacuity and a known answer test (a test, not a proof): GOST 28147-89 with the test parameter set of RFC 5831 as the cipher. -/
namespace Gost28147
def sbox : List (List Nat) := [
  [0x4,0xA,0x9,0x2,0xD,0x8,0x0,0xE,0x6,0xB,0x1,0xC,0x7,0xF,0x5,0x3],
  [0xE,0xB,0x4,0xC,0x6,0xD,0xF,0xA,0x2,0x3,0x8,0x1,0x0,0x7,0x5,0x9],
  [0x5,0x8,0x1,0xD,0xA,0x3,0x4,0x2,0xE,0xF,0xC,0x7,0x6,0x0,0x9,0xB],
  [0x7,0xD,0xA,0x1,0x0,0x8,0x9,0xF,0xE,0x4,0x6,0xC,0xB,0x2,0x5,0x3],
  [0x6,0xC,0x7,0x1,0x5,0xF,0xD,0x8,0x4,0xA,0x9,0xE,0x0,0x3,0xB,0x2],
  [0x4,0xB,0xA,0x0,0x7,0x2,0x1,0xD,0x3,0x6,0x8,0x5,0x9,0xC,0xF,0xE],
  [0xD,0xB,0x4,0x1,0x3,0xF,0x5,0x9,0x0,0xA,0xE,0x7,0x6,0x8,0x2,0xC],
  [0x1,0xF,0xD,0x0,0x5,0x7,0xA,0x4,0x9,0x2,0x3,0xE,0x6,0xB,0x8,0xC]]
def f (x : U32) : U32 :=
  (((List.range 8).map fun i => BitVec.ofNat 32 (((sbox.getD i []).getD (x.toNat / 16 ^ i % 16) 0) * 16 ^ i)).foldl (· ||| ·) 0).rotateLeft 11
def order : List Nat := [0,1,2,3,4,5,6,7,0,1,2,3,4,5,6,7,0,1,2,3,4,5,6,7,7,6,5,4,3,2,1,0]
def encrypt (k b : Bytes) : Bytes :=
  let r := order.foldl (fun (n : U32 × U32) i => (n.2 ^^^ f (n.1 + getLE32 k (4 * i)), n.1)) (getLE32 b 0, getLE32 b 4)
  le32 r.2 ++ le32 r.1
end Gost28147
example : ∀ k b, (Gost28147.encrypt k b).length = 8 := fun _ _ => rfl
set_option maxRecDepth 100000 in
example : Spec.Gost94.hash Gost28147.encrypt (ascii "This is message, length=32 bytes") =
    hex "b1c466d37519b82e8319819ff32595e047a28cb6f83eff1c6916a815a637fffa" := by decide +kernel
set_option maxRecDepth 100000 in
example : impl.run (new Gost28147.encrypt) [.write (ascii "This is message, "), .write (ascii "length=32 bytes"), .sum []] =
    [.wrote 17, .wrote 15, .bytes (hex "b1c466d37519b82e8319819ff32595e047a28cb6f83eff1c6916a815a637fffa")] := by decide +kernel

end Verif.Props
