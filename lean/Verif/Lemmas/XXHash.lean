import Verif.Spec.XXHash
import Verif.Model.XXHash
import Verif.Tail
namespace Verif.XXHash32
open Spec.XXHash (xxh32)

def toSpec (s : S) : Spec.XXHash.X32.Acc := ⟨s.s0, s.s1, s.s2, s.s3⟩

theorem compress_eq (s : S) (b : Bytes) : toSpec (compress s b) = Spec.XXHash.X32.stripe (toSpec s) b := rfl

theorem foldl_eq (l : List Bytes) : ∀ s : S,
    toSpec (l.foldl compress s) = l.foldl Spec.XXHash.X32.stripe (toSpec s) := by
  induction l with
  | nil => intro s; rfl
  | cons b l ih => intro s; simp only [List.foldl_cons]; rw [ih, compress_eq]

/-- The initial state. -/
def s₀ (seed : U32) : S := ⟨seed + pr 0 + pr 1, seed + pr 1, seed, seed - pr 0⟩

theorem reset_repr (seed : U32) {d : Digest} (hx : d.x.length = 16) :
    (reset seed d).Repr 16 compress (s₀ seed) [] := by
  unfold reset s₀
  exact .init ⟨rfl, hx, rfl, rfl⟩
theorem new_repr (seed : U32) : (new seed).Repr 16 compress (s₀ seed) [] := by
  unfold new
  exact reset_repr seed (zeros_length 16)

theorem s₀_eq (seed : U32) : toSpec (s₀ seed) = Spec.XXHash.X32.init seed := by
  unfold s₀ toSpec Spec.XXHash.X32.init
  rw [BitVec.ofNat_eq_ofNat, BitVec.add_zero]
  rfl

theorem sum32_eq (seed : U32) (d : Digest) (m : Bytes) (hm : m.length < 2^64)
    (h : d.Repr 16 compress (s₀ seed) m) : sum32 seed d = xxh32 seed m := by
  have hrl := restBlock_length 16 m
  have hnx : d.nx = (restBlock 16 m).length := by rw [h.buf.nx_eq, hrl]
  have hx := h.buf.pend
  rw [hnx] at hx
  unfold sum32
  simp only
  rw [hnx]
  have e1 := fun t => loop_words32 hx tail4 t
  have e2 := fun t => loop_bytes hx (4 * ((restBlock 16 m).length / 4)) (by omega) tail1 t
  rw [e2, e1]
  unfold xxh32
  simp only
  have hlen : (16#64 ≤ d.len) ↔ 16 ≤ m.length := by
    rw [h.len_eq, BitVec.le_def, BitVec.toNat_ofNat, BitVec.toNat_ofNat, Nat.mod_eq_of_lt hm]
  have hset : d.len.setWidth 32 = BitVec.ofNat 32 m.length := by
    rw [h.len_eq]
    apply BitVec.eq_of_toNat_eq
    simp only [BitVec.toNat_setWidth, BitVec.toNat_ofNat]
    omega
  rw [hset, h.buf.state]
  have hst := foldl_eq (fullBlocks 16 m) (s₀ seed)
  rw [s₀_eq] at hst
  rw [← hst]
  have hacc : (if 16#64 ≤ d.len then BitVec.ofNat 32 m.length +
      ((List.foldl compress (s₀ seed) (fullBlocks 16 m)).s0.rotateLeft 1 +
       (List.foldl compress (s₀ seed) (fullBlocks 16 m)).s1.rotateLeft 7 +
       (List.foldl compress (s₀ seed) (fullBlocks 16 m)).s2.rotateLeft 12 +
       (List.foldl compress (s₀ seed) (fullBlocks 16 m)).s3.rotateLeft 18)
      else BitVec.ofNat 32 m.length + (seed + pr 4)) =
      (if m.length < 16 then seed + Spec.XXHash.X32.P5 else
        Spec.XXHash.X32.converge (toSpec (List.foldl compress (s₀ seed) (fullBlocks 16 m)))) + BitVec.ofNat 32 m.length := by
    by_cases hl : 16 ≤ m.length
    · rw [if_pos (hlen.mpr hl), if_neg (by omega), BitVec.add_comm]; rfl
    · rw [if_neg (fun h => hl (hlen.mp h)), if_pos (by omega), BitVec.add_comm]; rfl
  rw [hacc]
  rw [show (restBlock 16 m).drop (4 * ((restBlock 16 m).length / 4)) = restBlock 4 (restBlock 16 m) by
    rw [restBlock.eq_def 4, Nat.mul_comm]]
  rfl

end Verif.XXHash32

namespace Verif.XXHash64
open Spec.XXHash (xxh64)

def toSpec (s : S) : Spec.XXHash.X64.Acc := ⟨s.s0, s.s1, s.s2, s.s3⟩

theorem compress_eq (s : S) (b : Bytes) : toSpec (compress s b) = Spec.XXHash.X64.stripe (toSpec s) b := rfl

theorem foldl_eq (l : List Bytes) : ∀ s : S,
    toSpec (l.foldl compress s) = l.foldl Spec.XXHash.X64.stripe (toSpec s) := by
  induction l with
  | nil => intro s; rfl
  | cons b l ih => intro s; simp only [List.foldl_cons]; rw [ih, compress_eq]

/-- The initial state. -/
def s₀ (seed : U64) : S := ⟨seed + pr 0 + pr 1, seed + pr 1, seed, seed - pr 0⟩

theorem reset_repr (seed : U64) {d : Digest} (hx : d.x.length = 32) :
    (reset seed d).Repr 32 compress (s₀ seed) [] := by
  unfold reset s₀
  exact .init ⟨rfl, hx, rfl, rfl⟩
theorem new_repr (seed : U64) : (new seed).Repr 32 compress (s₀ seed) [] := by
  unfold new
  exact reset_repr seed (zeros_length 32)

theorem s₀_eq (seed : U64) : toSpec (s₀ seed) = Spec.XXHash.X64.init seed := by
  unfold s₀ toSpec Spec.XXHash.X64.init
  rw [BitVec.ofNat_eq_ofNat, BitVec.add_zero]
  rfl

theorem tail8_eq (t w : U64) : tail8 t w = Spec.XXHash.X64.word8 t w := by
  unfold tail8 Spec.XXHash.X64.word8 Spec.XXHash.X64.round
  rw [BitVec.ofNat_eq_ofNat, BitVec.zero_add]
  rfl

theorem sum64_eq (seed : U64) (d : Digest) (m : Bytes) (hm : m.length < 2^64)
    (h : d.Repr 32 compress (s₀ seed) m) : sum64 seed d = xxh64 seed m := by
  have hrl := restBlock_length 32 m
  have hnx : d.nx = (restBlock 32 m).length := by rw [h.buf.nx_eq, hrl]
  have hx := h.buf.pend
  rw [hnx] at hx
  unfold sum64
  simp only
  rw [hnx]
  have e1 := fun t => loop_words64 hx tail8 t
  rw [e1]
  unfold xxh64
  simp only
  have hlen : (32#64 ≤ d.len) ↔ 32 ≤ m.length := by
    rw [h.len_eq, BitVec.le_def, BitVec.toNat_ofNat, BitVec.toNat_ofNat, Nat.mod_eq_of_lt hm]
  rw [h.buf.state]
  have hst := foldl_eq (fullBlocks 32 m) (s₀ seed)
  rw [s₀_eq] at hst
  rw [← hst]
  generalize List.foldl compress (s₀ seed) (fullBlocks 32 m) = S
  have hacc : (if 32#64 ≤ d.len then
      mergeRound (mergeRound (mergeRound (mergeRound (S.s0.rotateLeft 1 + S.s1.rotateLeft 7 + S.s2.rotateLeft 12 +
       S.s3.rotateLeft 18) S.s0) S.s1) S.s2) S.s3 + d.len
      else seed + pr 4 + d.len) =
      (if m.length < 32 then seed + Spec.XXHash.X64.P5 else
        Spec.XXHash.X64.converge (toSpec S)) + BitVec.ofNat 64 m.length := by
    rw [← h.len_eq]
    by_cases hl : 32 ≤ m.length
    · rw [if_pos (hlen.mpr hl), if_neg (by omega)]; rfl
    · rw [if_neg (fun h => hl (hlen.mp h)), if_pos (by omega)]; rfl
  rw [hacc]
  generalize hr : restBlock 32 m = r at *
  have hw : tail8 = Spec.XXHash.X64.word8 := by funext t w; exact tail8_eq t w
  rw [hw]
  generalize List.foldl Spec.XXHash.X64.word8 _ _ = t
  -- the part after the 8-byte words
  have hq : restBlock 8 r = r.drop (8 * (r.length / 8)) := by rw [restBlock.eq_def, Nat.mul_comm]
  have hql : (restBlock 8 r).length = r.length % 8 := restBlock_length 8 r
  have ha : Spec.XXHash.X64.avalanche = avalanche := rfl
  have hb : Spec.XXHash.X64.byte1 = tail1 := rfl
  have h4 : Spec.XXHash.X64.word4 = tail4 := rfl
  rw [ha, hb, h4]
  congr 1
  by_cases h48 : 8 * (r.length / 8) + 4 ≤ r.length
  · simp only [if_pos h48]
    have hb4 : fullBlocks 4 (restBlock 8 r) = [(restBlock 8 r).take 4] := by
      have : (restBlock 8 r).length / 4 = 1 := by omega
      simp [fullBlocks, this, List.range_succ]
    have hr4 : restBlock 4 (restBlock 8 r) = (restBlock 8 r).drop 4 := by
      have : (restBlock 8 r).length / 4 = 1 := by omega
      rw [restBlock.eq_def 4, this]
    rw [hb4, hr4, loop_bytes hx _ h48, hq, List.drop_drop]
    simp only [List.map_cons, List.map_nil, List.foldl_cons, List.foldl_nil]
    have g : getLE32 ((d.x.drop (8 * (r.length / 8))).take 4) = getLE32 ((r.drop (8 * (r.length / 8))).take 4) := by
      have a := getLE32_block (d.x.drop (8 * (r.length / 8))) 4 0 0 (by omega)
      have b := getLE32_block (r.drop (8 * (r.length / 8))) 4 0 0 (by omega)
      simp only [Nat.zero_mul, Nat.add_zero, List.drop_zero] at a b
      rw [a, b, getLE32_drop, getLE32_drop, getLE32_prefix hx _ (by omega)]
    rw [g]
  · simp only [if_neg h48]
    have hb4 : fullBlocks 4 (restBlock 8 r) = [] := fullBlocks_lt 4 _ (by omega)
    have hr4 : restBlock 4 (restBlock 8 r) = restBlock 8 r := restBlock_lt 4 _ (by omega)
    rw [hb4, hr4, loop_bytes hx _ (by omega), hq]
    rfl

end Verif.XXHash64
