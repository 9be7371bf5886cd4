import Verif.Spec.Murmur3
import Verif.Model.Murmur3
import Verif.Tail
import Verif.Padding
import Verif.BufDigest
namespace Verif.Murmur3
set_option linter.unusedSimpArgs false

/-- What the object must remember of the message. -/
structure Repr {σ} (B : Nat) (f : σ → Bytes → σ) (s₀ : σ) (d : Digest σ) (m : Bytes) : Prop where
  state : d.h = (fullBlocks B m).foldl f s₀
  tail : d.tail = restBlock B m
  clen : d.clen = BitVec.ofNat 64 m.length

theorem restBlock_append_rest {α} (B : Nat) (a b : List α) (hB : 0 < B) :
    restBlock B (a ++ b) = restBlock B (restBlock B a ++ b) := by
  have hm := fullBlocks_flatten_append_rest B a
  have hfl : (fullBlocks B a).flatten.length % B = 0 := by
    have : (fullBlocks B a).flatten.length = a.length / B * B := by
      rw [fullBlocks_flatten, List.length_take]
      have := Nat.div_mul_le_self a.length B
      omega
    rw [this, Nat.mul_mod_left]
  conv => lhs; rw [← hm, List.append_assoc]
  rw [restBlock_append B _ _ hB hfl]

theorem write_repr {σ} {B : Nat} (hB : 0 < B) (hB16 : B ≤ 16) {f : σ → Bytes → σ} {bmix : σ → Bytes → σ × Bytes}
    (hb : ∀ h p, bmix h p = ((fullBlocks B p).foldl f h, restBlock B p)) {s₀ : σ} {d : Digest σ} {m : Bytes}
    (h : Repr B f s₀ d m) (p : Bytes) : Repr B f s₀ (write B bmix d p) (m ++ p) := by
  have hlt : (restBlock B m).length < B := by rw [restBlock_length]; exact Nat.mod_lt _ hB
  have htk : ∀ q : Bytes, (restBlock B q).take 16 = restBlock B q := by
    intro q
    apply List.take_of_length_le
    have := Nat.mod_lt q.length hB
    rw [restBlock_length]; omega
  have hcl : d.clen + BitVec.ofNat 64 p.length = BitVec.ofNat 64 (m ++ p).length := by
    rw [h.clen, ofNat64_add, List.length_append]
  have key : write B bmix d p = Digest.mk ((fullBlocks B (restBlock B m ++ p)).foldl f d.h)
      (restBlock B (restBlock B m ++ p)) (BitVec.ofNat 64 (m ++ p).length) := by
    unfold write
    simp only [hb, htk, hcl, h.tail]
    by_cases ht : 0 < (restBlock B m).length
    · by_cases hn : B - (restBlock B m).length < p.length
      · simp only [if_pos ht, if_pos hn]
        have hl : (restBlock B m ++ p.take (B - (restBlock B m).length)).length = B := by
          rw [List.length_append, List.length_take]; omega
        have hs : restBlock B m ++ p = (restBlock B m ++ p.take (B - (restBlock B m).length)) ++
            p.drop (B - (restBlock B m).length) := by
          rw [List.append_assoc, List.take_append_drop]
        have hl0 : (restBlock B m ++ p.take (B - (restBlock B m).length)).length % B = 0 := by rw [hl, Nat.mod_self]
        rw [hs]
        generalize restBlock B m ++ p.take (B - (restBlock B m).length) = q at hl0
        rw [fullBlocks_append B _ _ hB hl0, restBlock_append B _ _ hB hl0, List.foldl_append]
      · simp only [if_pos ht, if_neg hn]
    · simp only [if_neg ht]
      rw [List.eq_nil_of_length_eq_zero (by omega : (restBlock B m).length = 0), List.nil_append]
  rw [key]
  refine ⟨?_, ?_, rfl⟩
  · simp only; rw [fullBlocks_append_rest B m p hB, List.foldl_append, h.state]
  · simp only; rw [restBlock_append_rest B m p hB]

theorem init_repr {σ} (B : Nat) (f : σ → Bytes → σ) (s₀ : σ) :
    Repr B f s₀ { h := s₀, tail := [], clen := 0 } [] :=
  ⟨by simp [fullBlocks], by simp [restBlock], rfl⟩

theorem at8_append_left (t z : Bytes) (i : Nat) (h : i < t.length) : at8 (t ++ z) i = at8 t i := by
  unfold at8
  rw [List.getD_eq_getElem?_getD, List.getD_eq_getElem?_getD, List.getElem?_append_left h]

theorem at8_append_zeros (t : Bytes) (N i : Nat) (h : t.length ≤ i) : at8 (t ++ zeros N) i = 0#8 := by
  unfold at8 zeros
  rw [List.getD_eq_getElem?_getD, List.getElem?_append_right h, List.getElem?_replicate]
  split <;> rfl

/-! ### 32 bits -/

theorem step32_eq (h k : U32) : step32 h k = Spec.Murmur3.X86_32.body h k := by
  have h5 : ∀ x : U32, x * 4 + x = x * 5 := by
    intro x
    rw [show (5 : U32) = 4 + 1#32 by decide, BitVec.mul_add, BitVec.mul_one]
  unfold step32
  simp only [h5]
  rfl

theorem bmix32_eq (h : U32) (p : Bytes) :
    bmix32 h p = ((fullBlocks 4 p).foldl (fun h b => step32 h (getLE32 b)) h, restBlock 4 p) := by
  unfold bmix32 restBlock
  have e := loop_words32 (x := p) (r := p) (List.take_of_length_le (Nat.le_refl _)) step32 h
  rw [List.foldl_map] at e
  rw [← e]
  simp only [Nat.mul_comm 4]

theorem foldl32 (l : List Bytes) (h : U32) : l.foldl (fun h b => step32 h (getLE32 b)) h =
    (l.map getLE32).foldl Spec.Murmur3.X86_32.body h := by
  rw [List.foldl_map]
  have : (fun h b => step32 h (getLE32 b)) = (fun h b => Spec.Murmur3.X86_32.body h (getLE32 b)) := by
    funext h b
    exact step32_eq h _
  rw [this]

/-- A case of the `switch` reads the padded tail. -/
theorem xorIf_pad {w : Nat} (t : Bytes) (N i s : Nat) (k : BitVec w) :
    xorIf (i + 1 ≤ t.length) k ((at8 t i).setWidth w <<< s) = k ^^^ (at8 (t ++ zeros N) i).setWidth w <<< s := by
  unfold xorIf
  split
  · rw [at8_append_left t _ i (by omega)]
  · rw [at8_append_zeros t N i (by omega)]
    simp

theorem fin32_eq (h : U32) (t : Bytes) (n : Nat) (ht : t.length < 4) :
    fin32 h t (BitVec.ofNat 64 n) =
    Spec.Murmur3.X86_32.fmix32 ((if t = [] then h else
      h ^^^ Spec.Murmur3.X86_32.scramble (getLE32 (t ++ zeros (4 - t.length)))) ^^^ BitVec.ofNat 32 n) := by
  have hc : (BitVec.ofNat 64 n).setWidth 32 = BitVec.ofNat 32 n := by
    apply BitVec.eq_of_toNat_eq
    simp only [BitVec.toNat_setWidth, BitVec.toNat_ofNat]
    omega
  have h3 := at8_append_zeros t (4 - t.length) 3 (by omega)
  have g : getLE32 (t ++ zeros (4 - t.length)) =
      0#32 ^^^ (at8 (t ++ zeros (4 - t.length)) 2).setWidth 32 <<< 16 ^^^
      (at8 (t ++ zeros (4 - t.length)) 1).setWidth 32 <<< 8 ^^^
      (at8 (t ++ zeros (4 - t.length)) 0).setWidth 32 := by
    unfold getLE32
    rw [join4_xor, h3]
    rfl
  unfold fin32
  rw [hc, Nat.mod_eq_of_lt ht]
  simp only [xorIf_pad t (4 - t.length) 2, xorIf_pad t (4 - t.length) 1]
  by_cases h0 : t = []
  · subst h0; rfl
  · have hpos : 1 ≤ t.length := List.length_pos_iff.mpr h0
    rw [if_neg h0, if_pos hpos, g, ← at8_append_left t (zeros (4 - t.length)) 0 (by omega)]
    rfl

theorem sum32_eq (seed : U32) (d : Digest U32) (m : Bytes)
    (h : Repr 4 (fun h b => step32 h (getLE32 b)) seed d m) : sum32 d = Spec.Murmur3.x86_32 seed m := by
  unfold sum32 Spec.Murmur3.x86_32
  rw [h.clen, h.tail, h.state, foldl32, fin32_eq]
  rw [restBlock_length]; exact Nat.mod_lt _ (by decide)

/-! ### 128 bits -/

theorem step128_eq (h : U64 × U64) (b : Bytes) :
    step128 h (getLE64 b 0, getLE64 b 8) = Spec.Murmur3.X64_128.body h b := rfl

theorem bmix128_eq (h : U64 × U64) (p : Bytes) :
    bmix128 h p = ((fullBlocks 16 p).foldl Spec.Murmur3.X64_128.body h, restBlock 16 p) := by
  unfold bmix128 restBlock fullBlocks forLoop
  simp only
  rw [List.foldl_map, List.range_eq_range', Nat.sub_zero]
  have : (fun h i => step128 h (getLE64 p (i * 16), getLE64 p (i * 16 + 8))) =
      (fun x y => Spec.Murmur3.X64_128.body x ((p.drop (y * 16)).take 16)) := by
    funext s j
    rw [← step128_eq, getLE64_block p 16 j 0 (by omega), getLE64_block p 16 j 8 (by omega), Nat.add_zero (j * 16)]
  rw [this]

theorem sum128_eq (seed : U32) (d : Digest (U64 × U64)) (m : Bytes)
    (h : Repr 16 Spec.Murmur3.X64_128.body (seed.setWidth 64, seed.setWidth 64) d m) :
    sum128 d = Spec.Murmur3.x64_128 seed m := by
  have ht : (restBlock 16 m).length < 16 := by
    rw [restBlock_length]; exact Nat.mod_lt _ (by decide)
  unfold sum128 Spec.Murmur3.x64_128
  rw [h.clen, h.tail, h.state]
  generalize List.foldl Spec.Murmur3.X64_128.body _ (fullBlocks 16 m) = s
  generalize restBlock 16 m = t at ht
  rw [Nat.mod_eq_of_lt ht]
  simp only [xorIf_pad t (16 - t.length) 14, xorIf_pad t (16 - t.length) 13, xorIf_pad t (16 - t.length) 12,
    xorIf_pad t (16 - t.length) 11, xorIf_pad t (16 - t.length) 10, xorIf_pad t (16 - t.length) 9,
    xorIf_pad t (16 - t.length) 7, xorIf_pad t (16 - t.length) 6, xorIf_pad t (16 - t.length) 5,
    xorIf_pad t (16 - t.length) 4, xorIf_pad t (16 - t.length) 3, xorIf_pad t (16 - t.length) 2,
    xorIf_pad t (16 - t.length) 1]
  have h15 := at8_append_zeros t (16 - t.length) 15 (by omega)
  have e1 : (if 0 < t.length then s.1 ^^^ Spec.Murmur3.X64_128.scramble1 (getLE64 (t ++ zeros (16 - t.length)) 0)
      else s.1) = (if 1 ≤ t.length then s.1 ^^^ Spec.Murmur3.X64_128.scramble1 (
        0#64 ^^^ (at8 (t ++ zeros (16 - t.length)) 7).setWidth 64 <<< 56 ^^^
        (at8 (t ++ zeros (16 - t.length)) 6).setWidth 64 <<< 48 ^^^
        (at8 (t ++ zeros (16 - t.length)) 5).setWidth 64 <<< 40 ^^^
        (at8 (t ++ zeros (16 - t.length)) 4).setWidth 64 <<< 32 ^^^
        (at8 (t ++ zeros (16 - t.length)) 3).setWidth 64 <<< 24 ^^^
        (at8 (t ++ zeros (16 - t.length)) 2).setWidth 64 <<< 16 ^^^
        (at8 (t ++ zeros (16 - t.length)) 1).setWidth 64 <<< 8 ^^^
        (at8 t 0).setWidth 64) else s.1) := by
    by_cases h1 : 0 < t.length
    · rw [if_pos h1, if_pos (show 1 ≤ t.length from h1), getLE64, join8_xor, BitVec.zero_xor,
        ← at8_append_left t (zeros (16 - t.length)) 0 h1]
    · have h2 := h1
      simp only [if_neg h1]
      rw [if_neg (by omega)]
  have e2 : (if 8 < t.length then s.2 ^^^ Spec.Murmur3.X64_128.scramble2 (getLE64 (t ++ zeros (16 - t.length)) 8)
      else s.2) = (if 9 ≤ t.length then s.2 ^^^ Spec.Murmur3.X64_128.scramble2 (
        0#64 ^^^ (at8 (t ++ zeros (16 - t.length)) 14).setWidth 64 <<< 48 ^^^
        (at8 (t ++ zeros (16 - t.length)) 13).setWidth 64 <<< 40 ^^^
        (at8 (t ++ zeros (16 - t.length)) 12).setWidth 64 <<< 32 ^^^
        (at8 (t ++ zeros (16 - t.length)) 11).setWidth 64 <<< 24 ^^^
        (at8 (t ++ zeros (16 - t.length)) 10).setWidth 64 <<< 16 ^^^
        (at8 (t ++ zeros (16 - t.length)) 9).setWidth 64 <<< 8 ^^^
        (at8 t 8).setWidth 64) else s.2) := by
    by_cases h1 : 8 < t.length
    · rw [if_pos h1, if_pos (show 9 ≤ t.length from h1), getLE64, join8_xor, h15,
        ← at8_append_left t (zeros (16 - t.length)) 8 h1]
      rfl
    · have h2 := h1
      simp only [if_neg h1]
      rw [if_neg (by omega)]
  rw [e1, e2]
  rfl

end Verif.Murmur3
