import Verif.Buffer
/-
Merkle–Damgård strengthening and how the digests produce it inside their buffer.
-/
namespace Verif

/-- The usual padding: a marker byte, the least number of zero bytes, an encoding of the length,
so that the total is a multiple of `B` bytes. -/
def mdPad (B : Nat) (marker : Byte) (enc : Bytes) (m : Bytes) : Bytes :=
  m ++ (marker :: zeros ((B - (m.length + 1 + enc.length) % B) % B) ++ enc)

theorem mdPad_length (B : Nat) (marker : Byte) (enc m : Bytes) (hB : 0 < B) :
    (mdPad B marker enc m).length % B = 0 := by
  have e : (mdPad B marker enc m).length =
      (m.length + 1 + enc.length) + (B - (m.length + 1 + enc.length) % B) % B := by
    simp [mdPad]; omega
  rw [e]
  generalize m.length + 1 + enc.length = n
  have h1 := Nat.mod_lt n hB
  by_cases h : n % B = 0
  · simp [h]
  · rw [Nat.mod_eq_of_lt (a := B - n % B) (by omega), Nat.add_mod, Nat.mod_eq_of_lt (a := B - n % B) (by omega)]
    have : n % B + (B - n % B) = B := by omega
    rw [this]; simp

/-- The blocks of `a ++ b` when the part after the full blocks of `a` is known. -/
theorem fullBlocks_append_rest {α} (B : Nat) (a b : List α) (hB : 0 < B) :
    fullBlocks B (a ++ b) = fullBlocks B a ++ fullBlocks B (restBlock B a ++ b) := by
  have hm := fullBlocks_flatten_append_rest B a
  have hfl : (fullBlocks B a).flatten.length % B = 0 := by
    have : (fullBlocks B a).flatten.length = a.length / B * B := by
      rw [fullBlocks_flatten, List.length_take]
      have := Nat.div_mul_le_self a.length B
      omega
    rw [this]; simp
  have h1 : a ++ b = (fullBlocks B a).flatten ++ (restBlock B a ++ b) := by
    rw [← List.append_assoc, hm]
  have h2 := fullBlocks_append B (fullBlocks B a).flatten (restBlock B a) hB hfl
  have hlt : (restBlock B a).length < B := by
    rw [restBlock_length]; exact Nat.mod_lt _ hB
  rw [hm, fullBlocks_lt B (restBlock B a) hlt, List.append_nil] at h2
  rw [h1, fullBlocks_append B _ _ hB hfl]
  exact congrArg (· ++ _) h2.symm

theorem fullBlocks_two {α} (B : Nat) (a b : List α) (hB : 0 < B) (ha : a.length = B)
    (hb : b.length = B) : fullBlocks B (a ++ b) = [a, b] := by
  rw [fullBlocks_append B a b hB (by rw [ha]; simp), fullBlocks_one B a hB ha,
    fullBlocks_one B b hB hb]; rfl

theorem fullBlocks_cons {α} (B : Nat) (a b : List α) (hB : 0 < B) (ha : a.length = B) :
    fullBlocks B (a ++ b) = a :: fullBlocks B b := by
  rw [fullBlocks_append B a b hB (by rw [ha]; simp), fullBlocks_one B a hB ha]; rfl

theorem zeros_add (a b : Nat) : zeros (a + b) = zeros a ++ zeros b := by
  simp [zeros, List.replicate_append_replicate]

/-- Blocks of the padded message when one extra block suffices. -/
theorem fullBlocks_mdPad_one (B : Nat) (marker : Byte) (enc m : Bytes) (hB : 0 < B)
    (h : m.length % B + 1 + enc.length ≤ B) :
    fullBlocks B (mdPad B marker enc m) = fullBlocks B m ++
      [restBlock B m ++ (marker :: zeros (B - 1 - m.length % B - enc.length) ++ enc)] := by
  unfold mdPad
  rw [fullBlocks_append_rest B _ _ hB]
  congr 1
  have hk : (B - (m.length + 1 + enc.length) % B) % B = B - 1 - m.length % B - enc.length := by
    have e : (m.length + 1 + enc.length) % B = (m.length % B + 1 + enc.length) % B := by
      rw [Nat.add_assoc, Nat.add_assoc, Nat.add_mod m.length, Nat.add_mod (m.length % B)]; simp
    rw [e]
    by_cases h2 : m.length % B + 1 + enc.length = B
    · rw [h2]; simp; omega
    · rw [Nat.mod_eq_of_lt (a := m.length % B + 1 + enc.length) (by omega),
        Nat.mod_eq_of_lt (by omega)]; omega
  rw [hk]
  apply fullBlocks_one B _ hB
  simp [restBlock_length]; omega

/-- Blocks of the padded message when two extra blocks are needed. -/
theorem fullBlocks_mdPad_two (B : Nat) (marker : Byte) (enc m : Bytes) (hB : 0 < B)
    (he : enc.length < B) (h : B < m.length % B + 1 + enc.length) :
    fullBlocks B (mdPad B marker enc m) = fullBlocks B m ++
      [restBlock B m ++ marker :: zeros (B - 1 - m.length % B),
       zeros (B - enc.length) ++ enc] := by
  unfold mdPad
  rw [fullBlocks_append_rest B _ _ hB]
  congr 1
  have hlt := Nat.mod_lt m.length hB
  have hk : (B - (m.length + 1 + enc.length) % B) % B =
      (B - 1 - m.length % B) + (B - enc.length) := by
    have e : (m.length + 1 + enc.length) % B = (m.length % B + 1 + enc.length - B) := by
      have : (m.length + 1 + enc.length) % B = (m.length % B + 1 + enc.length) % B := by
        rw [Nat.add_assoc, Nat.add_assoc, Nat.add_mod m.length, Nat.add_mod (m.length % B)]; simp
      rw [this, Nat.mod_eq_sub_mod (by omega), Nat.mod_eq_of_lt (by omega)]
    rw [e, Nat.mod_eq_of_lt (by omega)]; omega
  rw [hk, zeros_add]
  have : restBlock B m ++ (marker :: (zeros (B - 1 - m.length % B) ++ zeros (B - enc.length)) ++ enc)
      = (restBlock B m ++ marker :: zeros (B - 1 - m.length % B)) ++ (zeros (B - enc.length) ++ enc) := by
    simp
  rw [this]
  apply fullBlocks_two B _ _ hB
  · simp [restBlock_length]; omega
  · simp; omega

/-- `d.x[d.nx] = marker; copy(d.x[d.nx+1:], zeros)`. -/
def markBuf (x : Bytes) (nx : Nat) (marker : Byte) (z : Nat) : Bytes :=
  goCopy (x.set nx marker) (nx + 1) (zeros z)

theorem markBuf_length (x : Bytes) (nx : Nat) (marker : Byte) (z : Nat) (h : nx < x.length) :
    (markBuf x nx marker z).length = x.length := by
  unfold markBuf; rw [goCopy_length _ _ _ (by simp; omega)]; simp

theorem markBuf_eq (x : Bytes) (nx : Nat) (marker : Byte) (z : Nat) (h : nx < x.length)
    (hz : x.length ≤ nx + 1 + z) :
    markBuf x nx marker z = x.take nx ++ marker :: zeros (x.length - 1 - nx) := by
  unfold markBuf
  rw [goCopy_full _ _ _ (by simp; omega) (by simp; omega)]
  have h1 : (x.set nx marker).take (nx + 1) = x.take nx ++ [marker] := by
    rw [List.take_add_one, List.take_set_of_le (Nat.le_refl _)]
    simp [h]
  rw [h1]
  have h2 : (zeros z).take ((x.set nx marker).length - (nx + 1)) = zeros (x.length - 1 - nx) := by
    simp only [zeros, List.take_replicate, List.length_set]
    congr 1; omega
  rw [h2]; simp

/-- `copy` that overwrites exactly the tail. -/
theorem goCopy_tail {α} (a b c : List α) (h : c.length = b.length) :
    goCopy (a ++ b) a.length c = a ++ c := by
  rw [goCopy_full _ _ _ (by simp) (by simp [h])]
  simp
  exact List.take_of_length_le (Nat.le_of_eq h)

/-- `copy` over a middle part. -/
theorem goCopy_mid {α} (a b c d : List α) (h : c.length = b.length) :
    goCopy (a ++ (b ++ d)) a.length c = a ++ (c ++ d) := by
  unfold goCopy
  have : (a ++ (b ++ d)).drop (a.length + c.length) = d := by
    rw [← List.drop_drop, List.drop_left, h, List.drop_left]
  rw [List.take_left, this, List.take_of_length_le (by simp; omega)]
  simp

theorem goCopy_head {α} (b c d : List α) (h : c.length = b.length) :
    goCopy (b ++ d) 0 c = c ++ d := by
  have := goCopy_mid ([] : List α) b c d h
  simpa using this

/-- `copy` of the last bytes of a buffer. -/
theorem goCopy_end {α} (x c : List α) (n : Nat) (h : n + c.length = x.length) :
    goCopy x n c = x.take n ++ c := by
  rw [goCopy_full _ _ _ (by omega) (by omega), List.take_of_length_le (l := c) (by omega)]

/-- Two adjacent `copy`s filling the end of a buffer. -/
theorem goCopy_end2 {α} (x a b : List α) (n k : Nat) (hk : k = n + a.length)
    (h : n + a.length + b.length = x.length) :
    goCopy (goCopy x n a) k b = x.take n ++ (a ++ b) := by
  subst hk
  rw [goCopy_end (goCopy x n a) b (n + a.length) (by rw [goCopy_length _ _ _ (by omega)]; omega),
    goCopy_take _ _ _ (by omega)]
  simp

/-- Finalisation of a Merkle-Damgård digest inside its buffer, with `enc` the encoded length:
marker, zero fill, an extra block when the length does not fit, then the length. -/
def mdFinal {σ} (B : Nat) (f : σ → Bytes → σ) (marker : Byte) (s : σ) (x : Bytes) (nx : Nat)
    (enc : Bytes) : σ :=
  let x := markBuf x nx marker B
  let (s, x) := if B - nx < enc.length + 1 then (f s x, goCopy x 0 (zeros B)) else (s, x)
  f s (x.take (B - enc.length) ++ enc)

theorem take_zeros (n k : Nat) (h : n ≤ k) : (zeros k).take n = zeros n := by
  simp [zeros, List.take_replicate, Nat.min_eq_left h]

theorem goCopy_zero_all {α} (x c : List α) (h : x.length = c.length) : goCopy x 0 c = c := by
  rw [goCopy_full _ _ _ (by omega) (by omega)]
  simp
  exact List.take_of_length_le (by omega)

theorem mdFinal_eq {σ} {B : Nat} (f : σ → Bytes → σ) (hB : 0 < B) (marker : Byte) (s₀ s : σ)
    (x : Bytes) (nx : Nat) (m enc : Bytes) (he : enc.length < B)
    (h : BufRepr B f s₀ s x nx m) :
    mdFinal B f marker s x nx enc = (fullBlocks B (mdPad B marker enc m)).foldl f s₀ := by
  have hnx := h.nx_lt hB
  have hxl := h.xlen
  have hmk : markBuf x nx marker B = restBlock B m ++ marker :: zeros (B - 1 - nx) := by
    rw [markBuf_eq _ _ _ _ (by omega) (by omega), h.pend, hxl]
  have hrl : (restBlock B m).length = nx := by rw [restBlock_length, h.nx_eq]
  unfold mdFinal
  simp only
  split
  · rename_i hlt
    rw [fullBlocks_mdPad_two B marker enc m hB he (by rw [← h.nx_eq]; omega)]
    rw [List.foldl_append, ← h.state, hmk, goCopy_zero_all _ _ (by simp [hrl]; omega),
      take_zeros _ _ (by omega), ← h.nx_eq]
    rfl
  · rename_i hge
    rw [fullBlocks_mdPad_one B marker enc m hB (by rw [← h.nx_eq]; omega)]
    rw [List.foldl_append, ← h.state, hmk, ← h.nx_eq]
    have : (restBlock B m ++ marker :: zeros (B - 1 - nx)).take (B - enc.length) =
        restBlock B m ++ marker :: zeros (B - 1 - nx - enc.length) := by
      rw [List.take_append, hrl, List.take_of_length_le (by omega)]
      have e : B - enc.length - nx = (B - 1 - nx - enc.length) + 1 := by omega
      rw [e, List.take_succ_cons, take_zeros _ _ (by omega)]
    rw [this]
    simp

end Verif
