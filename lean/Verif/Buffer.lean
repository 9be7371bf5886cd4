import Verif.HashAPI
/-
The buffered block absorption used by most digests of the repository:

    for d.nx + plen >= BlockSize {
        copy(d.x[d.nx:], p)
        d.processBlock(d.x[:])
        xx := BlockSize - d.nx
        plen -= xx ; p = p[xx:] ; d.nx = 0
    }
    copy(d.x[d.nx:], p)
    d.nx += plen

(sm3/digest.go:40-65, md2/digest.go:48-74, sha0/digest.go:44-66, has160/digest.go:46-72,
blake256/digest.go:60-83, blake512/digest.go:56-80, siphash/digest.go:61-86,
xxhash/xxhash32/digest.go:48-72, xxhash/xxhash64/digest.go:50-74, ...).
-/
namespace Verif

/-- The loop.  `f` is the block function; the buffer keeps stale bytes after `nx`.  The fuel is
`len(p) + 1`: every iteration consumes `B - nx ≥ 1` bytes (`nx < B` is an invariant). -/
def bufLoop {σ} (B : Nat) (f : σ → Bytes → σ) : Nat → σ → Bytes → Nat → Bytes → σ × Bytes × Nat × Bytes
  | 0, s, x, nx, p => (s, x, nx, p)
  | fuel + 1, s, x, nx, p =>
    if B ≤ nx + p.length then
      let x' := goCopy x nx p
      bufLoop B f fuel (f s x') x' 0 (p.drop (B - nx))
    else (s, x, nx, p)

/-- The loop together with the final `copy(d.x[d.nx:], p); d.nx += plen`. -/
def bufWrite {σ} (B : Nat) (f : σ → Bytes → σ) (s : σ) (x : Bytes) (nx : Nat) (p : Bytes) :
    σ × Bytes × Nat :=
  let (s', x', nx', p') := bufLoop B f (p.length + 1) s x nx p
  (s', goCopy x' nx' p', nx' + p'.length)

/-- `s`, `x`, `nx` represent the message `m` absorbed from `s₀`. -/
structure BufRepr {σ} (B : Nat) (f : σ → Bytes → σ) (s₀ s : σ) (x : Bytes) (nx : Nat)
    (m : Bytes) : Prop where
  state : s = (fullBlocks B m).foldl f s₀
  xlen : x.length = B
  nx_eq : nx = m.length % B
  pend : x.take nx = restBlock B m

theorem BufRepr.nx_lt {σ} {B : Nat} {f : σ → Bytes → σ} {s₀ s : σ} {x nx m}
    (h : BufRepr B f s₀ s x nx m) (hB : 0 < B) : nx < B := by
  rw [h.nx_eq]; exact Nat.mod_lt _ hB

theorem BufRepr.init {σ} {B : Nat} (f : σ → Bytes → σ) (s₀ : σ) (x : Bytes) (hx : x.length = B) :
    BufRepr B f s₀ s₀ x 0 [] :=
  ⟨by simp [fullBlocks_nil], hx, by simp, by simp [restBlock]⟩

theorem bufLoop_spec {σ} {B : Nat} (f : σ → Bytes → σ) (hB : 0 < B) (s₀ : σ) :
    ∀ fuel s x nx m p, BufRepr B f s₀ s x nx m → p.length < fuel →
      ∃ s' x' nx' m' p', bufLoop B f fuel s x nx p = (s', x', nx', p') ∧
        BufRepr B f s₀ s' x' nx' m' ∧ m' ++ p' = m ++ p ∧ nx' + p'.length < B := by
  intro fuel
  induction fuel with
  | zero => intro s x nx m p _ h; omega
  | succ n ih =>
    intro s x nx m p hR hfuel
    have hnx := hR.nx_lt hB
    rw [bufLoop]
    split
    · rename_i hge
      have hxl := hR.xlen
      have hfull : goCopy x nx p = restBlock B m ++ p.take (B - nx) := by
        rw [goCopy_full x nx p (by omega) (by omega), hR.pend, hxl]
      have hrl : (restBlock B m).length = nx := by rw [restBlock_length, hR.nx_eq]
      have hm := fullBlocks_flatten_append_rest B m
      have hfl : (fullBlocks B m).flatten.length % B = 0 := by
        have : (fullBlocks B m).flatten.length = m.length / B * B := by
          rw [fullBlocks_flatten, List.length_take]
          have := Nat.div_mul_le_self m.length B
          omega
        rw [this]; simp
      have hbl : (restBlock B m ++ p.take (B - nx)).length = B := by
        simp [hrl]; omega
      have hm' : m ++ p.take (B - nx) =
          (fullBlocks B m).flatten ++ (restBlock B m ++ p.take (B - nx)) := by
        rw [← List.append_assoc, hm]
      have hR' : BufRepr B f s₀ (f s (goCopy x nx p)) (goCopy x nx p) 0 (m ++ p.take (B - nx)) := by
        refine ⟨?_, ?_, ?_, ?_⟩
        · rw [hm', fullBlocks_append B _ _ hB hfl, fullBlocks_one B _ hB hbl, List.foldl_append,
            hfull]
          have : (fullBlocks B (fullBlocks B m).flatten) = fullBlocks B m := by
            have h2 := fullBlocks_append B (fullBlocks B m).flatten (restBlock B m) hB hfl
            rw [hm, fullBlocks_lt B (restBlock B m) (by omega), List.append_nil] at h2
            exact h2.symm
          rw [this, ← hR.state]; rfl
        · rw [goCopy_length _ _ _ (by omega), hxl]
        · rw [hm', List.length_append, hbl, Nat.add_mod_right, hfl]
        · rw [hm', restBlock_append B _ _ hB hfl, List.take_zero]
          unfold restBlock at hbl ⊢
          rw [hbl, Nat.div_self hB, Nat.one_mul]
          exact (List.drop_eq_nil_of_le (Nat.le_of_eq hbl)).symm
      obtain ⟨s', x', nx', m', p', e, hr, hmp, hl⟩ :=
        ih _ _ _ _ (p.drop (B - nx)) hR' (by simp; omega)
      refine ⟨s', x', nx', m', p', e, hr, ?_, hl⟩
      rw [hmp, List.append_assoc, List.take_append_drop]
    · exact ⟨s, x, nx, m, p, rfl, hR, rfl, by omega⟩

/-- `Write` appends to the represented message. -/
theorem bufWrite_spec {σ} {B : Nat} (f : σ → Bytes → σ) (hB : 0 < B) (s₀ s : σ) (x : Bytes)
    (nx : Nat) (m p : Bytes) (h : BufRepr B f s₀ s x nx m) :
    BufRepr B f s₀ (bufWrite B f s x nx p).1 (bufWrite B f s x nx p).2.1
      (bufWrite B f s x nx p).2.2 (m ++ p) := by
  obtain ⟨s', x', nx', m', p', e, hr, hmp, hl⟩ :=
    bufLoop_spec f hB s₀ (p.length + 1) s x nx m p h (by omega)
  simp only [bufWrite, e]
  have hxl := hr.xlen
  have hrl : (restBlock B m').length = nx' := by rw [restBlock_length, hr.nx_eq]
  have hm := fullBlocks_flatten_append_rest B m'
  have hfl : (fullBlocks B m').flatten.length % B = 0 := by
    have : (fullBlocks B m').flatten.length = m'.length / B * B := by
      rw [fullBlocks_flatten, List.length_take]
      have := Nat.div_mul_le_self m'.length B
      omega
    rw [this]; simp
  have hmm : m ++ p = (fullBlocks B m').flatten ++ (restBlock B m' ++ p') := by
    rw [← List.append_assoc, hm, hmp]
  have hrb : restBlock B (m ++ p) = restBlock B m' ++ p' := by
    rw [hmm, restBlock_append B _ _ hB hfl, restBlock_lt]; simp [hrl]; omega
  refine ⟨?_, ?_, ?_, ?_⟩
  · rw [hr.state, hmm, fullBlocks_append B _ _ hB hfl, fullBlocks_lt B (restBlock B m' ++ p') (by simp [hrl]; omega),
      List.append_nil]
    have h2 := fullBlocks_append B (fullBlocks B m').flatten (restBlock B m') hB hfl
    rw [hm, fullBlocks_lt B (restBlock B m') (by omega), List.append_nil] at h2
    exact congrArg (List.foldl f s₀) h2
  · rw [goCopy_length _ _ _ (by omega), hxl]
  · have := restBlock_length B (m ++ p)
    rw [hrb] at this
    simp [hrl] at this
    simpa using this
  · rw [hrb, goCopy_take _ _ _ (by omega), hr.pend]

end Verif
