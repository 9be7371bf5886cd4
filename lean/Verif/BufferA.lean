import Verif.BufferX
/-
A third buffered `Write`:

    if d.len > 0 && d.len + len(b) >= bs {
        n := copy(d.buf[d.len:bs], b) ; d.len += n ; b = b[n:]
        if d.len == bs { block(d.buf) ; d.len = 0 }
    }
    for len(b) >= bs { block(b) ; b = b[bs:] }
    if len(b) > 0 { n := copy(d.buf[d.len:bs], b) ; d.len += n }

(ascon/hash.go:159-191, ascon/mac.go:42-75).
-/
namespace Verif

/-- `for len(b) >= B { f(b[:B]); b = b[B:] }`, with at most as many iterations as bytes. -/
def eagerLoop {σ} (B : Nat) (f : σ → Bytes → σ) : Nat → σ → Bytes → σ × Bytes
  | 0, s, p => (s, p)
  | fuel + 1, s, p => if B ≤ p.length then eagerLoop B f fuel (f s (p.take B)) (p.drop B) else (s, p)

theorem eagerLoop_spec {σ} {B : Nat} (f : σ → Bytes → σ) (hB : 0 < B) : ∀ fuel s p, p.length ≤ fuel →
    eagerLoop B f fuel s p = ((fullBlocks B p).foldl f s, restBlock B p) := by
  intro fuel
  induction fuel with
  | zero =>
    intro s p h
    rw [fullBlocks_lt B p (by omega), restBlock_lt B p (by omega)]; rfl
  | succ n ih =>
    intro s p h
    unfold eagerLoop
    by_cases hc : B ≤ p.length
    · rw [if_pos hc, ih _ _ (by rw [List.length_drop]; omega)]
      have hl : (p.take B).length = B := by rw [List.length_take]; omega
      have h1 := fullBlocks_append B (p.take B) (p.drop B) hB (by rw [hl, Nat.mod_self])
      have h2 := restBlock_append B (p.take B) (p.drop B) hB (by rw [hl, Nat.mod_self])
      rw [List.take_append_drop] at h1 h2
      rw [h1, h2, fullBlocks_one B _ hB hl]
      rfl
    · rw [if_neg hc, fullBlocks_lt B p (by omega), restBlock_lt B p (by omega)]; rfl

/-- The first step of the `Write` displayed above. -/
def aFill {σ} (B : Nat) (f : σ → Bytes → σ) (s : σ) (x : Bytes) (nx : Nat) (p : Bytes) : (σ × Bytes × Nat) × Bytes :=
  if nx > 0 ∧ nx + p.length ≥ B then
    let n := min (B - nx) p.length
    let x := goCopy x nx (p.take n)
    let nx := nx + n
    if nx = B then ((f s x, x, 0), p.drop n) else ((s, x, nx), p.drop n)
  else ((s, x, nx), p)
/-- The `Write` displayed above. -/
def aWrite {σ} (B : Nat) (f : σ → Bytes → σ) (s : σ) (x : Bytes) (nx : Nat) (p : Bytes) : σ × Bytes × Nat :=
  let r := aFill B f s x nx p
  let q := eagerLoop B f r.2.length r.1.1 r.2
  if q.2.length > 0 then (q.1, goCopy r.1.2.1 r.1.2.2 q.2, r.1.2.2 + q.2.length) else (q.1, r.1.2.1, r.1.2.2)

theorem aWrite_spec {σ} {B : Nat} (f : σ → Bytes → σ) (hB : 0 < B) (s₀ s : σ) (x : Bytes)
    (nx : Nat) (m p : Bytes) (h : BufRepr B f s₀ s x nx m) :
    BufRepr B f s₀ (aWrite B f s x nx p).1 (aWrite B f s x nx p).2.1 (aWrite B f s x nx p).2.2 (m ++ p) := by
  have hnx := h.nx_lt hB
  have hxl := h.xlen
  unfold aWrite
  by_cases hc : nx > 0 ∧ nx + p.length ≥ B
  · have hn : min (B - nx) p.length = B - nx := by omega
    have e : nx + (B - nx) = B := by omega
    have hf : aFill B f s x nx p = ((f s (goCopy x nx (p.take (B - nx))), goCopy x nx (p.take (B - nx)), 0), p.drop (B - nx)) := by
      unfold aFill
      rw [if_pos hc]
      simp only [hn]
      rw [if_pos e]
    rw [hf]
    have hl : (p.take (B - nx)).length = B - nx := by rw [List.length_take]; omega
    have h1 := h.fill (p.take (B - nx)) (by omega) hB (goCopy x nx (p.take (B - nx))) (by
      rw [goCopy_length _ _ _ (by rw [h.xlen]; omega), h.xlen])
    have := xWrite_spec0 f hB s₀ _ _ _ (p.drop (B - nx)) h1
    rw [List.append_assoc, List.take_append_drop] at this
    simp only [eagerLoop_spec f hB _ _ _ (Nat.le_refl _)]
    simp only [Nat.zero_add]
    exact this
  · have hf : aFill B f s x nx p = ((s, x, nx), p) := by unfold aFill; rw [if_neg hc]
    rw [hf]
    simp only [eagerLoop_spec f hB _ _ _ (Nat.le_refl _)]
    by_cases h0 : nx = 0
    · subst h0
      have := xWrite_spec0 f hB s₀ _ _ _ p h
      simp only [Nat.zero_add]
      exact this
    · have hlt : nx + p.length < B := by omega
      rw [fullBlocks_lt B p (by omega), restBlock_lt B p (by omega)]
      by_cases hp : p.length > 0
      · rw [if_pos hp]; exact h.part p hlt
      · rw [if_neg hp]
        have : p = [] := List.length_eq_zero_iff.mp (by omega)
        subst this
        rw [List.append_nil]; exact h

end Verif
