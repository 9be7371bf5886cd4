import Verif.Padding
/-
The common shape of the digests that keep a chaining value, a block buffer, the number of
buffered bytes and a 64-bit byte counter, and the refinement rule for them.
-/
namespace Verif

/-- `struct { s ..; x [BlockSize]byte; nx int; len uint64 }`
(sm3/digest.go:10-15, sha0/digest.go, has160/digest.go, tiger/digest.go, ...). -/
structure BufDigest (σ : Type) where
  s : σ
  x : Bytes
  nx : Nat
  len : U64

/-- The common `Write`: `d.len += uint64(len(p))`, then the buffering loop of `Buffer.lean`. -/
def BufDigest.absorb {σ} (B : Nat) (f : σ → Bytes → σ) (d : BufDigest σ) (p : Bytes) :
    BufDigest σ :=
  let r := bufWrite B f d.s d.x d.nx p
  { s := r.1, x := r.2.1, nx := r.2.2, len := d.len + BitVec.ofNat 64 p.length }

/-- The digest represents message `m`. -/
structure BufDigest.Repr {σ} (B : Nat) (f : σ → Bytes → σ) (s₀ : σ) (d : BufDigest σ)
    (m : Bytes) : Prop where
  buf : BufRepr B f s₀ d.s d.x d.nx m
  len_eq : d.len = BitVec.ofNat 64 m.length

theorem ofNat64_add (a b : Nat) :
    BitVec.ofNat 64 a + BitVec.ofNat 64 b = BitVec.ofNat 64 (a + b) := by
  apply BitVec.eq_of_toNat_eq; simp

theorem BufDigest.Repr.init {σ} {B : Nat} {f : σ → Bytes → σ} {s₀ : σ} {d : BufDigest σ}
    (h : d.s = s₀ ∧ d.x.length = B ∧ d.nx = 0 ∧ d.len = 0#64) : d.Repr B f s₀ [] := by
  obtain ⟨s, x, nx, len⟩ := d
  obtain ⟨h1, h2, h3, h4⟩ := h
  simp only at h1 h2 h3 h4
  subst h1 h3 h4
  exact ⟨BufRepr.init f _ x h2, rfl⟩

theorem BufDigest.Repr.absorb {σ} {B : Nat} {f : σ → Bytes → σ} {s₀ : σ} {d : BufDigest σ}
    {m : Bytes} (h : d.Repr B f s₀ m) (hB : 0 < B) (p : Bytes) :
    (d.absorb B f p).Repr B f s₀ (m ++ p) :=
  ⟨bufWrite_spec f hB s₀ _ _ _ _ _ h.buf, by
    simp only [BufDigest.absorb]; rw [h.len_eq, ofNat64_add, List.length_append]⟩

/-- `for i := a; i < b; i++ { d.Write([]byte{0x00}) }`. -/
theorem BufDigest.Repr.absorb_zeros {σ} {B : Nat} {f : σ → Bytes → σ} {s₀ : σ} {d : BufDigest σ}
    {m : Bytes} (h : d.Repr B f s₀ m) (hB : 0 < B) (a b : Nat) (hab : a ≤ b) :
    (forLoop a b (fun d _ => d.absorb B f [0#8]) d).Repr B f s₀ (m ++ zeros (b - a)) := by
  refine forLoop_inv (a := a) (b := b)
    (fun j (d : BufDigest σ) => d.Repr B f s₀ (m ++ zeros (j - a))) hab (by simpa [zeros] using h) ?_
  intro j d hj _ ih
  have := ih.absorb hB [0#8]
  rw [List.append_assoc] at this
  rw [show j + 1 - a = (j - a) + 1 by omega, zeros_add]
  exact this

/-- Simulation rule for digests that absorb with `bufWrite`. -/
theorem BufDigest.sim {σ} {B : Nat} (hB : 0 < B) (f : σ → Bytes → σ) (s₀ : σ)
    (I : HashImpl (BufDigest σ)) (S : HashSpec)
    (hw : ∀ d p, d.nx < B → d.x.length = B → I.write d p =
      some (d.absorb B f p, p.length))
    (hs : ∀ d m b, d.Repr B f s₀ m → I.sum d b = some (d, b ++ S.H m))
    (hr : ∀ d, d.x.length = B → (I.reset d).s = s₀ ∧ (I.reset d).x.length = B ∧
      (I.reset d).nx = 0 ∧ (I.reset d).len = 0#64)
    (hz : ∀ d, I.size d = S.size) (hb : ∀ d, I.blockSize d = S.blockSize) :
    Sim I S (fun d m => d.Repr B f s₀ m) where
  write := by
    intro d m p h
    exact ⟨_, hw d p (h.buf.nx_lt hB) h.buf.xlen, h.absorb hB p⟩
  sum := by intro d m b h; exact ⟨d, hs d m b h, h⟩
  reset := by intro d m h; exact .init (hr d h.buf.xlen)
  size := by intro d m _; exact hz d
  blockSize := by intro d m _; exact hb d

end Verif
