import Verif.BufDigest
/-
The other buffered `Write` of the repository, in the style of golang.org/x/crypto:

    if d.nx > 0 {
        n := min(len(p), BlockSize - d.nx)
        copy(d.x[d.nx:], p[:n]) ; d.nx += n
        if d.nx == BlockSize { d.block(d.x[0:]) ; d.nx = 0 }
        p = p[n:]
    }
    n := d.block(p)          // all complete blocks of p
    p = p[n:]
    if len(p) > 0 { d.nx = copy(d.x[:], p) }

(ripemd/digest160.go:45-73, ripemd/digest128.go:42-72, ripemd/digest256.go, ripemd/digest320.go,
tiger/digest.go, ...), and padding written through `Write` itself.
-/
namespace Verif

section
universe u
variable {σ : Type u} {B : Nat} {f : σ → Bytes → σ} {s₀ s : σ} {x : Bytes} {nx : Nat} {m : Bytes}

/-- `m` in two parts: complete blocks and the rest. -/
theorem split_msg (B : Nat) (m : Bytes) : ∃ a, a.length % B = 0 ∧ m = a ++ restBlock B m ∧
    (0 < B → fullBlocks B m = fullBlocks B a) := by
  have hm := fullBlocks_flatten_append_rest B m
  have hfl : (fullBlocks B m).flatten.length % B = 0 := by
    have : (fullBlocks B m).flatten.length = m.length / B * B := by
      rw [fullBlocks_flatten, List.length_take]
      have := Nat.div_mul_le_self m.length B
      omega
    rw [this]; simp
  refine ⟨_, hfl, hm.symm, fun hB => ?_⟩
  have h2 := fullBlocks_append B (fullBlocks B m).flatten (restBlock B m) hB hfl
  rw [hm, fullBlocks_lt B (restBlock B m) (by rw [restBlock_length]; exact Nat.mod_lt _ hB), List.append_nil] at h2
  exact h2

/-- Bytes that do not fill the buffer. -/
theorem BufRepr.part (h : BufRepr B f s₀ s x nx m) (p : Bytes) (hp : nx + p.length < B) :
    BufRepr B f s₀ s (goCopy x nx p) (nx + p.length) (m ++ p) := by
  have hB : 0 < B := by omega
  obtain ⟨a, ha, hm, hf⟩ := split_msg B m
  have hrl : (restBlock B m).length = nx := by rw [restBlock_length, h.nx_eq]
  have hmp : m ++ p = a ++ (restBlock B m ++ p) := by rw [← List.append_assoc, ← hm]
  have hlt : (restBlock B m ++ p).length < B := by rw [List.length_append, hrl]; exact hp
  refine ⟨?_, ?_, ?_, ?_⟩
  · rw [hmp, fullBlocks_append B _ _ hB ha, fullBlocks_lt B _ hlt, List.append_nil, h.state, hf hB]
  · rw [goCopy_length _ _ _ (by rw [h.xlen]; omega), h.xlen]
  · rw [hmp, List.length_append, Nat.add_mod, ha, Nat.zero_add, Nat.mod_mod, Nat.mod_eq_of_lt hlt,
      List.length_append, hrl]
  · rw [goCopy_take _ _ _ (by rw [h.xlen]; omega), h.pend, hmp, restBlock_append B _ _ hB ha,
      restBlock_lt B _ hlt]

/-- Bytes that complete the buffered block. -/
theorem BufRepr.fill (h : BufRepr B f s₀ s x nx m) (p : Bytes) (hp : nx + p.length = B) (hB : 0 < B)
    (x' : Bytes) (hx' : x'.length = B) :
    BufRepr B f s₀ (f s (goCopy x nx p)) x' 0 (m ++ p) := by
  obtain ⟨a, ha, hm, hf⟩ := split_msg B m
  have hrl : (restBlock B m).length = nx := by rw [restBlock_length, h.nx_eq]
  have hmp : m ++ p = a ++ (restBlock B m ++ p) := by rw [← List.append_assoc, ← hm]
  have hl : (restBlock B m ++ p).length = B := by rw [List.length_append, hrl]; exact hp
  have hc : goCopy x nx p = restBlock B m ++ p := by
    have := goCopy_take x nx p (by rw [h.xlen]; omega)
    rw [h.pend] at this
    rw [← this, List.take_of_length_le]
    rw [goCopy_length _ _ _ (by rw [h.xlen]; omega), h.xlen]; omega
  have hall : (m ++ p).length % B = 0 := by
    rw [hmp, List.length_append, hl, Nat.add_mod_right, ha]
  refine ⟨?_, hx', hall.symm, ?_⟩
  · rw [hmp, fullBlocks_append B _ _ hB ha, fullBlocks_one B _ hB hl, List.foldl_append, hc, h.state, hf hB]
    rfl
  · have : (restBlock B (m ++ p)).length = 0 := by rw [restBlock_length, hall]
    rw [List.take_zero, List.length_eq_zero_iff.mp this]

/-- Whole blocks on an empty buffer. -/
theorem BufRepr.blocks (h : BufRepr B f s₀ s x 0 m) (hB : 0 < B) (p : Bytes) (hp : p.length % B = 0) :
    BufRepr B f s₀ ((fullBlocks B p).foldl f s) x 0 (m ++ p) := by
  have hm : m.length % B = 0 := h.nx_eq.symm
  have hall : (m ++ p).length % B = 0 := by
    rw [List.length_append, Nat.add_mod, hm, hp]; rfl
  refine ⟨?_, h.xlen, hall.symm, ?_⟩
  · rw [fullBlocks_append B _ _ hB hm, List.foldl_append, h.state]
  · have : (restBlock B (m ++ p)).length = 0 := by rw [restBlock_length, hall]
    rw [List.take_zero, List.length_eq_zero_iff.mp this]

end

/-- The `Write` displayed above. -/
def xWrite {σ} (B : Nat) (f : σ → Bytes → σ) (s : σ) (x : Bytes) (nx : Nat) (p : Bytes) :
    σ × Bytes × Nat :=
  let (s, x, nx, p) :=
    if nx > 0 then
      let n := if p.length > B - nx then B - nx else p.length
      let x := goCopy x nx (p.take n)
      let nx := nx + n
      if nx = B then (f s x, x, 0, p.drop n) else (s, x, nx, p.drop n)
    else (s, x, nx, p)
  -- `n := d.block(p)`; `p = p[n:]`
  let s := (fullBlocks B p).foldl f s
  let p := restBlock B p
  if p.length > 0 then (s, goCopy x 0 p, p.length) else (s, x, nx)

theorem xWrite_spec0 {σ} {B : Nat} (f : σ → Bytes → σ) (hB : 0 < B) (s₀ s : σ) (x : Bytes)
    (m p : Bytes) (h : BufRepr B f s₀ s x 0 m) :
    let q := restBlock B p
    let r := if q.length > 0 then ((fullBlocks B p).foldl f s, goCopy x 0 q, q.length)
      else ((fullBlocks B p).foldl f s, x, 0)
    BufRepr B f s₀ r.1 r.2.1 r.2.2 (m ++ p) := by
  intro q r
  have hp := fullBlocks_flatten_append_rest B p
  obtain ⟨a, ha, hpa, hf⟩ := split_msg B p
  have h1 := h.blocks hB a ha
  rw [← hf hB] at h1
  have hq : q.length < B := by rw [restBlock_length]; exact Nat.mod_lt _ hB
  have h2 := h1.part q (by omega)
  rw [List.append_assoc, ← hpa, Nat.zero_add] at h2
  by_cases hc : q.length > 0
  · simp only [r, hc, if_true]; exact h2
  · have hq0 : q = [] := List.length_eq_zero_iff.mp (by omega)
    simp only [r, hc, if_false]
    have e : m ++ p = m ++ a := by
      conv => lhs; rw [hpa, show restBlock B p = [] from hq0, List.append_nil]
    rw [e]
    exact h1

/-- This `Write` too appends to the represented message. -/
theorem xWrite_spec {σ} {B : Nat} (f : σ → Bytes → σ) (hB : 0 < B) (s₀ s : σ) (x : Bytes)
    (nx : Nat) (m p : Bytes) (h : BufRepr B f s₀ s x nx m) :
    BufRepr B f s₀ (xWrite B f s x nx p).1 (xWrite B f s x nx p).2.1
      (xWrite B f s x nx p).2.2 (m ++ p) := by
  have hnx := h.nx_lt hB
  unfold xWrite
  by_cases h0 : nx > 0
  · simp only [h0, if_true]
    by_cases hlong : p.length > B - nx
    · simp only [hlong, if_true]
      have e : nx + (B - nx) = B := by omega
      have hl : (p.take (B - nx)).length = B - nx := by rw [List.length_take]; omega
      have h1 := h.fill (p.take (B - nx)) (by omega) hB (goCopy x nx (p.take (B - nx))) (by
        rw [goCopy_length _ _ _ (by rw [h.xlen]; omega), h.xlen])
      have := xWrite_spec0 f hB s₀ _ _ _ (p.drop (B - nx)) h1
      rw [List.append_assoc, List.take_append_drop] at this
      simp only [e, if_true]
      exact this
    · simp only [hlong, if_false, List.take_length, List.drop_length]
      by_cases e : nx + p.length = B
      · have h1 := h.fill p e hB (goCopy x nx p) (by
          rw [goCopy_length _ _ _ (by rw [h.xlen]; omega), h.xlen])
        simpa [e, fullBlocks_nil, restBlock] using h1
      · have h1 := h.part p (by omega)
        simpa [e, fullBlocks_nil, restBlock] using h1
  · have : nx = 0 := by omega
    subst this
    simp only [h0, if_false]
    exact xWrite_spec0 f hB s₀ s x m p h

/-- `Write` in this style, with the byte counter. -/
def BufDigest.absorbX {σ} (B : Nat) (f : σ → Bytes → σ) (d : BufDigest σ) (p : Bytes) :
    BufDigest σ :=
  let r := xWrite B f d.s d.x d.nx p
  { s := r.1, x := r.2.1, nx := r.2.2, len := d.len + BitVec.ofNat 64 p.length }

theorem BufDigest.Repr.absorbX {σ} {B : Nat} {f : σ → Bytes → σ} {s₀ : σ} {d : BufDigest σ}
    {m : Bytes} (h : d.Repr B f s₀ m) (hB : 0 < B) (p : Bytes) :
    (d.absorbX B f p).Repr B f s₀ (m ++ p) :=
  ⟨xWrite_spec f hB s₀ _ _ _ _ _ h.buf, by
    simp only [BufDigest.absorbX]; rw [h.len_eq, ofNat64_add, List.length_append]⟩

/-- Simulation rule for digests that absorb with `xWrite`. -/
theorem BufDigest.simX {σ} {B : Nat} (hB : 0 < B) (f : σ → Bytes → σ) (s₀ : σ)
    (I : HashImpl (BufDigest σ)) (S : HashSpec)
    (hw : ∀ d p, I.write d p = some (d.absorbX B f p, p.length))
    (hs : ∀ d m b, d.Repr B f s₀ m → I.sum d b = some (d, b ++ S.H m))
    (hr : ∀ d, d.x.length = B → (I.reset d).s = s₀ ∧ (I.reset d).x.length = B ∧
      (I.reset d).nx = 0 ∧ (I.reset d).len = 0#64)
    (hz : ∀ d, I.size d = S.size) (hb : ∀ d, I.blockSize d = S.blockSize) :
    Sim I S (fun d m => d.Repr B f s₀ m) where
  write := by intro d m p h; exact ⟨_, hw d p, h.absorbX hB p⟩
  sum := by intro d m b h; exact ⟨d, hs d m b h, h⟩
  reset := by intro d m h; exact .init (hr d h.buf.xlen)
  size := by intro d m _; exact hz d
  blockSize := by intro d m _; exact hb d

/-- The bytes written by the padding of the `x/crypto` style
(`tmp[0] = marker; Write(tmp[0 : 56-tc%64])` or `Write(tmp[0 : 64+56-tc%64])`). -/
theorem mdPad_written (marker : Byte) (enc m : Bytes) (he : enc.length = 8) :
    m ++ (marker :: zeros 63).take (if m.length % 64 < 56 then 56 - m.length % 64
      else 64 + 56 - m.length % 64) ++ enc = mdPad 64 marker enc m := by
  unfold mdPad
  rw [List.append_assoc]
  congr 1
  congr 1
  rw [he]
  generalize hk : m.length % 64 = k
  have hk64 : k < 64 := by omega
  have hz : ∀ n, 0 < n → n ≤ 64 → (marker :: zeros 63).take n = marker :: zeros (n - 1) := by
    intro n h0 h1
    obtain ⟨j, rfl⟩ : ∃ j, n = j + 1 := ⟨n - 1, by omega⟩
    rw [List.take_succ_cons, take_zeros _ _ (by omega)]; rfl
  have e : (64 - (m.length + 1 + 8) % 64) % 64 =
      (if k < 56 then 56 - k else 64 + 56 - k) - 1 := by
    split <;> omega
  rw [e, hz _ (by split <;> omega) (by split <;> omega)]

/-! ### Pending bytes -/

/-- The digest has chaining state `s` and pending bytes `r`. -/
structure Pend {σ} (B : Nat) (d : BufDigest σ) (s : σ) (r : Bytes) : Prop where
  st : d.s = s
  xlen : d.x.length = B
  nx : d.nx = r.length
  lt : r.length < B
  bytes : d.x.take d.nx = r

theorem Pend.buf {σ} {B : Nat} {d : BufDigest σ} {s : σ} {r : Bytes} (h : Pend B d s r)
    (f : σ → Bytes → σ) : BufRepr B f s d.s d.x d.nx r :=
  ⟨by rw [fullBlocks_lt B r h.lt, h.st]; rfl, h.xlen, by rw [h.nx, Nat.mod_eq_of_lt h.lt],
   by rw [restBlock_lt B r h.lt, h.bytes]⟩

theorem BufRepr.toPend {σ} {B : Nat} {f : σ → Bytes → σ} {s₀ : σ} {d : BufDigest σ} {m : Bytes}
    (h : BufRepr B f s₀ d.s d.x d.nx m) (hB : 0 < B) :
    Pend B d ((fullBlocks B m).foldl f s₀) (restBlock B m) :=
  ⟨h.state, h.xlen, by rw [h.nx_eq, restBlock_length],
   by rw [restBlock_length]; exact Nat.mod_lt _ hB, h.pend⟩

theorem Pend.absorb_lt {σ} {B : Nat} {d : BufDigest σ} {s : σ} {r : Bytes} (h : Pend B d s r)
    (f : σ → Bytes → σ) (p : Bytes) (hp : r.length + p.length < B) : Pend B (d.absorb B f p) s (r ++ p) := by
  have hl : (r ++ p).length < B := by rw [List.length_append]; exact hp
  have := bufWrite_spec f (by omega) s _ _ _ _ p (h.buf f)
  have hq := BufRepr.toPend (d := d.absorb B f p) this (by omega)
  rwa [fullBlocks_lt B _ hl, restBlock_lt B _ hl] at hq

theorem Pend.absorb_eq {σ} {B : Nat} {d : BufDigest σ} {s : σ} {r : Bytes} (h : Pend B d s r)
    (f : σ → Bytes → σ) (p : Bytes) (hp : r.length + p.length = B) (hB : 0 < B) :
    Pend B (d.absorb B f p) (f s (r ++ p)) [] := by
  have hl : (r ++ p).length = B := by rw [List.length_append]; exact hp
  have := bufWrite_spec f hB s _ _ _ _ p (h.buf f)
  have hq := BufRepr.toPend (d := d.absorb B f p) this hB
  have hr : restBlock B (r ++ p) = [] := by
    apply List.length_eq_zero_iff.mp
    rw [restBlock_length, hl, Nat.mod_self]
  rwa [fullBlocks_one B _ hB hl, hr] at hq

/-- Only the chaining state is changed. -/
theorem Pend.upd {σ} {B : Nat} {d d' : BufDigest σ} {s : σ} {r : Bytes} (h : Pend B d s r)
    (s' : σ) (hs : d'.s = s') (hx : d'.x = d.x) (hn : d'.nx = d.nx) : Pend B d' s' r :=
  ⟨hs, by rw [hx, h.xlen], by rw [hn, h.nx], h.lt, by rw [hx, hn, h.bytes]⟩

/-- `for i := a; i < b; i++ { l[i] = 0 }`. -/
theorem zeroLoop_eq (l : Bytes) (a b : Nat) (hab : a ≤ b) (hb : b ≤ l.length) :
    forLoop a b (fun (l : Bytes) i => l.set i 0#8) l = l.take a ++ (zeros (b - a) ++ l.drop b) := by
  refine forLoop_inv (a := a) (b := b)
    (fun j (x : Bytes) => x = l.take a ++ (zeros (j - a) ++ l.drop j)) hab
    (by simp [zeros]) ?_
  intro j x haj hjb ih
  subst ih
  rw [show j + 1 - a = (j - a) + 1 by omega, zeros_add, List.drop_eq_getElem_cons (by omega : j < l.length)]
  rw [List.set_append, if_neg (by simp; omega), List.set_append, if_neg (by simp; omega)]
  rw [show j - (l.take a).length - (zeros (j - a)).length = 0 by simp; omega, List.set_cons_zero]
  simp [zeros]

theorem zeros_set (n i : Nat) (v : Byte) (h : i < n) :
    (zeros n).set i v = zeros i ++ (v :: zeros (n - i - 1)) := by
  rw [show n = i + (1 + (n - i - 1)) by omega, zeros_add, zeros_add, List.set_append, if_neg (by simp)]
  simp only [zeros_length, Nat.sub_self]
  rw [show i + (1 + (n - i - 1)) - i - 1 = n - i - 1 by omega]
  rfl

end Verif
