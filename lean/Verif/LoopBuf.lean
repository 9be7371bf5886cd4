import Verif.Padding
import Verif.Lemmas.K12Sponge
/-
The Write loop common to many packages of the repository:

    for d.nx + plen >= limit { xx := limit - d.nx; copy(d.x[d.nx:], p); <process block>; plen -= xx; p = p[xx:]; d.nx = 0 }
    copy(d.x[d.nx:], p); d.nx += plen

`blk s x xx` is what a turn does to the rest of the state (with the filled buffer and the number of bytes taken), `tl s n` what is done for the
bytes left over.  The buffer may be longer than the limit (the copy then runs past it).
-/
namespace Verif

def loopWrite {σ} (B : Nat) (blk : σ → Bytes → Nat → σ) (tl : σ → Nat → σ) : Nat → σ → Bytes → Nat → Bytes → σ × Bytes × Nat
  | 0, s, x, nx, _ => (s, x, nx)
  | fuel + 1, s, x, nx, p =>
    if nx + p.length ≥ B then
      let xx := B - nx
      let x := goCopy x nx p
      loopWrite B blk tl fuel (blk s x xx) x 0 (p.drop xx)
    else (tl s p.length, goCopy x nx p, nx + p.length)

/-- Buffer and rest of the state after the message `m`. -/
structure LoopRep {σ} (B X : Nat) (R : σ → Bytes → Prop) (s : σ) (x : Bytes) (nx : Nat) (m : Bytes) : Prop where
  st : R s m
  xl : x.length = X
  hnx : nx = (restBlock B m).length
  pend : x.take nx = restBlock B m

theorem LoopRep.init {σ} (B X : Nat) (R : σ → Bytes → Prop) (s : σ) (h : R s []) : LoopRep B X R s (zeros X) 0 [] :=
  ⟨h, zeros_length X, by simp [restBlock], by simp [restBlock]⟩

theorem LoopRep.nx_lt {σ} {B X : Nat} {R : σ → Bytes → Prop} {s : σ} {x : Bytes} {nx : Nat} {m : Bytes} (h : LoopRep B X R s x nx m) (hB : 0 < B) : nx < B := by
  rw [h.hnx, restBlock_length]; exact Nat.mod_lt _ hB

theorem loopWrite_rep {σ} (B X : Nat) (hB : 0 < B) (hX : B ≤ X) (R : σ → Bytes → Prop) (blk : σ → Bytes → Nat → σ) (tl : σ → Nat → σ)
    (hblk : ∀ s x m p, R s m → x.length = X → (restBlock B m).length + p.length = B → x.take B = restBlock B m ++ p →
      fullBlocks B (m ++ p) = fullBlocks B m ++ [restBlock B m ++ p] → restBlock B (m ++ p) = [] → R (blk s x p.length) (m ++ p))
    (htl : ∀ s m p, R s m → (restBlock B m).length + p.length < B → fullBlocks B (m ++ p) = fullBlocks B m → restBlock B (m ++ p) = restBlock B m ++ p →
      R (tl s p.length) (m ++ p))
    (fuel : Nat) (s : σ) (x : Bytes) (nx : Nat) (m p : Bytes) (h : LoopRep B X R s x nx m) (hf : p.length < fuel) :
    LoopRep B X R (loopWrite B blk tl fuel s x nx p).1 (loopWrite B blk tl fuel s x nx p).2.1 (loopWrite B blk tl fuel s x nx p).2.2 (m ++ p) := by
  induction fuel generalizing s x nx m p with
  | zero => omega
  | succ fuel ih =>
    have hlt := h.nx_lt hB
    have hnx := h.hnx
    have hxl := h.xl
    unfold loopWrite
    by_cases hc : nx + p.length ≥ B
    · rw [if_pos hc]
      dsimp only
      have htk : (p.take (B - nx)).length = B - nx := by rw [List.length_take]; omega
      have hlen : (restBlock B m ++ p.take (B - nx)).length = B := by rw [List.length_append, htk]; omega
      obtain ⟨e1, e2⟩ := K12.fullBlocks_rest m (p.take (B - nx)) B hB
      rw [fullBlocks_one _ _ hB hlen] at e1
      have e2' : restBlock B (restBlock B m ++ p.take (B - nx)) = [] := by
        apply List.eq_nil_of_length_eq_zero; rw [restBlock_length, hlen, Nat.mod_self]
      rw [e2'] at e2
      have hcl : (goCopy x nx p).length = X := by rw [goCopy_length _ _ _ (by omega)]; exact hxl
      have hct : (goCopy x nx p).take B = restBlock B m ++ p.take (B - nx) := by
        unfold goCopy
        rw [h.pend, hxl]
        by_cases hpl : p.length ≤ X - nx
        · rw [List.take_of_length_le (l := p) hpl, List.append_assoc, List.take_append, ← hnx, List.take_of_length_le (by omega),
            List.take_append_of_le_length (by omega)]
        · rw [List.append_assoc, List.take_append, ← hnx, List.take_of_length_le (by omega), List.take_append_of_le_length (by rw [List.length_take]; omega),
            List.take_take, Nat.min_eq_left (by omega)]
      have hs := hblk s (goCopy x nx p) m (p.take (B - nx)) h.st hcl (by rw [← List.length_append]; exact hlen) hct e1 e2
      rw [htk] at hs
      have := ih (blk s (goCopy x nx p) (B - nx)) (goCopy x nx p) 0 (m ++ p.take (B - nx)) (p.drop (B - nx))
        ⟨hs, hcl, by rw [e2]; rfl, by rw [e2]; rfl⟩ (by rw [List.length_drop]; omega)
      rw [List.append_assoc, List.take_append_drop] at this
      exact this
    · rw [if_neg hc]
      obtain ⟨e1, e2⟩ := K12.fullBlocks_rest m p B hB
      have hl : (restBlock B m ++ p).length < B := by rw [List.length_append]; omega
      rw [fullBlocks_lt _ _ hl, List.append_nil] at e1
      rw [restBlock_lt _ _ hl] at e2
      refine ⟨htl s m p h.st (by omega) e1 e2, ?_, ?_, ?_⟩
      · show (goCopy x nx p).length = X; rw [goCopy_length _ _ _ (by omega)]; exact hxl
      · show nx + p.length = _; rw [e2, List.length_append]; omega
      · show (goCopy x nx p).take (nx + p.length) = _
        rw [e2, ← h.pend, goCopy_take _ _ _ (by omega)]

/-- The buffer when the digest is closed: marker and zero fill. -/
theorem closeBuf (mk : Byte) (x : Bytes) (nx L : Nat) (r : Bytes) (hL : L ≤ x.length) (hn : nx < L) (hr : x.take nx = r) :
    (goCopy (x.set nx mk) (nx + 1) (zeros L)).take L = r ++ mk :: zeros (L - 1 - nx) := by
  have hrl : r.length = nx := by rw [← hr, List.length_take]; omega
  unfold goCopy
  rw [List.length_set, show (x.set nx mk).take (nx + 1) = r ++ [mk] from ?_]
  · rw [List.append_assoc, List.append_assoc, List.take_append, hrl, List.take_of_length_le (by omega)]
    congr 1
    rw [show L - nx = (L - nx - 1) + 1 by omega, List.cons_append, List.nil_append, List.take_succ_cons,
      List.take_append_of_le_length (by rw [List.length_take, zeros_length]; omega), List.take_take]
    congr 1
    rw [take_zeros _ _ (by omega)]
    congr 1; omega
  · rw [List.take_add_one, List.take_set_of_le (Nat.le_refl _), hr]
    simp [show nx < x.length by omega]

theorem zeroBuf (x : Bytes) (L : Nat) (hL : L ≤ x.length) : (goCopy x 0 (zeros L)).take L = zeros L := by
  unfold goCopy
  rw [List.take_zero, List.nil_append, List.take_of_length_le (l := zeros L) (by rw [zeros_length]; omega), List.take_left' (zeros_length L)]

theorem lenBuf (x : Bytes) (L k : Nat) (hL : L ≤ x.length) (h8 : k ≤ L) (e : Bytes) (he : e.length = k) :
    (goCopy x (L - k) e).take L = (x.take L).take (L - k) ++ e := by
  unfold goCopy
  rw [List.take_of_length_le (l := e) (by omega), List.take_left' (by rw [List.length_append, List.length_take, he]; omega), List.take_take, Nat.min_eq_left (by omega)]

theorem lenBuf8 (x : Bytes) (L : Nat) (hL : L ≤ x.length) (h8 : 8 ≤ L) (e : Bytes) (he : e.length = 8) :
    (goCopy x (L - 8) e).take L = (x.take L).take (L - 8) ++ e := lenBuf x L 8 hL h8 e he

end Verif

namespace Verif
/-- What the contract says of a message cut in two, with a Sum in between. -/
theorem Refines.cut {σ} {I : HashImpl σ} {s₀ : σ} {S : HashSpec} (h : Refines I s₀ S) (a b : Bytes) :
    I.run s₀ [.write a, .sum [], .write b, .sum []] = [.wrote a.length, .bytes (S.H a), .wrote b.length, .bytes (S.H (a ++ b))] := by
  rw [h]; simp [HashSpec.run]
end Verif
