import Verif.LoopBuf
namespace Verif

/-- The same when blocks are only ever completed from the block boundary. -/
theorem loopWrite_rep0 {σ} (B X : Nat) (hB : 0 < B) (hX : B ≤ X) (R : σ → Bytes → Prop) (blk : σ → Bytes → Nat → σ) (tl : σ → Nat → σ)
    (hblk : ∀ s x m p, R s m → restBlock B m = [] → x.length = X → (restBlock B m).length + p.length = B → x.take B = restBlock B m ++ p →
      fullBlocks B (m ++ p) = fullBlocks B m ++ [restBlock B m ++ p] → restBlock B (m ++ p) = [] → R (blk s x p.length) (m ++ p))
    (htl : ∀ s m p, R s m → (restBlock B m).length + p.length < B → fullBlocks B (m ++ p) = fullBlocks B m → restBlock B (m ++ p) = restBlock B m ++ p →
      R (tl s p.length) (m ++ p))
    (fuel : Nat) (s : σ) (x : Bytes) (nx : Nat) (m p : Bytes) (h : LoopRep B X R s x nx m) (hf : p.length < fuel)
    (h0 : restBlock B m = [] ∨ (restBlock B m).length + p.length < B) :
    LoopRep B X R (loopWrite B blk tl fuel s x nx p).1 (loopWrite B blk tl fuel s x nx p).2.1 (loopWrite B blk tl fuel s x nx p).2.2 (m ++ p) := by
  induction fuel generalizing s x nx m p with
  | zero => omega
  | succ fuel ih =>
    have hlt := h.nx_lt hB
    have hnx := h.hnx
    have hxl := h.xl
    unfold loopWrite
    by_cases hc : nx + p.length ≥ B
    · rw [if_pos hc]
      dsimp only
      have htk : (p.take (B - nx)).length = B - nx := by rw [List.length_take]; omega
      have hlen : (restBlock B m ++ p.take (B - nx)).length = B := by rw [List.length_append, htk]; omega
      obtain ⟨e1, e2⟩ := K12.fullBlocks_rest m (p.take (B - nx)) B hB
      rw [fullBlocks_one _ _ hB hlen] at e1
      have e2' : restBlock B (restBlock B m ++ p.take (B - nx)) = [] := by
        apply List.eq_nil_of_length_eq_zero; rw [restBlock_length, hlen, Nat.mod_self]
      rw [e2'] at e2
      have hcl : (goCopy x nx p).length = X := by rw [goCopy_length _ _ _ (by omega)]; exact hxl
      have hct : (goCopy x nx p).take B = restBlock B m ++ p.take (B - nx) := by
        unfold goCopy
        rw [h.pend, hxl]
        by_cases hpl : p.length ≤ X - nx
        · rw [List.take_of_length_le (l := p) hpl, List.append_assoc, List.take_append, ← hnx, List.take_of_length_le (by omega),
            List.take_append_of_le_length (by omega)]
        · rw [List.append_assoc, List.take_append, ← hnx, List.take_of_length_le (by omega), List.take_append_of_le_length (by rw [List.length_take]; omega),
            List.take_take, Nat.min_eq_left (by omega)]
      have hs := hblk s (goCopy x nx p) m (p.take (B - nx)) h.st (h0.resolve_right (by omega)) hcl (by rw [← List.length_append]; exact hlen) hct e1 e2
      rw [htk] at hs
      have := ih (blk s (goCopy x nx p) (B - nx)) (goCopy x nx p) 0 (m ++ p.take (B - nx)) (p.drop (B - nx))
        ⟨hs, hcl, by rw [e2]; rfl, by rw [e2]; rfl⟩ (by rw [List.length_drop]; omega) (.inl e2)
      rw [List.append_assoc, List.take_append_drop] at this
      exact this
    · rw [if_neg hc]
      obtain ⟨e1, e2⟩ := K12.fullBlocks_rest m p B hB
      have hl : (restBlock B m ++ p).length < B := by rw [List.length_append]; omega
      rw [fullBlocks_lt _ _ hl, List.append_nil] at e1
      rw [restBlock_lt _ _ hl] at e2
      refine ⟨htl s m p h.st (by omega) e1 e2, ?_, ?_, ?_⟩
      · show (goCopy x nx p).length = X; rw [goCopy_length _ _ _ (by omega)]; exact hxl
      · show nx + p.length = _; rw [e2, List.length_append]; omega
      · show (goCopy x nx p).take (nx + p.length) = _
        rw [e2, ← h.pend, goCopy_take _ _ _ (by omega)]

end Verif
