import Verif.Lemmas.Groestl
namespace Verif.Groestl
open Spec.Groestl (P Q f cols)

theorem kP (r : Nat) (hr : r < 256) (j i : Nat) (hj : j < 16) (hi : i < 8) :
    at8 (le64 ((BitVec.ofNat 64 j <<< 4) ^^^ BitVec.ofNat 64 r)) i = Spec.Groestl.rcP r j i := by
  have : ∀ (r : Byte) (j : Fin 16) (i : Fin 8), at8 (le64 ((BitVec.ofNat 64 j.val <<< 4) ^^^ BitVec.ofNat 64 r.toNat)) i.val = Spec.Groestl.rcP r.toNat j.val i.val := by decide +kernel
  have h := this (BitVec.ofNat 8 r) ⟨j, hj⟩ ⟨i, hi⟩
  rw [BitVec.toNat_ofNat, Nat.mod_eq_of_lt (by omega)] at h
  exact h

theorem kQ (r : Nat) (hr : r < 256) (j i : Nat) (hj : j < 16) (hi : i < 8) :
    at8 (le64 ((0xffffffffffffffff - (BitVec.ofNat 64 j <<< 60)) ^^^ (BitVec.ofNat 64 r <<< 56))) i = Spec.Groestl.rcQ r j i := by
  have : ∀ (r : Byte) (j : Fin 16) (i : Fin 8), at8 (le64 ((0xffffffffffffffff - (BitVec.ofNat 64 j.val <<< 60)) ^^^ (BitVec.ofNat 64 r.toNat <<< 56))) i.val =
      Spec.Groestl.rcQ r.toNat j.val i.val := by decide +kernel
  have h := this (BitVec.ofNat 8 r) ⟨j, hj⟩ ⟨i, hi⟩
  rw [BitVec.toNat_ofNat, Nat.mod_eq_of_lt (by omega)] at h
  exact h

theorem roundP256_eq (r : Nat) (hr : r < 256) (x : List U64) (hx : x.length = 8) :
    uint64sToBytes (roundP_256 x (BitVec.ofNat 64 r)) = Spec.Groestl.round 8 (Spec.Groestl.rcP r) [0, 1, 2, 3, 4, 5, 6, 7] (uint64sToBytes x) :=
  round_eq 8 (by omega) _ _ (fun j i hj hi => kP r hr j i (by omega) hi) 0 1 2 3 4 5 6 7 x hx
theorem roundQ256_eq (r : Nat) (hr : r < 256) (x : List U64) (hx : x.length = 8) :
    uint64sToBytes (roundQ_256 x (BitVec.ofNat 64 r <<< 56)) = Spec.Groestl.round 8 (Spec.Groestl.rcQ r) [1, 3, 5, 7, 0, 2, 4, 6] (uint64sToBytes x) :=
  round_eq 8 (by omega) _ _ (fun j i hj hi => kQ r hr j i (by omega) hi) 1 3 5 7 0 2 4 6 x hx
theorem roundP512_eq (r : Nat) (hr : r < 256) (x : List U64) (hx : x.length = 16) :
    uint64sToBytes (roundP_512 x (BitVec.ofNat 64 r)) = Spec.Groestl.round 16 (Spec.Groestl.rcP r) [0, 1, 2, 3, 4, 5, 6, 11] (uint64sToBytes x) :=
  round_eq 16 (by omega) _ _ (fun j i hj hi => kP r hr j i (by omega) hi) 0 1 2 3 4 5 6 11 x hx
theorem roundQ512_eq (r : Nat) (hr : r < 256) (x : List U64) (hx : x.length = 16) :
    uint64sToBytes (roundQ_512 x (BitVec.ofNat 64 r <<< 56)) = Spec.Groestl.round 16 (Spec.Groestl.rcQ r) [1, 3, 5, 11, 0, 2, 4, 6] (uint64sToBytes x) :=
  round_eq 16 (by omega) _ _ (fun j i hj hi => kQ r hr j i (by omega) hi) 1 3 5 11 0 2 4 6 x hx

theorem roundP256_len (x : List U64) (i : U64) : (roundP_256 x i).length = 8 := by unfold roundP_256; simp
theorem roundQ256_len (x : List U64) (i : U64) : (roundQ_256 x i).length = 8 := by unfold roundQ_256; simp
theorem roundP512_len (x : List U64) (i : U64) : (roundP_512 x i).length = 16 := by unfold roundP_512; simp
theorem roundQ512_len (x : List U64) (i : U64) : (roundQ_512 x i).length = 16 := by unfold roundQ_512; simp

theorem foldl_pairs {α} (g : α → Nat → α) (s : α) (k : Nat) : (List.range (2 * k)).foldl g s = (List.range k).foldl (fun s i => g (g s (2 * i)) (2 * i + 1)) s := by
  induction k with
  | zero => rfl
  | succ k ih => rw [show 2 * (k + 1) = 2 * k + 1 + 1 by omega, List.range_succ, List.range_succ, List.foldl_append, List.foldl_append, ih, List.range_succ, List.foldl_append]; rfl

/-- Pairs of rounds on words follow pairs of rounds on bytes. -/
theorem loop_eq (n k : Nat) (hk : 2 * k ≤ 256) (F : List U64 → Nat → List U64) (G : Bytes → Nat → Bytes)
    (hF : ∀ x r, x.length = n → r < 256 → uint64sToBytes (F x r) = G (uint64sToBytes x) r) (hl : ∀ x r, (F x r).length = n) (x : List U64) (hx : x.length = n) :
    uint64sToBytes ((List.range k).foldl (fun s i => F (F s (2 * i)) (2 * i + 1)) x) = (List.range (2 * k)).foldl G (uint64sToBytes x) ∧
    ((List.range k).foldl (fun s i => F (F s (2 * i)) (2 * i + 1)) x).length = n := by
  rw [foldl_pairs]
  induction k with
  | zero => exact ⟨rfl, hx⟩
  | succ k ih =>
    obtain ⟨i1, i2⟩ := ih (by omega)
    rw [List.range_succ, List.foldl_append, List.foldl_append, ← i1]
    simp only [List.foldl_cons, List.foldl_nil]
    exact ⟨by rw [hF _ _ (hl _ _) (by omega), hF _ _ i2 (by omega)], hl _ _⟩

theorem foldl_pair {α β} (F : α → Nat → α) (G : β → Nat → β) (l : List Nat) (a : α) (b : β) :
    l.foldl (fun (s : α × β) k => (F s.1 k, G s.2 k)) (a, b) = (l.foldl F a, l.foldl G b) := by
  induction l generalizing a b with
  | nil => rfl
  | cons k l ih => exact ih _ _

theorem ofNat_succ (k : Nat) : BitVec.ofNat 64 k + 1 = BitVec.ofNat 64 (k + 1) := by rw [BitVec.ofNat_add]; rfl

theorem P8 (x : List U64) (hx : x.length = 8) :
    uint64sToBytes ((List.range 5).foldl (fun s k => roundP_256 (roundP_256 s (BitVec.ofNat 64 (2 * k))) (BitVec.ofNat 64 (2 * k) + 1)) x) = P 8 (uint64sToBytes x) ∧
    ((List.range 5).foldl (fun s k => roundP_256 (roundP_256 s (BitVec.ofNat 64 (2 * k))) (BitVec.ofNat 64 (2 * k) + 1)) x).length = 8 := by
  simp only [ofNat_succ]
  exact loop_eq 8 5 (by omega) (fun s r => roundP_256 s (BitVec.ofNat 64 r)) (fun st r => Spec.Groestl.round 8 (Spec.Groestl.rcP r) (Spec.Groestl.shP 8) st)
    (fun x r h hr => roundP256_eq r hr x h) (fun x r => roundP256_len x _) x hx
theorem Q8 (x : List U64) (hx : x.length = 8) :
    uint64sToBytes ((List.range 5).foldl (fun s k => roundQ_256 (roundQ_256 s (BitVec.ofNat 64 (2 * k) <<< 56)) ((BitVec.ofNat 64 (2 * k) + 1) <<< 56)) x) = Q 8 (uint64sToBytes x) ∧
    ((List.range 5).foldl (fun s k => roundQ_256 (roundQ_256 s (BitVec.ofNat 64 (2 * k) <<< 56)) ((BitVec.ofNat 64 (2 * k) + 1) <<< 56)) x).length = 8 := by
  simp only [ofNat_succ]
  exact loop_eq 8 5 (by omega) (fun s r => roundQ_256 s (BitVec.ofNat 64 r <<< 56)) (fun st r => Spec.Groestl.round 8 (Spec.Groestl.rcQ r) (Spec.Groestl.shQ 8) st)
    (fun x r h hr => roundQ256_eq r hr x h) (fun x r => roundQ256_len x _) x hx
theorem P16 (x : List U64) (hx : x.length = 16) :
    uint64sToBytes ((List.range 7).foldl (fun s k => roundP_512 (roundP_512 s (BitVec.ofNat 64 (2 * k))) (BitVec.ofNat 64 (2 * k) + 1)) x) = P 16 (uint64sToBytes x) ∧
    ((List.range 7).foldl (fun s k => roundP_512 (roundP_512 s (BitVec.ofNat 64 (2 * k))) (BitVec.ofNat 64 (2 * k) + 1)) x).length = 16 := by
  simp only [ofNat_succ]
  exact loop_eq 16 7 (by omega) (fun s r => roundP_512 s (BitVec.ofNat 64 r)) (fun st r => Spec.Groestl.round 16 (Spec.Groestl.rcP r) (Spec.Groestl.shP 16) st)
    (fun x r h hr => roundP512_eq r hr x h) (fun x r => roundP512_len x _) x hx
theorem Q16 (x : List U64) (hx : x.length = 16) :
    uint64sToBytes ((List.range 7).foldl (fun s k => roundQ_512 (roundQ_512 s (BitVec.ofNat 64 (2 * k) <<< 56)) ((BitVec.ofNat 64 (2 * k) + 1) <<< 56)) x) = Q 16 (uint64sToBytes x) ∧
    ((List.range 7).foldl (fun s k => roundQ_512 (roundQ_512 s (BitVec.ofNat 64 (2 * k) <<< 56)) ((BitVec.ofNat 64 (2 * k) + 1) <<< 56)) x).length = 16 := by
  simp only [ofNat_succ]
  exact loop_eq 16 7 (by omega) (fun s r => roundQ_512 s (BitVec.ofNat 64 r <<< 56)) (fun st r => Spec.Groestl.round 16 (Spec.Groestl.rcQ r) (Spec.Groestl.shQ 16) st)
    (fun x r h hr => roundQ512_eq r hr x h) (fun x r => roundQ512_len x _) x hx

theorem xorW_length (a b : List U64) : (xorW a b).length = min a.length b.length := by unfold xorW; rw [List.length_zipWith]

theorem transform256_eq (h m : List U64) (hh : h.length = 16) (hm : m.length = 16) :
    (uint64sToBytes (transform256 h m)).take 64 = f 8 ((uint64sToBytes h).take 64) ((uint64sToBytes m).take 64) ∧ (transform256 h m).length = 16 := by
  have l1 : (h.take 8).length = 8 := by rw [List.length_take]; omega
  have l2 : (m.take 8).length = 8 := by rw [List.length_take]; omega
  have l3 : (xorW (h.take 8) (m.take 8)).length = 8 := by rw [xorW_length]; omega
  unfold transform256
  dsimp only
  rw [foldl_pair (fun s k => roundP_256 (roundP_256 s (BitVec.ofNat 64 (2 * k))) (BitVec.ofNat 64 (2 * k) + 1))
    (fun s k => roundQ_256 (roundQ_256 s (BitVec.ofNat 64 (2 * k) <<< 56)) ((BitVec.ofNat 64 (2 * k) + 1) <<< 56))]
  dsimp only
  obtain ⟨p1, p2⟩ := P8 _ l3
  obtain ⟨q1, q2⟩ := Q8 _ l2
  generalize (List.range 5).foldl (fun s k => roundP_256 (roundP_256 s (BitVec.ofNat 64 (2 * k))) (BitVec.ofNat 64 (2 * k) + 1)) _ = AP at p1 p2
  generalize (List.range 5).foldl (fun s k => roundQ_256 (roundQ_256 s (BitVec.ofNat 64 (2 * k) <<< 56)) ((BitVec.ofNat 64 (2 * k) + 1) <<< 56)) _ = AQ at q1 q2
  have l4 : (xorW AP AQ).length = 8 := by rw [xorW_length]; omega
  have l5 : (xorW (xorW AP AQ) (h.take 8)).length = 8 := by rw [xorW_length]; omega
  constructor
  · rw [tb_append, List.take_left' (by rw [tb_length, l5]), tb_xor _ _ (by omega), tb_xor _ _ (by omega), p1, q1, tb_xor _ _ (by omega), tb_take, tb_take]
    rfl
  · rw [List.length_append, l5, List.length_drop, hh]

theorem transform512_eq (h m : List U64) (hh : h.length = 16) (hm : m.length = 16) :
    uint64sToBytes (transform512 h m) = f 16 (uint64sToBytes h) (uint64sToBytes m) ∧ (transform512 h m).length = 16 := by
  have l3 : (xorW h m).length = 16 := by rw [xorW_length]; omega
  unfold transform512
  dsimp only
  rw [foldl_pair (fun s k => roundP_512 (roundP_512 s (BitVec.ofNat 64 (2 * k))) (BitVec.ofNat 64 (2 * k) + 1))
    (fun s k => roundQ_512 (roundQ_512 s (BitVec.ofNat 64 (2 * k) <<< 56)) ((BitVec.ofNat 64 (2 * k) + 1) <<< 56))]
  dsimp only
  obtain ⟨p1, p2⟩ := P16 _ l3
  obtain ⟨q1, q2⟩ := Q16 _ hm
  generalize (List.range 7).foldl (fun s k => roundP_512 (roundP_512 s (BitVec.ofNat 64 (2 * k))) (BitVec.ofNat 64 (2 * k) + 1)) _ = AP at p1 p2
  generalize (List.range 7).foldl (fun s k => roundQ_512 (roundQ_512 s (BitVec.ofNat 64 (2 * k) <<< 56)) ((BitVec.ofNat 64 (2 * k) + 1) <<< 56)) _ = AQ at q1 q2
  have l4 : (xorW AP AQ).length = 16 := by rw [xorW_length]; omega
  constructor
  · rw [tb_xor _ _ (by omega), tb_xor _ _ (by omega), p1, q1, tb_xor _ _ (by omega)]
    rfl
  · rw [xorW_length, l4, hh]; rfl

theorem xor_comm (a b : Bytes) : Spec.Groestl.xor a b = Spec.Groestl.xor b a := by
  unfold Spec.Groestl.xor
  exact List.zipWith_comm_of_comm (fun x y => BitVec.xor_comm x y)

/-- Size of a block in bytes. -/
def BL (hs : Nat) : Nat := 8 * cols hs

/-- The part of the state that the block size uses. -/
theorem transform_eq (hs : Nat) (bs : Nat) (hb : bs = 8 * BL hs) (s : List U64) (x : Bytes) (hh : s.length = 16) (hx : x.length = 128) :
    (uint64sToBytes (transform bs s x)).take (BL hs) = f (cols hs) ((uint64sToBytes s).take (BL hs)) (x.take (BL hs)) ∧ (transform bs s x).length = 16 := by
  have hm : (bytesToUint64s x).length = 16 := by rw [bu_length, hx]
  have hbx := tb_bu x 16 hx
  unfold transform
  dsimp only
  unfold BL cols at *
  by_cases hc : hs ≤ 256
  · rw [if_pos hc] at hb ⊢
    rw [if_pos hb]
    have := transform256_eq s _ hh hm
    rw [hbx] at this
    exact this
  · rw [if_neg hc] at hb ⊢
    rw [if_neg (by omega)]
    have := transform512_eq s _ hh hm
    rw [hbx] at this
    rw [List.take_of_length_le (by rw [tb_length, this.2]; omega), List.take_of_length_le (by rw [tb_length, hh]; omega), List.take_of_length_le (by rw [hx]; omega)]
    exact this

theorem output_eq (hs : Nat) (bs : Nat) (hb : bs = 8 * BL hs) (s : List U64) (hh : s.length = 16) :
    (uint64sToBytes (outputTransform bs s)).take (BL hs) =
      Spec.Groestl.xor (P (cols hs) ((uint64sToBytes s).take (BL hs))) ((uint64sToBytes s).take (BL hs)) := by
  unfold outputTransform BL cols at *
  by_cases hc : hs ≤ 256
  · rw [if_pos hc] at hb ⊢
    rw [if_pos hb]
    unfold outputTransform256
    dsimp only
    have l1 : (s.take 8).length = 8 := by rw [List.length_take]; omega
    obtain ⟨p1, p2⟩ := P8 _ l1
    generalize (List.range 5).foldl (fun s k => roundP_256 (roundP_256 s (BitVec.ofNat 64 (2 * k))) (BitVec.ofNat 64 (2 * k) + 1)) _ = AP at p1 p2
    rw [tb_append, List.take_left' (by rw [tb_length, xorW_length]; omega), tb_xor _ _ (by omega), p1, xor_comm, tb_take]
  · rw [if_neg hc] at hb ⊢
    rw [if_neg (by omega)]
    unfold outputTransform512
    dsimp only
    obtain ⟨p1, p2⟩ := P16 _ hh
    generalize (List.range 7).foldl (fun s k => roundP_512 (roundP_512 s (BitVec.ofNat 64 (2 * k))) (BitVec.ofNat 64 (2 * k) + 1)) _ = AP at p1 p2
    rw [List.take_of_length_le (by rw [tb_length, xorW_length]; omega), tb_xor _ _ (by omega), p1, xor_comm, List.take_of_length_le (l := uint64sToBytes s) (by rw [tb_length, hh]; omega)]

end Verif.Groestl
