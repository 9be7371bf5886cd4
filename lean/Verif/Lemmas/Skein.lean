import Verif.Lazy
import Verif.Spec.Skein
import Verif.Model.Skein
import Verif.Lemmas.Threefish
namespace Verif.Skein
open Verif.Threefish

/-- `update` on the bytes of a block. -/
def absorb (k : Code) (c : Chain) (b : Bytes) : Chain := update k c (bytesToBlock k.n b)

theorem bytesToBlock_take (n : Nat) (b : Bytes) : bytesToBlock n (b.take (8 * n)) = bytesToBlock n b := by
  unfold bytesToBlock
  apply List.map_congr_left
  intro i hi
  rw [List.mem_range] at hi
  have : ∀ j, j < 8 → at8 (b.take (8 * n)) (8 * i + j) = at8 b (8 * i + j) := by
    intro j hj
    unfold at8
    rw [List.getD_eq_getElem?_getD, List.getElem?_take, if_pos (by omega), ← List.getD_eq_getElem?_getD]
  unfold getLE64
  simp only [this 1 (by decide), this 2 (by decide), this 3 (by decide), this 4 (by decide), this 5 (by decide),
    this 6 (by decide), this 7 (by decide)]
  have h0 := this 0 (by decide)
  rw [Nat.add_zero] at h0
  simp only [h0]

theorem foldl_congr' {α β : Type} {f g : α → β → α} {l : List β} (h : ∀ a, ∀ b ∈ l, f a b = g a b) (a : α) :
    l.foldl f a = l.foldl g a := by
  induction l generalizing a with
  | nil => rfl
  | cons x l ih =>
    rw [List.foldl_cons, List.foldl_cons, h a x List.mem_cons_self]
    exact ih (fun a b hb => h a b (List.mem_cons_of_mem _ hb)) _

theorem blocksLoop_eq (k : Code) (hk : 0 < k.n) (c : Chain) (p : Bytes) (nn : Nat) (hn : nn % (8 * k.n) = 0) (hp : nn ≤ p.length) :
    blocksLoop k c p nn = (fullBlocks (8 * k.n) (p.take nn)).foldl (absorb k) c := by
  unfold blocksLoop fullBlocks forLoop
  rw [List.foldl_map, Nat.sub_zero, ← List.range_eq_range', List.length_take, Nat.min_eq_left hp]
  apply foldl_congr'
  intro c i hi
  rw [List.mem_range] at hi
  unfold absorb
  congr 1
  rw [← bytesToBlock_take]
  congr 1
  rw [List.drop_take, List.take_take, Nat.min_eq_left]
  have h1 := Nat.div_add_mod nn (8 * k.n)
  have : (i + 1) * (8 * k.n) ≤ nn / (8 * k.n) * (8 * k.n) := Nat.mul_le_mul_right _ hi
  rw [Nat.add_mul, Nat.one_mul] at this
  rw [Nat.mul_comm] at h1
  omega

/-- What the digest holds after the bytes `m`, started from the chain `c0`. -/
structure Repr (k : Code) (c0 : Chain) (s : HashFunc) (m : Bytes) : Prop where
  chain : s.c = (initBlocks (8 * k.n) m).foldl (absorb k) c0
  buf : LazyRepr (8 * k.n) s.block s.off m

/-- The bulk of `Write` when the buffer is empty. -/
theorem writeBody_eq (k : Code) (hk : 0 < k.n) (s : HashFunc) (p : Bytes) :
    writeBody k s p = ({ s with c := (initBlocks (8 * k.n) p).foldl (absorb k) s.c }, lastBlock (8 * k.n) p) := by
  have hB : 0 < 8 * k.n := by omega
  unfold writeBody
  by_cases h : 8 * k.n < p.length
  · rw [if_pos h]
    have e : (if p.length = p.length / (8 * k.n) * (8 * k.n) then p.length / (8 * k.n) * (8 * k.n) - 8 * k.n
        else p.length / (8 * k.n) * (8 * k.n)) = (p.length - 1) / (8 * k.n) * (8 * k.n) := by
      have h1 := Nat.div_add_mod p.length (8 * k.n)
      have h2 := Nat.mod_lt p.length hB
      rw [Nat.mul_comm] at h1
      split
      · next h3 =>
        have : (p.length - 1) / (8 * k.n) = p.length / (8 * k.n) - 1 := by
          apply Nat.div_eq_of_lt_le
          · rw [Nat.sub_mul]; omega
          · have : 0 < p.length / (8 * k.n) := Nat.div_pos (by omega) hB
            rw [Nat.sub_add_cancel this]; omega
        rw [this, Nat.sub_mul, Nat.one_mul]
      · next h3 =>
        congr 1
        symm
        apply Nat.div_eq_of_lt_le
        · omega
        · rw [Nat.add_mul, Nat.one_mul]; omega
    simp only [e]
    have hle : (p.length - 1) / (8 * k.n) * (8 * k.n) ≤ p.length := by
      have := Nat.div_mul_le_self (p.length - 1) (8 * k.n); omega
    rw [blocksLoop_eq k hk _ _ _ (Nat.mul_mod_left _ _) hle]
    rfl
  · rw [if_neg h, initBlocks_le hB (by omega), lastBlock_le hB (by omega)]; rfl

theorem goCopy_take_zero {x q : Bytes} (h : q.length ≤ x.length) : (goCopy x 0 q).take q.length = q := by
  unfold goCopy
  rw [Nat.sub_zero, List.take_zero, List.nil_append, List.take_of_length_le (l := q) h, List.take_left]

theorem goCopy_take_off {x q : Bytes} {off : Nat} (h : off + q.length ≤ x.length) :
    (goCopy x off q).take (off + q.length) = x.take off ++ q := by
  unfold goCopy
  rw [List.take_of_length_le (l := q) (by omega), List.take_left' (by simp; omega)]

/-- The rest of `Write` from an empty buffer. -/
theorem tail_repr (k : Code) (hk : 0 < k.n) {c0 : Chain} (t : HashFunc) (q M : Bytes) (hxl : t.block.length = 8 * k.n) (ho : t.off = 0)
    (h1 : (initBlocks (8 * k.n) q).foldl (absorb k) t.c = (initBlocks (8 * k.n) M).foldl (absorb k) c0)
    (h2 : lastBlock (8 * k.n) M = lastBlock (8 * k.n) q) :
    Repr k c0 (writeTail (writeBody k t q).1 (writeBody k t q).2) M := by
  have hB : 0 < 8 * k.n := by omega
  have hq := (lastBlock_length (8 * k.n) q hB).1
  rw [writeBody_eq k hk]
  unfold writeTail
  dsimp only
  split
  · refine ⟨h1, ⟨?_, ?_, ?_⟩⟩
    · dsimp only; rw [goCopy_length _ _ _ (by omega), hxl]
    · dsimp only; rw [h2, hxl]; omega
    · dsimp only
      rw [h2, hxl, ho, show 0 + min (lastBlock (8 * k.n) q).length (8 * k.n - 0) = (lastBlock (8 * k.n) q).length by omega]
      exact goCopy_take_zero (by omega)
  · next hz =>
    have e0 : lastBlock (8 * k.n) q = [] := List.length_eq_zero_iff.1 (by omega)
    refine ⟨h1, ⟨hxl, ?_, ?_⟩⟩
    · dsimp only; rw [h2, e0, ho]; rfl
    · dsimp only; rw [h2, e0, ho]; rfl

theorem write_fields (k : Code) (s : HashFunc) (p : Bytes) :
    (write k s p).hasMsg = true ∧ (write k s p).hashsize = s.hashsize ∧ (write k s p).hValCpy = s.hValCpy := by
  have hh : ∀ s p, (writeHead k s p).1.hasMsg = s.hasMsg ∧ (writeHead k s p).1.hashsize = s.hashsize ∧
      (writeHead k s p).1.hValCpy = s.hValCpy := by
    intro s p
    unfold writeHead
    dsimp only
    split
    · split <;> exact ⟨rfl, rfl, rfl⟩
    · exact ⟨rfl, rfl, rfl⟩
  have hb : ∀ s p, (writeBody k s p).1.hasMsg = s.hasMsg ∧ (writeBody k s p).1.hashsize = s.hashsize ∧
      (writeBody k s p).1.hValCpy = s.hValCpy := by
    intro s p
    unfold writeBody
    split <;> exact ⟨rfl, rfl, rfl⟩
  have ht : ∀ s p, (writeTail s p).hasMsg = s.hasMsg ∧ (writeTail s p).hashsize = s.hashsize ∧
      (writeTail s p).hValCpy = s.hValCpy := by
    intro s p
    unfold writeTail
    split <;> exact ⟨rfl, rfl, rfl⟩
  unfold write
  dsimp only
  rw [(ht _ _).1, (ht _ _).2.1, (ht _ _).2.2, (hb _ _).1, (hb _ _).2.1, (hb _ _).2.2, (hh _ _).1, (hh _ _).2.1, (hh _ _).2.2]
  simp

theorem write_repr (k : Code) (hk : 0 < k.n) {c0 : Chain} {s : HashFunc} {m : Bytes} (h : Repr k c0 s m) (p : Bytes) :
    Repr k c0 (write k s p) (m ++ p) := by
  have hB : 0 < 8 * k.n := by omega
  obtain ⟨hc, hx, ho, ht⟩ := h
  have hll := (lastBlock_length (8 * k.n) m hB).1
  unfold write
  by_cases h1 : 0 < s.off ∧ 8 * k.n - s.off < p.length
  · have hlp : (p.take (8 * k.n - s.off)).length = 8 * k.n - s.off := by rw [List.length_take]; omega
    have hdp : 0 < (p.drop (8 * k.n - s.off)).length := by rw [List.length_drop]; omega
    have hbig := lazy_big (B := 8 * k.n) (m := m) (p := p) hB (by omega)
    rw [← ho] at hbig
    have hcp : goCopy s.block s.off (p.take (8 * k.n - s.off)) = lastBlock (8 * k.n) m ++ p.take (8 * k.n - s.off) := by
      have := goCopy_take_off (x := s.block) (q := p.take (8 * k.n - s.off)) (off := s.off) (by omega)
      rw [hlp, show s.off + (8 * k.n - s.off) = 8 * k.n by omega, List.take_of_length_le, ht] at this
      · exact this
      · rw [goCopy_length _ _ _ (by omega), hx]; exact Nat.le_refl _
    have hhead : writeHead k { s with hasMsg := true } p =
        ({ s with hasMsg := true, block := goCopy s.block s.off (p.take (8 * k.n - s.off)),
                  c := update k s.c (bytesToBlock k.n (goCopy s.block s.off (p.take (8 * k.n - s.off)))), off := 0 },
          p.drop (8 * k.n - s.off)) := by
      unfold writeHead
      dsimp only
      rw [if_pos h1, if_pos ⟨by rw [hlp]; omega, hdp⟩]
    rw [hhead]
    dsimp only
    refine tail_repr k hk _ _ _ ?_ rfl ?_ hbig.2
    · dsimp only; rw [goCopy_length _ _ _ (by omega), hx]
    · dsimp only; rw [hbig.1, List.foldl_append, List.foldl_cons, ← hc, hcp]; rfl
  · have hhead : writeHead k { s with hasMsg := true } p = ({ s with hasMsg := true }, p) := by
      unfold writeHead; dsimp only; rw [if_neg h1]
    rw [hhead]
    dsimp only
    by_cases h0 : s.off = 0
    · have e0 : lastBlock (8 * k.n) m = [] := List.length_eq_zero_iff.1 (by omega)
      have hm : m = [] := by
        apply Classical.byContradiction
        intro hm
        have := (lastBlock_length (8 * k.n) m hB).2 hm
        omega
      subst hm
      refine tail_repr k hk _ _ _ hx h0 ?_ rfl
      dsimp only
      rw [hc, initBlocks_le hB (by simp)]; rfl
    · have hs := lazy_small (B := 8 * k.n) (m := m) (p := p) hB (by omega)
      have hbody : writeBody k { s with hasMsg := true } p = ({ s with hasMsg := true }, p) := by
        unfold writeBody; rw [if_neg (by omega)]
      rw [hbody]
      unfold writeTail
      dsimp only
      split
      · refine ⟨?_, ⟨?_, ?_, ?_⟩⟩
        · rw [hs.1]; exact hc
        · dsimp only; rw [goCopy_length _ _ _ (by omega), hx]
        · dsimp only; rw [hs.2, List.length_append, hx]; omega
        · dsimp only
          rw [hs.2, ← ht, hx, show min p.length (8 * k.n - s.off) = p.length by omega]
          exact goCopy_take_off (by omega)
      · next hz =>
        have : p = [] := List.length_eq_zero_iff.1 (by omega)
        subst this
        rw [List.append_nil]
        exact ⟨hc, ⟨hx, ho, ht⟩⟩

/-- The last step of a UBI chain. -/
def finish (k : Code) (c : Chain) (last : Bytes) : Chain :=
  let c := incrementTweak c (BitVec.ofNat 64 last.length)
  (ubi k (bytesToBlock k.n (last ++ zeros (8 * k.n - last.length))) { c with t1 := c.t1 ||| finalBlock }).2

theorem finalizeHash_eq (k : Code) {c0 : Chain} {s : HashFunc} {m : Bytes} (h : Repr k c0 s m) :
    (finalizeHash k s).c = finish k ((initBlocks (8 * k.n) m).foldl (absorb k) c0) (lastBlock (8 * k.n) m) ∧
    (finalizeHash k s).block.length = 8 * k.n ∧ (finalizeHash k s).off = 0 ∧ (finalizeHash k s).hashsize = s.hashsize ∧
    (finalizeHash k s).hValCpy = s.hValCpy := by
  obtain ⟨hc, hx, ho, ht⟩ := h
  unfold finalizeHash finish
  simp only
  rw [hc, ho, hx]
  have : s.block.take (lastBlock (8 * k.n) m).length = lastBlock (8 * k.n) m := by rw [← ho]; exact ht
  rw [this]
  refine ⟨rfl, ?_, True.intro, True.intro, True.intro⟩
  have : (lastBlock (8 * k.n) m).length ≤ 8 * k.n := by
    have := congrArg List.length ht; rw [List.length_take] at this; omega
  simp; omega

/-! ### UBI -/

/-- The second tweak word of the code. -/
def T1 (ty : Nat) (first final : Bool) : U64 :=
  (BitVec.ofNat 64 ty <<< 56) ||| (if first then firstBlock else 0#64) ||| (if final then finalBlock else 0#64)

theorem T1_nat : ∀ ty, ty < 64 → ∀ f g : Bool,
    T1 ty f g = BitVec.ofNat 64 (ty * 2 ^ 56 + f.toNat * 2 ^ 62 + g.toNat * 2 ^ 63) := by decide +kernel
theorem T1_clear : ∀ ty, ty < 64 → ∀ f g : Bool, T1 ty f g &&& ~~~firstBlock = T1 ty false g := by decide +kernel
theorem T1_final : ∀ ty, ty < 64 → ∀ f g : Bool, T1 ty f g ||| finalBlock = T1 ty f true := by decide +kernel

theorem tweak_lo (pos ty : Nat) (f g : Bool) : BitVec.ofNat 64 (Spec.Skein.tweak pos ty f g) = BitVec.ofNat 64 pos := by
  unfold Spec.Skein.tweak
  apply BitVec.eq_of_toNat_eq
  rw [BitVec.toNat_ofNat, BitVec.toNat_ofNat]
  rw [show pos + ty * 2 ^ 120 + f.toNat * 2 ^ 126 + g.toNat * 2 ^ 127 =
    pos + 2 ^ 64 * (ty * 2 ^ 56 + f.toNat * 2 ^ 62 + g.toNat * 2 ^ 63) by omega, Nat.add_mul_mod_self_left]

theorem tweak_hi {pos ty : Nat} (hp : pos < 2 ^ 64) (ht : ty < 64) (f g : Bool) :
    BitVec.ofNat 64 (Spec.Skein.tweak pos ty f g / 2 ^ 64) = T1 ty f g := by
  unfold Spec.Skein.tweak
  rw [T1_nat ty ht]
  rw [show pos + ty * 2 ^ 120 + f.toNat * 2 ^ 126 + g.toNat * 2 ^ 127 =
    pos + 2 ^ 64 * (ty * 2 ^ 56 + f.toNat * 2 ^ 62 + g.toNat * 2 ^ 63) by omega,
    Nat.add_mul_div_left _ _ (by decide), Nat.div_eq_of_lt hp, Nat.zero_add]

theorem encrypt_length (n : Nat) (key : List U64) (t0 t1 : U64) (b : List U64) : (Spec.Threefish.encrypt n key t0 t1 b).length = n := by
  simp [Spec.Threefish.encrypt]

theorem words_length (n : Nat) (b : Bytes) : (Spec.Skein.words n b).length = n := by simp [Spec.Skein.words]

theorem ubiBlock_length (n : Nat) (H : List U64) (t : Nat) (b : Bytes) : (Spec.Skein.ubiBlock n H t b).length = n := by
  simp [Spec.Skein.ubiBlock, encrypt_length, words_length]

theorem ubi_spec {k : Code} (h : k.Std) (b : Bytes) (G : List U64) (pos ty : Nat) (f g : Bool) (hG : G.length = k.n)
    (hp : pos < 2 ^ 64) (ht : ty < 64) :
    (ubi k (bytesToBlock k.n b) ⟨G, BitVec.ofNat 64 pos, T1 ty f g⟩).2 =
      ⟨Spec.Skein.ubiBlock k.n G (Spec.Skein.tweak pos ty f g) b, BitVec.ofNat 64 pos, T1 ty f g⟩ := by
  unfold ubi Spec.Skein.ubiBlock
  simp only
  rw [encryptWords_spec h _ _ _ _ hG, tweak_lo, tweak_hi hp ht]
  rfl

theorem incrementTweak_eq {G : List U64} {pos d : Nat} {t : U64} (h : pos + d < 2 ^ 64) :
    incrementTweak ⟨G, BitVec.ofNat 64 pos, t⟩ (BitVec.ofNat 64 d) = ⟨G, BitVec.ofNat 64 (pos + d), t⟩ := by
  unfold incrementTweak
  dsimp only
  rw [← BitVec.ofNat_add, if_neg]
  rw [BitVec.lt_def, BitVec.toNat_ofNat, BitVec.toNat_ofNat, Nat.mod_eq_of_lt h, Nat.mod_eq_of_lt (by omega)]
  omega

/-- One step of the specification's fold. -/
def sstep (n : Nat) (M : Bytes) (ty kk : Nat) (H : List U64) (i : Nat) : List U64 :=
  Spec.Skein.ubiBlock n H (Spec.Skein.tweak (min M.length ((i + 1) * (8 * n))) ty (decide (i = 0)) (decide (i + 1 = kk)))
    (((M ++ zeros (kk * (8 * n) - M.length)).drop (i * (8 * n))).take (8 * n))

theorem sstep_def (n : Nat) (M : Bytes) (ty kk : Nat) (H : List U64) (i : Nat) : sstep n M ty kk H i =
  Spec.Skein.ubiBlock n H (Spec.Skein.tweak (min M.length ((i + 1) * (8 * n))) ty (decide (i = 0)) (decide (i + 1 = kk)))
    (((M ++ zeros (kk * (8 * n) - M.length)).drop (i * (8 * n))).take (8 * n)) := rfl

theorem ubi_unfold (n : Nat) (hn : 0 < n) (G : List U64) (M : Bytes) (ty : Nat) :
    Spec.Skein.ubi n G M ty = (List.range ((M.length - 1) / (8 * n) + 1)).foldl (sstep n M ty ((M.length - 1) / (8 * n) + 1)) G := by
  have e : max 1 ((M.length + 8 * n - 1) / (8 * n)) = (M.length - 1) / (8 * n) + 1 := by
    by_cases h : M.length = 0
    · rw [h, Nat.div_eq_of_lt (by omega), Nat.zero_sub, Nat.zero_div]; rfl
    · rw [show M.length + 8 * n - 1 = M.length - 1 + 8 * n by omega, Nat.add_div_right _ (by omega)]; exact Nat.max_eq_right (Nat.le_add_left _ _)
  unfold Spec.Skein.ubi
  simp only
  rw [e]
  rfl

theorem sfold_length (n : Nat) (M : Bytes) (ty kk : Nat) (G : List U64) (hG : G.length = n) (j : Nat) :
    ((List.range j).foldl (sstep n M ty kk) G).length = n := by
  induction j with
  | zero => exact hG
  | succ j ih => rw [List.range_succ, List.foldl_append]; exact ubiBlock_length _ _ _ _

theorem initBlocks_range (B : Nat) (hB : 0 < B) (M : Bytes) :
    initBlocks B M = (List.range ((M.length - 1) / B)).map fun i => (M.drop (i * B)).take B := by
  have hle : (M.length - 1) / B * B ≤ M.length := by have := Nat.div_mul_le_self (M.length - 1) B; omega
  unfold initBlocks fullBlocks
  rw [List.length_take, Nat.min_eq_left hle, Nat.mul_div_cancel _ hB]
  apply List.map_congr_left
  intro i hi
  rw [List.mem_range] at hi
  rw [List.drop_take, List.take_take, Nat.min_eq_left]
  have : (i + 1) * B ≤ (M.length - 1) / B * B := Nat.mul_le_mul_right _ hi
  rw [Nat.add_mul, Nat.one_mul] at this
  omega

theorem absorb_spec {k : Code} (h : k.Std) (G : List U64) (hG : G.length = k.n) (M : Bytes) (ty : Nat) (ht : ty < 64)
    (hM : M.length < 2 ^ 64) (j : Nat) (hj : j ≤ (M.length - 1) / (8 * k.n)) :
    (List.range j).foldl (fun c i => absorb k c ((M.drop (i * (8 * k.n))).take (8 * k.n))) ⟨G, 0#64, T1 ty true false⟩ =
      ⟨(List.range j).foldl (sstep k.n M ty ((M.length - 1) / (8 * k.n) + 1)) G, BitVec.ofNat 64 (j * (8 * k.n)),
        T1 ty (decide (j = 0)) false⟩ := by
  induction j with
  | zero => simp
  | succ j ih =>
    have hq := Nat.div_mul_le_self (M.length - 1) (8 * k.n)
    have hj1 : (j + 1) * (8 * k.n) ≤ (M.length - 1) / (8 * k.n) * (8 * k.n) := Nat.mul_le_mul_right _ hj
    have hle : (j + 1) * (8 * k.n) ≤ M.length := by omega
    have hj2 : (j + 1) * (8 * k.n) = j * (8 * k.n) + 8 * k.n := by rw [Nat.add_mul, Nat.one_mul]
    rw [List.range_succ, List.foldl_append, List.foldl_append, ih (by omega)]
    simp only [List.foldl_cons, List.foldl_nil]
    have hblk : (M.drop (j * (8 * k.n))).take (8 * k.n) =
        ((M ++ zeros (((M.length - 1) / (8 * k.n) + 1) * (8 * k.n) - M.length)).drop (j * (8 * k.n))).take (8 * k.n) := by
      rw [List.drop_append_of_le_length (by omega), List.take_append_of_le_length (by rw [List.length_drop]; omega)]
    unfold absorb update
    dsimp only
    rw [incrementTweak_eq (by omega), ← hj2, ubi_spec h _ _ _ _ _ _ (sfold_length _ _ _ _ _ hG _) (by omega) ht]
    rw [T1_clear ty ht]
    congr 1
    rw [sstep_def (i := j)]
    rw [hblk, Nat.min_eq_right hle, show decide (j + 1 = (M.length - 1) / (8 * k.n) + 1) = false from decide_eq_false (by omega)]

/-- Streaming a message through `update` and `finalizeHash` is UBI. -/
theorem finish_spec {k : Code} (h : k.Std) (G : List U64) (hG : G.length = k.n) (M : Bytes) (ty : Nat) (ht : ty < 64)
    (hM : M.length < 2 ^ 64) :
    (finish k ((initBlocks (8 * k.n) M).foldl (absorb k) ⟨G, 0#64, T1 ty true false⟩) (lastBlock (8 * k.n) M)).hVal =
      Spec.Skein.ubi k.n G M ty := by
  have hn : 0 < k.n := by have := h.n2; omega
  have hB : 0 < 8 * k.n := by omega
  have hll := (lastBlock_length (8 * k.n) M hB).1
  have hq := Nat.div_mul_le_self (M.length - 1) (8 * k.n)
  have hlen : (M.length - 1) / (8 * k.n) * (8 * k.n) + (lastBlock (8 * k.n) M).length = M.length := by
    unfold lastBlock; rw [List.length_drop]; omega
  rw [initBlocks_range _ hB, List.foldl_map, absorb_spec h G hG M ty ht hM _ (Nat.le_refl _), ubi_unfold _ hn, List.range_succ,
    List.foldl_append]
  simp only [List.foldl_cons, List.foldl_nil]
  unfold finish
  dsimp only
  rw [incrementTweak_eq (by omega), hlen]
  dsimp only
  rw [T1_final ty ht, ubi_spec h _ _ _ _ _ _ (sfold_length _ _ _ _ _ hG _) hM ht]
  dsimp only
  rw [sstep_def]
  have hq1 : M.length ≤ ((M.length - 1) / (8 * k.n) + 1) * (8 * k.n) := by rw [Nat.add_mul, Nat.one_mul]; omega
  rw [Nat.min_eq_left hq1, show decide ((M.length - 1) / (8 * k.n) + 1 = (M.length - 1) / (8 * k.n) + 1) = true from decide_eq_true rfl]
  congr 1
  rw [List.drop_append_of_le_length (by omega)]
  have e : ((M.length - 1) / (8 * k.n) + 1) * (8 * k.n) - M.length = 8 * k.n - (lastBlock (8 * k.n) M).length := by
    rw [Nat.add_mul, Nat.one_mul]; omega
  rw [e]
  symm
  apply List.take_of_length_le
  rw [List.length_append, zeros_length, List.length_drop]
  omega

/-! ### Output -/

theorem ubi_short (n : Nat) (hn : 0 < n) (G : List U64) (M : Bytes) (ty : Nat) (h : M.length ≤ 8 * n) :
    Spec.Skein.ubi n G M ty = Spec.Skein.ubiBlock n G (Spec.Skein.tweak M.length ty true true) (M ++ zeros (8 * n - M.length)) := by
  have e : (M.length - 1) / (8 * n) = 0 := Nat.div_eq_of_lt (by omega)
  rw [ubi_unfold n hn, e]
  simp only [Nat.zero_add, List.range_one, List.foldl_cons, List.foldl_nil]
  rw [sstep_def, Nat.zero_add, Nat.one_mul, Nat.zero_mul, List.drop_zero, Nat.min_eq_left h, List.take_of_length_le]
  · rfl
  · simp; omega

theorem ubi_length (n : Nat) (hn : 0 < n) (G : List U64) (M : Bytes) (ty : Nat) : (Spec.Skein.ubi n G M ty).length = n := by
  rw [ubi_unfold n hn, List.range_succ, List.foldl_append]; exact ubiBlock_length _ _ _ _

theorem words_counter (n : Nat) (hn : 0 < n) (x : U64) :
    bytesToBlock n (le64 x ++ zeros (8 * n - 8)) = x :: List.replicate (n - 1) 0#64 := by
  obtain ⟨n, rfl⟩ : ∃ k, n = k + 1 := ⟨n - 1, by omega⟩
  unfold bytesToBlock
  rw [List.range_succ_eq_map, List.map_cons, List.map_map]
  congr 1
  · apply le64_inj
    rw [le64_getLE64_at _ _ (by simp [le64])]
    simp [le64]
  · apply List.ext_getElem (by simp)
    intro i h1 h2
    simp only [List.getElem_map, List.getElem_range, Function.comp_apply, List.getElem_replicate]
    have : ∀ j, at8 (le64 x ++ zeros (8 * (n + 1) - 8)) (8 + j) = 0#8 := by
      intro j
      unfold at8
      rw [List.getD_eq_getElem?_getD, List.getElem?_append_right (by simp [le64]), show (le64 x).length = 8 by simp [le64],
        show 8 + j - 8 = j by omega]
      unfold zeros
      rw [List.getElem?_replicate]
      split <;> rfl
    unfold getLE64
    rw [show 8 * (i + 1) = 8 + 8 * i by omega]
    simp only [Nat.add_assoc, this]
    rfl

theorem zipWith_counter (b : List U64) (n : Nat) (hn : 0 < n) (hb : b.length = n) (x : U64) :
    List.zipWith (· ^^^ ·) b (x :: List.replicate (n - 1) 0#64) = b.set 0 (b.getD 0 0#64 ^^^ x) := by
  cases b with
  | nil => rw [List.length_nil] at hb; omega
  | cons y b =>
    rw [List.length_cons] at hb
    rw [List.zipWith_cons_cons, List.set_cons_zero]
    congr 1
    rw [← hb, Nat.add_sub_cancel]
    clear hb
    induction b with
    | nil => rfl
    | cons z b ih => rw [List.length_cons, List.replicate_succ, List.zipWith_cons_cons, ih, BitVec.xor_zero]

theorem output_spec {k : Code} (h : k.Std) (s : HashFunc) (hs : s.c.hVal.length = k.n) (ctr : U64) :
    output k s ctr = (Spec.Skein.ubi k.n s.c.hVal (le64 ctr) 63).flatMap le64 := by
  have hn : 0 < k.n := by have := h.n2; omega
  have h8 : (le64 ctr).length = 8 := by simp [le64]
  rw [ubi_short _ hn _ _ _ (by omega), h8]
  have h1 := ubi_spec h (le64 ctr ++ zeros (8 * k.n - 8)) s.c.hVal 8 63 true true hs (by decide) (by decide)
  have h2 := congrArg Chain.hVal h1
  dsimp only at h2
  rw [← h2, words_counter _ hn]
  unfold output
  simp only
  have e1 : ((63#64 <<< 56) ||| firstBlock ||| finalBlock : U64) = T1 63 true true := by decide
  rw [e1]
  unfold blockToBytes
  congr 1
  unfold ubi
  simp only
  rw [zipWith_counter _ _ hn (by rw [encryptWords_spec h _ _ _ _ hs]; exact encrypt_length _ _ _ _ _)]
  rfl

theorem outLoop_spec (k : Code) (hn : 0 < k.n) (s : HashFunc) (size : Nat) : ∀ fuel j b,
    (size + 8 * k.n - 1) / (8 * k.n) ≤ fuel + j → j ≤ (size + 8 * k.n - 1) / (8 * k.n) →
    outLoop k s fuel ((size : Int) - ((j * (8 * k.n) : Nat) : Int)) (BitVec.ofNat 64 j) b =
      b ++ (List.range' j ((size + 8 * k.n - 1) / (8 * k.n) - j)).flatMap fun i => output k s (BitVec.ofNat 64 i) := by
  intro fuel
  have hB : 0 < 8 * k.n := by omega
  have h1 := Nat.div_add_mod (size + 8 * k.n - 1) (8 * k.n)
  have h2 := Nat.mod_lt (size + 8 * k.n - 1) hB
  rw [Nat.mul_comm] at h1
  induction fuel with
  | zero =>
    intro j b hf hj
    rw [show (size + 8 * k.n - 1) / (8 * k.n) - j = 0 by omega]
    simp [outLoop]
  | succ fuel ih =>
    intro j b hf hj
    unfold outLoop
    by_cases hlt : j < (size + 8 * k.n - 1) / (8 * k.n)
    · have h3 : (j + 1) * (8 * k.n) ≤ (size + 8 * k.n - 1) / (8 * k.n) * (8 * k.n) := Nat.mul_le_mul_right _ hlt
      rw [Nat.add_mul, Nat.one_mul] at h3
      rw [if_pos (by omega)]
      have e : (size : Int) - ((j * (8 * k.n) : Nat) : Int) - 8 * (k.n : Int) = (size : Int) - (((j + 1) * (8 * k.n) : Nat) : Int) := by
        rw [Nat.add_mul, Nat.one_mul]; omega
      have e2 : BitVec.ofNat 64 j + 1 = BitVec.ofNat 64 (j + 1) := by rw [BitVec.ofNat_add]; rfl
      rw [e, e2, ih (j + 1) _ (by omega) (by omega)]
      rw [show (size + 8 * k.n - 1) / (8 * k.n) - j = ((size + 8 * k.n - 1) / (8 * k.n) - (j + 1)) + 1 by omega, List.range'_succ,
        List.flatMap_cons, List.append_assoc]
    · have : j = (size + 8 * k.n - 1) / (8 * k.n) := by omega
      have h3 : j * (8 * k.n) = (size + 8 * k.n - 1) / (8 * k.n) * (8 * k.n) := by rw [this]
      rw [if_neg (by omega), this, Nat.sub_self]
      simp

theorem checkOut_spec {k : Code} (h : k.Std) (s : HashFunc) (hs : s.c.hVal.length = k.n) :
    (outLoop k s (s.hashsize + 1) s.hashsize 0 []).take s.hashsize = Spec.Skein.output k.n s.c.hVal s.hashsize := by
  have hn : 0 < k.n := by have := h.n2; omega
  have hf : (s.hashsize + 8 * k.n - 1) / (8 * k.n) ≤ s.hashsize + 1 + 0 := by
    apply Nat.le_of_lt_succ
    apply Nat.div_lt_of_lt_mul
    have : 8 * k.n * (s.hashsize + 1 + 0).succ = 8 * k.n * s.hashsize + 2 * (8 * k.n) := by
      rw [show (s.hashsize + 1 + 0).succ = s.hashsize + 2 by omega, Nat.mul_add]; omega
    rw [this]
    have : s.hashsize ≤ 8 * k.n * s.hashsize := Nat.le_mul_of_pos_left _ (by omega)
    omega
  have := outLoop_spec k hn s s.hashsize (s.hashsize + 1) 0 [] hf (Nat.zero_le _)
  rw [Nat.zero_mul] at this
  simp only [Int.natCast_zero, Int.sub_zero, Nat.sub_zero, List.nil_append] at this
  rw [show (0 : U64) = BitVec.ofNat 64 0 from rfl, this, ← List.range_eq_range']
  unfold Spec.Skein.output
  congr 2
  funext i
  exact output_spec h s hs _

/-! ### Initialisation -/

/-- Between two stages of `initialize`. -/
structure Idle (k : Code) (s : HashFunc) (G : List U64) : Prop where
  block : s.block.length = 8 * k.n
  off : s.off = 0
  chain : s.c.hVal = G
  len : G.length = k.n

theorem Idle.repr {k : Code} {s : HashFunc} {G : List U64} (hk : 0 < k.n) (h : Idle k s G) (c : Chain) :
    Repr k c { s with c := c } [] := by
  have hB : 0 < 8 * k.n := by omega
  refine ⟨?_, ⟨h.block, ?_, ?_⟩⟩
  · rw [initBlocks_le hB (by simp)]; rfl
  · rw [lastBlock_le hB (by simp)]; exact h.off
  · rw [lastBlock_le hB (by simp)]; dsimp only; rw [h.off]; rfl

theorem arg_spec {k : Code} (h : k.Std) {s : HashFunc} {G : List U64} (hi : Idle k s G) (ty : Nat) (ht : ty < 64) (v : Bytes)
    (hv : v.length < 2 ^ 64) :
    Idle k (arg k (BitVec.ofNat 64 ty) v s) (Spec.Skein.ubi k.n G v ty) ∧ (arg k (BitVec.ofNat 64 ty) v s).hashsize = s.hashsize := by
  have hn : 0 < k.n := by have := h.n2; omega
  have e1 : (BitVec.ofNat 64 ty <<< 56 ||| firstBlock : U64) = T1 ty true false := by
    simp [T1]
  unfold arg
  rw [e1]
  have hr := write_repr k hn (hi.repr hn { s.c with t0 := 0, t1 := T1 ty true false }) v
  obtain ⟨f1, f2, f3, f4, f5⟩ := finalizeHash_eq k hr
  refine ⟨⟨f2, f3, ?_, ubi_length _ hn _ _ _⟩, ?_⟩
  · rw [f1, List.nil_append, ← finish_spec h G hi.len v ty ht hv]; dsimp only; rw [hi.chain]; rfl
  · rw [f4, (write_fields _ _ _).2.1]

/-- The optional arguments in the order of the code. -/
def confArgs (conf : Config) : List (Nat × Bytes) :=
  [(8, conf.personal), (12, conf.publicKey), (16, conf.keyID), (20, conf.nonce)].filter fun a => decide (0 < a.2.length)
/-- The key. -/
def confKey (conf : Config) : Option Bytes := if 0 < conf.key.length then some conf.key else none

/-- All arguments are shorter than 2^64 bytes (as every Go slice). -/
def Config.Fits (conf : Config) : Prop :=
  conf.key.length < 2 ^ 64 ∧ conf.personal.length < 2 ^ 64 ∧ conf.publicKey.length < 2 ^ 64 ∧ conf.keyID.length < 2 ^ 64 ∧
    conf.nonce.length < 2 ^ 64

theorem cfg_eq (size : Nat) : cfg size = Spec.Skein.config size := by
  unfold cfg Spec.Skein.config
  rw [Nat.mul_comm]
  rfl

theorem ite_arg {k : Code} (h : k.Std) {s : HashFunc} {G : List U64} (hi : Idle k s G) (ty : Nat) (ht : ty < 64) (v : Bytes)
    (hv : v.length < 2 ^ 64) :
    Idle k (if 0 < v.length then arg k (BitVec.ofNat 64 ty) v s else s)
      (([(ty, v)].filter fun a => decide (0 < a.2.length)).foldl (fun G a => Spec.Skein.ubi k.n G a.2 a.1) G) ∧
    (if 0 < v.length then arg k (BitVec.ofNat 64 ty) v s else s).hashsize = s.hashsize := by
  by_cases h0 : 0 < v.length
  · rw [if_pos h0, List.filter_cons_of_pos (by simpa using h0)]
    exact arg_spec h hi ty ht v hv
  · rw [if_neg h0, List.filter_cons_of_neg (by simpa using h0)]
    exact ⟨hi, rfl⟩

theorem initialise_spec {k : Code} (h : k.Std) (size : Nat) (conf : Config) (hc : conf.Fits) :
    let s := initialise k size conf
    let G := Spec.Skein.init k.n size (confKey conf) (confArgs conf)
    s.hashsize = size ∧ s.hValCpy = G ∧ s = reset k s ∧ G.length = k.n := by
  have hn : 0 < k.n := by have := h.n2; omega
  intro s G
  have i0 : Idle k { zero k with hashsize := size } (List.replicate k.n 0#64) :=
    ⟨by simp [zero, zeros], rfl, rfl, by simp⟩
  have i1 := ite_arg h i0 0 (by decide) conf.key hc.1
  have i2 := arg_spec h i1.1 4 (by decide) (cfg size) (by simp [cfg, le64, zeros])
  have i3 := ite_arg h i2.1 8 (by decide) conf.personal hc.2.1
  have i4 := ite_arg h i3.1 12 (by decide) conf.publicKey hc.2.2.1
  have i5 := ite_arg h i4.1 16 (by decide) conf.keyID hc.2.2.2.1
  have i6 := ite_arg h i5.1 20 (by decide) conf.nonce hc.2.2.2.2
  have hG : G = ([(20, conf.nonce)].filter fun a => decide (0 < a.2.length)).foldl (fun G a => Spec.Skein.ubi k.n G a.2 a.1)
      (([(16, conf.keyID)].filter fun a => decide (0 < a.2.length)).foldl (fun G a => Spec.Skein.ubi k.n G a.2 a.1)
      (([(12, conf.publicKey)].filter fun a => decide (0 < a.2.length)).foldl (fun G a => Spec.Skein.ubi k.n G a.2 a.1)
      (([(8, conf.personal)].filter fun a => decide (0 < a.2.length)).foldl (fun G a => Spec.Skein.ubi k.n G a.2 a.1)
      (Spec.Skein.ubi k.n (([(0, conf.key)].filter fun a => decide (0 < a.2.length)).foldl (fun G a => Spec.Skein.ubi k.n G a.2 a.1)
        (List.replicate k.n 0#64)) (cfg size) 4)))) := by
    rw [← List.foldl_append, ← List.foldl_append, ← List.foldl_append, ← List.filter_append, ← List.filter_append, ← List.filter_append,
      cfg_eq]
    simp only [G, Spec.Skein.init]
    congr 2
    unfold confKey
    by_cases h0 : 0 < conf.key.length
    · rw [if_pos h0, List.filter_cons_of_pos (by simpa using h0)]; rfl
    · rw [if_neg h0, List.filter_cons_of_neg (by simpa using h0)]; rfl
  rw [← hG] at i6
  have hsz : s.hashsize = size := by
    simp only [s, initialise, reset]
    exact i6.2.trans (i5.2.trans (i4.2.trans (i3.2.trans (i2.2.trans i1.2))))
  refine ⟨hsz, ?_, ?_, i6.1.len⟩
  · simp only [s, initialise, reset]
    exact i6.1.chain
  · simp only [s, initialise, reset]

/-! ### Sum -/

theorem reset_repr (k : Code) (hk : 0 < k.n) (s : HashFunc) :
    Repr k ⟨s.hValCpy, 0#64, T1 48 true false⟩ (reset k s) [] := by
  have hB : 0 < 8 * k.n := by omega
  refine ⟨?_, ⟨by simp [reset, zeros], ?_, ?_⟩⟩
  · rw [initBlocks_le hB (by simp)]; rfl
  · rw [lastBlock_le hB (by simp)]; rfl
  · rw [lastBlock_le hB (by simp)]; rfl

theorem checkSum_msg {k : Code} (h : k.Std) {s : HashFunc} {G : List U64} {m : Bytes} (hG : G.length = k.n)
    (hr : Repr k ⟨G, 0#64, T1 48 true false⟩ s m) (hm : s.hasMsg = true) (hl : m.length < 2 ^ 64) :
    checkSum k s = Spec.Skein.output k.n (Spec.Skein.ubi k.n G m 48) s.hashsize := by
  have hn : 0 < k.n := by have := h.n2; omega
  obtain ⟨f1, f2, f3, f4, f5⟩ := finalizeHash_eq k hr
  have hv : (finalizeHash k s).c.hVal = Spec.Skein.ubi k.n G m 48 := by
    rw [f1, finish_spec h G hG m 48 (by decide) hl]
  unfold checkSum
  rw [hm]
  simp only [if_true]
  rw [checkOut_spec h _ (by rw [hv]; exact ubi_length _ hn _ _ _), hv, f4]

theorem checkSum_noMsg {k : Code} (h : k.Std) {s : HashFunc} (hG : s.c.hVal.length = k.n) (hm : s.hasMsg = false) :
    checkSum k s = Spec.Skein.output k.n s.c.hVal s.hashsize := by
  unfold checkSum
  rw [hm]
  exact checkOut_spec h _ hG

end Verif.Skein
