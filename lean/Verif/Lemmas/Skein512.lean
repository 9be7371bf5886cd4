import Verif.Lemmas.Skein
import Verif.Model.Skein512
namespace Verif.Skein512
open Verif.Threefish Verif.Skein

/-- `+ 0` as the generator writes it for the first subkey of the standard. -/
def norm : Instr → Instr
  | .keyAbs w k t (some 0) => .keyAbs w k t none
  | i => i

theorem step_norm (n1 : Nat) (K T : Nat → U64) (r : Nat) (b : Regs) (i : Instr) : step n1 K T r b (norm i) = step n1 K T r b i := by
  cases i with
  | keyAbs w k t c =>
    cases c with
    | none => rfl
    | some c =>
      cases c with
      | zero => cases t <;> rfl
      | succ c => rfl
  | _ => rfl

theorem exec_norm (n1 : Nat) (K T : Nat → U64) (r : Nat) (l : List Instr) (b : Regs) :
    exec n1 K T r (l.map norm) b = exec n1 K T r l b := by
  unfold exec
  rw [List.foldl_map]
  simp only [step_norm]

/-- `m` groups of the standard, written out. -/
def flat : Nat → List Instr
  | 0 => []
  | m + 1 => flat m ++ (stdFin 8 m ++ mixesL (groupMixes 8 (m % 2)))

theorem exec_flat (K T : Nat → U64) (b : Regs) (m : Nat) : exec 9 K T 0 (flat m) b = E 8 K T m b := by
  induction m with
  | zero => rfl
  | succ m ih =>
    rw [flat, exec_append, exec_append, ih, exec_stdFin 8 (by decide), E]
    exact exec_mixes_irrel _ _ _ _ _ _ _ _ _

set_option maxRecDepth 100000 in
theorem block512_eq : block512 = (flat 18 ++ stdFin 8 18).map norm := by decide +kernel

theorem block_eq (k src : List U64) (t0 t1 : U64) : block k t0 t1 src =
    List.zipWith (· ^^^ ·) (encryptWords code512 src (k ++ [k.foldl (· ^^^ ·) C240]) [t0, t1, t0 ^^^ t1]) src := by
  unfold block
  simp only
  rw [encryptWords_eq code512_std, block512_eq, exec_norm, exec_append, exec_flat, exec_stdFin 8 (by decide)]
  rw [List.zipWith_comm]
  simp only [BitVec.xor_comm]
  rfl

theorem hashBlock_eq (G : List U64) (t : U64) (pos d : Nat) (b : Bytes) (h : pos + d < 2 ^ 64) :
    hashBlock ⟨G, BitVec.ofNat 64 pos, t⟩ b d =
      { (ubi code512 (bytesToBlock 8 b) (incrementTweak ⟨G, BitVec.ofNat 64 pos, t⟩ (BitVec.ofNat 64 d))).2 with
        t1 := t &&& ~~~firstBlock } := by
  rw [incrementTweak_eq h]
  unfold hashBlock ubi
  simp only [block_eq, BitVec.ofNat_add]
  rfl

/-- The chain after `j` blocks of `M`. -/
theorem fold_eq (G : List U64) (hG : G.length = 8) (M : Bytes) (ty : Nat) (ht : ty < 64)
    (hM : M.length < 2 ^ 64) (j : Nat) (hj : j ≤ (M.length - 1) / 64) :
    (List.range j).foldl (fun c i => hashBlock c ((M.drop (i * 64)).take 64) 64) ⟨G, 0#64, T1 ty true false⟩ =
    (List.range j).foldl (fun c i => absorb code512 c ((M.drop (i * (8 * code512.n))).take (8 * code512.n))) ⟨G, 0#64, T1 ty true false⟩ := by
  induction j with
  | zero => rfl
  | succ j ih =>
    rw [List.range_succ, List.foldl_append, List.foldl_append, ih (by omega)]
    simp only [List.foldl_cons, List.foldl_nil]
    rw [absorb_spec code512_std G hG M ty ht hM j (by show j ≤ (M.length - 1) / 64; omega)]
    have e : 8 * code512.n = 64 := rfl
    rw [e, hashBlock_eq _ _ _ _ _ (by omega)]
    unfold absorb Skein.update
    rw [e, incrementTweak_eq (by omega)]
    rfl

theorem init_eq (G : List U64) (hG : G.length = 8) (M : Bytes) (ty : Nat) (ht : ty < 64) (hM : M.length < 2 ^ 64) :
    (initBlocks 64 M).foldl (fun c b => hashBlock c b 64) ⟨G, 0#64, T1 ty true false⟩ =
      (initBlocks 64 M).foldl (absorb code512) ⟨G, 0#64, T1 ty true false⟩ := by
  rw [initBlocks_range 64 (by decide), List.foldl_map, List.foldl_map]
  exact fold_eq G hG M ty ht hM _ (Nat.le_refl _)

/-- What the object holds after the bytes `m`, started from the chain `c0`. -/
structure Repr (c0 : Chain) (s : Hash) (m : Bytes) : Prop where
  chain : s.c = (initBlocks 64 m).foldl (fun c b => hashBlock c b 64) c0
  buf : LazyRepr 64 s.x s.nx m

theorem update_fields (s : Hash) (p : Bytes) : (update s p).noMsg = s.noMsg ∧ (update s p).outLen = s.outLen ∧ (update s p).ik = s.ik := by
  unfold update updateHead
  dsimp only
  split <;> exact ⟨rfl, rfl, rfl⟩

theorem update_repr {c0 : Chain} {s : Hash} {m : Bytes} (h : Repr c0 s m) (p : Bytes) : Repr c0 (update s p) (m ++ p) := by
  obtain ⟨hc, hx, ho, ht⟩ := h
  have hll := (lastBlock_length 64 m (by decide)).1
  unfold update
  by_cases h1 : 64 - s.nx < p.length
  · have hlp : (p.take (64 - s.nx)).length = 64 - s.nx := by rw [List.length_take]; omega
    have hbig := lazy_big (B := 64) (m := m) (p := p) (by decide) (by omega)
    rw [← ho] at hbig
    have hcp : goCopy s.x s.nx (p.take (64 - s.nx)) = lastBlock 64 m ++ p.take (64 - s.nx) := by
      have := goCopy_take_off (x := s.x) (q := p.take (64 - s.nx)) (off := s.nx) (by omega)
      rw [hlp, show s.nx + (64 - s.nx) = 64 by omega, List.take_of_length_le, ht] at this
      · exact this
      · rw [goCopy_length _ _ _ (by omega), hx]; exact Nat.le_refl _
    have hhead : updateHead s p = ({ s with x := goCopy s.x s.nx (p.take (64 - s.nx)), c := hashBlock s.c (goCopy s.x s.nx (p.take (64 - s.nx))) 64, nx := 0 }, p.drop (64 - s.nx)) := by
      unfold updateHead; dsimp only; rw [if_pos h1]
    rw [hhead]
    dsimp only
    rw [lazyLoop_spec _ (by decide) _ _ _ (Nat.le_refl _)]
    have hxl : (goCopy s.x s.nx (p.take (64 - s.nx))).length = 64 := by rw [goCopy_length _ _ _ (by omega), hx]
    have hq := (lastBlock_length 64 (p.drop (64 - s.nx)) (by decide)).1
    refine ⟨?_, ⟨?_, ?_, ?_⟩⟩
    · dsimp only; rw [hbig.1, List.foldl_append, List.foldl_cons, ← hc, hcp]
    · dsimp only; rw [goCopy_length _ _ _ (by omega), hxl]
    · dsimp only; rw [hbig.2, hxl]; omega
    · dsimp only
      rw [hbig.2, hxl, show 0 + min (lastBlock 64 (p.drop (64 - s.nx))).length (64 - 0) = (lastBlock 64 (p.drop (64 - s.nx))).length by omega]
      exact goCopy_take_zero (by omega)
  · have hhead : updateHead s p = (s, p) := by unfold updateHead; dsimp only; rw [if_neg h1]
    have hs := lazy_small (B := 64) (m := m) (p := p) (by decide) (by omega)
    rw [hhead]
    dsimp only
    rw [lazyLoop_spec _ (by decide) _ _ _ (Nat.le_refl _), initBlocks_le (by decide) (by omega), lastBlock_le (by decide) (by omega)]
    refine ⟨?_, ⟨?_, ?_, ?_⟩⟩
    · dsimp only; rw [hs.1]; exact hc
    · dsimp only; rw [goCopy_length _ _ _ (by omega), hx]
    · dsimp only; rw [hs.2, List.length_append, hx]; omega
    · dsimp only
      rw [hs.2, ← ht, hx, show min p.length (64 - s.nx) = p.length by omega]
      exact goCopy_take_off (by omega)

theorem hashLastBlock_spec (G : List U64) (hG : G.length = 8) (ty : Nat) (hty : ty < 64) {s : Hash} {m : Bytes}
    (h : Repr ⟨G, 0#64, T1 ty true false⟩ s m) (hm : m.length < 2 ^ 64) :
    (hashLastBlock s).c.hVal = Spec.Skein.ubi 8 G m ty ∧ (hashLastBlock s).x.length = 64 ∧ (hashLastBlock s).nx = 0 ∧
    (hashLastBlock s).noMsg = s.noMsg ∧ (hashLastBlock s).outLen = s.outLen ∧ (hashLastBlock s).ik = s.ik := by
  obtain ⟨hc, hx, ho, ht⟩ := h
  have hll := (lastBlock_length 64 m (by decide)).1
  have hlen : (m.length - 1) / 64 * 64 + (lastBlock 64 m).length = m.length := by
    unfold lastBlock; rw [List.length_drop]; omega
  have hf := finish_spec code512_std G hG m ty hty hm
  have hab := absorb_spec code512_std G hG m ty hty hm _ (Nat.le_refl _)
  have hi : initBlocks (8 * code512.n) m = (List.range ((m.length - 1) / (8 * code512.n))).map fun i => (m.drop (i * (8 * code512.n))).take (8 * code512.n) :=
    initBlocks_range _ (by decide) m
  unfold hashLastBlock
  dsimp only
  rw [hc, init_eq G hG m ty hty hm, hx, ht, ho]
  have e8 : 8 * code512.n = 64 := rfl
  rw [e8] at hi hab hf
  rw [hi, List.foldl_map, hab] at hf ⊢
  refine ⟨?_, by simp; omega, rfl, rfl, rfl, rfl⟩
  rw [show code512.n = 8 from rfl] at hf ⊢
  rw [← hf]
  dsimp only
  rw [hashBlock_eq _ _ _ _ _ (by omega)]
  unfold finish
  dsimp only
  rw [incrementTweak_eq (by omega), incrementTweak_eq (by omega)]
  rfl

/-! ### Output -/

theorem outputBlock_spec (G : List U64) (hG : G.length = 8) (ctr : U64) :
    outputBlock G ctr = (Spec.Skein.ubi 8 G (le64 ctr) 63).flatMap le64 := by
  have h8 : (le64 ctr).length = 8 := by simp [le64]
  rw [ubi_short _ (by decide) _ _ _ (by omega), h8]
  have h1 := ubi_spec code512_std (le64 ctr ++ zeros (8 * 8 - 8)) G 8 63 true true hG (by decide) (by decide)
  have h2 := congrArg Chain.hVal h1
  dsimp only at h2
  rw [show code512.n = 8 from rfl] at h2
  rw [← h2, words_counter _ (by decide)]
  unfold outputBlock ubi
  simp only [block_eq]
  rw [show ((63#64 <<< 56) ||| firstBlockFlag ||| lastBlockFlag : U64) = T1 63 true true by decide]
  rfl

theorem ubi_flat_length (G : List U64) (m : Bytes) (ty : Nat) : ((Spec.Skein.ubi 8 G m ty).flatMap le64).length = 64 := by
  have h := ubi_length 8 (by decide) G m ty
  have : ∀ l : List U64, (l.flatMap le64).length = 8 * l.length := by
    intro l
    induction l with
    | nil => rfl
    | cons a l ih => rw [List.flatMap_cons, List.length_append, ih, List.length_cons]; simp [le64]; omega
  rw [this, h]

theorem outputBlock_length (G : List U64) (hG : G.length = 8) (ctr : U64) : (outputBlock G ctr).length = 64 := by
  rw [outputBlock_spec G hG, ubi_flat_length]

/-- Byte `i` of the output. -/
def byteAt (G : List U64) (i : Nat) : Byte := (outputBlock G (BitVec.ofNat 64 (i / 64))).getD (i % 64) 0
/-- Output bytes `a`, ..., `a + n - 1`. -/
def seg (G : List U64) (a n : Nat) : Bytes := (List.range' a n).map (byteAt G)

theorem seg_length (G : List U64) (a n : Nat) : (seg G a n).length = n := by simp [seg]
theorem seg_append (G : List U64) (a n m : Nat) : seg G a n ++ seg G (a + n) m = seg G a (n + m) := by
  unfold seg
  rw [← List.map_append]
  have := List.range'_append (s := a) (m := n) (n := m) (step := 1)
  rw [Nat.one_mul] at this
  rw [this]
theorem seg_take (G : List U64) (a n m : Nat) : (seg G a n).take m = seg G a (min m n) := by
  have h := seg_append G a (min m n) (n - min m n)
  rw [show min m n + (n - min m n) = n by omega] at h
  rw [← h]
  by_cases hmn : m ≤ n
  · rw [Nat.min_eq_left hmn, List.take_left' (seg_length _ _ _)]
  · rw [List.take_of_length_le (by rw [List.length_append, seg_length, seg_length]; omega), show n - min m n = 0 by omega]
    simp [seg]
theorem seg_drop (G : List U64) (a n m : Nat) : (seg G a n).drop m = seg G (a + m) (n - m) := by
  unfold seg
  rw [← List.map_drop, List.drop_range']
  simp

theorem seg_block (G : List U64) (hG : G.length = 8) (j : Nat) : seg G (64 * j) 64 = outputBlock G (BitVec.ofNat 64 j) := by
  have hl := outputBlock_length G hG (BitVec.ofNat 64 j)
  apply List.ext_getElem (by rw [seg_length, hl])
  intro i h1 h2
  have e : (seg G (64 * j) 64)[i] = byteAt G (64 * j + i) := by
    simp [seg]
  rw [seg_length] at h1
  refine e.trans ?_
  unfold byteAt
  rw [show (64 * j + i) / 64 = j by omega, show (64 * j + i) % 64 = i by omega, List.getD_eq_getElem?_getD, List.getElem?_eq_getElem h2]
  rfl

theorem seg_blocks (G : List U64) (hG : G.length = 8) (j : Nat) :
    seg G 0 (64 * j) = (List.range j).flatMap fun i => outputBlock G (BitVec.ofNat 64 i) := by
  induction j with
  | zero => rfl
  | succ j ih =>
    rw [List.range_succ, List.flatMap_append, ← ih, List.flatMap_singleton, ← seg_block G hG, show 64 * (j + 1) = 64 * j + 64 by omega]
    have := seg_append G 0 (64 * j) 64
    rw [Nat.zero_add] at this
    exact this.symm

theorem output_seg (G : List U64) (hG : G.length = 8) (size : Nat) : Spec.Skein.output 8 G size = seg G 0 size := by
  unfold Spec.Skein.output
  have : ∀ i, (Spec.Skein.ubi 8 G (le64 (BitVec.ofNat 64 i)) 63).flatMap le64 = outputBlock G (BitVec.ofNat 64 i) :=
    fun i => (outputBlock_spec G hG _).symm
  simp only [this]
  rw [← seg_blocks G hG, seg_take]
  congr 1
  have := Nat.div_add_mod (size + 8 * 8 - 1) (8 * 8)
  omega

theorem appendLoop_spec (G : List U64) (hG : G.length = 8) : ∀ fuel length j out, length < fuel →
    appendLoop G fuel length (BitVec.ofNat 64 j) out = out ++ seg G (64 * j) length := by
  intro fuel
  induction fuel with
  | zero => intro l j out h; omega
  | succ fuel ih =>
    intro l j out h
    unfold appendLoop
    by_cases h0 : 0 < l
    · rw [if_pos h0]
      simp only
      by_cases h1 : l < 64
      · rw [if_pos h1, ← seg_block G hG, seg_take, Nat.min_eq_left (by omega)]
      · rw [if_neg h1, show BitVec.ofNat 64 j + 1 = BitVec.ofNat 64 (j + 1) by rw [BitVec.ofNat_add]; rfl, ih _ _ _ (by omega),
          ← seg_block G hG, List.append_assoc, show 64 * (j + 1) = 64 * j + 64 by omega, seg_append]
        congr 2
        omega
    · rw [if_neg h0, show l = 0 by omega]
      simp [seg]

theorem appendOutput_spec (G : List U64) (hG : G.length = 8) (length : U64) :
    appendOutput G length = Spec.Skein.output 8 G length.toNat := by
  unfold appendOutput
  rw [show (0 : U64) = BitVec.ofNat 64 0 from rfl, appendLoop_spec G hG _ _ _ _ (Nat.lt_succ_self _), output_seg G hG]
  rfl

/-! ### The reader -/

/-- The reader has given out `pos` bytes. -/
structure RRepr (G : List U64) (r : Reader) (pos : Nat) : Prop where
  k : r.k = G
  xlen : r.x.length = 64
  nx : r.nx ≤ 64
  ctr : ∃ j, r.counter = BitVec.ofNat 64 j ∧ pos + 64 = 64 * j + r.nx ∧ r.x.drop r.nx = seg G pos (64 - r.nx)

theorem nextBlock_repr {G : List U64} (hG : G.length = 8) {r : Reader} {j : Nat} (hk : r.k = G) (hc : r.counter = BitVec.ofNat 64 j) :
    RRepr G (nextBlock r) (64 * j) ∧ (nextBlock r).x = seg G (64 * j) 64 ∧ (nextBlock r).nx = 0 ∧
    (nextBlock r).counter = BitVec.ofNat 64 (j + 1) := by
  have hx : (nextBlock r).x = seg G (64 * j) 64 := by
    unfold nextBlock; dsimp only; rw [hk, hc, seg_block G hG]
  have hc' : (nextBlock r).counter = BitVec.ofNat 64 (j + 1) := by
    unfold nextBlock; dsimp only; rw [hc, BitVec.ofNat_add]; rfl
  refine ⟨⟨hk, ?_, by simp [nextBlock], ⟨j + 1, hc', ?_, ?_⟩⟩, hx, rfl, hc'⟩
  · rw [hx, seg_length]
  · show 64 * j + 64 = 64 * (j + 1) + 0; omega
  · rw [show (nextBlock r).nx = 0 from rfl, hx]; rfl

theorem readLoop_spec {G : List U64} (hG : G.length = 8) : ∀ fuel r n j out, n ≤ fuel → r.k = G → r.x = seg G (64 * j) 64 → r.nx = 0 →
    r.counter = BitVec.ofNat 64 (j + 1) →
    ∃ r', readLoop fuel r n out = (r', n % 64, out ++ seg G (64 * j) (n - n % 64)) ∧ r'.k = G ∧ r'.x = seg G (64 * (j + n / 64)) 64 ∧
      r'.nx = 0 ∧ r'.counter = BitVec.ofNat 64 (j + n / 64 + 1) := by
  intro fuel
  induction fuel with
  | zero =>
    intro r n j out hn hk hx h0 hc
    have : n = 0 := by omega
    subst this
    exact ⟨r, by simp [readLoop, seg], hk, hx, h0, hc⟩
  | succ fuel ih =>
    intro r n j out hn hk hx h0 hc
    unfold readLoop
    by_cases h : 64 ≤ n
    · obtain ⟨-, b, c, d⟩ := nextBlock_repr hG hk hc
      obtain ⟨r', e1, e2, e3, e4, e5⟩ := ih (nextBlock r) (n - 64) (j + 1) (out ++ r.x) (by omega) hk b c d
      refine ⟨r', ?_, e2, ?_, e4, ?_⟩
      · rw [if_pos h, e1, show (n - 64) % 64 = n % 64 by omega, hx, List.append_assoc, show 64 * (j + 1) = 64 * j + 64 by omega, seg_append,
          show 64 + (n - 64 - n % 64) = n - n % 64 by omega]
      · rw [e3, show j + 1 + (n - 64) / 64 = j + n / 64 by omega]
      · rw [e5, show j + 1 + (n - 64) / 64 = j + n / 64 by omega]
    · refine ⟨r, ?_, hk, ?_, h0, ?_⟩
      · rw [if_neg h, show n % 64 = n by omega]; simp [seg]
      · rw [hx, show j + n / 64 = j by omega]
      · rw [hc, show j + n / 64 = j by omega]

theorem read_spec {G : List U64} (hG : G.length = 8) {r : Reader} {pos : Nat} (h : RRepr G r pos) (n : Nat) :
    (read r n).2 = seg G pos n ∧ RRepr G (read r n).1 (pos + n) := by
  obtain ⟨hk, hxl, hnx, j, hc, hp, hd⟩ := h
  unfold read
  by_cases h1 : n < 64 - r.nx
  · simp only [if_pos h1]
    rw [hd, seg_take, Nat.min_eq_left (by omega)]
    refine ⟨rfl, ⟨hk, hxl, by dsimp only; omega, j, hc, by dsimp only; omega, ?_⟩⟩
    dsimp only
    rw [← List.drop_drop, hd, seg_drop, show 64 - r.nx - n = 64 - (r.nx + n) by omega]
  · simp only [if_neg h1]
    obtain ⟨-, b, c, d⟩ := nextBlock_repr hG hk hc
    obtain ⟨r', e1, e2, e3, e4, e5⟩ := readLoop_spec hG n (nextBlock r) (n - (64 - r.nx)) j (r.x.drop r.nx) (by omega) hk b c d
    rw [e1]
    dsimp only
    rw [hd]
    have hpos : 64 * j = pos + (64 - r.nx) := by omega
    generalize hn' : n - (64 - r.nx) = n' at *
    have hdm := Nat.div_add_mod n' 64
    have hbase : RRepr G { r' with nx := n' % 64 } (pos + n) := by
      refine ⟨e2, ?_, ?_, ⟨j + n' / 64 + 1, e5, ?_, ?_⟩⟩
      · dsimp only; rw [e3, seg_length]
      · dsimp only; omega
      · dsimp only; omega
      · dsimp only; rw [e3, seg_drop]; congr 1; omega
    by_cases h2 : 0 < n' % 64
    · rw [if_pos h2]
      dsimp only
      rw [e4, Nat.zero_add]
      refine ⟨?_, hbase⟩
      rw [hpos, seg_append, e3, seg_take, show 64 * (j + n' / 64) = pos + (64 - r.nx + (n' - n' % 64)) by omega, seg_append]
      congr 1
      omega
    · rw [if_neg h2]
      dsimp only
      refine ⟨?_, ?_⟩
      · rw [hpos, seg_append]; congr 1; omega
      · have : ({ r' with nx := n' % 64 } : Reader) = r' := by
          rw [show n' % 64 = r'.nx by omega]
        rw [this] at hbase
        exact hbase

/-- `XORKeyStream` XORs what `Read` would have returned. -/
theorem xorLoop_eq : ∀ fuel (r : Reader) (src pre ks : Bytes), r.k.length = 8 → r.x.length = 64 → pre.length = ks.length →
    ∃ rest pre' ks', xorLoop fuel r src (List.zipWith (· ^^^ ·) pre ks) =
        ((readLoop fuel r src.length ks).1, rest, List.zipWith (· ^^^ ·) pre' ks') ∧
      readLoop fuel r src.length ks = ((readLoop fuel r src.length ks).1, rest.length, ks') ∧ pre' ++ rest = pre ++ src ∧
      pre'.length = ks'.length := by
  intro fuel
  induction fuel with
  | zero => intro r src pre ks hk hx hl; exact ⟨src, pre, ks, rfl, rfl, rfl, hl⟩
  | succ fuel ih =>
    intro r src pre ks hk hx hl
    unfold xorLoop readLoop
    by_cases h : 64 ≤ src.length
    · have h64 : (src.take 64).length = 64 := by rw [List.length_take]; omega
      rw [if_pos h, if_pos h, ← List.zipWith_append hl]
      obtain ⟨rest, pre', ks', a, b, c, d⟩ := ih (nextBlock r) (src.drop 64) (pre ++ src.take 64) (ks ++ r.x) hk
        (outputBlock_length _ hk _) (by rw [List.length_append, List.length_append]; omega)
      rw [List.length_drop] at a b
      refine ⟨rest, pre', ks', a, b, ?_, d⟩
      rw [c, List.append_assoc, List.take_append_drop]
    · rw [if_neg h, if_neg h]
      exact ⟨src, pre, ks, rfl, rfl, rfl, hl⟩

theorem zipWith_take_right (f : Byte → Byte → Byte) (a b : Bytes) : List.zipWith f a (b.take a.length) = List.zipWith f a b := by
  induction a generalizing b with
  | nil => rfl
  | cons x a ih =>
    cases b with
    | nil => rfl
    | cons y b => rw [List.length_cons, List.take_succ_cons, List.zipWith_cons_cons, List.zipWith_cons_cons, ih]

theorem xorKeyStream_eq (r : Reader) (src : Bytes) (hk : r.k.length = 8) (hx : r.x.length = 64) :
    xorKeyStream r src = ((read r src.length).1, List.zipWith (· ^^^ ·) src (read r src.length).2) := by
  unfold xorKeyStream read
  by_cases h1 : src.length < 64 - r.nx
  · simp only [if_pos h1, zipWith_take_right]
  · simp only [if_neg h1]
    obtain ⟨rest, pre', ks', a, b, c, d⟩ := xorLoop_eq src.length (nextBlock r) (src.drop (64 - r.nx)) (src.take (64 - r.nx)) (r.x.drop r.nx) hk
        (outputBlock_length _ hk _) (by rw [List.length_take, List.length_drop]; omega)
    rw [List.take_append_drop] at c
    rw [List.length_drop] at a b
    rw [a]
    generalize readLoop src.length (nextBlock r) (src.length - (64 - r.nx)) (r.x.drop r.nx) = R at *
    rw [b]
    dsimp only
    by_cases h2 : 0 < rest.length
    · rw [if_pos h2, if_pos h2]
      dsimp only
      congr 1
      rw [← c, List.zipWith_append d, zipWith_take_right]
    · rw [if_neg h2, if_neg h2]
      have : rest = [] := List.length_eq_zero_iff.1 (by omega)
      rw [this, List.append_nil] at c
      rw [c]

end Verif.Skein512
