import Verif.Lemmas.KupynaObj
import Verif.Force
/-
Kupyna evaluated word by word, for concrete messages inside the kernel (used for counterexamples and tests only).
-/
namespace Verif.Kupyna

variable (F : Fns)

def setX (x : List U64) (round : U64) : List U64 :=
  forLoop 0 F.cols (fun x idx => x.set idx (g x idx ^^^ ((BitVec.ofNat 64 idx <<< 4) ^^^ round))) x
def setM (x : List U64) (round : U64) : List U64 :=
  forLoop 0 F.cols (fun x j => x.set j (g x j + ((0x00F0F0F0F0F0F0F3 : U64) ^^^ ((((BitVec.ofNat 64 (F.cols - 1) - BitVec.ofNat 64 j) * 0x10) ^^^ round) <<< 56)))) x

def fastP {α} (x : List U64) (r : U64) (k : List U64 → α) : α :=
  forceList (setX F x r) fun x => forceList (F.G1 x (r + 1)) fun y => forceList (F.G y) k
def fastQ {α} (x : List U64) (r : U64) (k : List U64 → α) : α :=
  forceList (setM F x r) fun x => forceList (F.G2 x (r + 1)) fun y => forceList (F.G y) k
theorem fastP_eq {α} (x : List U64) (r : U64) (k : List U64 → α) : fastP F x r k = k (P F x r) := by
  unfold fastP; rw [forceList_eq, forceList_eq, forceList_eq]; rfl
theorem fastQ_eq {α} (x : List U64) (r : U64) (k : List U64 → α) : fastQ F x r k = k (Q F x r) := by
  unfold fastQ; rw [forceList_eq, forceList_eq, forceList_eq]; rfl

def fastPs {α} : Nat → Nat → List U64 → (List U64 → α) → α
  | 0, _, x, k => k x
  | n + 1, i, x, k => fastP F x (BitVec.ofNat 64 (2 * i)) fun x => fastPs n (i + 1) x k
def fastQs {α} : Nat → Nat → List U64 → (List U64 → α) → α
  | 0, _, x, k => k x
  | n + 1, i, x, k => fastQ F x (BitVec.ofNat 64 (2 * i)) fun x => fastQs n (i + 1) x k

theorem loop_succ {σ} (i n : Nat) (f : σ → Nat → σ) (s : σ) : forLoop i (i + (n + 1)) f s = forLoop (i + 1) (i + 1 + n) f (f s i) := by
  unfold forLoop
  rw [show i + (n + 1) - i = n + 1 by omega, show i + 1 + n - (i + 1) = n by omega, List.range'_succ]
  rfl
theorem loop_zero {σ} (i : Nat) (f : σ → Nat → σ) (s : σ) : forLoop i (i + 0) f s = s := by
  unfold forLoop; rw [show i + 0 - i = 0 by omega]; rfl

theorem fastPs_eq {α} (n i : Nat) (x : List U64) (k : List U64 → α) : fastPs F n i x k = k (forLoop i (i + n) (fun t i => P F t (BitVec.ofNat 64 (2 * i))) x) := by
  induction n generalizing i x with
  | zero => rw [loop_zero]; rfl
  | succ n ih => rw [fastPs, fastP_eq, ih, loop_succ]
theorem fastQs_eq {α} (n i : Nat) (x : List U64) (k : List U64 → α) : fastQs F n i x k = k (forLoop i (i + n) (fun t i => Q F t (BitVec.ofNat 64 (2 * i))) x) := by
  induction n generalizing i x with
  | zero => rw [loop_zero]; rfl
  | succ n ih => rw [fastQs, fastQ_eq, ih, loop_succ]

def fastBlock {α} (s : List U64) (b : Bytes) (k : List U64 → α) : α :=
  forceList (bytesToUint64s b) fun b =>
  forceList ((List.range F.cols).map fun i => g s i ^^^ g b i) fun p =>
  fastPs F (F.rounds / 2) 0 p fun p =>
  fastQs F (F.rounds / 2) 0 b fun q =>
  forceList ((List.range F.cols).map fun i => g s i ^^^ (g p i ^^^ g q i)) k

def fastBlocks {α} : List Bytes → List U64 → (List U64 → α) → α
  | [], s, k => k s
  | b :: bs, s, k => fastBlock F s b fun s => fastBlocks bs s k

/-- The digest of a padded message (before the first bytes are dropped). -/
def fastHash {α} (m : Bytes) (k : Bytes → α) : α :=
  forceList m fun m =>
  fastBlocks F (fullBlocks F.block m) ((List.replicate F.cols 0).set 0 (BitVec.ofNat 64 F.block)) fun s =>
  fastPs F (F.rounds / 2) 0 s fun t =>
  forceList ((List.range F.cols).map fun i => g s i ^^^ g t i) fun o => k (uint64sToBytes o)

variable {F} {c : Nat}

theorem fastBlock_eq {α} (h : Fits F c) (s : List U64) (hs : s.length = c) (b : Bytes) (hb : b.length = 8 * c) (k : List U64 → α) :
    fastBlock F s b k = k (blockFn F s b) := by
  have hl : (bytesToUint64s b).length = c := by simp [bytesToUint64s]; omega
  unfold fastBlock
  rw [forceList_eq, forceList_eq, fastPs_eq, fastQs_eq, forceList_eq]
  congr 1
  unfold blockFn transform
  dsimp only
  rw [h.cols, loop_pair (fun t i => P F t (BitVec.ofNat 64 (2 * i))) (fun t i => Q F t (BitVec.ofNat 64 (2 * i))), fillAll (fun i => g s i ^^^ g (bytesToUint64s b) i),
    fillAll (fun i => g (bytesToUint64s b) i), list_self _ c hl, Nat.zero_add]
  generalize forLoop 0 (F.rounds / 2) (fun t i => P F t (BitVec.ofNat 64 (2 * i))) _ = p
  generalize forLoop 0 (F.rounds / 2) (fun t i => Q F t (BitVec.ofNat 64 (2 * i))) _ = q
  dsimp only
  rw [setAll s (fun i v => v ^^^ (g p i ^^^ g q i)) c hs]

theorem fastBlocks_eq {α} (h : Fits F c) (bs : List Bytes) (hbs : ∀ b ∈ bs, b.length = 8 * c) : ∀ (s : List U64), s.length = c → ∀ k : List U64 → α,
    fastBlocks F bs s k = k (bs.foldl (blockFn F) s) := by
  induction bs with
  | nil => intros; rfl
  | cons b bs ih =>
    intro s hs k
    rw [fastBlocks, fastBlock_eq h s hs b (hbs b (by simp)), ih (fun b hb => hbs b (by simp [hb])) _ (block_eq h s hs b (hbs b (by simp))).1]
    rfl

theorem fastHash_eq {α} (h : Fits F c) (n : Nat) (m : Bytes) (k : Bytes → α) : fastHash F (Spec.Kupyna.pad c m) (fun o => k (o.drop (8 * c - n))) = k (Spec.Kupyna.hash c n m) := by
  obtain ⟨i1, i2⟩ := iv_eq h
  have hiv : (List.replicate F.cols 0).set 0 (BitVec.ofNat 64 F.block) = (reset F).s := by
    have hb := h.block
    have hcl := h.cols
    unfold reset
    rw [hb, hcl]
    rcases h.c_eq with e | e <;> subst e <;> decide +kernel
  have hbs : ∀ b ∈ fullBlocks (8 * c) (Spec.Kupyna.pad c m), b.length = 8 * c := fun b hb => mem_fullBlocks_length _ _ b hb
  obtain ⟨e1, e2⟩ := chain_eq h _ hbs _ i1
  rw [i2] at e2
  obtain ⟨o1, o2⟩ := output_eq h _ e1
  rw [e2] at o2
  unfold fastHash
  rw [forceList_eq, hiv, h.block, fastBlocks_eq h _ hbs _ i1, fastPs_eq, forceList_eq, h.cols, Nat.zero_add]
  unfold Spec.Kupyna.hash Spec.Kupyna.digest
  dsimp only
  rw [← o2]
  congr 2
  unfold outputTransform
  dsimp only
  generalize (fullBlocks (8 * c) (Spec.Kupyna.pad c m)).foldl (blockFn F) (reset F).s = s at *
  generalize forLoop 0 (F.rounds / 2) (fun t i => P F t (BitVec.ofNat 64 (2 * i))) s = t at *
  rw [h.cols, setAll s (fun i v => v ^^^ g t i) c e1]
  rfl

end Verif.Kupyna
