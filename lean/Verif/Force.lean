import Verif.Basic
/-
Strict evaluation inside the kernel: `force x k = k x`, but the kernel reduces x to a literal before it goes on.
Only used to make `decide +kernel` on long computations feasible.
-/
namespace Verif

def forceNat {α} (n : Nat) (k : Nat → α) : α := Nat.casesOn (motive := fun _ => α) n (k 0) (fun m => k (m + 1))
theorem forceNat_eq {α} (n : Nat) (k : Nat → α) : forceNat n k = k n := by cases n <;> rfl

def forceBV {α} {w : Nat} (x : BitVec w) (k : BitVec w → α) : α := forceNat x.toNat (fun n => k (BitVec.ofNat w n))
theorem forceBV_eq {α} {w : Nat} (x : BitVec w) (k : BitVec w → α) : forceBV x k = k x := by
  unfold forceBV; rw [forceNat_eq, BitVec.ofNat_toNat, BitVec.setWidth_eq]

def forceList {α} {w : Nat} : List (BitVec w) → (List (BitVec w) → α) → α
  | [], k => k []
  | x :: l, k => forceBV x (fun x => forceList l (fun l => k (x :: l)))
theorem forceList_eq {α} {w : Nat} (l : List (BitVec w)) (k : List (BitVec w) → α) : forceList l k = k l := by
  induction l generalizing k with
  | nil => rfl
  | cons x l ih => rw [forceList, forceBV_eq, ih]

/-- `n` turns of `f` from turn `i`, the state forced before each. -/
def forceLoop {σ α} (force : σ → (σ → α) → α) (f : σ → Nat → σ) : Nat → Nat → σ → (σ → α) → α
  | 0, _, s, k => k s
  | n + 1, i, s, k => force (f s i) (fun s => forceLoop force f n (i + 1) s k)
theorem forceLoop_eq {σ α} (force : σ → (σ → α) → α) (hf : ∀ s k, force s k = k s) (f : σ → Nat → σ) (n i : Nat) (s : σ) (k : σ → α) :
    forceLoop force f n i s k = k (forLoop i (i + n) f s) := by
  induction n generalizing i s with
  | zero => rw [forceLoop, forLoop]; simp
  | succ n ih =>
    rw [forceLoop, hf, ih]
    congr 1
    rw [show i + 1 + n = i + (n + 1) by omega]
    unfold forLoop
    rw [show i + (n + 1) - i = n + 1 by omega, show i + (n + 1) - (i + 1) = n by omega, List.range'_succ]
    rfl

end Verif
