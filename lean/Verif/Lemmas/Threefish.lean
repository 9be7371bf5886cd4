import Verif.Model.Threefish
import Verif.Spec.Threefish
namespace Verif.Threefish

theorem upd_same (b : Regs) (i : Nat) (x : U64) : upd b i x i = x := by simp [upd]
theorem upd_ne (b : Regs) {i k : Nat} (x : U64) (h : k ≠ i) : upd b i x k = b k := by simp [upd, h]
theorem upd_upd (b : Regs) (i : Nat) (x y : U64) : upd (upd b i x) i y = upd b i y := by
  funext k; simp only [upd]; split <;> rfl
theorem upd_comm (b : Regs) {i j : Nat} (x y : U64) (h : i ≠ j) : upd (upd b i x) j y = upd (upd b j y) i x := by
  funext k; simp only [upd]; split <;> split <;> simp_all
theorem upd_self (b : Regs) (i : Nat) : upd b i (b i) = b := by
  funext k; simp only [upd]; split <;> simp_all

theorem rot_inv {r : Nat} (h : 0 < r) (h' : r < 64) (x : U64) :
    (((x <<< r) ||| (x >>> (64 - r))) >>> r) ||| (((x <<< r) ||| (x >>> (64 - r))) <<< (64 - r)) = x := by
  apply BitVec.eq_of_getLsbD_eq
  intro i hi
  simp only [BitVec.getLsbD_or, BitVec.getLsbD_shiftLeft, BitVec.getLsbD_ushiftRight, hi, decide_true, Bool.true_and]
  by_cases hc : i < 64 - r
  · have e1 : decide (i < 64 - r) = true := by simpa using hc
    have e2 : decide (r + i < 64) = true := by simp; omega
    have e3 : decide (r + i < r) = false := by simp
    have e4 : r + i - r = i := by omega
    have e5 : x.getLsbD (64 - r + (r + i)) = false := BitVec.getLsbD_of_ge _ _ (by omega)
    rw [e1, e2, e3, e4, e5]
    simp
  · have e1 : decide (i < 64 - r) = false := by simpa using hc
    have e5 : x.getLsbD (r + i - r + 0) = x.getLsbD i := by congr 1; omega
    have e6 : decide (r + i < 64) = false := by simp; omega
    have e7 : decide (i - (64 - r) < 64) = true := by simp; omega
    have e8 : decide (i - (64 - r) < r) = true := by simp; omega
    have e9 : 64 - r + (i - (64 - r)) = i := by omega
    have e10 : x.getLsbD (64 - r + (r + i)) = false := BitVec.getLsbD_of_ge _ _ (by omega)
    rw [e1, e6, e7, e8, e9, e10]
    simp

theorem rot_inv' {r : Nat} (h : 0 < r) (h' : r < 64) (x : U64) :
    (((x >>> r) ||| (x <<< (64 - r))) <<< r) ||| (((x >>> r) ||| (x <<< (64 - r))) >>> (64 - r)) = x := by
  have := rot_inv (r := 64 - r) (by omega) (by omega) x
  rw [show 64 - (64 - r) = r by omega] at this
  rw [BitVec.or_comm (x >>> r), BitVec.or_comm ((x <<< (64 - r) ||| x >>> r) <<< r)]
  exact this

theorem xor_cancel (a b : U64) : (a ^^^ b) ^^^ b = a := by
  rw [BitVec.xor_assoc, BitVec.xor_self, BitVec.xor_zero]

theorem unmix_mix (n1 : Nat) (K T : Nat → U64) (r : Nat) {x y rot : Nat} (hxy : x ≠ y) (h : 0 < rot) (h' : rot < 64) (b : Regs) :
    step n1 K T r (step n1 K T r b (.mix x y rot)) (.unmix x y rot) = b := by
  simp only [step, upd_same, upd_ne _ _ hxy, upd_ne _ _ hxy.symm, xor_cancel, rot_inv h h', BitVec.add_sub_cancel, upd_upd]
  rw [upd_comm _ _ _ hxy, upd_upd, upd_self, upd_self]

theorem mix_unmix (n1 : Nat) (K T : Nat → U64) (r : Nat) {x y rot : Nat} (hxy : x ≠ y) (h : 0 < rot) (h' : rot < 64) (b : Regs) :
    step n1 K T r (step n1 K T r b (.unmix x y rot)) (.mix x y rot) = b := by
  simp only [step, upd_same, upd_ne _ _ hxy, upd_ne _ _ hxy.symm, xor_cancel, rot_inv' h h', BitVec.sub_add_cancel, upd_upd]
  rw [upd_comm _ _ _ hxy, upd_upd, upd_self, upd_self]

/-! ### The shape of the code -/

/-- The tweak word added to word `i`. -/
def keyT (n i : Nat) : Option Nat := if i = n - 3 then some 0 else if i = n - 2 then some 1 else none
/-- The key statements of one round group. -/
def stdKeys (n : Nat) : List Instr := (List.range n).map fun i => .key i i (keyT n i) (decide (i = n - 1))
/-- ... and their inverse. -/
def stdUnkeys (n : Nat) : List Instr := (List.range n).map fun i => .unkey i i (keyT n i) (decide (i = n - 1))
/-- The key statements after the loop, for a last subkey `s`. -/
def stdFin (n s : Nat) : List Instr := (List.range n).map fun i =>
  .keyAbs i ((s + i) % (n + 1)) ((keyT n i).map fun t => (s + t) % 3) (if i = n - 1 then some s else none)
/-- ... for decryption, subkey 0. -/
def stdUnfin (n : Nat) : List Instr := (List.range n).map fun i => .unkeyAbs i i (keyT n i) none

/-- Mixes. -/
def mixesL (l : List (Nat × Nat × Nat)) : List Instr := l.map fun p => .mix p.1 p.2.1 p.2.2
/-- Their inverse, in reverse order. -/
def unmixesL (l : List (Nat × Nat × Nat)) : List Instr := l.reverse.map fun p => .unmix p.1 p.2.1 p.2.2

/-- The word labels after `d` rounds: the code renames the variables instead of permuting them. -/
def label (n : Nat) : Nat → Nat → Nat
  | 0, i => i
  | d + 1, i => label n d ((Spec.Threefish.perm n).getD i 0)

/-- The mixes of round `d` of the group `g` (0 or 1). -/
def roundMixes (n g d : Nat) : List (Nat × Nat × Nat) :=
  (List.range (n / 2)).map fun j => (label n d (2 * j), label n d (2 * j + 1), ((Spec.Threefish.rot n).getD (4 * g + d) []).getD j 0)
/-- The mixes of four rounds. -/
def groupMixes (n g : Nat) : List (Nat × Nat × Nat) :=
  roundMixes n g 0 ++ roundMixes n g 1 ++ roundMixes n g 2 ++ roundMixes n g 3

/-- The code is the standard's: checked for each of the three ciphers. -/
structure Code.Std (c : Code) : Prop where
  n2 : c.n = 4 ∨ c.n = 8 ∨ c.n = 16
  even : c.last = c.last / 2 * 2
  encA : c.encA = stdKeys c.n ++ mixesL (groupMixes c.n 0)
  encB : c.encB = stdKeys c.n ++ mixesL (groupMixes c.n 1)
  encFin : c.encFin = stdFin c.n c.last
  decA : c.decA = stdUnkeys c.n ++ unmixesL (groupMixes c.n 1)
  decB : c.decB = stdUnkeys c.n ++ unmixesL (groupMixes c.n 0)
  decFin : c.decFin = stdUnfin c.n
  rounds : Spec.Threefish.rounds c.n = 4 * c.last

set_option maxRecDepth 100000 in
theorem code256_std : code256.Std where
  n2 := Or.inl rfl
  even := rfl
  encA := by decide +kernel
  encB := by decide +kernel
  encFin := by decide +kernel
  decA := by decide +kernel
  decB := by decide +kernel
  decFin := by decide +kernel
  rounds := rfl

set_option maxRecDepth 100000 in
theorem code512_std : code512.Std where
  n2 := Or.inr (Or.inl rfl)
  even := rfl
  encA := by decide +kernel
  encB := by decide +kernel
  encFin := by decide +kernel
  decA := by decide +kernel
  decB := by decide +kernel
  decFin := by decide +kernel
  rounds := rfl

set_option maxRecDepth 100000 in
theorem code1024_std : code1024.Std where
  n2 := Or.inr (Or.inr rfl)
  even := rfl
  encA := by decide +kernel
  encB := by decide +kernel
  encFin := by decide +kernel
  decA := by decide +kernel
  decB := by decide +kernel
  decFin := by decide +kernel
  rounds := rfl

/-! ### Key addition -/

theorem foldl_upd (v : Nat → U64) (f : U64 → U64 → U64) (n : Nat) (b : Regs) :
    (List.range n).foldl (fun b i => upd b i (f (b i) (v i))) b = fun i => if i < n then f (b i) (v i) else b i := by
  induction n with
  | zero => funext i; simp
  | succ n ih =>
    rw [List.range_succ, List.foldl_append, ih]
    funext i
    simp only [List.foldl_cons, List.foldl_nil, upd]
    by_cases h : i = n
    · subst h; simp
    · rw [if_neg h]
      by_cases h2 : i < n
      · rw [if_pos h2, if_pos (by omega)]
      · rw [if_neg h2, if_neg (by omega)]

/-- Adding subkey `s`. -/
def addK (n : Nat) (K T : Nat → U64) (s : Nat) (b : Regs) : Regs :=
  fun i => if i < n then b i + Spec.Threefish.subkey n K T s i else b i
/-- Subtracting it. -/
def subK (n : Nat) (K T : Nat → U64) (s : Nat) (b : Regs) : Regs :=
  fun i => if i < n then b i - Spec.Threefish.subkey n K T s i else b i

theorem subK_addK (n : Nat) (K T : Nat → U64) (s : Nat) (b : Regs) : subK n K T s (addK n K T s b) = b := by
  funext i; simp only [subK, addK]; split
  · rw [BitVec.add_sub_cancel]
  · rfl
theorem addK_subK (n : Nat) (K T : Nat → U64) (s : Nat) (b : Regs) : addK n K T s (subK n K T s b) = b := by
  funext i; simp only [subK, addK]; split
  · rw [BitVec.sub_add_cancel]
  · rfl

theorem keyVal_std (n : Nat) (hn : 4 ≤ n) (K T : Nat → U64) (s i : Nat) :
    keyVal (n + 1) K T s i (keyT n i) (decide (i = n - 1)) = Spec.Threefish.subkey n K T s i := by
  unfold keyVal Spec.Threefish.subkey keyT
  by_cases h1 : i = n - 3
  · simp only [if_pos h1, Nat.add_zero]
  · rw [if_neg h1, if_neg h1]
    by_cases h2 : i = n - 2
    · rw [if_pos h2, if_pos h2]
    · rw [if_neg h2, if_neg h2]
      simp only [decide_eq_true_eq]

theorem exec_stdKeys (n : Nat) (hn : 4 ≤ n) (K T : Nat → U64) (s : Nat) (b : Regs) :
    exec (n + 1) K T s (stdKeys n) b = addK n K T s b := by
  unfold exec stdKeys addK
  rw [List.foldl_map]
  simp only [step, keyVal_std n hn]
  exact foldl_upd _ (fun x y => x + y) n b

theorem exec_stdUnkeys (n : Nat) (hn : 4 ≤ n) (K T : Nat → U64) (s : Nat) (b : Regs) :
    exec (n + 1) K T s (stdUnkeys n) b = subK n K T s b := by
  unfold exec stdUnkeys subK
  rw [List.foldl_map]
  simp only [step, keyVal_std n hn]
  exact foldl_upd _ (fun x y => x - y) n b

theorem exec_stdFin (n : Nat) (hn : 4 ≤ n) (K T : Nat → U64) (s r : Nat) (b : Regs) :
    exec (n + 1) K T r (stdFin n s) b = addK n K T s b := by
  unfold exec stdFin addK
  rw [List.foldl_map]
  have : ∀ i, keyValAbs K T ((s + i) % (n + 1)) ((keyT n i).map fun t => (s + t) % 3) (if i = n - 1 then some s else none) =
      Spec.Threefish.subkey n K T s i := by
    intro i
    unfold keyValAbs Spec.Threefish.subkey keyT
    by_cases h1 : i = n - 3
    · simp only [if_pos h1, Option.map_some, Nat.add_zero]
    · by_cases h2 : i = n - 2
      · simp only [if_neg h1, if_pos h2, Option.map_some]
      · simp only [if_neg h1, if_neg h2, Option.map_none]
        by_cases h3 : i = n - 1
        · simp only [if_pos h3]
        · simp only [if_neg h3]
  simp only [step, this]
  exact foldl_upd _ (fun x y => x + y) n b

theorem exec_stdUnfin (n : Nat) (hn : 4 ≤ n) (K T : Nat → U64) (r : Nat) (b : Regs) :
    exec (n + 1) K T r (stdUnfin n) b = subK n K T 0 b := by
  unfold exec stdUnfin subK
  rw [List.foldl_map]
  have : ∀ i, i < n → keyValAbs K T i (keyT n i) none = Spec.Threefish.subkey n K T 0 i := by
    intro i hi
    unfold keyValAbs Spec.Threefish.subkey keyT
    rw [Nat.zero_add, Nat.mod_eq_of_lt (show i < n + 1 by omega)]
    by_cases h1 : i = n - 3
    · simp only [if_pos h1]
    · by_cases h2 : i = n - 2
      · simp only [if_neg h1, if_pos h2]
      · simp only [if_neg h1, if_neg h2]
        by_cases h3 : i = n - 1
        · simp only [if_pos h3]
        · simp only [if_neg h3]
  simp only [step]
  rw [foldl_upd _ (fun x y => x - y) n b]
  funext i
  by_cases hi : i < n
  · rw [if_pos hi, if_pos hi, this i hi]
  · rw [if_neg hi, if_neg hi]

theorem exec_append (n1 : Nat) (K T : Nat → U64) (r : Nat) (l l' : List Instr) (b : Regs) :
    exec n1 K T r (l ++ l') b = exec n1 K T r l' (exec n1 K T r l b) := by
  unfold exec; rw [List.foldl_append]

/-! ### Mixing -/

/-- Valid mixes. -/
def MixOK (l : List (Nat × Nat × Nat)) : Prop := ∀ p ∈ l, p.1 ≠ p.2.1 ∧ 0 < p.2.2 ∧ p.2.2 < 64

theorem exec_unmixesL (n1 : Nat) (K T : Nat → U64) (r r' : Nat) (l : List (Nat × Nat × Nat)) (hl : MixOK l) (b : Regs) :
    exec n1 K T r' (unmixesL l) (exec n1 K T r (mixesL l) b) = b := by
  induction l generalizing b with
  | nil => rfl
  | cons p l ih =>
    have hp := hl p List.mem_cons_self
    unfold unmixesL mixesL
    rw [List.reverse_cons, List.map_append, exec_append]
    unfold unmixesL mixesL at ih
    simp only [List.map_cons, List.map_nil]
    rw [show ∀ (i : Instr) (l : List Instr), exec n1 K T r (i :: l) b = exec n1 K T r l (step n1 K T r b i) from fun _ _ => rfl,
      ih (fun q hq => hl q (List.mem_cons_of_mem _ hq))]
    have := unmix_mix n1 K T r hp.1 hp.2.1 hp.2.2 b
    exact this

theorem exec_mixesL_un (n1 : Nat) (K T : Nat → U64) (r r' : Nat) (l : List (Nat × Nat × Nat)) (hl : MixOK l) (b : Regs) :
    exec n1 K T r (mixesL l) (exec n1 K T r' (unmixesL l) b) = b := by
  induction l generalizing b with
  | nil => rfl
  | cons p l ih =>
    have hp := hl p List.mem_cons_self
    unfold unmixesL mixesL at ih ⊢
    rw [List.reverse_cons, List.map_append, exec_append]
    simp only [List.map_cons, List.map_nil]
    rw [show ∀ (i : Instr) (l : List Instr) (b : Regs), exec n1 K T r (i :: l) b = exec n1 K T r l (step n1 K T r b i) from fun _ _ _ => rfl]
    rw [show ∀ (i : Instr) (b : Regs), exec n1 K T r' [i] b = step n1 K T r' b i from fun _ _ => rfl]
    have hm : ∀ (b : Regs), step n1 K T r b (.mix p.1 p.2.1 p.2.2) = step n1 K T r' b (.mix p.1 p.2.1 p.2.2) := fun _ => rfl
    rw [hm, mix_unmix n1 K T r' hp.1 hp.2.1 hp.2.2]
    exact ih (fun q hq => hl q (List.mem_cons_of_mem _ hq)) b

theorem groupMixes_ok : ∀ n g, (n = 4 ∨ n = 8 ∨ n = 16) → g < 2 → MixOK (groupMixes n g) := by
  intro n g hn hg
  have : ∀ g, g < 2 → ∀ p ∈ groupMixes n g, p.1 ≠ p.2.1 ∧ 0 < p.2.2 ∧ p.2.2 < 64 := by
    rcases hn with rfl | rfl | rfl
    · decide +kernel
    · decide +kernel
    · decide +kernel
  exact this g hg

/-! ### Whole encryptions -/

/-- The mixes of group `s`. -/
def M (n s : Nat) (b : Regs) : Regs := exec (n + 1) (fun _ => 0#64) (fun _ => 0#64) 0 (mixesL (groupMixes n (s % 2))) b
/-- Their inverse. -/
def U (n s : Nat) (b : Regs) : Regs := exec (n + 1) (fun _ => 0#64) (fun _ => 0#64) 0 (unmixesL (groupMixes n (s % 2))) b

theorem exec_mixes_irrel (n1 : Nat) (K T K' T' : Nat → U64) (r r' : Nat) (l : List (Nat × Nat × Nat)) (b : Regs) :
    exec n1 K T r (mixesL l) b = exec n1 K' T' r' (mixesL l) b := by
  induction l generalizing b with
  | nil => rfl
  | cons p l ih => exact ih _

theorem exec_unmixes_irrel (n1 : Nat) (K T K' T' : Nat → U64) (r r' : Nat) (l : List (Nat × Nat × Nat)) (b : Regs) :
    exec n1 K T r (unmixesL l) b = exec n1 K' T' r' (unmixesL l) b := by
  unfold unmixesL
  induction l.reverse generalizing b with
  | nil => rfl
  | cons p l ih => exact ih _

theorem U_M {n : Nat} (hn : n = 4 ∨ n = 8 ∨ n = 16) (s : Nat) (b : Regs) : U n s (M n s b) = b :=
  exec_unmixesL _ _ _ _ _ _ (groupMixes_ok n _ hn (Nat.mod_lt _ (by decide))) b
theorem M_U {n : Nat} (hn : n = 4 ∨ n = 8 ∨ n = 16) (s : Nat) (b : Regs) : M n s (U n s b) = b :=
  exec_mixesL_un _ _ _ _ _ _ (groupMixes_ok n _ hn (Nat.mod_lt _ (by decide))) b

/-- The state before group `s`. -/
def E (n : Nat) (K T : Nat → U64) : Nat → Regs → Regs
  | 0, b => b
  | s + 1, b => M n s (addK n K T s (E n K T s b))

theorem enc_loop {c : Code} (h : c.Std) (K T : Nat → U64) (b : Regs) (m : Nat) :
    forLoop 0 m (fun b i => exec (c.n + 1) K T (2 * i + 1) c.encB (exec (c.n + 1) K T (2 * i) c.encA b)) b =
      E c.n K T (2 * m) b := by
  have hn : 4 ≤ c.n := by have := h.n2; omega
  induction m with
  | zero => rfl
  | succ m ih =>
    unfold forLoop at ih ⊢
    rw [Nat.sub_zero] at ih ⊢
    rw [← List.range_eq_range'] at ih ⊢
    rw [List.range_succ, List.foldl_append, ih]
    simp only [List.foldl_cons, List.foldl_nil]
    rw [show 2 * (m + 1) = 2 * m + 1 + 1 by omega, E, E, h.encA, h.encB, exec_append, exec_append,
      exec_stdKeys _ hn, exec_stdKeys _ hn, M, M, show (2 * m + 1) % 2 = 1 by omega, show 2 * m % 2 = 0 by omega]
    rw [exec_mixes_irrel _ K T (fun _ => 0#64) (fun _ => 0#64) _ 0, exec_mixes_irrel _ K T (fun _ => 0#64) (fun _ => 0#64) _ 0]

theorem encryptWords_eq {c : Code} (h : c.Std) (block keys tweak : List U64) :
    encryptWords c block keys tweak = (List.range c.n).map
      (addK c.n (load keys) (load tweak) c.last (E c.n (load keys) (load tweak) c.last (load block))) := by
  have hn : 4 ≤ c.n := by have := h.n2; omega
  unfold encryptWords
  simp only
  rw [enc_loop h, show 2 * (c.last / 2) = c.last by have := h.even; omega, h.encFin, exec_stdFin _ hn]

/-- One iteration of the decryption loop, at `r`. -/
def decIter (n : Nat) (K T : Nat → U64) (r : Nat) (b : Regs) : Regs :=
  U n (r - 2) (subK n K T (r - 1) (U n (r - 1) (subK n K T r b)))

theorem dec_loop {c : Code} (h : c.Std) (K T : Nat → U64) (b : Regs) (m : Nat) (hm : 2 * m ≤ c.last) :
    forLoop 0 m (fun b i =>
      exec (c.n + 1) K T (c.last - 2 * i - 1) c.decB (exec (c.n + 1) K T (c.last - 2 * i) c.decA b)) b =
      (List.range m).foldl (fun b i => decIter c.n K T (c.last - 2 * i) b) b := by
  have hn : 4 ≤ c.n := by have := h.n2; omega
  have he := h.even
  induction m with
  | zero => rfl
  | succ m ih =>
    specialize ih (by omega)
    unfold forLoop at ih ⊢
    rw [Nat.sub_zero] at ih ⊢
    rw [← List.range_eq_range'] at ih ⊢
    rw [List.range_succ, List.foldl_append, ih, List.foldl_append]
    simp only [List.foldl_cons, List.foldl_nil]
    rw [decIter, U, U, show (c.last - 2 * m - 2) % 2 = 0 by omega, show (c.last - 2 * m - 1) % 2 = 1 by omega,
      h.decA, h.decB, exec_append, exec_append, exec_stdUnkeys _ hn, exec_stdUnkeys _ hn]
    rw [exec_unmixes_irrel _ K T (fun _ => 0#64) (fun _ => 0#64) _ 0, exec_unmixes_irrel _ K T (fun _ => 0#64) (fun _ => 0#64) _ 0]

/-- Decryption as a function of the registers. -/
def D (n : Nat) (K T : Nat → U64) (last : Nat) (b : Regs) : Regs :=
  subK n K T 0 ((List.range (last / 2)).foldl (fun b i => decIter n K T (last - 2 * i) b) b)

theorem decryptWords_eq {c : Code} (h : c.Std) (block keys tweak : List U64) :
    decryptWords c block keys tweak = (List.range c.n).map (D c.n (load keys) (load tweak) c.last (load block)) := by
  have hn : 4 ≤ c.n := by have := h.n2; omega
  unfold decryptWords D
  simp only
  rw [dec_loop h _ _ _ _ (by have := h.even; omega), h.decFin, exec_stdUnfin _ hn]

theorem D_E {n : Nat} (hn : n = 4 ∨ n = 8 ∨ n = 16) (K T : Nat → U64) (last : Nat) (he : last = last / 2 * 2) (b : Regs) :
    D n K T last (addK n K T last (E n K T last b)) = b := by
  have key : ∀ m, 2 * m ≤ last → (List.range m).foldl (fun b i => decIter n K T (last - 2 * i) b)
      (addK n K T last (E n K T last b)) = addK n K T (last - 2 * m) (E n K T (last - 2 * m) b) := by
    intro m
    induction m with
    | zero => intro _; rfl
    | succ m ih =>
      intro hm
      rw [List.range_succ, List.foldl_append, ih (by omega)]
      simp only [List.foldl_cons, List.foldl_nil]
      obtain ⟨k, hk⟩ : ∃ k, last - 2 * m = k + 2 := ⟨last - 2 * m - 2, by omega⟩
      rw [show last - 2 * (m + 1) = k by omega, hk, decIter, subK_addK, show k + 2 - 1 = k + 1 by omega, show k + 2 - 2 = k by omega,
        E, U_M hn, subK_addK, E, U_M hn]
  unfold D
  rw [key (last / 2) (by omega), show last - 2 * (last / 2) = 0 by omega, E, subK_addK]

theorem E_D {n : Nat} (hn : n = 4 ∨ n = 8 ∨ n = 16) (K T : Nat → U64) (last : Nat) (he : last = last / 2 * 2) (b : Regs) :
    addK n K T last (E n K T last (D n K T last b)) = b := by
  have key : ∀ m, 2 * m ≤ last → ∀ x, addK n K T (last - 2 * m) (E n K T (last - 2 * m) x) =
      (List.range m).foldl (fun b i => decIter n K T (last - 2 * i) b) b →
      addK n K T last (E n K T last x) = b := by
    intro m
    induction m with
    | zero => intro _ x hx; exact hx
    | succ m ih =>
      intro hm x hx
      refine ih (by omega) x ?_
      obtain ⟨k, hk⟩ : ∃ k, last - 2 * m = k + 2 := ⟨last - 2 * m - 2, by omega⟩
      rw [List.range_succ, List.foldl_append] at hx
      simp only [List.foldl_cons, List.foldl_nil] at hx
      rw [show last - 2 * (m + 1) = k by omega] at hx
      rw [hk] at hx ⊢
      rw [E, E, hx, decIter, show k + 2 - 1 = k + 1 by omega, show k + 2 - 2 = k by omega, M_U hn, addK_subK, M_U hn, addK_subK]
  refine key (last / 2) (by omega) _ ?_
  unfold D
  rw [show last - 2 * (last / 2) = 0 by omega, E, addK_subK]

/-! ### The permuted form of the standard -/

theorem label_ok : ∀ n d, (n = 4 ∨ n = 8 ∨ n = 16) → d < 4 →
    (∀ i, i < n → label n d i < n) ∧ (∀ i, i < n → ∀ j, j < n → label n d i = label n d j → i = j) ∧
    (∀ i, i < n → (Spec.Threefish.perm n).getD i 0 < n) := by
  intro n d hn hd
  have : ∀ d, d < 4 → (∀ i, i < n → label n d i < n) ∧ (∀ i, i < n → ∀ j, j < n → label n d i = label n d j → i = j) ∧
    (∀ i, i < n → (Spec.Threefish.perm n).getD i 0 < n) := by
    rcases hn with rfl | rfl | rfl
    · decide +kernel
    · decide +kernel
    · decide +kernel
  exact this d hd

theorem label_four : ∀ n, (n = 4 ∨ n = 8 ∨ n = 16) → ∀ i, i < n → label n 4 i = i := by
  intro n hn
  rcases hn with rfl | rfl | rfl
  · decide +kernel
  · decide +kernel
  · decide +kernel

theorem rot_ok : ∀ n, (n = 4 ∨ n = 8 ∨ n = 16) → ∀ d, d < 8 → ∀ j, j < n / 2 →
    0 < ((Spec.Threefish.rot n).getD d []).getD j 0 ∧ ((Spec.Threefish.rot n).getD d []).getD j 0 < 64 := by
  intro n hn
  rcases hn with rfl | rfl | rfl
  · decide +kernel
  · decide +kernel
  · decide +kernel

/-- The MIX of word `i` in the standard, with the rotations `R`. -/
def mixAt (R : Nat → Nat) (e : Nat → U64) (i : Nat) : U64 :=
  let p := Spec.Threefish.mix (R (i / 2)) (e (i / 2 * 2)) (e (i / 2 * 2 + 1))
  if i % 2 = 0 then p.1 else p.2

theorem mixes_label (n : Nat) (hn : n % 2 = 0) (sg : Nat → Nat) (hsg : ∀ i, i < n → ∀ j, j < n → sg i = sg j → i = j)
    (R : Nat → Nat) (hR : ∀ j, j < n / 2 → R j < 64) (n1 : Nat) (K T : Nat → U64) (r : Nat) (u : Regs) (e : Nat → U64)
    (hu : ∀ i, i < n → u (sg i) = e i) (m : Nat) (hm : m ≤ n / 2) :
    ∀ i, i < n → exec n1 K T r (mixesL ((List.range m).map fun j => (sg (2 * j), sg (2 * j + 1), R j))) u (sg i) =
      if i / 2 < m then mixAt R e i else e i := by
  induction m with
  | zero => intro i hi; simpa [mixesL, exec] using hu i hi
  | succ m ih =>
    intro i hi
    specialize ih (by omega)
    have e0 := ih (2 * m) (by omega)
    have e1 := ih (2 * m + 1) (by omega)
    have ei := ih i hi
    rw [if_neg (by omega)] at e0 e1
    rw [List.range_succ, List.map_append]
    unfold mixesL at *
    rw [List.map_append, exec_append]
    generalize exec n1 K T r (List.map (fun p => Instr.mix p.1 p.2.1 p.2.2)
      ((List.range m).map fun j => (sg (2 * j), sg (2 * j + 1), R j))) u = b at *
    simp only [List.map_cons, List.map_nil, exec, List.foldl_cons, List.foldl_nil, step]
    have hne : sg (2 * m) ≠ sg (2 * m + 1) := fun h => by have := hsg _ (by omega) _ (by omega) h; omega
    have hrr : ∀ x : U64, (x <<< R m) ||| (x >>> (64 - R m)) = x.rotateLeft (R m) := by
      intro x
      rw [BitVec.rotateLeft_def, Nat.mod_eq_of_lt (hR m (by omega))]
    rw [upd_ne _ _ hne.symm, upd_same, e0, e1, hrr]
    by_cases h0 : i = 2 * m
    · subst h0
      rw [upd_ne _ _ hne, upd_same, if_pos (by omega), mixAt, Spec.Threefish.mix, if_pos (by omega), show 2 * m / 2 = m by omega,
        Nat.mul_comm m 2]
    · by_cases h1 : i = 2 * m + 1
      · subst h1
        rw [upd_same, if_pos (by omega), mixAt, Spec.Threefish.mix, if_neg (by omega), show (2 * m + 1) / 2 = m by omega,
          Nat.mul_comm m 2]
      · have n0 : sg i ≠ sg (2 * m) := fun h => h0 (hsg _ hi _ (by omega) h)
        have n1 : sg i ≠ sg (2 * m + 1) := fun h => h1 (hsg _ hi _ (by omega) h)
        rw [upd_ne _ _ n1, upd_ne _ _ n0, ei]
        by_cases hl : i / 2 < m
        · rw [if_pos hl, if_pos (by omega)]
        · rw [if_neg hl, if_neg (by omega)]

/-- One round without the key: MIX and permutation. -/
def round0 (n d : Nat) (e : Nat → U64) : Nat → U64 := fun i =>
  mixAt (fun j => ((Spec.Threefish.rot n).getD (d % 8) []).getD j 0) e ((Spec.Threefish.perm n).getD i 0)

theorem round_label {n : Nat} (hn : n = 4 ∨ n = 8 ∨ n = 16) (g d : Nat) (hg : g < 2) (hd : d < 4) (u : Regs) (e : Nat → U64)
    (hu : ∀ i, i < n → u (label n d i) = e i) (n1 : Nat) (K T : Nat → U64) (r : Nat) :
    ∀ i, i < n → exec n1 K T r (mixesL (roundMixes n g d)) u (label n (d + 1) i) = round0 n (4 * g + d) e i := by
  intro i hi
  have hl := label_ok n d hn hd
  have hp := hl.2.2 i hi
  rw [label]
  have := mixes_label n (by omega) (label n d) hl.2.1 (fun j => ((Spec.Threefish.rot n).getD (4 * g + d) []).getD j 0)
    (fun j hj => (rot_ok n hn (4 * g + d) (by omega) j hj).2) n1 K T r u e hu (n / 2) (by omega) _ hp
  rw [if_pos (by omega)] at this
  unfold roundMixes round0
  rw [this, Nat.mod_eq_of_lt (show 4 * g + d < 8 by omega)]

theorem M_spec {n : Nat} (hn : n = 4 ∨ n = 8 ∨ n = 16) (s : Nat) (u : Regs) (e : Nat → U64) (hu : ∀ i, i < n → u i = e i) :
    ∀ i, i < n → M n s u i = round0 n (4 * s + 3) (round0 n (4 * s + 2) (round0 n (4 * s + 1) (round0 n (4 * s) e))) i := by
  intro i hi
  have hg : s % 2 < 2 := Nat.mod_lt _ (by decide)
  unfold M groupMixes
  have ha : ∀ l l', mixesL (l ++ l') = mixesL l ++ mixesL l' := fun l l' => List.map_append
  rw [ha, ha, ha, exec_append, exec_append, exec_append]
  have h0 := round_label hn (s % 2) 0 hg (by decide) u e hu (n + 1) (fun _ => 0#64) (fun _ => 0#64) 0
  have h1 := round_label hn (s % 2) 1 hg (by decide) _ _ h0 (n + 1) (fun _ => 0#64) (fun _ => 0#64) 0
  have h2 := round_label hn (s % 2) 2 hg (by decide) _ _ h1 (n + 1) (fun _ => 0#64) (fun _ => 0#64) 0
  have h3 := round_label hn (s % 2) 3 hg (by decide) _ _ h2 (n + 1) (fun _ => 0#64) (fun _ => 0#64) 0 i hi
  rw [label_four n hn i hi] at h3
  rw [h3]
  have hr : ∀ d, d < 4 → ∀ e, round0 n (4 * (s % 2) + d) e = round0 n (4 * s + d) e := by
    intro d hd e
    unfold round0
    rw [show (4 * (s % 2) + d) % 8 = (4 * s + d) % 8 by omega]
  rw [hr 3 (by decide), hr 2 (by decide), hr 1 (by decide), hr 0 (by decide)]
  rfl

theorem mixAt_congr {n : Nat} (hn : n % 2 = 0) (R : Nat → Nat) {e e' : Nat → U64} (h : ∀ i, i < n → e i = e' i) {i : Nat}
    (hi : i < n) : mixAt R e i = mixAt R e' i := by
  unfold mixAt
  rw [h (i / 2 * 2) (by omega), h (i / 2 * 2 + 1) (by omega)]

theorem round0_congr {n : Nat} (hn : n = 4 ∨ n = 8 ∨ n = 16) (d : Nat) {e e' : Nat → U64} (h : ∀ i, i < n → e i = e' i) :
    ∀ i, i < n → round0 n d e i = round0 n d e' i := by
  intro i hi
  exact mixAt_congr (by omega) _ h ((label_ok n 0 hn (by decide)).2.2 i hi)

theorem round_zero (n : Nat) (K T : Nat → U64) (d : Nat) (hd : d % 4 ≠ 0) (v : Nat → U64) :
    Spec.Threefish.round n K T d v = round0 n d v := by
  unfold Spec.Threefish.round
  simp only [if_neg hd]
  rfl

theorem round_key (n : Nat) (K T : Nat → U64) (d : Nat) (hd : d % 4 = 0) (v : Nat → U64) :
    Spec.Threefish.round n K T d v = round0 n d (fun i => v i + Spec.Threefish.subkey n K T (d / 4) i) := by
  unfold Spec.Threefish.round
  simp only [if_pos hd]
  rfl

theorem E_spec {n : Nat} (hn : n = 4 ∨ n = 8 ∨ n = 16) (K T : Nat → U64) (b : Regs) (s : Nat) :
    ∀ i, i < n → E n K T s b i = (List.range (4 * s)).foldl (fun v d => Spec.Threefish.round n K T d v) b i := by
  induction s with
  | zero => intro i hi; rfl
  | succ s ih =>
    intro i hi
    rw [E, M_spec hn s _ _ (fun _ _ => rfl) i hi]
    rw [show 4 * (s + 1) = 4 * s + 1 + 1 + 1 + 1 by omega, List.range_succ, List.range_succ, List.range_succ, List.range_succ]
    simp only [List.foldl_append, List.foldl_cons, List.foldl_nil]
    rw [round_zero n K T (4 * s + 1 + 1 + 1) (by omega), round_zero n K T (4 * s + 1 + 1) (by omega),
      round_zero n K T (4 * s + 1) (by omega), round_key n K T (4 * s) (by omega)]
    refine round0_congr hn _ (round0_congr hn _ (round0_congr hn _ (round0_congr hn _ ?_))) i hi
    intro i hi
    rw [addK, if_pos hi, ih i hi, show 4 * s / 4 = s by omega]

/-- `Encrypt256/512/1024` is Threefish, given expanded keys and tweak. -/
theorem encryptWords_spec {c : Code} (h : c.Std) (block key : List U64) (t0 t1 : U64) (hk : key.length = c.n) :
    encryptWords c block (key ++ [key.foldl (· ^^^ ·) C240]) [t0, t1, t0 ^^^ t1] = Spec.Threefish.encrypt c.n key t0 t1 block := by
  have hn : 4 ≤ c.n := by have := h.n2; omega
  rw [encryptWords_eq h]
  unfold Spec.Threefish.encrypt
  simp only
  apply List.map_congr_left
  intro i hi
  rw [List.mem_range] at hi
  have hT : ∀ j, j < 3 → load [t0, t1, t0 ^^^ t1] j = Spec.Threefish.extTweak t0 t1 j := by
    intro j hj
    have : j = 0 ∨ j = 1 ∨ j = 2 := by omega
    rcases this with rfl | rfl | rfl <;> rfl
  have hK : ∀ j, j < c.n + 1 → load (key ++ [key.foldl (· ^^^ ·) C240]) j = Spec.Threefish.extKey c.n key j := by
    intro j hj
    unfold load Spec.Threefish.extKey
    by_cases hjn : j < c.n
    · rw [if_pos hjn, List.getD_eq_getElem?_getD, List.getElem?_append_left (by omega), ← List.getD_eq_getElem?_getD]
    · have : j = key.length := by omega
      subst this
      rw [if_neg hjn, List.getD_eq_getElem?_getD, List.getElem?_append_right (Nat.le_refl _), Nat.sub_self]
      rfl
  have hs : ∀ s i, Spec.Threefish.subkey c.n (load (key ++ [key.foldl (· ^^^ ·) C240])) (load [t0, t1, t0 ^^^ t1]) s i =
      Spec.Threefish.subkey c.n (Spec.Threefish.extKey c.n key) (Spec.Threefish.extTweak t0 t1) s i := by
    intro s i
    unfold Spec.Threefish.subkey
    rw [hK _ (Nat.mod_lt _ (by omega)), hT _ (Nat.mod_lt _ (by decide)), hT _ (Nat.mod_lt _ (by decide))]
  have hr : ∀ d v, Spec.Threefish.round c.n (load (key ++ [key.foldl (· ^^^ ·) C240])) (load [t0, t1, t0 ^^^ t1]) d v =
      Spec.Threefish.round c.n (Spec.Threefish.extKey c.n key) (Spec.Threefish.extTweak t0 t1) d v := by
    intro d v
    unfold Spec.Threefish.round
    simp only [hs]
  rw [addK, if_pos hi, E_spec h.n2 _ _ _ _ i hi, hs, h.rounds, show 4 * c.last / 4 = c.last by omega]
  simp only [hr]
  rfl

end Verif.Threefish
