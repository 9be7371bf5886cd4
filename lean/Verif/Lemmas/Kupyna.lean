import Verif.Model.Kupyna
import Verif.Spec.Kupyna
import Verif.Lemmas.EchoObj
/-
Package kupyna: the two permutations and the compression function.
-/
namespace Verif.Kupyna
open Spec.Whirlpool (mul)
open Spec.Kupyna (pi coef shift)
open LSH (getD_set' getD_map_range ext_getD)
open Echo (abs abs_length abs_at)

/-! ## The tables -/

def tab (j : Nat) : List U64 := [T0, T1, T2, T3, T4, T5, T6, T7].getD j []

theorem tab_list : ∀ j, j < 8 → ∀ k, k < 8 → (tab j).map (fun w => w.extractLsb' (8 * k) 8) = (pi j).map (mul (coef k j)) := by decide +kernel
theorem tab_len : ∀ j, j < 8 → (tab j).length = 256 := by decide +kernel
theorem pi_len : ∀ j, j < 8 → (pi j).length = 256 := by decide +kernel

theorem tab_byte (j k n : Nat) (hj : j < 8) (hk : k < 8) (hn : n < 256) :
    ((tab j).getD n 0).extractLsb' (8 * k) 8 = mul (coef k j) (at8 (pi j) n) := by
  have e := congrArg (fun l : List Byte => l.getD n 0) (tab_list j hj k hk)
  have h1 := tab_len j hj
  have h2 := pi_len j hj
  generalize tab j = t at *
  generalize pi j = p at *
  simp only [List.getD_eq_getElem?_getD, List.getElem?_map, List.getElem?_eq_getElem (show n < t.length by omega),
    List.getElem?_eq_getElem (show n < p.length by omega), Option.map_some, Option.getD_some] at e
  unfold at8
  rw [List.getD_eq_getElem?_getD, List.getD_eq_getElem?_getD, List.getElem?_eq_getElem (show n < t.length by omega),
    List.getElem?_eq_getElem (show n < p.length by omega)]
  exact e

theorem look_eq (t : List U64) (x : U64) (j : Nat) : look t x (8 * j) = t.getD (x.extractLsb' (8 * j) 8 : Byte).toNat 0 := by
  unfold look; rw [Echo.sw8]

/-! ## One row of G -/

def entry (c : Nat) (x : List U64) (i j : Nat) : U64 := look (tab j) (g x ((i + c - shift c j) % c)) (8 * j)
def row (c : Nat) (x : List U64) (i : Nat) : U64 :=
  entry c x i 0 ^^^ entry c x i 1 ^^^ entry c x i 2 ^^^ entry c x i 3 ^^^ entry c x i 4 ^^^ entry c x i 5 ^^^ entry c x i 6 ^^^ entry c x i 7

theorem fold8 (f : Nat → Byte) : (List.range 8).foldl (fun a k => a ^^^ f k) 0 = f 0 ^^^ f 1 ^^^ f 2 ^^^ f 3 ^^^ f 4 ^^^ f 5 ^^^ f 6 ^^^ f 7 := by
  rw [show List.range 8 = [0, 1, 2, 3, 4, 5, 6, 7] from rfl]
  simp only [List.foldl_cons, List.foldl_nil]
  rw [show (0 : Byte) ^^^ f 0 = f 0 from BitVec.zero_xor]

theorem row_byte (c : Nat) (hc : 0 < c) (x : List U64) (hx : x.length = c) (i k : Nat) (hi : i < c) (hk : k < 8) :
    (row c x i).extractLsb' (8 * k) 8 = at8 (Spec.Kupyna.layer c (abs x)) (8 * i + k) := by
  have he : ∀ j, j < 8 → (entry c x i j).extractLsb' (8 * k) 8 = mul (coef k j) (at8 (Spec.Kupyna.shiftBytes c (Spec.Kupyna.subBytes c (abs x))) (8 * i + j)) := by
    intro j hj
    have hm := Nat.mod_lt (i + c - shift c j) hc
    unfold entry
    rw [look_eq, tab_byte _ _ _ hj hk (BitVec.isLt _)]
    unfold Spec.Kupyna.shiftBytes
    rw [at8_map_range _ _ _ (by omega), show (8 * i + j) / 8 = i by omega, show (8 * i + j) % 8 = j by omega]
    unfold Spec.Kupyna.subBytes
    rw [at8_map_range _ _ _ (by omega), show (8 * ((i + c - shift c j) % c) + j) % 8 = j by omega, abs_at _ _ (by omega),
      show (8 * ((i + c - shift c j) % c) + j) / 8 = (i + c - shift c j) % c by omega, show (8 * ((i + c - shift c j) % c) + j) % 8 = j by omega]
    rfl
  unfold Spec.Kupyna.layer Spec.Kupyna.mixColumns
  rw [at8_map_range _ _ _ (by omega), show (8 * i + k) / 8 = i by omega, show (8 * i + k) % 8 = k by omega, fold8]
  rw [← he 0 (by omega), ← he 1 (by omega), ← he 2 (by omega), ← he 3 (by omega), ← he 4 (by omega), ← he 5 (by omega), ← he 6 (by omega), ← he 7 (by omega)]
  unfold row
  simp only [Echo.xor_ext]

theorem layer_eq (c : Nat) (hc : 0 < c) (x : List U64) (hx : x.length = c) : abs ((List.range c).map (row c x)) = Spec.Kupyna.layer c (abs x) := by
  have hl : ((List.range c).map (row c x)).length = c := by simp
  apply ext_at8
  · rw [abs_length, hl]; simp [Spec.Kupyna.layer, Spec.Kupyna.mixColumns]
  · intro n hn
    rw [abs_length, hl] at hn
    rw [abs_at _ _ (by rw [hl]; exact hn), getD_map_range _ _ _ _ (by omega), row_byte c hc x hx _ _ (by omega) (by omega)]
    congr 1; omega

/-! ## The round keys -/

theorem keyX_byte : ∀ j, j < 16 → ∀ ν, ν < 16 → ∀ k, k < 8 → (((BitVec.ofNat 64 j <<< 4) ^^^ BitVec.ofNat 64 ν : U64).extractLsb' (8 * k) 8 : Byte) =
    if k = 0 then BitVec.ofNat 8 (j * 16) ^^^ BitVec.ofNat 8 ν else 0 := by decide +kernel

def keyX (i ν : Nat) : U64 := (BitVec.ofNat 64 i <<< 4) ^^^ BitVec.ofNat 64 ν
def keyM (c i ν : Nat) : U64 := 0x00F0F0F0F0F0F0F3 ^^^ ((((BitVec.ofNat 64 (c - 1) - BitVec.ofNat 64 i) * 0x10) ^^^ BitVec.ofNat 64 ν) <<< 56)

theorem addX_eq (c : Nat) (hc : c ≤ 16) (w : Nat → U64) (ν : Nat) (hν : ν < 16) :
    abs ((List.range c).map fun i => w i ^^^ keyX i ν) = Spec.Kupyna.addXor c ν (abs ((List.range c).map w)) := by
  have hl : ∀ f : Nat → U64, ((List.range c).map f).length = c := by intro f; simp
  apply ext_at8
  · rw [abs_length, hl]; simp [Spec.Kupyna.addXor]
  · intro n hn
    rw [abs_length, hl] at hn
    unfold Spec.Kupyna.addXor
    rw [abs_at _ _ (by rw [hl]; exact hn), getD_map_range _ _ _ _ (by omega), at8_map_range _ _ _ hn, abs_at _ _ (by rw [hl]; exact hn),
      getD_map_range _ _ _ _ (by omega), Echo.xor_ext]
    unfold keyX
    rw [keyX_byte (n / 8) (by omega) ν hν (n % 8) (by omega)]
    by_cases h : n % 8 = 0
    · rw [if_pos h, if_pos h, BitVec.xor_assoc]
    · rw [if_neg h, if_neg h]; exact BitVec.xor_zero

theorem keyM_eq8 : ∀ j, j < 8 → ∀ ν, ν < 16 → keyM 8 j ν =
    getLE64 [0xf3, 0xf0, 0xf0, 0xf0, 0xf0, 0xf0, 0xf0, BitVec.ofNat 8 ((8 - 1 - j) * 16) ^^^ BitVec.ofNat 8 ν] 0 := by decide +kernel
theorem keyM_eq16 : ∀ j, j < 16 → ∀ ν, ν < 16 → keyM 16 j ν =
    getLE64 [0xf3, 0xf0, 0xf0, 0xf0, 0xf0, 0xf0, 0xf0, BitVec.ofNat 8 ((16 - 1 - j) * 16) ^^^ BitVec.ofNat 8 ν] 0 := by decide +kernel

theorem keyM_eq (c : Nat) (hc : c = 8 ∨ c = 16) (j : Nat) (hj : j < c) (ν : Nat) (hν : ν < 16) : keyM c j ν =
    getLE64 [0xf3, 0xf0, 0xf0, 0xf0, 0xf0, 0xf0, 0xf0, BitVec.ofNat 8 ((c - 1 - j) * 16) ^^^ BitVec.ofNat 8 ν] 0 := by
  rcases hc with h | h <;> subst h
  · exact keyM_eq8 j hj ν hν
  · exact keyM_eq16 j hj ν hν

theorem le64_ext (a b : U64) (h : ∀ k, k < 8 → (a.extractLsb' (8 * k) 8 : Byte) = b.extractLsb' (8 * k) 8) : a = b := by
  apply BitVec.eq_of_getLsbD_eq
  intro i hi
  have := congrArg (fun b : Byte => b.getLsbD (i % 8)) (h (i / 8) (by omega))
  simp only [BitVec.getLsbD_extractLsb', show i % 8 < 8 from Nat.mod_lt _ (by decide), decide_true, Bool.true_and, Nat.div_add_mod] at this
  exact this

theorem getLE64_abs (x : List U64) (j : Nat) (hj : j < x.length) : getLE64 (abs x) (8 * j) = x.getD j 0 := by
  apply le64_ext
  intro k hk
  rw [getLE64_extract _ _ _ hk, abs_at _ _ (by omega), show (8 * j + k) / 8 = j by omega, show (8 * j + k) % 8 = k by omega]

theorem addM_eq (c : Nat) (hc : c = 8 ∨ c = 16) (w : Nat → U64) (ν : Nat) (hν : ν < 16) :
    abs ((List.range c).map fun i => w i + keyM c i ν) = Spec.Kupyna.addMod c ν (abs ((List.range c).map w)) := by
  unfold Spec.Kupyna.addMod Echo.abs
  rw [List.flatMap_map]
  rw [List.flatMap_def, List.flatMap_def]
  congr 1
  apply List.map_congr_left
  intro j hj
  rw [List.mem_range] at hj
  rw [keyM_eq c hc j hj ν hν, getLE64_abs _ _ (by simp; exact hj), getD_map_range _ _ _ _ hj]

/-! ## The two packages' functions -/

/-- What is needed of a variant. -/
structure Fits (F : Fns) (c : Nat) : Prop where
  cols : F.cols = c
  c_eq : c = 8 ∨ c = 16
  block : F.block = 8 * c
  lenAt : F.lenAt = 8 * c - 12
  rounds : F.rounds = Spec.Kupyna.rounds c
  G : ∀ x, F.G x = (List.range c).map (row c x)
  G1 : ∀ x r, F.G1 x r = (List.range c).map fun i => row c x i ^^^ (BitVec.ofNat 64 i <<< 4) ^^^ r
  G2 : ∀ x r, F.G2 x r = (List.range c).map fun i => row c x i + (0x00F0F0F0F0F0F0F3 ^^^ ((((BitVec.ofNat 64 (c - 1) - BitVec.ofNat 64 i) * 0x10) ^^^ r) <<< 56))

theorem fits256 : Fits fns256 8 where
  cols := rfl
  c_eq := Or.inl rfl
  block := rfl
  lenAt := rfl
  rounds := rfl
  G := fun _ => rfl
  G1 := fun _ _ => rfl
  G2 := fun _ _ => rfl
theorem fits512 : Fits fns512 16 where
  cols := rfl
  c_eq := Or.inr rfl
  block := rfl
  lenAt := rfl
  rounds := rfl
  G := fun _ => rfl
  G1 := fun _ _ => rfl
  G2 := fun _ _ => rfl

theorem list_self (x : List U64) (c : Nat) (h : x.length = c) : (List.range c).map (g x) = x := by
  apply ext_getD (by simp [h])
  intro i hi
  simp at hi
  rw [getD_map_range _ _ _ _ hi]; rfl

/-- A loop that sets every entry from itself. -/
theorem setAll (s : List U64) (f : Nat → U64 → U64) (c : Nat) (hc : s.length = c) :
    forLoop 0 c (fun h i => h.set i (f i (g h i))) s = (List.range c).map fun i => f i (g s i) := by
  obtain ⟨a, b, _⟩ := Echo.setLoop s (fun h i => f i (g h i)) c (by omega) (fun h i hi e => by show f i (h.getD i 0) = f i (s.getD i 0); rw [e i (Nat.le_refl i)])
  apply ext_getD (by rw [a]; simp [hc])
  intro i hi
  rw [a, hc] at hi
  rw [b i hi, getD_map_range _ _ _ _ hi]

variable {F : Fns} {c : Nat}

theorem Fits.c_pos (h : Fits F c) : 0 < c := by rcases h.c_eq with e | e <;> omega
theorem Fits.c_le (h : Fits F c) : c ≤ 16 := by rcases h.c_eq with e | e <;> omega

theorem P_eq (h : Fits F c) (x : List U64) (hx : x.length = c) (ν : Nat) (hν : ν + 1 < 16) :
    (P F x (BitVec.ofNat 64 ν)).length = c ∧ abs (P F x (BitVec.ofNat 64 ν)) =
      Spec.Kupyna.layer c (Spec.Kupyna.addXor c (ν + 1) (Spec.Kupyna.layer c (Spec.Kupyna.addXor c ν (abs x)))) := by
  have hl : ∀ f : Nat → U64, ((List.range c).map f).length = c := by intro f; simp
  unfold P
  dsimp only
  rw [h.cols, setAll x (fun i v => v ^^^ ((BitVec.ofNat 64 i <<< 4) ^^^ BitVec.ofNat 64 ν)) c hx, h.G, h.G1]
  refine ⟨hl _, ?_⟩
  rw [layer_eq c h.c_pos _ (hl _)]
  congr 1
  rw [show (BitVec.ofNat 64 ν + 1 : U64) = BitVec.ofNat 64 (ν + 1) from (BitVec.ofNat_add ..).symm]
  have e := addX_eq c h.c_le (row c ((List.range c).map fun i => g x i ^^^ keyX i ν)) (ν + 1) hν
  rw [layer_eq c h.c_pos _ (hl _), addX_eq c h.c_le (g x) ν (by omega), list_self x c hx] at e
  rw [← e]
  congr 2
  funext i
  unfold keyX
  rw [BitVec.xor_assoc]

theorem Q_eq (h : Fits F c) (x : List U64) (hx : x.length = c) (ν : Nat) (hν : ν + 1 < 16) :
    (Q F x (BitVec.ofNat 64 ν)).length = c ∧ abs (Q F x (BitVec.ofNat 64 ν)) =
      Spec.Kupyna.layer c (Spec.Kupyna.addMod c (ν + 1) (Spec.Kupyna.layer c (Spec.Kupyna.addMod c ν (abs x)))) := by
  have hl : ∀ f : Nat → U64, ((List.range c).map f).length = c := by intro f; simp
  unfold Q
  dsimp only
  rw [h.cols, setAll x (fun i v => v + ((0x00F0F0F0F0F0F0F3 : U64) ^^^ ((((BitVec.ofNat 64 (c - 1) - BitVec.ofNat 64 i) * 0x10) ^^^ BitVec.ofNat 64 ν) <<< 56))) c hx, h.G, h.G2]
  refine ⟨hl _, ?_⟩
  rw [layer_eq c h.c_pos _ (hl _)]
  congr 1
  rw [show (BitVec.ofNat 64 ν + 1 : U64) = BitVec.ofNat 64 (ν + 1) from (BitVec.ofNat_add ..).symm]
  have e := addM_eq c h.c_eq (row c ((List.range c).map fun i => g x i + keyM c i ν)) (ν + 1) hν
  rw [layer_eq c h.c_pos _ (hl _), addM_eq c h.c_eq (g x) ν (by omega), list_self x c hx] at e
  exact e

/-- Two rounds per iteration. -/
theorem perm_loop (f : Bytes → Nat → Bytes) (step : List U64 → Nat → List U64) (c n : Nat)
    (hs : ∀ x i, i < n → x.length = c → (step x i).length = c ∧ abs (step x i) = f (f (abs x) (2 * i)) (2 * i + 1)) (x : List U64) (hx : x.length = c) :
    (forLoop 0 n step x).length = c ∧ abs (forLoop 0 n step x) = (List.range (2 * n)).foldl f (abs x) := by
  refine forLoop_inv (fun i t => t.length = c ∧ abs t = (List.range (2 * i)).foldl f (abs x)) (Nat.zero_le n) ⟨hx, rfl⟩ ?_
  intro i t _ hi ⟨h1, h2⟩
  obtain ⟨a, b⟩ := hs t i hi h1
  refine ⟨a, ?_⟩
  rw [b, h2, show 2 * (i + 1) = 2 * i + 1 + 1 by omega, List.range_succ, List.range_succ, List.foldl_append, List.foldl_append]
  rfl

theorem Fits.rounds_even (h : Fits F c) : 2 * (F.rounds / 2) = Spec.Kupyna.rounds c ∧ F.rounds ≤ 14 := by
  rw [h.rounds]
  rcases h.c_eq with e | e <;> subst e <;> decide

theorem permP (h : Fits F c) (x : List U64) (hx : x.length = c) :
    (forLoop 0 (F.rounds / 2) (fun t i => P F t (BitVec.ofNat 64 (2 * i))) x).length = c ∧
      abs (forLoop 0 (F.rounds / 2) (fun t i => P F t (BitVec.ofNat 64 (2 * i))) x) = Spec.Kupyna.permXor c (abs x) := by
  obtain ⟨e, hr⟩ := h.rounds_even
  have := perm_loop (fun M ν => Spec.Kupyna.layer c (Spec.Kupyna.addXor c ν M)) (fun t i => P F t (BitVec.ofNat 64 (2 * i))) c (F.rounds / 2)
    (fun x i hi hx => P_eq h x hx (2 * i) (by omega)) x hx
  rw [e] at this
  exact this

theorem permQ (h : Fits F c) (x : List U64) (hx : x.length = c) :
    (forLoop 0 (F.rounds / 2) (fun t i => Q F t (BitVec.ofNat 64 (2 * i))) x).length = c ∧
      abs (forLoop 0 (F.rounds / 2) (fun t i => Q F t (BitVec.ofNat 64 (2 * i))) x) = Spec.Kupyna.permMod c (abs x) := by
  obtain ⟨e, hr⟩ := h.rounds_even
  have := perm_loop (fun M ν => Spec.Kupyna.layer c (Spec.Kupyna.addMod c ν M)) (fun t i => Q F t (BitVec.ofNat 64 (2 * i))) c (F.rounds / 2)
    (fun x i hi hx => Q_eq h x hx (2 * i) (by omega)) x hx
  rw [e] at this
  exact this

theorem loop_pair {α β} (f : α → Nat → α) (k : β → Nat → β) (n : Nat) (a : α) (b : β) :
    forLoop 0 n (fun (A : α × β) i => (f A.1 i, k A.2 i)) (a, b) = (forLoop 0 n f a, forLoop 0 n k b) := by
  unfold forLoop
  generalize List.range' 0 (n - 0) = l
  induction l generalizing a b with
  | nil => rfl
  | cons i l ih => exact ih _ _

theorem add_eq (x y : List U64) (hx : x.length = c) (hy : y.length = c) :
    abs ((List.range c).map fun i => g x i ^^^ g y i) = Spec.Kupyna.add c (abs x) (abs y) := by
  have hl : ∀ f : Nat → U64, ((List.range c).map f).length = c := by intro f; simp
  apply ext_at8
  · rw [abs_length, hl]; simp [Spec.Kupyna.add]
  · intro n hn
    rw [abs_length, hl] at hn
    unfold Spec.Kupyna.add
    rw [abs_at _ _ (by rw [hl]; exact hn), getD_map_range _ _ _ _ (by omega), at8_map_range _ _ _ hn, abs_at _ _ (by omega), abs_at _ _ (by omega), Echo.xor_ext]
    rfl

theorem fillAll (f : Nat → U64) (c : Nat) : forLoop 0 c (fun a i => a.set i (f i)) (List.replicate c 0) = (List.range c).map f :=
  setAll (List.replicate c 0) (fun i _ => f i) c (by simp)

theorem output_eq (h : Fits F c) (s : List U64) (hs : s.length = c) :
    (outputTransform F s).length = c ∧ abs (outputTransform F s) = Spec.Kupyna.add c (abs s) (Spec.Kupyna.permXor c (abs s)) := by
  obtain ⟨a, b⟩ := permP h s hs
  unfold outputTransform
  dsimp only
  generalize forLoop 0 (F.rounds / 2) (fun t i => P F t (BitVec.ofNat 64 (2 * i))) s = t at *
  rw [h.cols, setAll s (fun i v => v ^^^ g t i) c hs]
  exact ⟨by simp, by rw [add_eq s t hs a, b]⟩

theorem transform_eq (h : Fits F c) (s b : List U64) (hs : s.length = c) (hb : c ≤ b.length) :
    (transform F s b).length = c ∧ abs (transform F s b) = Spec.Kupyna.compress c (abs s) (abs (b.take c)) := by
  have hl : ∀ f : Nat → U64, ((List.range c).map f).length = c := by intro f; simp
  have hbt : (b.take c).length = c := by rw [List.length_take]; omega
  have hg : ∀ i, i < c → g b i = g (b.take c) i := by
    intro i hi
    unfold g
    rw [List.getD_eq_getElem?_getD, List.getD_eq_getElem?_getD, List.getElem?_take_of_lt hi]
  have e1 : ((List.range c).map fun i => g s i ^^^ g b i) = (List.range c).map fun i => g s i ^^^ g (b.take c) i := by
    apply List.map_congr_left
    intro i hi
    rw [hg i (List.mem_range.mp hi)]
  have e2 : (List.range c).map (g b) = b.take c := by
    rw [← list_self (b.take c) c hbt]
    apply List.map_congr_left
    intro i hi
    exact hg i (List.mem_range.mp hi)
  unfold transform
  dsimp only
  rw [h.cols, loop_pair (fun t i => P F t (BitVec.ofNat 64 (2 * i))) (fun t i => Q F t (BitVec.ofNat 64 (2 * i))), fillAll, fillAll, e1, e2]
  obtain ⟨p1, p2⟩ := permP h ((List.range c).map fun i => g s i ^^^ g (b.take c) i) (hl _)
  obtain ⟨q1, q2⟩ := permQ h (b.take c) hbt
  generalize forLoop 0 (F.rounds / 2) (fun t i => P F t (BitVec.ofNat 64 (2 * i))) _ = p at *
  generalize forLoop 0 (F.rounds / 2) (fun t i => Q F t (BitVec.ofNat 64 (2 * i))) _ = q at *
  dsimp only
  rw [setAll s (fun i v => v ^^^ (g p i ^^^ g q i)) c hs]
  refine ⟨hl _, ?_⟩
  unfold Spec.Kupyna.compress
  rw [← add_eq s (b.take c) hs hbt, ← p2, ← q2, ← add_eq p q p1 q1, ← add_eq s _ hs (hl _)]
  congr 1
  apply List.map_congr_left
  intro i hi
  rw [show g ((List.range c).map fun i => g p i ^^^ g q i) i = g p i ^^^ g q i from getD_map_range _ _ _ _ (List.mem_range.mp hi)]

end Verif.Kupyna
