import Verif.Lemmas.Fugue
/-
Package fugue: the unrolled rounds are the rounds of the specification on a rotated state.
-/
namespace Verif.Fugue
open Spec.Fugue (smix4 col)

/-- Where column i of a state rotated by `off` is kept. -/
def rho (L off i : Nat) : Nat := if i < off then i + L - off else i - off

/-- S keeps, rotated by off, the L columns of A. -/
structure Rel (L off : Nat) (S A : List U32) : Prop where
  ls : S.length = 36
  lL : L ≤ 36
  la : A.length = L
  off_lt : off < L
  eq : ∀ i, i < L → ix A i = ix S (rho L off i)

theorem ix_set (S : List U32) (a b : Nat) (x : U32) (ha : a < S.length) : ix (S.set a x) b = if a = b then x else ix S b := by
  unfold ix
  rw [List.getD_eq_getElem?_getD, List.getElem?_set, List.getD_eq_getElem?_getD]
  split
  · rename_i h; subst h; simp [ha]
  · rfl

theorem rho_lt {L off i : Nat} (ho : off < L) (hi : i < L) : rho L off i < L := by unfold rho; split <;> omega
theorem rho_inj {L off i j : Nat} (ho : off < L) (hi : i < L) (hj : j < L) (h : rho L off i = rho L off j) : i = j := by
  unfold rho at h; split at h <;> split at h <;> omega

theorem Rel.set {L off S A} (h : Rel L off S A) (i : Nat) (x : U32) (hi : i < L) : Rel L off (S.set (rho L off i) x) (A.set i x) := by
  have hl := rho_lt h.off_lt hi
  refine ⟨by rw [List.length_set, h.ls], h.lL, by rw [List.length_set, h.la], h.off_lt, fun k hk => ?_⟩
  rw [ix_set _ _ _ _ (by rw [h.la]; exact hi), ix_set _ _ _ _ (by rw [h.ls]; exact Nat.lt_of_lt_of_le hl h.lL)]
  by_cases e : i = k
  · subst e; rw [if_pos rfl, if_pos rfl]
  · rw [if_neg e, if_neg (fun e' => e (rho_inj h.off_lt hi hk e')), h.eq k hk]

/-- The indices of a statement are below L. -/
def Stmt.ok (L : Nat) : Stmt → Bool
  | .xs i j => i < L && j < L
  | .ld i => i < L
  | .smix a b c e => a < L && b < L && c < L && e < L
/-- The statement on the places where the columns are kept. -/
def Stmt.ren (L off : Nat) : Stmt → Stmt
  | .xs i j => .xs (rho L off i) (rho L off j)
  | .ld i => .ld (rho L off i)
  | .smix a b c e => .smix (rho L off a) (rho L off b) (rho L off c) (rho L off e)

theorem Rel.exec1 {L off S A} (h : Rel L off S A) (w : U32) (s : Stmt) (hs : s.ok L = true) : Rel L off (exec1 w S (s.ren L off)) (exec1 w A s) := by
  cases s with
  | xs i j =>
    simp only [Stmt.ok, Bool.and_eq_true, decide_eq_true_eq] at hs
    show Rel L off (S.set _ _) (A.set _ _)
    rw [← h.eq i hs.1, ← h.eq j hs.2]
    exact h.set i _ hs.1
  | ld i =>
    simp only [Stmt.ok, decide_eq_true_eq] at hs
    exact h.set i _ hs
  | smix a b c e =>
    simp only [Stmt.ok, Bool.and_eq_true, decide_eq_true_eq] at hs
    obtain ⟨⟨⟨ha, hb⟩, hc⟩, he⟩ := hs
    show Rel L off (smix S _ _ _ _) (smix A _ _ _ _)
    unfold smix
    dsimp only
    rw [← h.eq a ha, ← h.eq b hb, ← h.eq c hc, ← h.eq e he]
    exact (((h.set a _ ha).set b _ hb).set c _ hc).set e _ he

theorem ix_append (a b : List U32) (i : Nat) : ix (a ++ b) i = if i < a.length then ix a i else ix b (i - a.length) := by
  unfold ix
  rw [List.getD_eq_getElem?_getD, List.getElem?_append]
  split <;> rw [List.getD_eq_getElem?_getD]
theorem ix_take (S : List U32) (n i : Nat) (h : i < n) : ix (S.take n) i = ix S i := by
  unfold ix; rw [List.getD_eq_getElem?_getD, List.getD_eq_getElem?_getD, List.getElem?_take_of_lt h]
theorem ix_drop (S : List U32) (n i : Nat) : ix (S.drop n) i = ix S (n + i) := by
  unfold ix; rw [List.getD_eq_getElem?_getD, List.getD_eq_getElem?_getD, List.getElem?_drop]

theorem ror_length (n : Nat) (A : List U32) : (Spec.Fugue.ror n A).length = A.length := by
  unfold Spec.Fugue.ror; rw [List.length_append, List.length_drop, List.length_take]; omega

theorem ix_ror (n : Nat) (A : List U32) (i : Nat) (hn : n ≤ A.length) (hi : i < A.length) :
    ix (Spec.Fugue.ror n A) i = ix A (rho A.length n i) := by
  unfold Spec.Fugue.ror rho
  rw [ix_append, List.length_drop]
  split
  · rw [if_pos (by omega), ix_drop]; congr 1; omega
  · rw [if_neg (by omega), ix_take _ _ _ (by omega)]; congr 1; omega

/-- Rotation of the state is a change of the offset. -/
theorem Rel.ror {L off S A} (h : Rel L off S A) (n : Nat) (hn : n < L) : Rel L ((off + n) % L) S (Spec.Fugue.ror n A) := by
  have hm : (off + n) % L = if off + n < L then off + n else off + n - L := by
    have := h.off_lt
    split
    · rw [Nat.mod_eq_of_lt (by assumption)]
    · rw [Nat.mod_eq_sub_mod (by omega), Nat.mod_eq_of_lt (by omega)]
  refine ⟨h.ls, h.lL, by rw [ror_length, h.la], Nat.mod_lt _ (by omega), fun i hi => ?_⟩
  rw [ix_ror n A i (by rw [h.la]; omega) (by rw [h.la]; omega), h.la, h.eq _ (rho_lt hn hi), hm]
  have := h.off_lt
  congr 1
  unfold rho
  repeat' split
  all_goals omega

/-- Programs with explicit rotations. -/
inductive Op
  | st (s : Stmt)
  | ror (n : Nat)
def execOp (w : U32) (A : List U32) : Op → List U32
  | .st s => exec1 w A s
  | .ror n => Spec.Fugue.ror n A
def Op.ok (L : Nat) : Op → Bool
  | .st s => s.ok L
  | .ror n => n < L
/-- The statements without rotations, and the last offset. -/
def compile (L : Nat) : Nat → List Op → List Stmt × Nat
  | off, [] => ([], off)
  | off, .st s :: p => (s.ren L off :: (compile L off p).1, (compile L off p).2)
  | off, .ror n :: p => compile L ((off + n) % L) p

theorem compile_ok (L : Nat) (w : U32) (p : List Op) (hp : p.all (Op.ok L) = true) :
    ∀ off S A, Rel L off S A → Rel L (compile L off p).2 (exec w S (compile L off p).1) (p.foldl (execOp w) A) := by
  induction p with
  | nil => intro off S A h; exact h
  | cons o p ih =>
    intro off S A h
    rw [List.all_cons, Bool.and_eq_true] at hp
    cases o with
    | st s => exact ih hp.2 off _ _ (h.exec1 w s hp.1)
    | ror n => exact ih hp.2 _ _ _ (h.ror n (by simpa [Op.ok] using hp.1))

/-! The rounds of the specification as programs -/
def cm (h : Nat) : List Op := [.st (.xs 0 4), .st (.xs 1 5), .st (.xs 2 6), .st (.xs h 4), .st (.xs (h + 1) 5), .st (.xs (h + 2) 6)]
def sub (h : Nat) : List Op := .ror 3 :: cm h ++ [.st (.smix 0 1 2 3)]
def tix256 : List Op := [.st (.xs 10 0), .st (.ld 0), .st (.xs 8 0), .st (.xs 1 24)]
def tix384 : List Op := [.st (.xs 16 0), .st (.ld 0), .st (.xs 8 0), .st (.xs 1 27), .st (.xs 4 30)]
def tix512 : List Op := [.st (.xs 22 0), .st (.ld 0), .st (.xs 8 0), .st (.xs 1 24), .st (.xs 4 27), .st (.xs 7 30)]

theorem smix_eq (A : List U32) (h : 4 ≤ A.length) : smix A 0 1 2 3 = Spec.Fugue.smix A := by
  match A, h with
  | a :: b :: c :: d :: t, _ =>
    show _ = smix4 [a, b, c, d] ++ t
    rw [smixv_eq]; rfl

theorem add_length (i j : Nat) (A : List U32) : (Spec.Fugue.add i j A).length = A.length := List.length_set
theorem smix_length (A : List U32) (a b c d : Nat) : (smix A a b c d).length = A.length := by simp [smix]
theorem cmix_length (A : List U32) : (Spec.Fugue.cmix A).length = A.length := by
  unfold Spec.Fugue.cmix; dsimp only; simp only [add_length]

theorem sub_eq (w : U32) (A : List U32) (h : 4 ≤ A.length) : (sub (A.length / 2)).foldl (execOp w) A = Spec.Fugue.sub A := by
  unfold Spec.Fugue.sub
  rw [← smix_eq _ (by rw [cmix_length, ror_length]; exact h)]
  unfold Spec.Fugue.cmix
  dsimp only
  rw [ror_length]; rfl

theorem sub_length (A : List U32) (h : 4 ≤ A.length) : (Spec.Fugue.sub A).length = A.length := by
  unfold Spec.Fugue.sub
  rw [← smix_eq _ (by rw [cmix_length, ror_length]; exact h), smix_length, cmix_length, ror_length]

/-- n SUB steps. -/
def subsP (h : Nat) : Nat → List Op
  | 0 => []
  | n + 1 => sub h ++ subsP h n

theorem subs_eq (w : U32) (n : Nat) : ∀ A : List U32, 4 ≤ A.length → (subsP (A.length / 2) n).foldl (execOp w) A = Spec.Fugue.subs n A := by
  induction n with
  | zero => intro A _; rfl
  | succ n ih =>
    intro A h
    show List.foldl _ A (sub (A.length / 2) ++ subsP (A.length / 2) n) = _
    rw [List.foldl_append, sub_eq w A h]
    have hl := sub_length A h
    conv => lhs; rw [← hl]
    exact ih _ (by omega)

theorem subs_length (n : Nat) : ∀ A : List U32, 4 ≤ A.length → (Spec.Fugue.subs n A).length = A.length := by
  induction n with
  | zero => intro A _; rfl
  | succ n ih => intro A h; show (Spec.Fugue.subs n _).length = _; rw [ih _ (by rw [sub_length A h]; exact h), sub_length A h]

/-! The control flow -/
/-- Number of rotations at position pc. -/
def rAt (cases : Nat) (pc : Nat) : Nat := if pc < cases then pc + 1 else pc - cases
def next (cases loop pc : Nat) : Nat := if pc + 1 < cases + loop then pc + 1 else cases

/-- What a pair of switch and loop must satisfy: each piece is the round, renamed, and leaves through the right exit. -/
structure ProgOk (L sh : Nat) (cases loop : List (List Stmt × Nat)) (p : List Op) : Prop where
  ok : p.all (Op.ok L) = true
  seg : ∀ pc, pc < cases.length + loop.length →
    compile L (sh * rAt cases.length pc) p = (((cases ++ loop).getD pc ([], 0)).1, sh * ((cases ++ loop).getD pc ([], 0)).2) ∧
    ((cases ++ loop).getD pc ([], 0)).2 < loop.length ∧
    next cases.length loop.length pc < cases.length + loop.length ∧
    rAt cases.length (next cases.length loop.length pc) = ((cases ++ loop).getD pc ([], 0)).2
  ent : ∀ r, r < loop.length → entry cases r < cases.length + loop.length ∧ rAt cases.length (entry cases r) = r

theorem go_rel {L sh cases loop p} (ok : ProgOk L sh cases loop p) (ws : List U32) :
    ∀ pc w S A, pc < cases.length + loop.length → Rel L (sh * rAt cases.length pc) S A →
      (go cases loop pc w S ws).2 < loop.length ∧
      Rel L (sh * (go cases loop pc w S ws).2) (go cases loop pc w S ws).1 ((w :: ws).foldl (fun A w => p.foldl (execOp w) A) A) := by
  induction ws with
  | nil =>
    intro pc w S A hpc h
    obtain ⟨h1, h2, h3, h4⟩ := ok.seg pc hpc
    refine ⟨h2, ?_⟩
    have := compile_ok L w p ok.ok _ S A h
    rw [h1] at this
    exact this
  | cons w' ws ih =>
    intro pc w S A hpc h
    obtain ⟨h1, h2, h3, h4⟩ := ok.seg pc hpc
    have := compile_ok L w p ok.ok _ S A h
    rw [h1] at this
    rw [← h4] at this
    exact ih _ w' _ _ h3 this

instance (L sh cases loop p) : Decidable (ProgOk L sh cases loop p) :=
  decidable_of_iff (p.all (Op.ok L) = true ∧ (∀ pc, pc < cases.length + loop.length →
    compile L (sh * rAt cases.length pc) p = (((cases ++ loop).getD pc ([], 0)).1, sh * ((cases ++ loop).getD pc ([], 0)).2) ∧
    ((cases ++ loop).getD pc ([], 0)).2 < loop.length ∧
    next cases.length loop.length pc < cases.length + loop.length ∧
    rAt cases.length (next cases.length loop.length pc) = ((cases ++ loop).getD pc ([], 0)).2) ∧
    (∀ r, r < loop.length → entry cases r < cases.length + loop.length ∧ rAt cases.length (entry cases r) = r))
    ⟨fun h => ⟨h.1, h.2.1, h.2.2⟩, fun h => ⟨h.ok, h.seg, h.ent⟩⟩

theorem prog256_ok : ProgOk 30 6 prog256Cases prog256Loop (tix256 ++ subsP 15 2) := by decide +kernel
theorem prog384_ok : ProgOk 36 9 prog384Cases prog384Loop (tix384 ++ subsP 18 3) := by decide +kernel
theorem prog512_ok : ProgOk 36 12 prog512Cases prog512Loop (tix512 ++ subsP 18 4) := by decide +kernel

theorem round256 (w : U32) (A : List U32) (h : A.length = 30) : (tix256 ++ subsP 15 2).foldl (execOp w) A = Spec.Fugue.subs 2 (Spec.Fugue.tix256 w A) := by
  have hl : (Spec.Fugue.tix256 w A).length = 30 := by unfold Spec.Fugue.tix256; simp only [add_length, List.length_set, h]
  rw [List.foldl_append, ← subs_eq w 2 _ (by omega), hl]; rfl
theorem round384 (w : U32) (A : List U32) (h : A.length = 36) : (tix384 ++ subsP 18 3).foldl (execOp w) A = Spec.Fugue.subs 3 (Spec.Fugue.tix384 w A) := by
  have hl : (Spec.Fugue.tix384 w A).length = 36 := by unfold Spec.Fugue.tix384; simp only [add_length, List.length_set, h]
  rw [List.foldl_append, ← subs_eq w 3 _ (by omega), hl]; rfl
theorem round512 (w : U32) (A : List U32) (h : A.length = 36) : (tix512 ++ subsP 18 4).foldl (execOp w) A = Spec.Fugue.subs 4 (Spec.Fugue.tix512 w A) := by
  have hl : (Spec.Fugue.tix512 w A).length = 36 := by unfold Spec.Fugue.tix512; simp only [add_length, List.length_set, h]
  rw [List.foldl_append, ← subs_eq w 4 _ (by omega), hl]; rfl

end Verif.Fugue
