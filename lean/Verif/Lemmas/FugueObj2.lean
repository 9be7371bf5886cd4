import Verif.Lemmas.FugueObj
import Verif.Bits
/-
Package fugue: Write, Sum and Reset.
-/
namespace Verif.Fugue
open Spec.Fugue (Variant absorb)

/-- One word into the state of the specification. -/
def R (v : Variant) (A : List U32) (w : U32) : List U32 := Spec.Fugue.subs v.subs (v.tix w A)
/-- The initial state. -/
def A0 (v : Variant) : List U32 := List.replicate (v.cols - v.iv.length) 0 ++ v.iv
theorem absorb_eq (v : Variant) (m : Bytes) : absorb v m = ((fullBlocks 4 m).map (getBE32 ·)).foldl (R v) (A0 v) := by
  unfold absorb; rw [List.foldl_map]; rfl

def bufWords (buf : Bytes) (num : Nat) : List U32 := (List.range num).map fun i => getBE32 buf (4 * i)

/-- What is needed of a size. -/
structure Ok (hs : Nat) (iv : List U32) (v : Variant) (sh k : Nat) : Prop where
  kpos : 0 < k
  proc : ∀ (d : Digest) w buf num A, d.hs = hs → d.rshift < k → Rel v.cols (sh * d.rshift) d.s A →
    ∃ S r, process d w buf num = { d with s := S, rshift := r } ∧ r < k ∧ Rel v.cols (sh * r) S ((w :: bufWords buf num).foldl (R v) A)
  fin : ∀ (d : Digest) A, d.hs = hs → d.tmpS.length = 36 → Rel v.cols (sh * d.rshift) d.s A →
    processFinal d = v.out.flatMap fun i => be32 (Spec.Fugue.col (v.G A) i)
  init : Rel v.cols 0 (goCopy (List.replicate 36 0) (if hs ≤ 32 then 30 - iv.length else 36 - iv.length) iv) (A0 v)

theorem foldl_congr_len {L : Nat} (f g : List U32 → U32 → List U32) (hfg : ∀ A w, A.length = L → f A w = g A w) (hg : ∀ A w, A.length = L → (g A w).length = L) (ws : List U32) :
    ∀ A, A.length = L → ws.foldl f A = ws.foldl g A := by
  induction ws with
  | nil => intro A _; rfl
  | cons w ws ih => intro A h; rw [List.foldl_cons, List.foldl_cons, hfg A w h, ih _ (hg A w h)]

theorem go_spec {L sh cases loop p} (ok : ProgOk L sh cases loop p) (v : Variant) (hv : v.cols = L) (h4 : 4 ≤ L)
    (hr : ∀ w A, A.length = L → p.foldl (execOp w) A = R v A w) (ht : ∀ w A, A.length = L → (v.tix w A).length = L)
    (r : Nat) (w : U32) (S A : List U32) (ws : List U32) (hlt : r < loop.length) (h : Rel v.cols (sh * r) S A) :
    (go cases loop (entry cases r) w S ws).2 < loop.length ∧
      Rel v.cols (sh * (go cases loop (entry cases r) w S ws).2) (go cases loop (entry cases r) w S ws).1 ((w :: ws).foldl (R v) A) := by
  subst hv
  obtain ⟨e1, e2⟩ := ok.ent r hlt
  have := go_rel ok ws (entry cases r) w S A e1 (by rw [e2]; exact h)
  rwa [foldl_congr_len (L := v.cols) _ (R v) (fun A w hA => hr w A hA) (fun A w hA => by
    unfold R; rw [subs_length _ _ (by rw [ht w A hA]; exact h4), ht w A hA]) _ _ h.la] at this

def v224 : Variant := ⟨30, Spec.Fugue.iv224, Spec.Fugue.tix256, 2, Spec.Fugue.G256, [1, 2, 3, 4, 15, 16, 17]⟩
def v256 : Variant := ⟨30, Spec.Fugue.iv256, Spec.Fugue.tix256, 2, Spec.Fugue.G256, [1, 2, 3, 4, 15, 16, 17, 18]⟩
def v384 : Variant := ⟨36, Spec.Fugue.iv384, Spec.Fugue.tix384, 3, Spec.Fugue.G384, [1, 2, 3, 4, 12, 13, 14, 15, 24, 25, 26, 27]⟩
def v512 : Variant := ⟨36, Spec.Fugue.iv512, Spec.Fugue.tix512, 4, Spec.Fugue.G512, [1, 2, 3, 4, 9, 10, 11, 12, 18, 19, 20, 21, 27, 28, 29, 30]⟩

theorem tl256 (w : U32) (A : List U32) (h : A.length = 30) : (Spec.Fugue.tix256 w A).length = 30 := by unfold Spec.Fugue.tix256; simp only [add_length, List.length_set, h]
theorem tl384 (w : U32) (A : List U32) (h : A.length = 36) : (Spec.Fugue.tix384 w A).length = 36 := by unfold Spec.Fugue.tix384; simp only [add_length, List.length_set, h]
theorem tl512 (w : U32) (A : List U32) (h : A.length = 36) : (Spec.Fugue.tix512 w A).length = 36 := by unfold Spec.Fugue.tix512; simp only [add_length, List.length_set, h]

theorem rel0 (L : Nat) (S A : List U32) (h1 : S.length = 36) (h2 : L ≤ 36) (h3 : A.length = L) (h4 : 0 < L) (h5 : S.take L = A) : Rel L 0 S A :=
  ⟨h1, h2, h3, h4, fun i hi => by rw [← h5, ix_take _ _ _ hi]; rfl⟩

theorem proc256 (v : Variant) (hv : v.cols = 30) (h2 : v.subs = 2) (ht : v.tix = Spec.Fugue.tix256) (d : Digest) (w buf num A) (hs : d.hs = 28 ∨ d.hs = 32) (hr : d.rshift < 5)
    (h : Rel v.cols (6 * d.rshift) d.s A) : ∃ S r, process d w buf num = { d with s := S, rshift := r } ∧ r < 5 ∧ Rel v.cols (6 * r) S ((w :: bufWords buf num).foldl (R v) A) := by
  have := go_spec prog256_ok v hv (by omega) (fun w A hA => by rw [round256 w A hA]; unfold R; rw [h2, ht]) (fun w A hA => by rw [ht]; exact tl256 w A hA) d.rshift w d.s A (bufWords buf num) hr h
  refine ⟨_, _, ?_, this⟩
  unfold process
  rcases hs with e | e <;> rw [e] <;> rfl

theorem ok224 : Ok 28 initVal224 v224 6 5 where
  kpos := by omega
  proc d w buf num A hs hr h := proc256 v224 rfl rfl rfl d w buf num A (.inl hs) hr h
  fin d A hs ht h := by
    unfold processFinal; rw [hs]
    exact final256 d A h ht false (by rw [hs]; rfl)
  init := rel0 _ _ _ (by decide) (by decide) (by decide) (by decide) (by decide)
theorem ok256 : Ok 32 initVal256 v256 6 5 where
  kpos := by omega
  proc d w buf num A hs hr h := proc256 v256 rfl rfl rfl d w buf num A (.inr hs) hr h
  fin d A hs ht h := by
    unfold processFinal; rw [hs]
    exact final256 d A h ht true (by rw [hs]; rfl)
  init := rel0 _ _ _ (by decide) (by decide) (by decide) (by decide) (by decide)
theorem ok384 : Ok 48 initVal384 v384 9 4 where
  kpos := by omega
  proc d w buf num A hs hr h := by
    have := go_spec prog384_ok v384 rfl (by omega) (fun w A hA => round384 w A hA) tl384 d.rshift w d.s A (bufWords buf num) hr h
    refine ⟨_, _, ?_, this⟩
    unfold process
    rw [hs]; rfl
  fin d A hs ht h := by
    unfold processFinal; rw [hs]
    exact final384 d A h ht
  init := rel0 _ _ _ (by decide) (by decide) (by decide) (by decide) (by decide)
theorem ok512 : Ok 64 initVal512 v512 12 3 where
  kpos := by omega
  proc d w buf num A hs hr h := by
    have := go_spec prog512_ok v512 rfl (by omega) (fun w A hA => round512 w A hA) tl512 d.rshift w d.s A (bufWords buf num) hr h
    refine ⟨_, _, ?_, this⟩
    unfold process
    rw [hs]; rfl
  fin d A hs ht h := by
    unfold processFinal; rw [hs]
    exact final512 d A h ht
  init := rel0 _ _ _ (by decide) (by decide) (by decide) (by decide) (by decide)

end Verif.Fugue
