import Verif.Model.Composition
import Verif.Props.C03_MD2
/-
C20: hash_composition.New(h1, h2), for all component hashes that keep their own contract.
-/
namespace Verif.Props

/-- The contract of the composition: `h1(h2(message))`. -/
def compSpec (S1 S2 : HashSpec) : HashSpec :=
  { H := fun m => S1.H (S2.H m), size := S1.size, blockSize := S1.blockSize }

/-- What the object really computes.  `acc` collects the inner digests of all `Sum` calls made since
the last `Reset`; they are never removed from `h1`. -/
def compRun (S1 S2 : HashSpec) : Bytes → Bytes → List Op → List Out
  | _, _, [] => []
  | m, acc, .write p :: ops => .wrote p.length :: compRun S1 S2 (m ++ p) acc ops
  | m, acc, .sum b :: ops => .bytes (b ++ S1.H (acc ++ S2.H m)) :: compRun S1 S2 m (acc ++ S2.H m) ops
  | _, _, .reset :: ops => .done :: compRun S1 S2 [] [] ops
  | m, acc, .size :: ops => .num S1.size :: compRun S1 S2 m acc ops
  | m, acc, .blockSize :: ops => .num S1.blockSize :: compRun S1 S2 m acc ops

/-- Any two contract-keeping components: the observable behaviour under every history. -/
theorem C20_composition_exact {σ₁ σ₂ : Type} (I1 : HashImpl σ₁) (I2 : HashImpl σ₂) (n1 : σ₁) (n2 : σ₂)
    (S1 S2 : HashSpec) (h1 : Refines I1 n1 S1) (h2 : Refines I2 n2 S2) (ops : List Op) :
    (Composition.impl I1 I2).run (Composition.new I1 I2 n1 n2) ops = compRun S1 S2 [] [] ops := by
  have s1 := h1.sim
  have s2 := h2.sim
  suffices H : ∀ ops (d : Composition.Digest σ₁ σ₂) m acc, (Behaves I1 S1 d.h1 acc) → (Behaves I2 S2 d.h2 m) →
      (Composition.impl I1 I2).run d ops = compRun S1 S2 m acc ops from
    H ops _ [] [] (s1.reset n1 [] h1) (s2.reset n2 [] h2)
  intro ops
  induction ops with
  | nil => intros; rfl
  | cons o ops ih =>
    intro d m acc r1 r2
    cases o with
    | write p =>
      obtain ⟨s', e, r⟩ := s2.write _ _ p r2
      have : (Composition.impl I1 I2).write d p = some ({ d with h2 := s' }, p.length) := by
        simp only [Composition.impl, e]; rfl
      simp only [HashImpl.run, compRun, this]
      rw [ih { d with h2 := s' } (m ++ p) acc r1 r]
    | sum b =>
      obtain ⟨t2, e2, q2⟩ := s2.sum _ _ [] r2
      obtain ⟨t1, e1, q1⟩ := s1.write _ _ (S2.H m) r1
      obtain ⟨t1', e1', q1'⟩ := s1.sum _ _ [] q1
      have : (Composition.impl I1 I2).sum d b = some ({ h1 := t1', h2 := t2 }, b ++ S1.H (acc ++ S2.H m)) := by
        simp only [List.nil_append] at e2 e1'
        simp only [Composition.impl, Composition.sum, e2, e1, e1', Option.bind_eq_bind, Option.bind_some]
        rfl
      simp only [HashImpl.run, compRun, this]
      rw [ih { h1 := t1', h2 := t2 } m (acc ++ S2.H m) q1' q2]
    | reset =>
      simp only [HashImpl.run, compRun]
      rw [ih _ [] [] (s1.reset _ _ r1) (s2.reset _ _ r2)]
    | size =>
      simp only [HashImpl.run, compRun]
      rw [ih d m acc r1 r2, show (Composition.impl I1 I2).size d = S1.size from s1.size _ _ r1]
    | blockSize =>
      simp only [HashImpl.run, compRun]
      rw [ih d m acc r1 r2, show (Composition.impl I1 I2).blockSize d = S1.blockSize from s1.blockSize _ _ r1]

/-- Histories with at most one `Sum` between two `Reset`s (`used`: one has already been made). -/
def OneSum : Bool → List Op → Prop
  | _, [] => True
  | _, .reset :: ops => OneSum false ops
  | used, .sum _ :: ops => used = false ∧ OneSum true ops
  | used, _ :: ops => OneSum used ops

/-- The contract holds as long as `Sum` is called at most once between `Reset`s. -/
theorem C20_composition_partial {σ₁ σ₂ : Type} (I1 : HashImpl σ₁) (I2 : HashImpl σ₂) (n1 : σ₁) (n2 : σ₂)
    (S1 S2 : HashSpec) (h1 : Refines I1 n1 S1) (h2 : Refines I2 n2 S2) :
    RefinesOn (OneSum false) (Composition.impl I1 I2) (Composition.new I1 I2 n1 n2) (compSpec S1 S2) := by
  intro ops hops
  rw [C20_composition_exact I1 I2 n1 n2 S1 S2 h1 h2]
  suffices H : ∀ ops used m acc, OneSum used ops → (used = false → acc = []) →
      compRun S1 S2 m acc ops = (compSpec S1 S2).run m ops from H ops false [] [] hops (fun _ => rfl)
  intro ops
  induction ops with
  | nil => intros; rfl
  | cons o ops ih =>
    intro used m acc h ha
    cases o with
    | write p => simp only [compRun, HashSpec.run]; rw [ih used (m ++ p) acc h ha]
    | sum b =>
      simp only [compRun, HashSpec.run]
      rw [ih true m _ h.2 (by simp), ha h.1]
      rfl
    | reset => simp only [compRun, HashSpec.run]; rw [ih false [] [] h (fun _ => rfl)]
    | size => simp only [compRun, HashSpec.run]; rw [ih used m acc h ha]; rfl
    | blockSize => simp only [compRun, HashSpec.run]; rw [ih used m acc h ha]; rfl

/-- `hash_composition.Sum(h1, h2, data)`, the one-shot function (hash_composition.go:13-19). -/
theorem C20_composition_oneshot {σ₁ σ₂ : Type} (I1 : HashImpl σ₁) (I2 : HashImpl σ₂) (n1 : σ₁) (n2 : σ₂)
    (S1 S2 : HashSpec) (h1 : Refines I1 n1 S1) (h2 : Refines I2 n2 S2) (data : Bytes) :
    (Composition.impl I1 I2).run (Composition.new I1 I2 n1 n2) [.write data, .sum []] =
      [.wrote data.length, .bytes (S1.H (S2.H data))] := by
  rw [C20_composition_exact I1 I2 n1 n2 S1 S2 h1 h2]
  simp [compRun]

/-- Calling `Sum` twice gives the outer hash of the inner digest *repeated*: whenever the outer hash
tells the two apart (for a message `m`), the contract is broken. -/
theorem C20_composition_sum_mutates {σ₁ σ₂ : Type} (I1 : HashImpl σ₁) (I2 : HashImpl σ₂) (n1 : σ₁) (n2 : σ₂)
    (S1 S2 : HashSpec) (h1 : Refines I1 n1 S1) (h2 : Refines I2 n2 S2) (m : Bytes)
    (hm : S1.H (S2.H m ++ S2.H m) ≠ S1.H (S2.H m)) :
    ¬ Refines (Composition.impl I1 I2) (Composition.new I1 I2 n1 n2) (compSpec S1 S2) := by
  apply not_refines [.write m, .sum [], .sum []]
  rw [C20_composition_exact I1 I2 n1 n2 S1 S2 h1 h2]
  simpa [compRun, HashSpec.run, compSpec] using hm

set_option maxRecDepth 100000 in
/-- A concrete instance: md2 ∘ md2 on the empty message. -/
theorem C20_composition_violated :
    ¬ Refines (Composition.impl MD2.impl MD2.impl) (Composition.new MD2.impl MD2.impl MD2.new MD2.new)
      (compSpec md2Spec md2Spec) :=
  C20_composition_sum_mutates _ _ _ _ _ _ C03_md2_refines C03_md2_refines [] (by decide +kernel)

example : OneSum false [.write [1#8], .size, .write [2#8], .sum [], .write [3#8], .reset, .write [4#8], .sum []] := by
  simp [OneSum]

end Verif.Props
