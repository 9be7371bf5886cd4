import Verif.Props.C33_Streebog
import Verif.Lemmas.Gost12Mem
/-
C141: gost/gost34112012 with the arrays its methods work in.  Every function of the package returns one of the arrays of the object, the
operands of a function may be the array it writes, and `Sum` works in the arrays of the object it copied.
-/
namespace Verif.Props
open Verif.Gost12Mem

/-- The object with arrays and the object on values return the same in every history. -/
theorem gost12Mem_run (ops : List Op) : ∀ o : Obj, Good o.mem → Gost12Mem.impl.run o ops = Gost12.impl.run o.abs ops := by
  induction ops with
  | nil => intro o _; rfl
  | cons op ops ih =>
    intro o h
    cases op with
    | write p =>
      obtain ⟨h1, h2⟩ := writeLoop_mem (o.buf ++ p).length { o with buf := o.buf ++ p } h
      have e : Gost12.write o.abs p = (Gost12Mem.write o p).abs := h2.symm
      rw [HashImpl.run, HashImpl.run]
      show (Out.wrote p.length :: Gost12Mem.impl.run (Gost12Mem.write o p) ops) = Out.wrote p.length :: Gost12.impl.run (Gost12.write o.abs p) ops
      rw [e, ih (Gost12Mem.write o p) h1]
    | sum b =>
      rw [HashImpl.run, HashImpl.run]
      unfold Gost12Mem.impl Gost12.impl
      dsimp only
      rcases checkSum_mem o h with ⟨e1, e2⟩ | ⟨M, d, e1, e2, hg, e3, e4⟩
      · rw [e1, e2]; rfl
      · rw [e1, e2]
        have := ih { o with mem := M } hg
        unfold Gost12Mem.impl Gost12.impl at this
        unfold Obj.abs at this ⊢
        dsimp only at this
        rw [e3, e4] at this
        simp only [Option.map_some]
        rw [this]
    | reset =>
      obtain ⟨h1, h2⟩ := reset_mem o h
      rw [HashImpl.run, HashImpl.run]
      show Out.done :: Gost12Mem.impl.run (Gost12Mem.reset o) ops = Out.done :: Gost12.impl.run (Gost12.reset o.abs) ops
      rw [ih _ h1, h2]
    | size => rw [HashImpl.run, HashImpl.run, ih o h]; rfl
    | blockSize => rw [HashImpl.run, HashImpl.run, ih o h]; rfl

theorem gost12Mem_new {size : Nat} {d : Obj} (hd : Gost12Mem.new size = some d) : Good d.mem ∧ Gost12.new size = some d.abs := by
  unfold Gost12Mem.new at hd
  unfold Gost12.new
  split at hd
  · cases hd
  · rename_i hs
    injection hd with hd
    subst hd
    obtain ⟨h1, h2⟩ := reset_mem { size := size, buf := [], n := 0, mem := fun _ => zeros 64 } (fun _ => by simp)
    rw [if_neg hs]
    exact ⟨h1, congrArg some h2.symm⟩

/-- With the arrays it works in, in every history an object returns what GOST R 34.11-2012 says of the bytes written. -/
theorem C141_refines (size : Nat) (d : Obj) (hd : Gost12Mem.new size = some d) :
    RefinesOn (Fits (2 ^ 61)) Gost12Mem.impl d (streebogSpec size) := by
  obtain ⟨h1, h2⟩ := gost12Mem_new hd
  intro ops ho
  rw [gost12Mem_run ops d h1]
  exact C33_gost34112012 size d.abs h2 ops ho

/-- The seven work arrays never influence a result: with the chaining value and the checksum the same, whatever they hold (in the middle of
any history), everything that is returned afterwards is the same. -/
theorem C141_scratch (o : Obj) (M : Mem) (ho : ∀ r, (o.mem r).length = 64) (hM : ∀ r, (M r).length = 64) (h1 : M .hsh = o.mem .hsh)
    (h2 : M .chk = o.mem .chk) (ops : List Op) : Gost12Mem.impl.run { o with mem := M } ops = Gost12Mem.impl.run o ops := by
  rw [gost12Mem_run ops o ho, gost12Mem_run ops { o with mem := M } hM]
  unfold Obj.abs
  dsimp only
  rw [h1, h2]

/-- All arrays of an object have 64 bytes at all times. -/
theorem C141_lengths (size : Nat) (d : Obj) (hd : Gost12Mem.new size = some d) (ops : List Op) (o : Obj)
    (h : Gost12Mem.impl.exec d ops = some o) : ∀ r, (o.mem r).length = 64 := by
  have key : ∀ ops (d : Obj), Good d.mem → Gost12Mem.impl.exec d ops = some o → Good o.mem := by
    intro ops
    induction ops with
    | nil => intro d hg h; injection h with h; subst h; exact hg
    | cons op ops ih =>
      intro d hg h
      cases op with
      | write p =>
        exact ih _ (writeLoop_mem (d.buf ++ p).length { d with buf := d.buf ++ p } hg).1 h
      | sum b =>
        rw [HashImpl.exec] at h
        rcases checkSum_mem d hg with ⟨e1, _⟩ | ⟨M, r, e1, _, hm, _, _⟩
        · unfold Gost12Mem.impl at h
          dsimp only at h
          rw [e1] at h
          cases h
        · refine ih { d with mem := M } hm ?_
          unfold Gost12Mem.impl at h ⊢
          dsimp only at h
          rw [e1] at h
          exact h
      | reset => exact ih _ (reset_mem d hg).1 h
      | size => exact ih d hg h
      | blockSize => exact ih d hg h
  exact key ops d (gost12Mem_new hd).1 h

/-- The hypotheses are met: objects exist, and a history that fills blocks, sums and goes on stays within the length. -/
example : ∃ d, Gost12Mem.new 32 = some d := ⟨_, rfl⟩
example : Fits (2 ^ 61) [.write (zeros 100), .sum [], .write (zeros 30), .sum [1#8]] := by
  intro k
  have hp : (200 : Nat) < 2 ^ 61 := by decide
  match k with
  | 0 => exact Nat.two_pow_pos 61
  | 1 => exact Nat.lt_trans (by decide : (100 : Nat) < 200) hp
  | 2 => exact Nat.lt_trans (by decide : (100 : Nat) < 200) hp
  | 3 => exact Nat.lt_trans (by decide : (130 : Nat) < 200) hp
  | k + 4 => rw [List.take_of_length_le (by simp)]; exact Nat.lt_trans (by decide : (130 : Nat) < 200) hp

end Verif.Props
