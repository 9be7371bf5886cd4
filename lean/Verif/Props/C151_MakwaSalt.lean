import Verif.Props.C148_MakwaMem
/-
C151: the digest makwa.Hash returns keeps the caller's salt slice.
-/
namespace Verif.Props
open Verif.Makwa Verif.MakwaMem Verif.GoSlice

theorem C151.stores_get (ws : List (Nat × Byte)) (i : Nat) (h : ∀ w ∈ ws, w.1 ≠ i) (mem : Bytes) : (stores mem ws)[i]? = mem[i]? := by
  unfold stores
  induction ws generalizing mem with
  | nil => rfl
  | cons w ws ih =>
    rw [List.foldl_cons, ih (fun x hx => h x (List.mem_cons_of_mem _ hx)), List.getElem?_set_ne (h w List.mem_cons_self)]

/-- The property one would expect, "CheckPassword accepts the password for the digest Hash returned, whatever the caller does with his
memory afterwards", holds when he stores nothing into the salt. -/
theorem C151_untouched_partial (P : Params) (mem : Bytes) (pw : Buf) (salt : Slice) (wf : Int) (pre : Bool) (post : Int)
    (hv : salt.Valid mem) (ha : pre = true ∨ C148.Apart salt pw) (d : Digest)
    (hd : (MakwaMem.hash P mem pw salt wf pre post).2 = .ok d) (ws : List (Nat × Byte))
    (hw : ∀ w ∈ ws, w.1 < salt.off ∨ salt.off + salt.len ≤ w.1) :
    let now := held salt d (stores (MakwaMem.hash P mem pw salt wf pre post).1 ws)
    now = d ∧ CheckPassword P now (pw.get mem) = .ok () := by
  intro now
  rw [C148_result_partial P mem pw salt wf pre post hv ha] at hd
  have hs : d.salt = salt.get mem := by
    obtain ⟨_, _, _, _, e⟩ := (Hash_ok _ _ _ _ _ _ d).1 hd
    rw [e]
  have hk : salt.get (stores (MakwaMem.hash P mem pw salt wf pre post).1 ws) = salt.get mem := by
    rw [← (C148_memory_partial P mem pw salt wf pre post hv).2.2.1]
    refine slice_congr _ _ _ fun i h1 h2 => C151.stores_get ws i (fun w h => ?_) _
    have := hw w h
    omega
  have hn : now = d := by
    show { d with salt := salt.get (stores (MakwaMem.hash P mem pw salt wf pre post).1 ws) } = d
    rw [hk, ← hs]
  exact ⟨hn, by rw [hn]; exact C43_makwa_hash_check P _ _ wf pre post d hd⟩

/-- The digest's salt is the caller's memory: a store into it is a store into the digest, for every digest. -/
theorem C151_shared_violated (salt : Slice) (d : Digest) (mem : Bytes) (hv : salt.Valid mem) (i : Nat) (hi : i < salt.len) (v : Byte) :
    (held salt d (stores mem [(salt.off + i, v)])).salt[i]? = some v := by
  show (salt.get (mem.set (salt.off + i) v))[i]? = some v
  rw [slice_get, if_pos hi, List.getElem?_set_self (by have := hv.1; have := hv.2; omega)]

set_option maxRecDepth 20000 in
set_option exponentiation.threshold 4000 in
/-- So the right password can be rejected: Hash with the password 3 and the salt 9, then the caller uses the memory of the salt for 8. -/
theorem C151_reuse_violated : ∃ d, (MakwaMem.hash C149.toy [9] (.own [3]) ⟨0, 1, 1⟩ 2 false 0).2 = .ok d ∧
    CheckPassword C149.toy d [3] = .ok () ∧
    CheckPassword C149.toy (held ⟨0, 1, 1⟩ d (stores (MakwaMem.hash C149.toy [9] (.own [3]) ⟨0, 1, 1⟩ 2 false 0).1 [(0, 8)])) [3] =
      .error .badPassword := by
  have hv : (⟨0, 1, 1⟩ : Slice).Valid [9] := ⟨by decide, by decide⟩
  have hr : refused C149.toy 2 1 = none := by decide +kernel
  have hm := (C148_memory_partial C149.toy [9] (.own [3]) ⟨0, 1, 1⟩ 2 false 0 hv).2.2.2 (by
    show (⟨0, 1, 1⟩ : Slice).cap < _; decide)
  have e := C148_result_partial C149.toy [9] (.own [3]) ⟨0, 1, 1⟩ 2 false 0 hv (.inr trivial)
  have hh := C148.hash_value C149.toy [3] [9] 2 false 0
  rw [show Makwa.inner C149.toy false [3] = [3] from rfl, show ([3] : Bytes).length = 1 from rfl, hr] at hh
  have hh2 := C148.hash_value C149.toy [3] [8] 2 false 0
  rw [show Makwa.inner C149.toy false [3] = [3] from rfl, show ([3] : Bytes).length = 1 from rfl, hr] at hh2
  dsimp only at hh hh2
  have e' : (MakwaMem.hash C149.toy [9] (.own [3]) ⟨0, 1, 1⟩ 2 false 0).2 = Hash C149.toy [3] [9] 2 false 0 := e
  rw [hh] at e'
  refine ⟨_, e', C43_makwa_hash_check _ _ _ _ _ _ _ hh, ?_⟩
  rw [hm]
  unfold CheckPassword
  rw [if_neg (by exact not_not.2 rfl)]
  have hh' : Hash C149.toy [3] (held ⟨0, 1, 1⟩ (MakwaMem.finish C149.toy ([9] ++ [3] ++ [BitVec.ofNat 8 1]) [3] [9] 1 2 false 0) (stores [9] [(0, 8)])).salt
    (held ⟨0, 1, 1⟩ (MakwaMem.finish C149.toy ([9] ++ [3] ++ [BitVec.ofNat 8 1]) [3] [9] 1 2 false 0) (stores [9] [(0, 8)])).workFactor
    (held ⟨0, 1, 1⟩ (MakwaMem.finish C149.toy ([9] ++ [3] ++ [BitVec.ofNat 8 1]) [3] [9] 1 2 false 0) (stores [9] [(0, 8)])).preHash
    (held ⟨0, 1, 1⟩ (MakwaMem.finish C149.toy ([9] ++ [3] ++ [BitVec.ofNat 8 1]) [3] [9] 1 2 false 0) (stores [9] [(0, 8)])).postHashLen = _ := hh2
  rw [hh']
  dsimp only
  refine if_pos ?_
  decide +kernel

end Verif.Props
