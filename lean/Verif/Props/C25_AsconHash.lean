import Verif.Lemmas.AsconHash
/-
C25: ascon.NewHash, ascon.NewHasha and ascon.NewXof.
-/
namespace Verif.Props
open Ascon (hashImpl reset newXof XOp xofRun)

/-- The contract of Ascon-Hash (`b = 12`) and Ascon-HashA (`b = 8`). -/
def asconSpec (b : Nat) : HashSpec := { H := Spec.Ascon.hash b, size := 32, blockSize := 8 }

set_option maxRecDepth 100000 in
theorem ascon_iv12 : Ascon.toS (reset 12).s = Spec.Ascon.hashInit 12 256 := by decide +kernel
set_option maxRecDepth 100000 in
theorem ascon_iv8 : Ascon.toS (reset 8).s = Spec.Ascon.hashInit 8 256 := by decide +kernel

theorem ascon_sim (b : Nat) (hb : b ≤ 12) (hb0 : b ≠ 0) (hbr : (reset b).b = b) (hx : (reset b).buf.length = 8) (hl : (reset b).len = 0)
    (hd : (reset b).doneWriting = false) (hiv : Ascon.toS (reset b).s = Spec.Ascon.hashInit b 256) :
    Sim hashImpl (asconSpec b) (fun d m => d.b = b ∧ d.doneWriting = false ∧
      BufRepr 8 (Ascon.hBlock b) (reset b).s d.s d.buf d.len m) where
  write d m p h := by
    obtain ⟨h1, h2, h3⟩ := h
    refine ⟨{ d with s := (aWrite 8 (Ascon.hBlock b) d.s d.buf d.len p).1, buf := (aWrite 8 (Ascon.hBlock b) d.s d.buf d.len p).2.1, len := (aWrite 8 (Ascon.hBlock b) d.s d.buf d.len p).2.2 }, ?_, h1, h2, aWrite_spec _ (by decide) _ _ _ _ _ _ h3⟩
    show (Ascon.write (if d.b = 0 then reset d.b else d) p).map _ = _
    rw [if_neg (by rw [h1]; exact hb0)]
    unfold Ascon.write
    rw [if_neg (by rw [h2]; decide)]
    rw [show (fun s c => Ascon.rounds (Ascon.State.xor0 s (getBE64 c)) d.b) = Ascon.hBlock b by rw [h1]; rfl]
    rfl
  sum d m out h := by
    obtain ⟨h1, h2, h3⟩ := h
    refine ⟨d, ?_, h1, h2, h3⟩
    subst h1
    show (Ascon.sum d out).map _ = _
    rw [Ascon.sum_spec out hb h3 hiv]
    rfl
  reset d m h := by
    obtain ⟨h1, h2, h3⟩ := h
    show (reset d.b).b = b ∧ (reset d.b).doneWriting = false ∧ BufRepr _ _ _ (reset d.b).s (reset d.b).buf (reset d.b).len []
    rw [h1]
    refine ⟨hbr, hd, ?_⟩
    rw [hl]
    exact BufRepr.init _ _ _ hx
  size _ _ _ := rfl
  blockSize _ _ _ := rfl

/-- C25: `NewHash` is Ascon-Hash. -/
theorem C25_ascon_hash : Refines hashImpl (reset 12) (asconSpec 12) :=
  (ascon_sim 12 (by decide) (by decide) rfl rfl rfl rfl ascon_iv12).refines ⟨rfl, rfl, BufRepr.init _ _ _ rfl⟩
/-- C25: `NewHasha` is Ascon-HashA. -/
theorem C25_ascon_hasha : Refines hashImpl (reset 8) (asconSpec 8) :=
  (ascon_sim 8 (by decide) (by decide) rfl rfl rfl rfl ascon_iv8).refines ⟨rfl, rfl, BufRepr.init _ _ _ rfl⟩

set_option maxRecDepth 100000 in
/-- Test: known answers. -/
example : Spec.Ascon.hash 12 [] = hex "7346BC14F036E87AE03D0997913088F5F68411434B3CF8B54FA796A80D251F91" := by decide +kernel
set_option maxRecDepth 100000 in
example : Spec.Ascon.hash 8 [] = hex "AECD027026D0675F9DE7A8AD8CCF512DB64B1EDCF0B20C388A0C7CC617AAA2C4" := by decide +kernel
/-- A history over several blocks. -/
example : hashImpl.run (reset 12) [.write [1, 2, 3], .write [4, 5, 6, 7, 8, 9], .sum [7], .reset, .sum []] =
    [.wrote 3, .wrote 6, .bytes (7 :: Spec.Ascon.hash 12 [1, 2, 3, 4, 5, 6, 7, 8, 9]), .done, .bytes (Spec.Ascon.hash 12 [])] :=
  C25_ascon_hash _

/-- What an extendable-output function does: `m` is the message, `k` the number of bytes read if reading
has begun. `Write` after a `Read` panics, as documented. `xof m i` is byte `i` of the output. -/
def xofSpecRun (xof : Bytes → Nat → Byte) : Bytes → Option Nat → List XOp → List Out
  | _, _, [] => []
  | m, none, .write p :: ops => .wrote p.length :: xofSpecRun xof (m ++ p) none ops
  | _, some _, .write _ :: _ => [.panicked]
  | m, k, .read n :: ops => .bytes ((List.range' (k.getD 0) n).map (xof m)) :: xofSpecRun xof m (some (k.getD 0 + n)) ops
  | _, _, .reset :: ops => .done :: xofSpecRun xof [] none ops

/-- The states that stand for message `m`, `k` bytes read. -/
def XofInv (m : Bytes) (k : Option Nat) (d : Ascon.Digest) : Prop :=
  match k with
  | none => d.b = 12 ∧ d.doneWriting = false ∧ BufRepr 8 (Ascon.hBlock 12) (Ascon.initHash 12 0) d.s d.buf d.len m
  | some k => Ascon.Reading (Spec.Ascon.hashAbsorb 12 (Spec.Ascon.hashInit 12 0) (Spec.Ascon.pad 8 m)) k d ∧ d.buf.length = 8

set_option maxRecDepth 100000 in
theorem ascon_xof_iv : Ascon.toS (Ascon.initHash 12 0) = Spec.Ascon.hashInit 12 0 := by decide +kernel

theorem readOut_buf (d : Ascon.Digest) (n : Nat) (h : d.buf.length = 8) : (Ascon.readOut d n).1.buf.length = 8 := by
  have hr : ∀ (d : Ascon.Digest) (n : Nat), d.buf.length = 8 → (Ascon.readRest d n).1.buf.length = 8 := by
    intro d n h
    unfold Ascon.readRest
    simp only
    by_cases hn : n % 8 > 0
    · rw [if_pos hn]; rfl
    · rw [if_neg hn]; exact h
  have ht : ∀ (d : Ascon.Digest) (n : Nat), d.buf.length = 8 → (Ascon.readTail d n).1.buf.length = 8 := by
    intro d n h
    unfold Ascon.readTail
    by_cases hn : n ≥ 8 ∧ d.len = 0
    · rw [if_pos hn]; exact hr _ _ h
    · rw [if_neg hn]; exact hr _ _ h
  unfold Ascon.readOut
  by_cases h0 : n ≤ 0
  · rw [if_pos h0]; exact h
  · rw [if_neg h0]
    by_cases h1 : d.len > 0 ∧ d.len < 8
    · rw [if_pos h1]
      simp only
      by_cases h2 : d.len + min n (8 - d.len) < 8 ∨ n = min n (8 - d.len)
      · rw [if_pos h2]; exact h
      · rw [if_neg h2]; exact ht _ _ h
    · rw [if_neg h1]; exact ht _ _ h

theorem finish_buf {d d' : Ascon.Digest} (h : d.buf.length = 8) (hf : Ascon.finish d = some d') : d'.buf.length = 8 := by
  unfold Ascon.finish at hf
  by_cases hl : d.len ≥ 8
  · rw [if_pos hl] at hf; exact absurd hf (by simp)
  · rw [if_neg hl] at hf
    injection hf with hf
    rw [← hf]
    show (List.set (forLoop d.len 8 (fun (buf : Bytes) i => buf.set i 0#8) d.buf) d.len _).length = 8
    rw [List.length_set, zeroLoop_eq _ _ _ (by omega) (by omega)]
    simp [zeros]; omega

/-- C25: every history of `Write`, `Read` and `Reset` on an `Xof`: reads of any sizes deliver consecutive bytes
of the Ascon-XOF stream of the message. -/
theorem C25_ascon_xof (ops : List XOp) : xofRun newXof ops = xofSpecRun Spec.Ascon.xof [] none ops := by
  have hreset : ∀ d : Ascon.Digest, d.buf.length = 8 → XofInv [] none (Ascon.xofReset d) := fun d hd => ⟨rfl, rfl, BufRepr.init _ _ _ hd⟩
  suffices H : ∀ ops m k d, XofInv m k d → xofRun d ops = xofSpecRun Spec.Ascon.xof m k ops from
    H ops [] none newXof (hreset _ rfl)
  intro ops
  induction ops with
  | nil => intros; cases ‹Option Nat› <;> rfl
  | cons o ops ih =>
    intro m k d h
    have hb : d.b = 12 := by cases k with
      | none => exact h.1
      | some k => exact h.1.1
    have hbuf : d.buf.length = 8 := by cases k with
      | none => exact h.2.2.xlen
      | some k => exact h.2
    have h0 : ¬ d.b = 0 := by omega
    cases o with
    | reset => cases k <;> simp only [xofRun, xofSpecRun] <;> rw [ih _ _ _ (hreset d hbuf)]
    | write p =>
      cases k with
      | none =>
        obtain ⟨h1, h2, h3⟩ := h
        simp only [xofRun, xofSpecRun]
        rw [if_neg h0]
        have hw : Ascon.write d p = some { d with s := (aWrite 8 (Ascon.hBlock 12) d.s d.buf d.len p).1, buf := (aWrite 8 (Ascon.hBlock 12) d.s d.buf d.len p).2.1, len := (aWrite 8 (Ascon.hBlock 12) d.s d.buf d.len p).2.2 } := by
          unfold Ascon.write
          rw [if_neg (by rw [h2]; decide)]
          rw [show (fun s c => Ascon.rounds (Ascon.State.xor0 s (getBE64 c)) d.b) = Ascon.hBlock 12 by rw [h1]; rfl]
        rw [hw]
        simp only
        rw [ih (m ++ p) none]
        exact ⟨h1, h2, aWrite_spec _ (by decide) _ _ _ _ _ _ h3⟩
      | some k =>
        simp only [xofRun, xofSpecRun]
        rw [if_neg h0]
        unfold Ascon.write
        rw [if_pos h.1.2.1]
    | read n =>
      cases k with
      | none =>
        obtain ⟨h1, h2, h3⟩ := h
        simp only [xofRun, xofSpecRun, Option.getD_none]
        rw [if_neg h0]
        obtain ⟨d', e1, e2, e3, e4, e5⟩ := Ascon.finish_spec (d := d) (by omega) (by rw [h1]; exact h3)
        rw [h1, ascon_xof_iv] at e2
        obtain ⟨g1, g2⟩ := Ascon.readOut_spec (t := Spec.Ascon.hashAbsorb 12 (Spec.Ascon.hashInit 12 0) (Spec.Ascon.pad 8 m)) (d := { d' with doneWriting := true }) (k := 0) n
          ⟨by rw [← h1, ← e4], rfl, Or.inl ⟨rfl, e3, e2⟩⟩
        have hr : Ascon.read d n = some (Ascon.readOut { d' with doneWriting := true } n) := by
          unfold Ascon.read
          rw [if_neg (by rw [h2]; decide), e1]
        have hi := ih m (some (0 + n)) (Ascon.readOut { d' with doneWriting := true } n).1 ⟨g1, readOut_buf _ _ (finish_buf (d' := d') hbuf e1)⟩
        rw [hr]
        simp only
        rw [hi, g2]
        congr 3
        funext i
        exact (Ascon.xof_byte m i).symm
      | some k =>
        simp only [xofRun, xofSpecRun, Option.getD_some]
        rw [if_neg h0]
        obtain ⟨g1, g2⟩ := Ascon.readOut_spec n h.1
        have hr : Ascon.read d n = some (Ascon.readOut d n) := by
          unfold Ascon.read
          rw [if_pos h.1.2.1]
        have hi := ih m (some (k + n)) (Ascon.readOut d n).1 ⟨g1, readOut_buf _ _ hbuf⟩
        rw [hr]
        simp only
        rw [hi, g2]
        congr 3
        funext i
        exact (Ascon.xof_byte m i).symm

/-- A history with uneven reads: the two reads together are the first 11 bytes of the stream. -/
example : xofRun newXof [.write [1], .read 3, .read 8, .reset, .read 0, .write [2]] =
    [.wrote 1, .bytes ((List.range' 0 3).map (Spec.Ascon.xof [1])), .bytes ((List.range' 3 8).map (Spec.Ascon.xof [1])), .done,
     .bytes [], .panicked] := C25_ascon_xof _
set_option maxRecDepth 100000 in
/-- Test: known answer (first bytes of Ascon-XOF of the empty string). -/
example : (List.range 8).map (Spec.Ascon.xof []) = hex "5D4CBDE6350EA4C1" := by decide +kernel

end Verif.Props
