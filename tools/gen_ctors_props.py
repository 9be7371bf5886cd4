out=[]
w=out.append
w('''import Verif.Model.Ctors
import Verif.Props.C08_Tiger
import Verif.Props.C11_SipHash
import Verif.Props.C16_Chaskey
import Verif.Props.C30_MD6
import Verif.Props.C37_Groestl
import Verif.Props.C39_Skein512
import Verif.Props.C48_CubeHash
import Verif.Props.C50_Echo
import Verif.Props.C50_Shabal
import Verif.Props.C55_Haval
import Verif.Props.C56_FSB
/-
C138: the exported constructors that name a variant.  (The statements are generated from a table.)
-/
namespace Verif.Props
open Verif.Ctors

/-- The constructor returns an object, and it answers every history of calls (of the kind `P`) as an object computing `S` does. -/
def Constructs (P : List Op → Prop) (o : Option Obj) (S : HashSpec) : Prop := ∃ x, o = some x ∧ RefinesOn P x.I x.d S
/-- All histories. -/
def AllHist : List Op → Prop := fun _ => True
/-- The nil pointer: nothing can be called on it. -/
def ConstructsNil (o : Option Obj) : Prop := o = none

theorem constructs_all {σ} {I : HashImpl σ} {c : Option σ} {S S' : HashSpec} (h : ∃ d, c = some d ∧ Refines I d S) (e : S = S') :
    Constructs AllHist (dropError I c) S' := by
  obtain ⟨d, rfl, h⟩ := h
  subst e
  exact ⟨⟨σ, I, d⟩, rfl, fun ops _ => h ops⟩

theorem constructs_on {σ} {I : HashImpl σ} {P : List Op → Prop} {c : Option σ} {S S' : HashSpec} (h : ∃ d, c = some d ∧ RefinesOn P I d S) (e : S = S') :
    Constructs P (dropError I c) S' := by
  obtain ⟨d, rfl, h⟩ := h
  subst e
  exact ⟨⟨σ, I, d⟩, rfl, h⟩

theorem spec_run_congr {N : Nat} {S S' : HashSpec} (hH : ∀ m, m.length < N → S.H m = S'.H m) (hs : S.size = S'.size) (hb : S.blockSize = S'.blockSize) :
    ∀ (ops : List Op) (m : Bytes), (∀ k, (msgAfter m (ops.take k)).length < N) → S.run m ops = S'.run m ops := by
  intro ops
  induction ops with
  | nil => intro m _; rfl
  | cons op ops ih =>
    intro m h
    have h0 : m.length < N := h 0
    cases op with
    | write p => rw [HashSpec.run, HashSpec.run, ih _ (fun k => h (k + 1))]
    | sum b => rw [HashSpec.run, HashSpec.run, ih _ (fun k => h (k + 1)), hH m h0]
    | reset => rw [HashSpec.run, HashSpec.run, ih _ (fun k => h (k + 1))]
    | size => rw [HashSpec.run, HashSpec.run, ih _ (fun k => h (k + 1)), hs]
    | blockSize => rw [HashSpec.run, HashSpec.run, ih _ (fun k => h (k + 1)), hb]
''')
# cubehash
w('''/-- NewHS*: CubeHash16+16/32+32-h; NewSH*: CubeHash160+16/32+160-h.  Missing: NewHS512x (`C48_cubehash_hs512x_violated`). -/
theorem C138_cubehash_partial :''')
cb=[('HS512',512,16,32),('HS384',384,16,32),('HS256',256,16,32),('HS224',224,16,32),('HS192',192,16,32),('HS160',160,16,32),('HS128',128,16,32),('SH512',512,160,160),('SH256',256,160,160),('SH224',224,160,160),('SH192',192,160,160)]
w(' ∧\n'.join('    Constructs AllHist cubehashNew%s { H := Spec.CubeHash.hash { h := %d, b := 32, r := 16, i := %d, f := %d }, size := %d, blockSize := 32 }'%(n,h,i,f,h//8) for n,h,i,f in cb)+' := by')
w('''  have H : ∀ P : Spec.CubeHash.Params, CubeHash.Ok P →
      Constructs AllHist (some ⟨_, CubeHash.impl, CubeHash.new P.h P.b P.r P.i P.f⟩) { H := Spec.CubeHash.hash P, size := P.h / 8, blockSize := P.b } :=
    fun P ok => ⟨_, rfl, fun ops _ => C48_cubehash_contract_partial P ok ops⟩
  refine ⟨'''+', '.join('H ⟨%d, 32, 16, %d, %d⟩ ⟨by decide, by decide, by decide, by decide, by decide⟩'%(h,i,f) for n,h,i,f in cb)+'⟩\n')
w('''/-- NewHS512x, which names CubeHash16+16/1+32-512, does not compute it (its digests ignore the contents of the message). -/
theorem C138_cubehash_hs512x_violated :
    ¬ Constructs AllHist cubehashNewHS512x { H := Spec.CubeHash.hash { h := 512, b := 1, r := 16, i := 16, f := 32 }, size := 64, blockSize := 1 } := by
  rintro ⟨x, hx, h⟩
  cases hx
  exact C48_cubehash_hs512x_violated fun ops => h ops trivial
''')
w('theorem C138_haval :')
hv=[(s,p) for s in (128,160,192,224,256) for p in (3,4,5)]
w(' ∧\n'.join('    Constructs AllHist havalNew%d_%d { H := Spec.Haval.hash %d %d, size := %d, blockSize := 128 }'%(s,p,p,s,s//8) for s,p in hv)+' := by')
w('  refine ⟨'+', '.join('constructs_all (C55_haval_contract %d %d (by decide) (by decide)) rfl'%(p,s) for s,p in hv)+'⟩\n')
w('theorem C138_shabal :')
sh=(192,224,256,384,512)
w(' ∧\n'.join('    Constructs AllHist shabalNew%d { H := Spec.Shabal.hash %d, size := %d, blockSize := 64 }'%(s,s,s//8) for s in sh)+' := by')
w('  refine ⟨'+', '.join('constructs_all (C50_shabal %d (by decide) (by decide)) rfl'%(s//32) for s in sh)+'⟩\n')
w('theorem C138_echo :')
q=(224,256,384,512)
w(' ∧\n'.join('    Constructs AllHist echoNew%d { H := Spec.Echo.hash %d (zeros 16), size := %d, blockSize := %d }'%(s,s//8,s//8,192 if s<=256 else 128) for s in q)+' := by')
w('  refine ⟨'+', '.join('constructs_all (C50_echo %d (by decide) (by decide) [] (Or.inl rfl)) rfl'%(s//8) for s in q)+'⟩\n')
w('/-- For messages below 2^60 bytes. -/\ntheorem C138_groestl :')
w(' ∧\n'.join('    Constructs (Fits (2 ^ 60)) groestlNew%d { H := Spec.Groestl.hash %d, size := %d, blockSize := %d }'%(s,s,s//8,64 if s<=256 else 128) for s in q)+' := by')
w('  refine ⟨'+', '.join('constructs_on (C37_groestl_contract_partial %d (by decide) (by decide) (by decide)) rfl'%s for s in q)+'⟩\n')
w('/-- New: Tiger (marker 01); New2: Tiger2 (marker 80); shorter digests are prefixes. -/\ntheorem C138_tiger :')
tg=[('New',24,1),('New2',24,2),('New160',20,1),('New2_160',20,2),('New128',16,1),('New2_128',16,2)]
w(' ∧\n'.join('    Constructs AllHist tiger%s { H := fun m => (Spec.Tiger.hash Tiger.boxes %s m).take %d, size := %d, blockSize := 64 }'%(n,'0x01#8' if v==1 else '0x80#8',s,s) for n,s,v in tg)+' := by')
w('  refine ⟨'+', '.join('⟨_, rfl, fun ops _ => C08_tiger%s_refines %d (by decide) ops⟩'%('' if v==1 else '2',s) for n,s,v in tg)+'⟩\n')
w('''/-- MD6 of the size named, unkeyed, 40 + d/4 rounds, 64 levels, for messages below 512 bytes (longer ones: `C30_md6_violated`); the keyed form with at
least 80 rounds and the first 64 bytes of the key. -/
theorem C138_md6_partial :''')
w(' ∧\n'.join('    Constructs (Fits 512) md6New%d { H := Spec.MD6.short { d := %d, key := [], r := %d, L := 64 }, size := %d, blockSize := 512 }'%(s,s,40+s//4,s//8) for s in q)+' ∧')
w('''    ∀ (size : Nat) (key : Bytes), size ≤ 1024 → key ≠ [] → Constructs (Fits 512) (md6NewWithKey size key)
      { H := Spec.MD6.short { d := size, key := key.take 64, r := max 80 (40 + size / 4), L := 64 }, size := size / 8, blockSize := 512 } := by
  have H : ∀ (size : Nat) (key : Bytes), size ≤ 1024 → Constructs (Fits 512) (some ⟨_, MD6.impl, MD6.newDigest size key 64⟩)
      { H := Spec.MD6.short (md6Par size key 64), size := size / 8, blockSize := 512 } := by
    intro size key hs
    refine ⟨_, rfl, fun ops h => ?_⟩
    rw [C30_md6_function size key 64 hs ops fun k => Nat.lt_trans (h k) (by decide)]
    exact spec_run_congr (S := { H := Spec.MD6.chain (md6Par size key 64), size := size / 8, blockSize := 512 })
      (S' := { H := Spec.MD6.short (md6Par size key 64), size := size / 8, blockSize := 512 }) (fun m hm => C30_md6_short_partial size key 64 (by decide) m hm) rfl rfl ops [] h
  refine ⟨H 224 [] (by decide), H 256 [] (by decide), H 384 [] (by decide), H 512 [] (by decide), fun size key hs hk => ?_⟩
  have := H size key hs
  unfold md6Par at this
  rw [if_pos hk] at this
  exact this
''')
w('''/-- SipHash-2-4, 128 bits unless New64 or size 8, for 16-byte keys, as long as Reset is not called (`C11_siphash_reset_violated`); with any other key
the object returned is nil. -/
theorem C138_siphash_partial (k : Bytes) :
    (k.length = 16 →
      Constructs NoReset (siphashNew k) { H := Spec.SipHash.siphash 2 4 true k, size := 16, blockSize := 8 } ∧
      Constructs NoReset (siphashNew64 k) { H := Spec.SipHash.siphash 2 4 false k, size := 8, blockSize := 8 } ∧
      Constructs NoReset (siphashNew128 k) { H := Spec.SipHash.siphash 2 4 true k, size := 16, blockSize := 8 } ∧
      (∀ n : Int, Constructs NoReset (siphashNewWithHashSize k n) { H := Spec.SipHash.siphash 2 4 (n != 8) k, size := if n = 8 then 8 else 16, blockSize := 8 })) ∧
    (k.length ≠ 16 → ConstructsNil (siphashNew k) ∧ ConstructsNil (siphashNew64 k) ∧ ConstructsNil (siphashNew128 k) ∧ ∀ n, ConstructsNil (siphashNewWithHashSize k n)) := by
  refine ⟨fun hk => ?_, fun hk => ?_⟩
  · have H : ∀ n : Int, Constructs NoReset (dropError (SipHash.impl 0 0 n) (SipHash.new k n))
        { H := Spec.SipHash.siphash 2 4 (n != 8) k, size := if n = 8 then 8 else 16, blockSize := 8 } := by
      intro n
      cases e : SipHash.new k n with
      | none => exact absurd hk ((C11_siphash_new k n).1 e)
      | some o => exact constructs_on ⟨o, rfl, C11_siphash_partial 0 0 n k o e⟩ rfl
    exact ⟨H 0, H 8, H 16, H⟩
  · have H : ∀ n : Int, dropError (SipHash.impl 0 0 n) (SipHash.new k n) = none := by
      intro n
      rw [(C11_siphash_new k n).2 hk]
      rfl
    exact ⟨H 0, H 8, H 16, H⟩

/-- Chaskey with 8 and with 12 rounds, for the histories in which package chaskey is right (`C16_chaskey_split_violated`); other keys are refused. -/
theorem C138_chaskey_partial (k : Bytes) :
    (k.length = 16 →
      Constructs (Calm 0) (chaskeyNew k) { H := Spec.Chaskey.mac 8 k, size := 16, blockSize := 16 } ∧
      Constructs (Calm 0) (chaskeyNew12 k) { H := Spec.Chaskey.mac 12 k, size := 16, blockSize := 16 }) ∧
    (k.length ≠ 16 → ConstructsNil (chaskeyNew k) ∧ ConstructsNil (chaskeyNew12 k)) := by
  refine ⟨fun hk => ?_, fun hk => ?_⟩
  · have H : ∀ r : Nat, Constructs (Calm 0) (dropError Chaskey.impl (Chaskey.new k r)) { H := Spec.Chaskey.mac r k, size := 16, blockSize := 16 } := by
      intro r
      cases e : Chaskey.new k r with
      | none => exact absurd hk ((C16_chaskey_new k r).1 e)
      | some o => exact constructs_on ⟨o, rfl, C16_chaskey_partial r k o e⟩ rfl
    exact ⟨H 8, H 12⟩
  · have H : ∀ r : Nat, dropError Chaskey.impl (Chaskey.new k r) = none := by
      intro r
      rw [(C16_chaskey_new k r).2 hk]
      rfl
    exact ⟨H 8, H 12⟩
''')
w('/-- For writes below 2^29 - 256 bytes each (`C56_fsb_write_violated`). -/\ntheorem C138_fsb_partial (pi : Nat → Byte) :')
f=(160,224,256,384,512)
w(' ∧\n'.join('    Constructs FSBWrites (fsbNew%d pi) { H := Spec.FSB.hash pi Spec.FSB.fsb%d, size := %d, blockSize := Spec.FSB.inputBits Spec.FSB.fsb%d / 8 }'%(s,s,s//8,s) for s in f)+' := by')
w('''  have H : ∀ (n : Int) (P : Spec.FSB.Params), (FSB.new n).map FSB.Cfg.spec = some P →
      Constructs FSBWrites ((FSB.new n).map fun c => ⟨_, FSB.impl pi c, FSB.reset c⟩)
        { H := Spec.FSB.hash pi P, size := P.hashbits / 8, blockSize := Spec.FSB.inputBits P / 8 } := by
    intro n P h
    cases e : FSB.new n with
    | none => rw [e] at h; cases h
    | some c =>
      rw [e, Option.map_some, Option.some.injEq] at h
      subst h
      exact ⟨_, rfl, C56_fsb_contract_partial pi n c e⟩
  refine ⟨'''+', '.join('H %d Spec.FSB.fsb%d (C56_fsb_new %d)'%(s,s,s) for s in f)+'⟩\n')
w('/-- For messages below 2^64 bytes. -/\ntheorem C138_skein512 :')
w(' ∧\n'.join('    Constructs (Fits (2 ^ 64)) skein512NewHash%d { H := Spec.Skein.skein 8 %d none [], size := %d, blockSize := 64 }'%(s,s//8,s//8) for s in q)+' := by')
w('''  have H : ∀ n : U64, Constructs (Fits (2 ^ 64)) (some ⟨_, Skein512.impl, Skein512.new n {}⟩) (skeinSpec 8 n.toNat none []) := by
    intro n
    refine ⟨_, rfl, C39_skein512 n {} ?_ rfl⟩
    intro v h
    simp at h
  refine ⟨'''+', '.join('H %d'%(s//8) for s in q)+'⟩\n')
w('''/-! Non-vacuity of the restricted kinds of history. -/
example : Fits 512 [.write [1, 2], .sum [], .reset, .write [3], .size] := by
  intro k
  rcases k with _ | _ | _ | _ | _ | k <;> simp [msgAfter]
example : NoReset [.write [1, 2], .sum [], .write [3], .sum [7]] := by simp [NoReset]
example : Calm 0 [.write [1, 2], .sum []] := Or.inl ⟨rfl, trivial⟩
example : FSBWrites [.write [1, 2], .sum []] := by intro p hp; simp at hp; subst hp; decide
end Verif.Props''')
open('/verif/lean/Verif/Props/C138_Ctors.lean','w').write('\n'.join(out)+'\n')
