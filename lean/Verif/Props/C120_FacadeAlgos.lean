import Verif.Model.FacadeAlgos
import Verif.Props.C51_Facade
import Verif.Props.C01_SM3
import Verif.Props.C03_MD2
import Verif.Props.C06_HAS160
import Verif.Props.C08_Tiger
import Verif.Props.C09_BLAKE256
import Verif.Props.C10_BLAKE512
import Verif.Props.C11_SipHash
import Verif.Props.C12_XXHash
import Verif.Props.C13_Murmur3
import Verif.Props.C21_Rabin
import Verif.Props.C31_LSH
import Verif.Props.C32_Whirlpool
import Verif.Props.C33_Streebog
import Verif.Props.C35_Gost94
import Verif.Props.C38_JH
import Verif.Props.C50_Echo
/-
C120: the facade's methods for the algorithms of this module compute those algorithms, and change
nothing but the data.  C121: so do the objects they install.
(The statements are generated by `tools/gen_facade.py`.)
-/
namespace Verif.Props
open Verif.Facade

theorem digestWith_of {σ τ} {I : HashImpl τ} {h₀ : τ} {S : HashSpec} {t : Facade σ} {H : Bytes → Bytes}
    (h : I.run h₀ [.write t.data, .sum []] = S.run [] [.write t.data, .sum []]) (hH : S.H = H) :
    digestWith I (some h₀) t = some { t with data := H t.data } := by
  simp only [HashImpl.run, HashSpec.run] at h
  unfold digestWith
  simp only [Option.bind_eq_bind, Option.bind_some]
  cases e : I.write h₀ t.data with
  | none => rw [e] at h; simp at h
  | some x =>
    obtain ⟨s', n⟩ := x
    rw [e] at h
    simp only [List.cons.injEq] at h
    obtain ⟨-, h⟩ := h
    simp only [Option.bind_some]
    cases e2 : I.sum s' [] with
    | none => rw [e2] at h; simp at h
    | some y =>
      obtain ⟨s2, r⟩ := y
      rw [e2] at h
      simp only [List.cons.injEq, Out.bytes.injEq, List.nil_append, and_true] at h
      simp only [Option.bind_some, h, hH]

/-- The calls `Write(p₁)...Write(pₙ).Sum(b)` on a facade value. -/
def writesThenSum {τ} (I : HashImpl τ) (ps : List Bytes) (b : Bytes) (t : Facade τ) : Option (Facade τ) :=
  chain I (fun _ => none) (ps.map .write ++ [.sum b]) t

theorem stream_of {τ} {I : HashImpl τ} {S : HashSpec} {h₀ : τ} {ps : List Bytes} {b : Bytes} {H : Bytes → Bytes} {t : Facade τ}
    (h : I.run h₀ (ps.map .write ++ [.sum b]) = S.run [] (ps.map .write ++ [.sum b]))
    (hH : S.H = H) :
    ∃ u, writesThenSum I ps b { t with hash := some h₀ } = some u ∧ u.data = b ++ H ps.flatten ∧ u.err = t.err := by
  have key : ∀ (ps : List Bytes) (s : τ) (m : Bytes) (t : Facade τ), t.hash = some s →
      I.run s (ps.map .write ++ [.sum b]) = S.run m (ps.map .write ++ [.sum b]) →
      ∃ u, writesThenSum I ps b t = some u ∧
        u.data = b ++ S.H (m ++ ps.flatten) ∧ u.err = t.err := by
    intro ps
    induction ps with
    | nil =>
      intro s m t ht h
      simp only [List.map_nil, List.nil_append, HashImpl.run, HashSpec.run] at h
      cases e : I.sum s b with
      | none => rw [e] at h; simp at h
      | some x =>
        obtain ⟨s', r⟩ := x
        rw [e] at h
        simp only [List.cons.injEq, Out.bytes.injEq, and_true] at h
        refine ⟨{ t with data := r, hash := some s' }, ?_, ?_, rfl⟩
        · simp only [writesThenSum, List.map_nil, List.nil_append, chain, Call.run, Option.bind_eq_bind, Option.bind_some, e, ht]
        · simp only [List.flatten_nil, List.append_nil, h]
    | cons p ps ih =>
      intro s m t ht h
      simp only [List.map_cons, List.cons_append, HashImpl.run, HashSpec.run] at h
      cases e : I.write s p with
      | none => rw [e] at h; simp at h
      | some x =>
        obtain ⟨s', n⟩ := x
        rw [e] at h
        simp only [List.cons.injEq] at h
        obtain ⟨u, hu, h1, h2⟩ := ih s' (m ++ p) { t with hash := some s' } rfl h.2
        refine ⟨u, ?_, ?_, h2⟩
        · simp only [writesThenSum, List.map_cons, List.cons_append, chain, Call.run, Option.bind_eq_bind, Option.bind_some, e, ht]
          exact hu
        · rw [h1, List.flatten_cons, List.append_assoc]
  obtain ⟨u, hu, h1, h2⟩ := key ps h₀ [] { t with hash := some h₀ } rfl h
  exact ⟨u, hu, by rw [h1, List.nil_append, hH], h2⟩

theorem msgAfter_writes (ps : List Bytes) (m : Bytes) (k : Nat) :
    msgAfter m ((ps.map Op.write).take k) = m ++ (ps.take k).flatten := by
  induction ps generalizing m k with
  | nil => simp [msgAfter]
  | cons p ps ih =>
    cases k with
    | zero => simp [msgAfter]
    | succ k => simp only [List.map_cons, List.take_succ_cons, msgAfter, ih, List.flatten_cons, List.append_assoc]

theorem take_flatten_le (ps : List Bytes) (k : Nat) : (ps.take k).flatten.length ≤ ps.flatten.length := by
  rw [← List.take_append_drop k ps]
  simp only [List.take_append_drop]
  conv => rhs; rw [← List.take_append_drop k ps, List.flatten_append, List.length_append]
  omega

theorem fits_writes {N : Nat} {ps : List Bytes} {b : Bytes} (h : ps.flatten.length < N) :
    Fits N (ps.map Op.write ++ [.sum b]) := by
  intro k
  by_cases hk : k ≤ ps.length
  · rw [List.take_append_of_le_length (by simpa using hk), msgAfter_writes]
    exact Nat.lt_of_le_of_lt (by simpa using take_flatten_le ps k) h
  · rw [List.take_of_length_le (by simp; omega)]
    have e : msgAfter [] (ps.map Op.write ++ [Op.sum b]) = msgAfter [] (ps.map Op.write) := by
      have : ∀ (ops : List Op) (m : Bytes), msgAfter m (ops ++ [Op.sum b]) = msgAfter m ops := by
        intro ops
        induction ops with
        | nil => intro m; rfl
        | cons o ops ih => intro m; cases o <;> simp only [List.cons_append, msgAfter, ih]
      exact this _ _
    rw [e]
    have := msgAfter_writes ps [] ps.length
    rw [List.take_of_length_le (by simp), List.take_of_length_le (Nat.le_refl _)] at this
    rw [this]
    simpa using h

theorem fits_one {N : Nat} {m b : Bytes} (h : m.length < N) : Fits N [.write m, .sum b] := by
  have := fits_writes (N := N) (ps := [m]) (b := b) (by simpa using h)
  exact this

theorem short_writes {ps : List Bytes} {b : Bytes} (h : ∀ p ∈ ps, p.length < 2 ^ 60) :
    ShortWrites (ps.map Op.write ++ [.sum b]) := by
  intro p hp
  simp only [List.mem_append, List.mem_map, Op.write.injEq, exists_eq_right, List.mem_singleton, reduceCtorEq, or_false] at hp
  exact h p hp

theorem noReset_writes {ps : List Bytes} {b : Bytes} : NoReset (ps.map Op.write ++ [.sum b]) := by
  intro h
  simp at h

theorem echo_hash_length (n : Nat) (h1 : 1 ≤ n) (h2 : n ≤ 64) (m : Bytes) : (Spec.Echo.hash n (zeros 16) m).length = n := by
  unfold Spec.Echo.hash
  rw [List.length_take]
  have hiv : n ≤ (Spec.Echo.iv n).length := by
    have : (Spec.Echo.iv n).length = 16 * (Spec.Echo.vLen n / 16) := by
      unfold Spec.Echo.iv
      generalize Spec.Echo.vLen n / 16 = k
      induction k with
      | zero => rfl
      | succ k ih => rw [List.range_succ, List.flatMap_append, List.length_append, ih]; simp; omega
    rw [this]; unfold Spec.Echo.vLen; split <;> omega
  generalize (fullBlocks (Spec.Echo.blockLen n) (Spec.Echo.pad n m)).zipIdx = l
  have : ∀ (l : List (Bytes × Nat)) (V : Bytes), n ≤ V.length →
      n ≤ (l.foldl (fun V b => Spec.Echo.compress n (zeros 16) V b.1 (Spec.Echo.counter n m b.2)) V).length := by
    intro l
    induction l with
    | nil => intro V h; exact h
    | cons a l ih => intro V h; exact ih _ (by
        simp only [Spec.Echo.compress, List.length_map, List.length_range, Spec.Echo.vLen]; split <;> omega)
  exact Nat.min_eq_left (this l _ hiv)

theorem C120_MD2 {σ} (t : Facade σ) :
    mMD2 t = some { t with data := (Spec.MD2.hash) t.data } := by
  have h := C03_md2_refines [.write t.data, .sum []]
  unfold mMD2
  exact digestWith_of h (by rw [md2Spec])
theorem C121_NewMD2 (t : Facade MD2.Digest) (ps : List Bytes) (b : Bytes) :
    ∃ u, (mNewMD2 t).bind (writesThenSum MD2.impl ps b) = some u ∧ u.data = b ++ (Spec.MD2.hash) ps.flatten ∧ u.err = t.err := by
  have h := C03_md2_refines (ps.map .write ++ [.sum b])
  unfold mNewMD2 newWith
  exact stream_of (H := Spec.MD2.hash) h (by rw [md2Spec])

theorem C120_SM3 {σ} (t : Facade σ) :
    mSM3 t = some { t with data := (Spec.SM3.hash) t.data } := by
  have h := C01_sm3_refines [.write t.data, .sum []]
  unfold mSM3
  exact digestWith_of h rfl
theorem C121_NewSM3 (t : Facade SM3.Digest) (ps : List Bytes) (b : Bytes) :
    ∃ u, (mNewSM3 t).bind (writesThenSum SM3.impl ps b) = some u ∧ u.data = b ++ (Spec.SM3.hash) ps.flatten ∧ u.err = t.err := by
  have h := C01_sm3_refines (ps.map .write ++ [.sum b])
  unfold mNewSM3 newWith
  exact stream_of (H := Spec.SM3.hash) h rfl

theorem C120_HAS160 {σ} (t : Facade σ) :
    mHAS160 t = some { t with data := (Spec.HAS160.hash) t.data } := by
  have h := C06_has160_refines [.write t.data, .sum []]
  unfold mHAS160
  exact digestWith_of h rfl
theorem C121_NewHAS160 (t : Facade HAS160.Digest) (ps : List Bytes) (b : Bytes) :
    ∃ u, (mNewHAS160 t).bind (writesThenSum HAS160.impl ps b) = some u ∧ u.data = b ++ (Spec.HAS160.hash) ps.flatten ∧ u.err = t.err := by
  have h := C06_has160_refines (ps.map .write ++ [.sum b])
  unfold mNewHAS160 newWith
  exact stream_of (H := Spec.HAS160.hash) h rfl

theorem C120_Blake256 {σ} (t : Facade σ) :
    mBlake256 t = some { t with data := (Spec.BLAKE.blake256 [0, 0, 0, 0]) t.data } := by
  have h := C09_blake256_refines [.write t.data, .sum []]
  unfold mBlake256
  exact digestWith_of h rfl
theorem C121_NewBlake256 (t : Facade BLAKE256.Digest) (ps : List Bytes) (b : Bytes) :
    ∃ u, (mNewBlake256 t).bind (writesThenSum (BLAKE256.impl 256 BLAKE256.iv256) ps b) = some u ∧ u.data = b ++ (Spec.BLAKE.blake256 [0, 0, 0, 0]) ps.flatten ∧ u.err = t.err := by
  have h := C09_blake256_refines (ps.map .write ++ [.sum b])
  unfold mNewBlake256 newWith
  exact stream_of (H := Spec.BLAKE.blake256 [0, 0, 0, 0]) h rfl

theorem C120_Blake224 {σ} (t : Facade σ) :
    mBlake224 t = some { t with data := (Spec.BLAKE.blake224 [0, 0, 0, 0]) t.data } := by
  have h := C09_blake224_refines [.write t.data, .sum []]
  unfold mBlake224
  exact digestWith_of h rfl
theorem C121_NewBlake224 (t : Facade BLAKE256.Digest) (ps : List Bytes) (b : Bytes) :
    ∃ u, (mNewBlake224 t).bind (writesThenSum (BLAKE256.impl 224 BLAKE256.iv224) ps b) = some u ∧ u.data = b ++ (Spec.BLAKE.blake224 [0, 0, 0, 0]) ps.flatten ∧ u.err = t.err := by
  have h := C09_blake224_refines (ps.map .write ++ [.sum b])
  unfold mNewBlake224 newWith
  exact stream_of (H := Spec.BLAKE.blake224 [0, 0, 0, 0]) h rfl

theorem C120_Blake512 {σ} (t : Facade σ) :
    mBlake512 t = some { t with data := (Spec.BLAKE.blake512 [0, 0, 0, 0]) t.data } := by
  have h := C10_blake512_refines [.write t.data, .sum []]
  unfold mBlake512
  exact digestWith_of h rfl
theorem C121_NewBlake512 (t : Facade BLAKE512.Digest) (ps : List Bytes) (b : Bytes) :
    ∃ u, (mNewBlake512 t).bind (writesThenSum (BLAKE512.impl 64 BLAKE512.iv512) ps b) = some u ∧ u.data = b ++ (Spec.BLAKE.blake512 [0, 0, 0, 0]) ps.flatten ∧ u.err = t.err := by
  have h := C10_blake512_refines (ps.map .write ++ [.sum b])
  unfold mNewBlake512 newWith
  exact stream_of (H := Spec.BLAKE.blake512 [0, 0, 0, 0]) h rfl

theorem C120_Blake384 {σ} (t : Facade σ) :
    mBlake384 t = some { t with data := (Spec.BLAKE.blake384 [0, 0, 0, 0]) t.data } := by
  have h := C10_blake384_refines [.write t.data, .sum []]
  unfold mBlake384
  exact digestWith_of h rfl
theorem C121_NewBlake384 (t : Facade BLAKE512.Digest) (ps : List Bytes) (b : Bytes) :
    ∃ u, (mNewBlake384 t).bind (writesThenSum (BLAKE512.impl 48 BLAKE512.iv384) ps b) = some u ∧ u.data = b ++ (Spec.BLAKE.blake384 [0, 0, 0, 0]) ps.flatten ∧ u.err = t.err := by
  have h := C10_blake384_refines (ps.map .write ++ [.sum b])
  unfold mNewBlake384 newWith
  exact stream_of (H := Spec.BLAKE.blake384 [0, 0, 0, 0]) h rfl

theorem C120_Tiger {σ} (t : Facade σ) :
    mTiger t = some { t with data := (fun m => (Spec.Tiger.hash Tiger.boxes 0x01#8 m).take 24) t.data } := by
  have h := C08_tiger_refines 24 (by decide) [.write t.data, .sum []]
  unfold mTiger
  exact digestWith_of h rfl
theorem C121_NewTiger (t : Facade Tiger.Digest) (ps : List Bytes) (b : Bytes) :
    ∃ u, (mNewTiger t).bind (writesThenSum (Tiger.impl 24 1) ps b) = some u ∧ u.data = b ++ (fun m => (Spec.Tiger.hash Tiger.boxes 0x01#8 m).take 24) ps.flatten ∧ u.err = t.err := by
  have h := C08_tiger_refines 24 (by decide) (ps.map .write ++ [.sum b])
  unfold mNewTiger newWith
  exact stream_of (H := fun m => (Spec.Tiger.hash Tiger.boxes 0x01#8 m).take 24) h rfl

theorem C120_Tiger2 {σ} (t : Facade σ) :
    mTiger2 t = some { t with data := (fun m => (Spec.Tiger.hash Tiger.boxes 0x80#8 m).take 24) t.data } := by
  have h := C08_tiger2_refines 24 (by decide) [.write t.data, .sum []]
  unfold mTiger2
  exact digestWith_of h rfl
theorem C121_NewTiger2 (t : Facade Tiger.Digest) (ps : List Bytes) (b : Bytes) :
    ∃ u, (mNewTiger2 t).bind (writesThenSum (Tiger.impl 24 2) ps b) = some u ∧ u.data = b ++ (fun m => (Spec.Tiger.hash Tiger.boxes 0x80#8 m).take 24) ps.flatten ∧ u.err = t.err := by
  have h := C08_tiger2_refines 24 (by decide) (ps.map .write ++ [.sum b])
  unfold mNewTiger2 newWith
  exact stream_of (H := fun m => (Spec.Tiger.hash Tiger.boxes 0x80#8 m).take 24) h rfl

theorem C120_LSH256 {σ} (t : Facade σ) :
    mLSH256 t = some { t with data := (Spec.LSH.hash Spec.LSH.lsh256 256) t.data } := by
  have h := C31_lsh256_contract [.write t.data, .sum []]
  unfold mLSH256
  exact digestWith_of h rfl
theorem C121_NewLSH256 (t : Facade (LSH.Digest 32)) (ps : List Bytes) (b : Bytes) :
    ∃ u, (mNewLSH256 t).bind (writesThenSum (LSH.impl LSH.pkg256) ps b) = some u ∧ u.data = b ++ (Spec.LSH.hash Spec.LSH.lsh256 256) ps.flatten ∧ u.err = t.err := by
  have h := C31_lsh256_contract (ps.map .write ++ [.sum b])
  unfold mNewLSH256 newWith
  exact stream_of (H := Spec.LSH.hash Spec.LSH.lsh256 256) h rfl

theorem C120_LSH256_224 {σ} (t : Facade σ) :
    mLSH256_224 t = some { t with data := (Spec.LSH.hash Spec.LSH.lsh256 224) t.data } := by
  have h := C31_lsh256_224_contract [.write t.data, .sum []]
  unfold mLSH256_224
  exact digestWith_of h rfl
theorem C121_NewLSH256_224 (t : Facade (LSH.Digest 32)) (ps : List Bytes) (b : Bytes) :
    ∃ u, (mNewLSH256_224 t).bind (writesThenSum (LSH.impl LSH.pkg256) ps b) = some u ∧ u.data = b ++ (Spec.LSH.hash Spec.LSH.lsh256 224) ps.flatten ∧ u.err = t.err := by
  have h := C31_lsh256_224_contract (ps.map .write ++ [.sum b])
  unfold mNewLSH256_224 newWith
  exact stream_of (H := Spec.LSH.hash Spec.LSH.lsh256 224) h rfl

theorem C120_LSH512 {σ} (t : Facade σ) :
    mLSH512 t = some { t with data := (Spec.LSH.hash Spec.LSH.lsh512 512) t.data } := by
  have h := C31_lsh512_contract [.write t.data, .sum []]
  unfold mLSH512
  exact digestWith_of h rfl
theorem C121_NewLSH512 (t : Facade (LSH.Digest 64)) (ps : List Bytes) (b : Bytes) :
    ∃ u, (mNewLSH512 t).bind (writesThenSum (LSH.impl LSH.pkg512) ps b) = some u ∧ u.data = b ++ (Spec.LSH.hash Spec.LSH.lsh512 512) ps.flatten ∧ u.err = t.err := by
  have h := C31_lsh512_contract (ps.map .write ++ [.sum b])
  unfold mNewLSH512 newWith
  exact stream_of (H := Spec.LSH.hash Spec.LSH.lsh512 512) h rfl

theorem C120_LSH512_384 {σ} (t : Facade σ) :
    mLSH512_384 t = some { t with data := (Spec.LSH.hash Spec.LSH.lsh512 384) t.data } := by
  have h := C31_lsh512_384_contract [.write t.data, .sum []]
  unfold mLSH512_384
  exact digestWith_of h rfl
theorem C121_NewLSH512_384 (t : Facade (LSH.Digest 64)) (ps : List Bytes) (b : Bytes) :
    ∃ u, (mNewLSH512_384 t).bind (writesThenSum (LSH.impl LSH.pkg512) ps b) = some u ∧ u.data = b ++ (Spec.LSH.hash Spec.LSH.lsh512 384) ps.flatten ∧ u.err = t.err := by
  have h := C31_lsh512_384_contract (ps.map .write ++ [.sum b])
  unfold mNewLSH512_384 newWith
  exact stream_of (H := Spec.LSH.hash Spec.LSH.lsh512 384) h rfl

theorem C120_LSH512_256 {σ} (t : Facade σ) :
    mLSH512_256 t = some { t with data := (Spec.LSH.hash Spec.LSH.lsh512 256) t.data } := by
  have h := C31_lsh512_256_contract [.write t.data, .sum []]
  unfold mLSH512_256
  exact digestWith_of h rfl
theorem C121_NewLSH512_256 (t : Facade (LSH.Digest 64)) (ps : List Bytes) (b : Bytes) :
    ∃ u, (mNewLSH512_256 t).bind (writesThenSum (LSH.impl LSH.pkg512) ps b) = some u ∧ u.data = b ++ (Spec.LSH.hash Spec.LSH.lsh512 256) ps.flatten ∧ u.err = t.err := by
  have h := C31_lsh512_256_contract (ps.map .write ++ [.sum b])
  unfold mNewLSH512_256 newWith
  exact stream_of (H := Spec.LSH.hash Spec.LSH.lsh512 256) h rfl

theorem C120_LSH512_224 {σ} (t : Facade σ) :
    mLSH512_224 t = some { t with data := (Spec.LSH.hash Spec.LSH.lsh512 224) t.data } := by
  have h := C31_lsh512_224_contract [.write t.data, .sum []]
  unfold mLSH512_224
  exact digestWith_of h rfl
theorem C121_NewLSH512_224 (t : Facade (LSH.Digest 64)) (ps : List Bytes) (b : Bytes) :
    ∃ u, (mNewLSH512_224 t).bind (writesThenSum (LSH.impl LSH.pkg512) ps b) = some u ∧ u.data = b ++ (Spec.LSH.hash Spec.LSH.lsh512 224) ps.flatten ∧ u.err = t.err := by
  have h := C31_lsh512_224_contract (ps.map .write ++ [.sum b])
  unfold mNewLSH512_224 newWith
  exact stream_of (H := Spec.LSH.hash Spec.LSH.lsh512 224) h rfl

theorem C120_Murmur32 {σ} (t : Facade σ) :
    mMurmur32 t = some { t with data := (fun m => be32 (Spec.Murmur3.x86_32 0 m)) t.data } := by
  have h := C13_murmur32_refines 0 [.write t.data, .sum []]
  unfold mMurmur32
  exact digestWith_of h rfl
theorem C121_NewMurmur32 (t : Facade (Murmur3.Digest U32)) (ps : List Bytes) (b : Bytes) :
    ∃ u, (mNewMurmur32 t).bind (writesThenSum (Murmur3.impl32 0) ps b) = some u ∧ u.data = b ++ (fun m => be32 (Spec.Murmur3.x86_32 0 m)) ps.flatten ∧ u.err = t.err := by
  have h := C13_murmur32_refines 0 (ps.map .write ++ [.sum b])
  unfold mNewMurmur32 newWith
  exact stream_of (H := fun m => be32 (Spec.Murmur3.x86_32 0 m)) h rfl

theorem C120_Murmur32WithSeed {σ} (seed : U32) (t : Facade σ) :
    mMurmur32WithSeed seed t = some { t with data := (fun m => be32 (Spec.Murmur3.x86_32 seed m)) t.data } := by
  have h := C13_murmur32_refines seed [.write t.data, .sum []]
  unfold mMurmur32WithSeed
  exact digestWith_of h rfl
theorem C121_NewMurmur32WithSeed (seed : U32) (t : Facade (Murmur3.Digest U32)) (ps : List Bytes) (b : Bytes) :
    ∃ u, (mNewMurmur32WithSeed seed t).bind (writesThenSum (Murmur3.impl32 seed) ps b) = some u ∧ u.data = b ++ (fun m => be32 (Spec.Murmur3.x86_32 seed m)) ps.flatten ∧ u.err = t.err := by
  have h := C13_murmur32_refines seed (ps.map .write ++ [.sum b])
  unfold mNewMurmur32WithSeed newWith
  exact stream_of (H := fun m => be32 (Spec.Murmur3.x86_32 seed m)) h rfl

theorem C120_Murmur64 {σ} (t : Facade σ) :
    mMurmur64 t = some { t with data := (fun m => be64 (Spec.Murmur3.x64_128 0 m).1) t.data } := by
  have h := C13_murmur64_partial 0 [.write t.data, .sum []]
  unfold mMurmur64
  exact digestWith_of h rfl
theorem C121_NewMurmur64 (t : Facade (Murmur3.Digest (U64 × U64))) (ps : List Bytes) (b : Bytes) :
    ∃ u, (mNewMurmur64 t).bind (writesThenSum (Murmur3.impl64 0) ps b) = some u ∧ u.data = b ++ (fun m => be64 (Spec.Murmur3.x64_128 0 m).1) ps.flatten ∧ u.err = t.err := by
  have h := C13_murmur64_partial 0 (ps.map .write ++ [.sum b])
  unfold mNewMurmur64 newWith
  exact stream_of (H := fun m => be64 (Spec.Murmur3.x64_128 0 m).1) h rfl

theorem C120_Murmur64WithSeed {σ} (seed : U32) (t : Facade σ) :
    mMurmur64WithSeed seed t = some { t with data := (fun m => be64 (Spec.Murmur3.x64_128 seed m).1) t.data } := by
  have h := C13_murmur64_partial seed [.write t.data, .sum []]
  unfold mMurmur64WithSeed
  exact digestWith_of h rfl
theorem C121_NewMurmur64WithSeed (seed : U32) (t : Facade (Murmur3.Digest (U64 × U64))) (ps : List Bytes) (b : Bytes) :
    ∃ u, (mNewMurmur64WithSeed seed t).bind (writesThenSum (Murmur3.impl64 seed) ps b) = some u ∧ u.data = b ++ (fun m => be64 (Spec.Murmur3.x64_128 seed m).1) ps.flatten ∧ u.err = t.err := by
  have h := C13_murmur64_partial seed (ps.map .write ++ [.sum b])
  unfold mNewMurmur64WithSeed newWith
  exact stream_of (H := fun m => be64 (Spec.Murmur3.x64_128 seed m).1) h rfl

theorem C120_Murmur128 {σ} (t : Facade σ) :
    mMurmur128 t = some { t with data := (fun m => be64 (Spec.Murmur3.x64_128 0 m).1 ++ be64 (Spec.Murmur3.x64_128 0 m).2) t.data } := by
  have h := C13_murmur128_refines 0 [.write t.data, .sum []]
  unfold mMurmur128
  exact digestWith_of h rfl
theorem C121_NewMurmur128 (t : Facade (Murmur3.Digest (U64 × U64))) (ps : List Bytes) (b : Bytes) :
    ∃ u, (mNewMurmur128 t).bind (writesThenSum (Murmur3.impl128 0) ps b) = some u ∧ u.data = b ++ (fun m => be64 (Spec.Murmur3.x64_128 0 m).1 ++ be64 (Spec.Murmur3.x64_128 0 m).2) ps.flatten ∧ u.err = t.err := by
  have h := C13_murmur128_refines 0 (ps.map .write ++ [.sum b])
  unfold mNewMurmur128 newWith
  exact stream_of (H := fun m => be64 (Spec.Murmur3.x64_128 0 m).1 ++ be64 (Spec.Murmur3.x64_128 0 m).2) h rfl

theorem C120_Murmur128WithSeed {σ} (seed : U32) (t : Facade σ) :
    mMurmur128WithSeed seed t = some { t with data := (fun m => be64 (Spec.Murmur3.x64_128 seed m).1 ++ be64 (Spec.Murmur3.x64_128 seed m).2) t.data } := by
  have h := C13_murmur128_refines seed [.write t.data, .sum []]
  unfold mMurmur128WithSeed
  exact digestWith_of h rfl
theorem C121_NewMurmur128WithSeed (seed : U32) (t : Facade (Murmur3.Digest (U64 × U64))) (ps : List Bytes) (b : Bytes) :
    ∃ u, (mNewMurmur128WithSeed seed t).bind (writesThenSum (Murmur3.impl128 seed) ps b) = some u ∧ u.data = b ++ (fun m => be64 (Spec.Murmur3.x64_128 seed m).1 ++ be64 (Spec.Murmur3.x64_128 seed m).2) ps.flatten ∧ u.err = t.err := by
  have h := C13_murmur128_refines seed (ps.map .write ++ [.sum b])
  unfold mNewMurmur128WithSeed newWith
  exact stream_of (H := fun m => be64 (Spec.Murmur3.x64_128 seed m).1 ++ be64 (Spec.Murmur3.x64_128 seed m).2) h rfl

theorem C120_Xxhash32 {σ} (t : Facade σ) (hm : t.data.length < 2 ^ 64) :
    mXxhash32 t = some { t with data := (fun m => be32 (Spec.XXHash.xxh32 0 m)) t.data } := by
  have h := C12_xxh32_refines 0 [.write t.data, .sum []] (fits_one hm)
  unfold mXxhash32
  exact digestWith_of h rfl
theorem C121_NewXxhash32 (t : Facade XXHash32.Digest) (ps : List Bytes) (b : Bytes) (hm : ps.flatten.length < 2 ^ 64) :
    ∃ u, (mNewXxhash32 t).bind (writesThenSum (XXHash32.impl 0) ps b) = some u ∧ u.data = b ++ (fun m => be32 (Spec.XXHash.xxh32 0 m)) ps.flatten ∧ u.err = t.err := by
  have h := C12_xxh32_refines 0 (ps.map .write ++ [.sum b]) (fits_writes hm)
  unfold mNewXxhash32 newWith
  exact stream_of (H := fun m => be32 (Spec.XXHash.xxh32 0 m)) h rfl

theorem C120_Xxhash64 {σ} (t : Facade σ) (hm : t.data.length < 2 ^ 64) :
    mXxhash64 t = some { t with data := (fun m => be64 (Spec.XXHash.xxh64 0 m)) t.data } := by
  have h := C12_xxh64_refines 0 [.write t.data, .sum []] (fits_one hm)
  unfold mXxhash64
  exact digestWith_of h rfl
theorem C121_NewXxhash64 (t : Facade XXHash64.Digest) (ps : List Bytes) (b : Bytes) (hm : ps.flatten.length < 2 ^ 64) :
    ∃ u, (mNewXxhash64 t).bind (writesThenSum (XXHash64.impl 0) ps b) = some u ∧ u.data = b ++ (fun m => be64 (Spec.XXHash.xxh64 0 m)) ps.flatten ∧ u.err = t.err := by
  have h := C12_xxh64_refines 0 (ps.map .write ++ [.sum b]) (fits_writes hm)
  unfold mNewXxhash64 newWith
  exact stream_of (H := fun m => be64 (Spec.XXHash.xxh64 0 m)) h rfl

theorem C120_Whirlpool {σ} (t : Facade σ) (hm : t.data.length < 2 ^ 60) :
    mWhirlpool t = some { t with data := (Spec.Whirlpool.hash Spec.Whirlpool.final) t.data } := by
  have h := C32_whirlpool_contract [.write t.data, .sum []] (short_writes (ps := [t.data]) (by simpa using hm))
  unfold mWhirlpool
  exact digestWith_of h rfl
theorem C121_NewWhirlpool (t : Facade Whirlpool.Digest) (ps : List Bytes) (b : Bytes) (hm : ∀ p ∈ ps, p.length < 2 ^ 60) :
    ∃ u, (mNewWhirlpool t).bind (writesThenSum (Whirlpool.impl Whirlpool.tables) ps b) = some u ∧ u.data = b ++ (Spec.Whirlpool.hash Spec.Whirlpool.final) ps.flatten ∧ u.err = t.err := by
  have h := C32_whirlpool_contract (ps.map .write ++ [.sum b]) (short_writes hm)
  unfold mNewWhirlpool newWith
  exact stream_of (H := Spec.Whirlpool.hash Spec.Whirlpool.final) h rfl

theorem C120_Gost341194 {σ} (cipher : Bytes → Bytes → Bytes) (t : Facade σ) (hE : ∀ k b, (cipher k b).length = 8) (hm : t.data.length < 2 ^ 61) :
    mGost341194 cipher t = some { t with data := (Spec.Gost94.hash cipher) t.data } := by
  have h := C35_gost341194_contract cipher hE [.write t.data, .sum []] (fits_one hm)
  unfold mGost341194
  exact digestWith_of h rfl
theorem C121_NewGost341194 (cipher : Bytes → Bytes → Bytes) (t : Facade Gost94.Digest) (ps : List Bytes) (b : Bytes) (hE : ∀ k b, (cipher k b).length = 8) (hm : ps.flatten.length < 2 ^ 61) :
    ∃ u, (mNewGost341194 cipher t).bind (writesThenSum Gost94.impl ps b) = some u ∧ u.data = b ++ (Spec.Gost94.hash cipher) ps.flatten ∧ u.err = t.err := by
  have h := C35_gost341194_contract cipher hE (ps.map .write ++ [.sum b]) (fits_writes hm)
  unfold mNewGost341194 newWith
  exact stream_of (H := Spec.Gost94.hash cipher) h rfl

theorem C120_Gost34112012256 {σ} (t : Facade σ) (hm : t.data.length < 2 ^ 61) :
    mGost34112012256 t = some { t with data := (Spec.Streebog.hash 32) t.data } := by
  obtain ⟨d, hd⟩ : ∃ d, Gost12.new 32 = some d := ⟨_, rfl⟩
  unfold mGost34112012256
  rw [hd]
  exact digestWith_of (C33_gost34112012 32 d hd _ (fits_one hm)) rfl
theorem C121_NewGost34112012256 (t : Facade Gost12.Digest) (ps : List Bytes) (b : Bytes) (hm : ps.flatten.length < 2 ^ 61) :
    ∃ u, (mNewGost34112012256 t).bind (writesThenSum Gost12.impl ps b) = some u ∧ u.data = b ++ (Spec.Streebog.hash 32) ps.flatten ∧ u.err = t.err := by
  obtain ⟨d, hd⟩ : ∃ d, Gost12.new 32 = some d := ⟨_, rfl⟩
  unfold mNewGost34112012256 newWith
  rw [hd]
  exact stream_of (H := Spec.Streebog.hash 32) (C33_gost34112012 32 d hd _ (fits_writes hm)) rfl

theorem C120_Gost34112012512 {σ} (t : Facade σ) (hm : t.data.length < 2 ^ 61) :
    mGost34112012512 t = some { t with data := (Spec.Streebog.hash 64) t.data } := by
  obtain ⟨d, hd⟩ : ∃ d, Gost12.new 64 = some d := ⟨_, rfl⟩
  unfold mGost34112012512
  rw [hd]
  exact digestWith_of (C33_gost34112012 64 d hd _ (fits_one hm)) rfl
theorem C121_NewGost34112012512 (t : Facade Gost12.Digest) (ps : List Bytes) (b : Bytes) (hm : ps.flatten.length < 2 ^ 61) :
    ∃ u, (mNewGost34112012512 t).bind (writesThenSum Gost12.impl ps b) = some u ∧ u.data = b ++ (Spec.Streebog.hash 64) ps.flatten ∧ u.err = t.err := by
  obtain ⟨d, hd⟩ : ∃ d, Gost12.new 64 = some d := ⟨_, rfl⟩
  unfold mNewGost34112012512 newWith
  rw [hd]
  exact stream_of (H := Spec.Streebog.hash 64) (C33_gost34112012 64 d hd _ (fits_writes hm)) rfl

theorem C120_Gost34112012 {σ} (size : Nat) (t : Facade σ) (hs : size = 32 ∨ size = 64) (hm : t.data.length < 2 ^ 61) :
    mGost34112012 size t = some { t with data := (Spec.Streebog.hash size) t.data } := by
  obtain ⟨d, hd⟩ : ∃ d, Gost12.new size = some d := by
    rcases hs with rfl | rfl <;> exact ⟨_, rfl⟩
  unfold mGost34112012
  rw [hd]
  exact digestWith_of (C33_gost34112012 size d hd _ (fits_one hm)) rfl
theorem C121_NewGost34112012 (size : Nat) (t : Facade Gost12.Digest) (ps : List Bytes) (b : Bytes) (hs : size = 32 ∨ size = 64) (hm : ps.flatten.length < 2 ^ 61) :
    ∃ u, (mNewGost34112012 size t).bind (writesThenSum Gost12.impl ps b) = some u ∧ u.data = b ++ (Spec.Streebog.hash size) ps.flatten ∧ u.err = t.err := by
  obtain ⟨d, hd⟩ : ∃ d, Gost12.new size = some d := by
    rcases hs with rfl | rfl <;> exact ⟨_, rfl⟩
  unfold mNewGost34112012 newWith
  rw [hd]
  exact stream_of (H := Spec.Streebog.hash size) (C33_gost34112012 size d hd _ (fits_writes hm)) rfl

theorem C120_Rabin {σ} (polynomial : U64) (window : Int) (t : Facade σ) (hp : 9 ≤ Rabin.bitLen polynomial.toNat) :
    mRabin polynomial window t = some { t with data := ((rabinSpec polynomial window).H) t.data } := by
  obtain ⟨tab, hd⟩ : ∃ tab, Rabin.newTable polynomial window = some tab := by
    unfold Rabin.newTable; dsimp only; rw [if_neg (by omega)]; exact ⟨_, rfl⟩
  unfold mRabin
  rw [hd, Option.map_some]
  exact digestWith_of (C21_rabin_refines polynomial window tab hd _) rfl
theorem C121_NewRabin (polynomial : U64) (window : Int) (t : Facade Rabin.Digest) (ps : List Bytes) (b : Bytes) (hp : 9 ≤ Rabin.bitLen polynomial.toNat) :
    ∃ u, (mNewRabin polynomial window t).bind (writesThenSum Rabin.impl ps b) = some u ∧ u.data = b ++ ((rabinSpec polynomial window).H) ps.flatten ∧ u.err = t.err := by
  obtain ⟨tab, hd⟩ : ∃ tab, Rabin.newTable polynomial window = some tab := by
    unfold Rabin.newTable; dsimp only; rw [if_neg (by omega)]; exact ⟨_, rfl⟩
  unfold mNewRabin newWith
  rw [hd, Option.map_some]
  exact stream_of (H := (rabinSpec polynomial window).H) (C21_rabin_refines polynomial window tab hd _) rfl

theorem C120_Siphash64 {σ} (k : Bytes) (t : Facade σ) (hk : k.length = 16) :
    mSiphash64 k t = some { t with data := (Spec.SipHash.siphash 2 4 false k) t.data } := by
  obtain ⟨d, hd⟩ : ∃ d, SipHash.new k 8 = some d := by
    unfold SipHash.new; rw [if_neg (by omega)]; exact ⟨_, rfl⟩
  unfold mSiphash64
  rw [hd]
  exact digestWith_of (C11_siphash_partial 0 0 8 k _ hd _ (noReset_writes (ps := [t.data]))) rfl
theorem C121_NewSiphash64 (k : Bytes) (t : Facade SipHash.Digest) (ps : List Bytes) (b : Bytes) (hk : k.length = 16) :
    ∃ u, (mNewSiphash64 k t).bind (writesThenSum (SipHash.impl 0 0 8) ps b) = some u ∧ u.data = b ++ (Spec.SipHash.siphash 2 4 false k) ps.flatten ∧ u.err = t.err := by
  obtain ⟨d, hd⟩ : ∃ d, SipHash.new k 8 = some d := by
    unfold SipHash.new; rw [if_neg (by omega)]; exact ⟨_, rfl⟩
  unfold mNewSiphash64
  rw [hd]
  exact stream_of (H := Spec.SipHash.siphash 2 4 false k) (C11_siphash_partial 0 0 8 k _ hd _ noReset_writes) rfl

theorem C120_Siphash128 {σ} (k : Bytes) (t : Facade σ) (hk : k.length = 16) :
    mSiphash128 k t = some { t with data := (Spec.SipHash.siphash 2 4 true k) t.data } := by
  obtain ⟨d, hd⟩ : ∃ d, SipHash.new k 16 = some d := by
    unfold SipHash.new; rw [if_neg (by omega)]; exact ⟨_, rfl⟩
  unfold mSiphash128
  rw [hd]
  exact digestWith_of (C11_siphash_partial 0 0 16 k _ hd _ (noReset_writes (ps := [t.data]))) rfl
theorem C121_NewSiphash128 (k : Bytes) (t : Facade SipHash.Digest) (ps : List Bytes) (b : Bytes) (hk : k.length = 16) :
    ∃ u, (mNewSiphash128 k t).bind (writesThenSum (SipHash.impl 0 0 16) ps b) = some u ∧ u.data = b ++ (Spec.SipHash.siphash 2 4 true k) ps.flatten ∧ u.err = t.err := by
  obtain ⟨d, hd⟩ : ∃ d, SipHash.new k 16 = some d := by
    unfold SipHash.new; rw [if_neg (by omega)]; exact ⟨_, rfl⟩
  unfold mNewSiphash128
  rw [hd]
  exact stream_of (H := Spec.SipHash.siphash 2 4 true k) (C11_siphash_partial 0 0 16 k _ hd _ noReset_writes) rfl

theorem C120_Echo224 {σ} (t : Facade σ) :
    mEcho224 t = some { t with data := (Spec.Echo.hash 28 (zeros 16)) t.data } := by
  obtain ⟨d, hd, hr⟩ := C50_echo 28 (by decide) (by decide) [] (Or.inl rfl)
  have e := digestWith_of (t := t) (H := Spec.Echo.hash 28 (zeros 16)) (hr _) rfl
  unfold mEcho224
  rw [show Echo.newDigest 224 [] = some d from hd, e]
  simp only [Option.bind_eq_bind, Option.bind_some]
  rw [if_neg (Nat.not_lt.mpr (Nat.le_of_eq (echo_hash_length 28 (by decide) (by decide) _).symm)),
    List.take_of_length_le (Nat.le_of_eq (echo_hash_length 28 (by decide) (by decide) _))]
theorem C121_NewEcho224 (t : Facade Echo.Digest) (ps : List Bytes) (b : Bytes) :
    ∃ u, (mNewEcho224 t).bind (writesThenSum Echo.impl ps b) = some u ∧ u.data = b ++ (Spec.Echo.hash 28 (zeros 16)) ps.flatten ∧ u.err = t.err := by
  obtain ⟨d, hd, hr⟩ := C50_echo 28 (by decide) (by decide) [] (Or.inl rfl)
  unfold mNewEcho224 newWith
  rw [show Echo.newDigest 224 [] = some d from hd]
  exact stream_of (H := Spec.Echo.hash 28 (zeros 16)) (hr _) rfl

theorem C120_Echo256 {σ} (t : Facade σ) :
    mEcho256 t = some { t with data := (Spec.Echo.hash 32 (zeros 16)) t.data } := by
  obtain ⟨d, hd, hr⟩ := C50_echo 32 (by decide) (by decide) [] (Or.inl rfl)
  have e := digestWith_of (t := t) (H := Spec.Echo.hash 32 (zeros 16)) (hr _) rfl
  unfold mEcho256
  rw [show Echo.newDigest 256 [] = some d from hd, e]
  simp only [Option.bind_eq_bind, Option.bind_some]
  rw [if_neg (Nat.not_lt.mpr (Nat.le_of_eq (echo_hash_length 32 (by decide) (by decide) _).symm)),
    List.take_of_length_le (Nat.le_of_eq (echo_hash_length 32 (by decide) (by decide) _))]
theorem C121_NewEcho256 (t : Facade Echo.Digest) (ps : List Bytes) (b : Bytes) :
    ∃ u, (mNewEcho256 t).bind (writesThenSum Echo.impl ps b) = some u ∧ u.data = b ++ (Spec.Echo.hash 32 (zeros 16)) ps.flatten ∧ u.err = t.err := by
  obtain ⟨d, hd, hr⟩ := C50_echo 32 (by decide) (by decide) [] (Or.inl rfl)
  unfold mNewEcho256 newWith
  rw [show Echo.newDigest 256 [] = some d from hd]
  exact stream_of (H := Spec.Echo.hash 32 (zeros 16)) (hr _) rfl

theorem C120_Echo384 {σ} (t : Facade σ) :
    mEcho384 t = some { t with data := (Spec.Echo.hash 48 (zeros 16)) t.data } := by
  obtain ⟨d, hd, hr⟩ := C50_echo 48 (by decide) (by decide) [] (Or.inl rfl)
  have e := digestWith_of (t := t) (H := Spec.Echo.hash 48 (zeros 16)) (hr _) rfl
  unfold mEcho384
  rw [show Echo.newDigest 384 [] = some d from hd, e]
  simp only [Option.bind_eq_bind, Option.bind_some]
  rw [if_neg (Nat.not_lt.mpr (Nat.le_of_eq (echo_hash_length 48 (by decide) (by decide) _).symm)),
    List.take_of_length_le (Nat.le_of_eq (echo_hash_length 48 (by decide) (by decide) _))]
theorem C121_NewEcho384 (t : Facade Echo.Digest) (ps : List Bytes) (b : Bytes) :
    ∃ u, (mNewEcho384 t).bind (writesThenSum Echo.impl ps b) = some u ∧ u.data = b ++ (Spec.Echo.hash 48 (zeros 16)) ps.flatten ∧ u.err = t.err := by
  obtain ⟨d, hd, hr⟩ := C50_echo 48 (by decide) (by decide) [] (Or.inl rfl)
  unfold mNewEcho384 newWith
  rw [show Echo.newDigest 384 [] = some d from hd]
  exact stream_of (H := Spec.Echo.hash 48 (zeros 16)) (hr _) rfl

theorem C120_Echo512 {σ} (t : Facade σ) :
    mEcho512 t = some { t with data := (Spec.Echo.hash 64 (zeros 16)) t.data } := by
  obtain ⟨d, hd, hr⟩ := C50_echo 64 (by decide) (by decide) [] (Or.inl rfl)
  have e := digestWith_of (t := t) (H := Spec.Echo.hash 64 (zeros 16)) (hr _) rfl
  unfold mEcho512
  rw [show Echo.newDigest 512 [] = some d from hd, e]
  simp only [Option.bind_eq_bind, Option.bind_some]
  rw [if_neg (Nat.not_lt.mpr (Nat.le_of_eq (echo_hash_length 64 (by decide) (by decide) _).symm)),
    List.take_of_length_le (Nat.le_of_eq (echo_hash_length 64 (by decide) (by decide) _))]
theorem C121_NewEcho512 (t : Facade Echo.Digest) (ps : List Bytes) (b : Bytes) :
    ∃ u, (mNewEcho512 t).bind (writesThenSum Echo.impl ps b) = some u ∧ u.data = b ++ (Spec.Echo.hash 64 (zeros 16)) ps.flatten ∧ u.err = t.err := by
  obtain ⟨d, hd, hr⟩ := C50_echo 64 (by decide) (by decide) [] (Or.inl rfl)
  unfold mNewEcho512 newWith
  rw [show Echo.newDigest 512 [] = some d from hd]
  exact stream_of (H := Spec.Echo.hash 64 (zeros 16)) (hr _) rfl

/-- `spare` is what lies behind the slices in memory; the theorem needs 64 bytes of room (see C38). -/
theorem C120_JH_partial {σ} (spare : Bytes → Bytes) (t : Facade σ) (hsp : ∀ p, 64 ≤ (spare p).length) (hm : t.data.length < 2 ^ 61) :
    mJH spare t = some { t with data := (Spec.JH.hash 32) t.data } := by
  have h := C38_jh_contract_partial spare hsp [.write t.data, .sum []] (fits_one hm)
  unfold mJH
  exact digestWith_of h rfl
theorem C121_NewJH_partial (spare : Bytes → Bytes) (t : Facade JH1.Digest) (ps : List Bytes) (b : Bytes) (hsp : ∀ p, 64 ≤ (spare p).length) (hm : ps.flatten.length < 2 ^ 61) :
    ∃ u, (mNewJH spare t).bind (writesThenSum (JH1.impl spare) ps b) = some u ∧ u.data = b ++ (Spec.JH.hash 32) ps.flatten ∧ u.err = t.err := by
  have h := C38_jh_contract_partial spare hsp (ps.map .write ++ [.sum b]) (fits_writes hm)
  unfold mNewJH newWith
  exact stream_of (H := Spec.JH.hash 32) h rfl

/-- A key of the wrong length: the named methods panic at the first use of the object... -/
theorem C120_Siphash_panics {σ} (k : Bytes) (hk : k.length ≠ 16) (t : Facade σ) :
    mSiphash64 k t = none ∧ mSiphash128 k t = none := by
  have h : ∀ z, SipHash.new k z = none := fun z => by unfold SipHash.new; rw [if_pos hk]
  unfold mSiphash64 mSiphash128
  rw [h, h]
  exact ⟨rfl, rfl⟩

/-- ... the general one reports an error and leaves the data; with a good key it is SipHash-c-d. -/
theorem C120_SiphashWith {σ} (k : Bytes) (c d : U32) (hashSize : Int) (t : Facade σ) :
    mSiphashWith k c d hashSize t = some (if k.length = 16
      then { t with data := Spec.SipHash.siphash (if c = 0 then 2 else c.toNat) (if d = 0 then 4 else d.toNat) (hashSize != 8) k t.data }
      else { t with err := some (.other 0) }) := by
  by_cases hk : k.length = 16
  · obtain ⟨o, hd⟩ : ∃ o, SipHash.new k hashSize = some o := by
      unfold SipHash.new; rw [if_neg (by omega)]; exact ⟨_, rfl⟩
    unfold mSiphashWith
    rw [hd, if_pos hk]
    exact digestWith_of (H := Spec.SipHash.siphash (if c = 0 then 2 else c.toNat) (if d = 0 then 4 else d.toNat) (hashSize != 8) k)
      (C11_siphash_partial c d hashSize k o hd _ (noReset_writes (ps := [t.data]))) rfl
  · have hd : SipHash.new k hashSize = none := by unfold SipHash.new; rw [if_pos hk]
    unfold mSiphashWith
    rw [hd, if_neg hk]

theorem C121_NewSiphashWith (k : Bytes) (hk : k.length = 16) (c d : U32) (hashSize : Int) (t : Facade SipHash.Digest) (ps : List Bytes) (b : Bytes) :
    ∃ u, (mNewSiphashWith k hashSize t).bind (writesThenSum (SipHash.impl c d hashSize) ps b) = some u ∧
      u.data = b ++ Spec.SipHash.siphash (if c = 0 then 2 else c.toNat) (if d = 0 then 4 else d.toNat) (hashSize != 8) k ps.flatten ∧
      u.err = none := by
  obtain ⟨o, hd⟩ : ∃ o, SipHash.new k hashSize = some o := by
    unfold SipHash.new; rw [if_neg (by omega)]; exact ⟨_, rfl⟩
  unfold mNewSiphashWith
  rw [hd]
  exact stream_of (t := { t with err := none })
    (H := Spec.SipHash.siphash (if c = 0 then 2 else c.toNat) (if d = 0 then 4 else d.toNat) (hashSize != 8) k)
    (C11_siphash_partial c d hashSize k o hd _ noReset_writes) rfl

-- Non-vacuity: a facade with data, through a method and its streaming form.
set_option maxRecDepth 100000 in
example : (mBlake256 ({ data := [0#8], hash := none, err := none } : Facade Unit)).map (·.toHexString) =
    some (ascii "0ce8d4ef4dd7cd8d62dfded9d4edb0a774ae6a41929a74da23109e8f11139c87") := by decide +kernel
set_option maxRecDepth 100000 in
example : ((mNewBlake256 newFacade).bind (writesThenSum (BLAKE256.impl 256 BLAKE256.iv256) [[], [0#8]] [])).map (·.toHexString) =
    some (ascii "0ce8d4ef4dd7cd8d62dfded9d4edb0a774ae6a41929a74da23109e8f11139c87") := by decide +kernel
example : (9 : Nat) ≤ Rabin.bitLen (0x11b#64).toNat := by decide +kernel

end Verif.Props
