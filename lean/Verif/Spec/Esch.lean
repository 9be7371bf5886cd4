import Verif.Lazy
/-
Esch256 and Esch384 (Beierle et al., "Schwaemm and Esch", NIST LWC), from the description of the
SPARKLE permutations: a state is a list of branches `(x, y)`.
-/
namespace Verif.Spec.Esch

abbrev Branch := U32 × U32

/-- The round constants: the first digits of the binary expansion of e. -/
def c : List U32 := [0xB7E15162, 0xBF715880, 0x38B4DA56, 0x324E7738, 0xBB1185EB, 0x4F7C7B57, 0xCFBFA1C8, 0xC2B3293D]

/-- The ARX-box Alzette. -/
def alzette (k : U32) (b : Branch) : Branch :=
  let step (r s : Nat) (b : Branch) : Branch :=
    let x := b.1 + b.2.rotateRight r
    let y := b.2 ^^^ x.rotateRight s
    (x ^^^ k, y)
  step 24 16 (step 0 31 (step 17 17 (step 31 24 b)))

/-- `ℓ(z) = (z ⊕ (z << 16)) <<< 16`. -/
def ell (z : U32) : U32 := (z ^^^ (z <<< 16)).rotateLeft 16

/-- The linear layer on `2h` branches: a Feistel round over the halves, then the halves are swapped and
the (old) right one rotated by one branch. -/
def linear (st : List Branch) : List Branch :=
  let h := st.length / 2
  let l := st.take h
  let r := st.drop h
  let tx := ell ((l.map (·.1)).foldl (· ^^^ ·) 0)
  let ty := ell ((l.map (·.2)).foldl (· ^^^ ·) 0)
  let r' := (r.zip l).map fun (a, b) => (a.1 ^^^ (b.1 ^^^ ty), a.2 ^^^ (b.2 ^^^ tx))
  (r'.drop 1 ++ r'.take 1) ++ l

/-- One step: constants, ARX-boxes, linear layer. -/
def step (s : Nat) (st : List Branch) : List Branch :=
  let st := st.set 0 ((st.getD 0 (0, 0)).1, (st.getD 0 (0, 0)).2 ^^^ c.getD (s % 8) 0)
  let st := st.set 1 ((st.getD 1 (0, 0)).1, (st.getD 1 (0, 0)).2 ^^^ BitVec.ofNat 32 s)
  linear (st.zipIdx.map fun (b, i) => alzette (c.getD i 0) b)

/-- `SPARKLE` with `n` steps. -/
def sparkle (n : Nat) (st : List Branch) : List Branch := (List.range n).foldl (fun st s => step s st) st

/-- The message injection: 16 bytes go into the left half through a Feistel function. -/
def inject (st : List Branch) (b : Bytes) : List Branch :=
  let m : List Branch := [(getLE32 b 0, getLE32 b 4), (getLE32 b 8, getLE32 b 12)]
  let u := ell ((m.map (·.1)).foldl (· ^^^ ·) 0)
  let v := ell ((m.map (·.2)).foldl (· ^^^ ·) 0)
  st.zipIdx.map fun (s, i) =>
    let p := m.getD i (0, 0)
    if i < st.length / 2 then (s.1 ^^^ p.1 ^^^ v, s.2 ^^^ p.2 ^^^ u) else s

/-- The instances. -/
structure Instance where
  branches : Nat
  slim : Nat
  big : Nat
  outBlocks : Nat
def esch256 : Instance := ⟨6, 7, 11, 2⟩
def esch384 : Instance := ⟨8, 8, 12, 3⟩

/-- The domain separation constant goes into the last word of the left half. -/
def addConst (st : List Branch) (k : U32) : List Branch :=
  let i := st.length / 2 - 1
  st.set i ((st.getD i (0, 0)).1, (st.getD i (0, 0)).2 ^^^ k <<< 24)

/-- The first 16 bytes of the state. -/
def rate (st : List Branch) : Bytes :=
  ((st.take 2).map fun b => le32 b.1 ++ le32 b.2).flatten

/-- `n` blocks of output. -/
def squeeze (I : Instance) : Nat → List Branch → Bytes
  | 0, _ => []
  | n + 1, st => rate st ++ squeeze I n (sparkle I.slim st)

def hash (I : Instance) (m : Bytes) : Bytes :=
  let st := (initBlocks 16 m).foldl (fun st b => sparkle I.slim (inject st b)) (List.replicate I.branches (0, 0))
  let b := lastBlock 16 m
  let k : U32 := if b.length < 16 then 1 else 2
  let b := if b.length < 16 then b ++ [0x80#8] ++ zeros (15 - b.length) else b
  squeeze I I.outBlocks (sparkle I.big (inject (addConst st k) b))

end Verif.Spec.Esch
