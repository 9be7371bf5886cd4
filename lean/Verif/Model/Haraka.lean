import Verif.Model.HarakaTab
/-
Package haraka, the portable code (haraka/haraka.go with hasAES = false, haraka/haraka_ref.go, haraka/aes.go).  The assembly used when the
processor has AES instructions is not modelled.
-/
namespace Verif.Haraka

/-- haraka/aes.go:6-12, on the slice a = s[o : o+4] with key = rc[k : k+4]; the four new words are stored through the slice. -/
def aesRound (k o : Nat) (s : List U32) : List U32 :=
  let a0 := s.getD o 0
  let a1 := s.getD (o + 1) 0
  let a2 := s.getD (o + 2) 0
  let a3 := s.getD (o + 3) 0
  let b (x : U32) (n : Nat) : Nat := ((x >>> n).setWidth 8 : Byte).toNat
  let s := s.set o (t0.getD (b a0 0) 0 ^^^ t1.getD (b a1 8) 0 ^^^ t2.getD (b a2 16) 0 ^^^ t3.getD (b a3 24) 0 ^^^ rc.getD k 0)
  let s := s.set (o + 1) (t0.getD (b a1 0) 0 ^^^ t1.getD (b a2 8) 0 ^^^ t2.getD (b a3 16) 0 ^^^ t3.getD (b a0 24) 0 ^^^ rc.getD (k + 1) 0)
  let s := s.set (o + 2) (t0.getD (b a2 0) 0 ^^^ t1.getD (b a3 8) 0 ^^^ t2.getD (b a0 16) 0 ^^^ t3.getD (b a1 24) 0 ^^^ rc.getD (k + 2) 0)
  s.set (o + 3) (t0.getD (b a3 0) 0 ^^^ t1.getD (b a0 8) 0 ^^^ t2.getD (b a1 16) 0 ^^^ t3.getD (b a2 24) 0 ^^^ rc.getD (k + 3) 0)

/-- s[0], ..., s[n-1] = s[l[0]], ..., s[l[n-1]] (a parallel assignment). -/
def shuffle (l : List Nat) (s : List U32) : List U32 := l.map fun i => s.getD i 0

/-- haraka/haraka_ref.go:111-114 -/
def mix256 (s : List U32) : List U32 := shuffle [0, 4, 1, 5, 2, 6, 3, 7] s
/-- haraka/haraka_ref.go:117-122 -/
def mix512 (s : List U32) : List U32 := shuffle [3, 11, 7, 15, 8, 0, 12, 4, 9, 1, 13, 5, 2, 10, 6, 14] s

/-- state[i] = GETU32(src[4*i:4*i+4]) for i < n (haraka_ref.go:8-15, 49-64) -/
def load (n : Nat) (src : Bytes) : List U32 := (List.range n).map fun i => getLE32 src (4 * i)

/-- haraka/haraka_ref.go:5-44 -/
def haraka256Ref (src : Bytes) : Bytes :=
  let state := load 8 src
  let state := forLoop 0 5 (fun s i =>
    let s := aesRound (16 * i) 0 s
    let s := aesRound (16 * i + 4) 4 s
    let s := aesRound (16 * i + 8) 0 s
    let s := aesRound (16 * i + 12) 4 s
    mix256 s) state
  let state := (List.range 8).map fun i => state.getD i 0 ^^^ getLE32 src (4 * i)
  [0, 1, 2, 3, 4, 5, 6, 7].flatMap fun i => le32 (state.getD i 0)

/-- haraka/haraka_ref.go:46-103 -/
def haraka512Ref (src : Bytes) : Bytes :=
  let state := load 16 src
  let state := forLoop 0 5 (fun s i =>
    let s := aesRound (32 * i) 0 s
    let s := aesRound (32 * i + 4) 4 s
    let s := aesRound (32 * i + 8) 8 s
    let s := aesRound (32 * i + 12) 12 s
    let s := aesRound (32 * i + 16) 0 s
    let s := aesRound (32 * i + 20) 4 s
    let s := aesRound (32 * i + 24) 8 s
    let s := aesRound (32 * i + 28) 12 s
    mix512 s) state
  let state := (List.range 16).map fun i => state.getD i 0 ^^^ getLE32 src (4 * i)
  [2, 3, 6, 7, 8, 9, 12, 13].flatMap fun i => le32 (state.getD i 0)

/-- haraka/haraka.go:7-15 -/
def haraka256 (input : Bytes) : Bytes := haraka256Ref input
/-- haraka/haraka.go:19-27 -/
def haraka512 (input : Bytes) : Bytes := haraka512Ref input

end Verif.Haraka
