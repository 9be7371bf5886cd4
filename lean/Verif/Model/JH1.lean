import Verif.HashAPI
/-
Package jh, function by function.  The state `x [8][2]uint64` is a list of sixteen words, x[k][i] is word 2k+i.
-/
namespace Verif.JH1

/-- sbox.go:22-65: entry [r][i] is number 4r+i. -/
def rc : List U64 := [0x67f815dfa2ded572#64, 0x571523b70a15847b#64, 0xf6875a4d90d6ab81#64, 0x402bd1c3c54f9f4e#64,
  0x9cfa455ce03a98ea#64, 0x9a99b26699d2c503#64, 0x8a53bbf2b4960266#64, 0x31a2db881a1456b5#64,
  0xdb0e199a5c5aa303#64, 0x1044c1870ab23f40#64, 0x1d959e848019051c#64, 0xdccde75eadeb336f#64,
  0x416bbf029213ba10#64, 0xd027bbf7156578dc#64, 0x5078aa3739812c0a#64, 0xd3910041d2bf1a3f#64,
  0x907eccf60d5a2d42#64, 0xce97c0929c9f62dd#64, 0xac442bc70ba75c18#64, 0x23fcc663d665dfd1#64,
  0x1ab8e09e036c6e97#64, 0xa8ec6c447e450521#64, 0xfa618e5dbb03f1ee#64, 0x97818394b29796fd#64,
  0x2f3003db37858e4a#64, 0x956a9ffb2d8d672a#64, 0x6c69b8f88173fe8a#64, 0x14427fc04672c78a#64,
  0xc45ec7bd8f15f4c5#64, 0x80bb118fa76f4475#64, 0xbc88e4aeb775de52#64, 0xf4a3a6981e00b882#64,
  0x1563a3a9338ff48e#64, 0x89f9b7d524565faa#64, 0xfde05a7c20edf1b6#64, 0x362c42065ae9ca36#64,
  0x3d98fe4e433529ce#64, 0xa74b9a7374f93a53#64, 0x86814e6f591ff5d0#64, 0x9f5ad8af81ad9d0e#64,
  0x6a6234ee670605a7#64, 0x2717b96ebe280b8b#64, 0x3f1080c626077447#64, 0x7b487ec66f7ea0e0#64,
  0xc0a4f84aa50a550d#64, 0x9ef18e979fe7e391#64, 0xd48d605081727686#64, 0x62b0e5f3415a9e7e#64,
  0x7a205440ec1f9ffc#64, 0x84c9f4ce001ae4e3#64, 0xd895fa9df594d74f#64, 0xa554c324117e2e55#64,
  0x286efebd2872df5b#64, 0xb2c4a50fe27ff578#64, 0x2ed349eeef7c8905#64, 0x7f5928eb85937e44#64,
  0x4a3124b337695f70#64, 0x65e4d61df128865e#64, 0xe720b95104771bc7#64, 0x8a87d423e843fe74#64,
  0xf2947692a3e8297d#64, 0xc1d9309b097acbdd#64, 0xe01bdc5bfb301b1d#64, 0xbf829cf24f4924da#64,
  0xffbf70b431bae7a4#64, 0x48bcf8de0544320d#64, 0x39d3bb5332fcae3b#64, 0xa08b29e0c1c39f45#64,
  0x0f09aef7fd05c9e5#64, 0x34f1904212347094#64, 0x95ed44e301b771a2#64, 0x4a982f4f368e3be9#64,
  0x15f66ca0631d4088#64, 0xffaf52874b44c147#64, 0x30c60ae2f14abb7e#64, 0xe68c6eccc5b67046#64,
  0x00ca4fbd56a4d5a4#64, 0xae183ec84b849dda#64, 0xadd1643045ce5773#64, 0x67255c1468cea6e8#64,
  0x16e10ecbf28cdaa3#64, 0x9a99949a5806e933#64, 0x7b846fc220b2601f#64, 0x1885d1a07facced1#64,
  0xd319dd8da15b5932#64, 0x46b4a5aac01c9a50#64, 0xba6b04e467633d9f#64, 0x7eee560bab19caf6#64,
  0x742128a9ea79b11f#64, 0xee51363b35f7bde9#64, 0x76d350755aac571d#64, 0x01707da3fec2463a#64,
  0x42d8a498afc135f7#64, 0x79676b9e20eced78#64, 0xa8db3aea15638341#64, 0x832c83324d3bc3fa#64,
  0xf347271c1f3b40a7#64, 0x9a762db734f04059#64, 0xfd4f21d26c4e3ee7#64, 0xef5957dc398dfdb8#64,
  0xdaeb492b490c9b8d#64, 0x0d70f36849d7a25b#64, 0x84558d7ad0ae3b7d#64, 0x658ef8e4f0e9a5f5#64,
  0x533b1036f4a2b8a0#64, 0x5aec3e759e07a80c#64, 0x4f88e85692946891#64, 0x4cbcbaf8555cb05b#64,
  0x7b9487f3993bbbe3#64, 0x5d1c6b72d6f4da75#64, 0x6db334dc28acae64#64, 0x71db28b850a5346c#64,
  0x2a518d10f2e261f8#64, 0xfc75dd593364dbe3#64, 0xa23fce43f1bcac1c#64, 0xb043e8023cd1bb67#64,
  0x75a12988ca5b0a33#64, 0x5c5316b44d19347f#64, 0x1e4d790ec3943b92#64, 0x3fafeeb6d7757479#64,
  0x21391abef7d4a8ea#64, 0x5127234c097ef45c#64, 0xd23c32ba5324a326#64, 0xadd5a66d4a17a344#64,
  0x08c9f2afa63e1db5#64, 0x563c6b91983d5983#64, 0x4d608672a17cf84c#64, 0xf6c76e08cc3ee246#64,
  0x5e76bcb1b333982f#64, 0x2ae6c4efa566d62b#64, 0x36d4c1bee8b6f406#64, 0x6321efbc1582ee74#64,
  0x69c953f40d4ec1fd#64, 0x26585806c45a7da7#64, 0x16fae0061614c17e#64, 0x3f9d63283daf907e#64,
  0x0cd29b00e3f2c9d2#64, 0x300cd4b730ceaa5f#64, 0x9832e0f216512a74#64, 0x9af8cee3d830eb0d#64,
  0x9279f1b57b9ec54b#64, 0xd36886046ee651ff#64, 0x316796e6574d239b#64, 0x05750a17f3a6e6cc#64,
  0xce6c3213d98176b1#64, 0x62a205f88452173c#64, 0x47154778b3cb2bf4#64, 0x486a9323825446ff#64,
  0x65655e4e0758df38#64, 0x8e5086fc897cfcf2#64, 0x86ca0bd0442e7031#64, 0x4e477830a20940f0#64,
  0x8338f7d139eea065#64, 0xbd3a2ce437e95ef7#64, 0x6ff8130126b29721#64, 0xe7de9fefd1ed44a3#64,
  0xd992257615dfa08b#64, 0xbe42dc12f6f7853c#64, 0x7eb027ab7ceca7d8#64, 0xdea83eaada7d8d53#64,
  0xd86902bd93ce25aa#64, 0xf908731afd43f65a#64, 0xa5194a17daef5fc0#64, 0x6a21fd4c33664d97#64,
  0x701541db3198b435#64, 0x9b54cdedbb0f1eea#64, 0x72409751a163d09a#64, 0xe26f4791bf9d75f6#64]

/-- sbox.go:7-16 -/
def jh256H0 : List U64 := [0xebd3202c41a398eb#64, 0xc145b29c7bbecd92#64, 0xfac7d4609151931c#64, 0x038a507ed6820026#64,
  0x45b92677269e23a4#64, 0x77941ad4481afbe0#64, 0x7a176b0226abb5cd#64, 0xa82fff0f4224f056#64,
  0x754d2e7f8996a371#64, 0x62e27df70849141d#64, 0x948f2476f7957627#64, 0x6c29804757b6d587#64,
  0x6c0d8eac2d275e5c#64, 0x0f7a0557c6508451#64, 0xea12247067d3e47b#64, 0x69d71cd313abe389#64]

/-- utils.go:46-73: SWAP1 ... SWAP32, `c` the mask of the low parts (SWAP32 needs no masks: the shifts drop the other half). -/
def SWAP (c : U64) (n : Nat) (x : U64) : U64 := ((x &&& c) <<< n) ||| ((x &&& ~~~c) >>> n)
def SWAP32 (x : U64) : U64 := (x <<< 32) ||| (x >>> 32)

/-- utils.go:77-102, returning m0..m7. -/
def SS (m0 m1 m2 m3 m4 m5 m6 m7 cc0 cc1 : U64) : List U64 :=
  let m3 := ~~~m3
  let m7 := ~~~m7
  let m0 := m0 ^^^ (~~~m2 &&& cc0)
  let m4 := m4 ^^^ (~~~m6 &&& cc1)
  let temp0 := cc0 ^^^ (m0 &&& m1)
  let temp1 := cc1 ^^^ (m4 &&& m5)
  let m0 := m0 ^^^ (m2 &&& m3)
  let m4 := m4 ^^^ (m6 &&& m7)
  let m3 := m3 ^^^ (~~~m1 &&& m2)
  let m7 := m7 ^^^ (~~~m5 &&& m6)
  let m1 := m1 ^^^ (m0 &&& m2)
  let m5 := m5 ^^^ (m4 &&& m6)
  let m2 := m2 ^^^ (m0 &&& ~~~m3)
  let m6 := m6 ^^^ (m4 &&& ~~~m7)
  let m0 := m0 ^^^ (m1 ||| m3)
  let m4 := m4 ^^^ (m5 ||| m7)
  let m3 := m3 ^^^ (m1 &&& m2)
  let m7 := m7 ^^^ (m5 &&& m6)
  let m1 := m1 ^^^ (temp0 &&& m0)
  let m5 := m5 ^^^ (temp1 &&& m4)
  let m2 := m2 ^^^ temp0
  let m6 := m6 ^^^ temp1
  [m0, m1, m2, m3, m4, m5, m6, m7]

/-- utils.go:105-114 -/
def L (m0 m1 m2 m3 m4 m5 m6 m7 : U64) : List U64 :=
  let m4 := m4 ^^^ m1
  let m5 := m5 ^^^ m2
  let m6 := m6 ^^^ (m0 ^^^ m3)
  let m7 := m7 ^^^ m0
  let m0 := m0 ^^^ m5
  let m1 := m1 ^^^ m6
  let m2 := m2 ^^^ (m4 ^^^ m7)
  let m3 := m3 ^^^ m4
  [m0, m1, m2, m3, m4, m5, m6, m7]

/-- The body of one of the loops over i of digest.go:155-221 up to the swaps: the columns x[0][i], x[2][i], x[4][i], x[6][i], x[1][i], x[3][i], x[5][i], x[7][i]. -/
def col (x : List U64) (r i : Nat) : List U64 :=
  let s := SS (x.getD i 0) (x.getD (4 + i) 0) (x.getD (8 + i) 0) (x.getD (12 + i) 0) (x.getD (2 + i) 0) (x.getD (6 + i) 0) (x.getD (10 + i) 0) (x.getD (14 + i) 0)
    (rc.getD (4 * r + i) 0) (rc.getD (4 * r + i + 2) 0)
  L (s.getD 0 0) (s.getD 1 0) (s.getD 2 0) (s.getD 3 0) (s.getD 4 0) (s.getD 5 0) (s.getD 6 0) (s.getD 7 0)

/-- One round with its swap `f` of the words x[1], x[3], x[5], x[7]. -/
def round (f : U64 → U64) (x : List U64) (r : Nat) : List U64 :=
  let a := col x r 0
  let b := col x r 1
  [a.getD 0 0, b.getD 0 0, f (a.getD 4 0), f (b.getD 4 0), a.getD 1 0, b.getD 1 0, f (a.getD 5 0), f (b.getD 5 0),
   a.getD 2 0, b.getD 2 0, f (a.getD 6 0), f (b.getD 6 0), a.getD 3 0, b.getD 3 0, f (a.getD 7 0), f (b.getD 7 0)]

/-- digest.go:223-228: the words of x[1], x[3], x[5], x[7] change places. -/
def swapHalves (h : List U64) : List U64 :=
  [h.getD 0 0, h.getD 1 0, h.getD 3 0, h.getD 2 0, h.getD 4 0, h.getD 5 0, h.getD 7 0, h.getD 6 0,
   h.getD 8 0, h.getD 9 0, h.getD 11 0, h.getD 10 0, h.getD 12 0, h.getD 13 0, h.getD 15 0, h.getD 14 0]

/-- The body of the outer loop of digest.go:155-228. -/
def rounds7 (x : List U64) (r : Nat) : List U64 :=
  let x := round (SWAP 0x5555555555555555 1) x (r + 0)
  let x := round (SWAP 0x3333333333333333 2) x (r + 1)
  let x := round (SWAP 0x0f0f0f0f0f0f0f0f 4) x (r + 2)
  let x := round (SWAP 0x00ff00ff00ff00ff 8) x (r + 3)
  let x := round (SWAP 0x0000ffff0000ffff 16) x (r + 4)
  let x := round SWAP32 x (r + 5)
  swapHalves (round id x (r + 6))

/-- digest.go:152-229 -/
def e8 (x : List U64) : List U64 := (List.range 6).foldl (fun x i => rounds7 x (7 * i)) x

/-- digest.go:137-149 -/
def f8 (x : List U64) (s : Bytes) : List U64 :=
  let x := (List.range 16).map fun i => if i < 8 then x.getD i 0 ^^^ getLE64 s (8 * i) else x.getD i 0
  let x := e8 x
  (List.range 16).map fun i => if 8 ≤ i then x.getD i 0 ^^^ getLE64 s (8 * (i - 8)) else x.getD i 0

/-- digest.go:16-21; nx and len count bits. -/
structure Digest where
  s : Bytes
  x : List U64
  nx : Nat
  len : U64
  deriving DecidableEq

/-- digest.go:30-34: the buffer keeps its contents. -/
def Digest.reset (d : Digest) : Digest := { d with len := 0, nx := 0, x := jh256H0 }
/-- digest.go:23-28, jh.go:9-11 -/
def new : Digest := Digest.reset { s := zeros 64, x := [], nx := 0, len := 0 }

/-- The loop of digest.go:70-76 on the data that are left. -/
def blocks : Nat → List U64 × Bytes → Bytes → (List U64 × Bytes) × Bytes
  | 0, st, data => (st, data)
  | fuel + 1, st, data =>
    if data.length ≥ 64 then
      let s := goCopy st.2 0 (data.take 64)
      blocks fuel (f8 st.1 s, s) (data.drop 64)
    else (st, data)

/-- digest.go:45-90.  `spare` is what lies behind the slice up to its capacity: `data[:n]` reaches into it and panics (`none`) past it.  The tests
`plen&7 == 0` are true as plen is a multiple of 8.  Lengths are below 2^61 (`uint64(len(data)) * 8` does not overflow). -/
def Digest.write (d : Digest) (data spare : Bytes) : Option (Digest × Nat) :=
  let plen := data.length * 8
  let len := d.len + BitVec.ofNat 64 plen
  if d.nx > 0 ∧ d.nx + plen < 512 then
    let n := 64 - d.nx / 8
    if n ≤ data.length + spare.length then
      some ({ d with len, s := goCopy d.s (d.nx / 8) ((data ++ spare).take n), nx := d.nx + plen }, data.length)
    else none
  else
    let index := if d.nx > 0 then 64 - d.nx / 8 else 0
    let (x, s) := if d.nx > 0 then let s := goCopy d.s (d.nx / 8) (data.take (64 - d.nx / 8)); (f8 d.x s, s) else (d.x, d.s)
    let r := blocks (data.length + 1) (x, s) (data.drop index)
    if r.2.length > 0 then some ({ d with len, x := r.1.1, s := goCopy r.1.2 0 (r.2.take r.2.length), nx := r.2.length * 8 }, data.length)
    else some ({ d with len, x := r.1.1, s := r.1.2, nx := 0 }, data.length)

/-- digest.go:100-134: the result points at x[6], x[7] (little-endian machine). -/
def Digest.checkSum (d : Digest) : Bytes :=
  let x := if d.len &&& 0x1ff = 0 then
      let s := (zeros 64).set 0 0x80
      let s := goCopy s 56 (be64 d.len)
      f8 d.x s
    else
      let k := ((d.len &&& 0x1ff) >>> 3).toNat
      let s := goCopy d.s k (zeros (64 - k))
      let s := s.set k (at8 s k ||| (1 <<< (7 - (d.len &&& 7).toNat)))
      let x := f8 d.x s
      let s := goCopy (zeros 64) 56 (be64 d.len)
      f8 x s
  le64 (x.getD 12 0) ++ le64 (x.getD 13 0) ++ le64 (x.getD 14 0) ++ le64 (x.getD 15 0)

/-- digest.go:93-98 for Sum (a copy of the digest), 36-42 for the sizes.  `spare p` is the memory behind a slice handed to Write. -/
def impl (spare : Bytes → Bytes) : HashImpl Digest where
  write d p := d.write p (spare p)
  sum d b := some (d, b ++ d.checkSum)
  reset := Digest.reset
  size _ := 32
  blockSize _ := 64

end Verif.JH1
