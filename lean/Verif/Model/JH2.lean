import Verif.HashAPI
import Verif.LoopBuf
/-
Package jh2, function by function.
-/
namespace Verif.JH2

/-- sbox.go:49-134 -/
def C : List U64 := [0x72d5dea2df15f867#64, 0x7b84150ab7231557#64, 0x81abd6904d5a87f6#64, 0x4e9f4fc5c3d12b40#64, 0xea983ae05c45fa9c#64, 0x03c5d29966b2999a#64,
  0x660296b4f2bb538a#64, 0xb556141a88dba231#64, 0x03a35a5c9a190edb#64, 0x403fb20a87c14410#64, 0x1c051980849e951d#64, 0x6f33ebad5ee7cddc#64,
  0x10ba139202bf6b41#64, 0xdc786515f7bb27d0#64, 0x0a2c813937aa7850#64, 0x3f1abfd2410091d3#64, 0x422d5a0df6cc7e90#64, 0xdd629f9c92c097ce#64,
  0x185ca70bc72b44ac#64, 0xd1df65d663c6fc23#64, 0x976e6c039ee0b81a#64, 0x2105457e446ceca8#64, 0xeef103bb5d8e61fa#64, 0xfd9697b294838197#64,
  0x4a8e8537db03302f#64, 0x2a678d2dfb9f6a95#64, 0x8afe7381f8b8696c#64, 0x8ac77246c07f4214#64, 0xc5f4158fbdc75ec4#64, 0x75446fa78f11bb80#64,
  0x52de75b7aee488bc#64, 0x82b8001e98a6a3f4#64, 0x8ef48f33a9a36315#64, 0xaa5f5624d5b7f989#64, 0xb6f1ed207c5ae0fd#64, 0x36cae95a06422c36#64,
  0xce2935434efe983d#64, 0x533af974739a4ba7#64, 0xd0f51f596f4e8186#64, 0x0e9dad81afd85a9f#64, 0xa7050667ee34626a#64, 0x8b0b28be6eb91727#64,
  0x47740726c680103f#64, 0xe0a07e6fc67e487b#64, 0x0d550aa54af8a4c0#64, 0x91e3e79f978ef19e#64, 0x8676728150608dd4#64, 0x7e9e5a41f3e5b062#64,
  0xfc9f1fec4054207a#64, 0xe3e41a00cef4c984#64, 0x4fd794f59dfa95d8#64, 0x552e7e1124c354a5#64, 0x5bdf7228bdfe6e28#64, 0x78f57fe20fa5c4b2#64,
  0x05897cefee49d32e#64, 0x447e9385eb28597f#64, 0x705f6937b324314a#64, 0x5e8628f11dd6e465#64, 0xc71b770451b920e7#64, 0x74fe43e823d4878a#64,
  0x7d29e8a3927694f2#64, 0xddcb7a099b30d9c1#64, 0x1d1b30fb5bdc1be0#64, 0xda24494ff29c82bf#64, 0xa4e7ba31b470bfff#64, 0x0d324405def8bc48#64,
  0x3baefc3253bbd339#64, 0x459fc3c1e0298ba0#64, 0xe5c905fdf7ae090f#64, 0x947034124290f134#64, 0xa271b701e344ed95#64, 0xe93b8e364f2f984a#64,
  0x88401d63a06cf615#64, 0x47c1444b8752afff#64, 0x7ebb4af1e20ac630#64, 0x4670b6c5cc6e8ce6#64, 0xa4d5a456bd4fca00#64, 0xda9d844bc83e18ae#64,
  0x7357ce453064d1ad#64, 0xe8a6ce68145c2567#64, 0xa3da8cf2cb0ee116#64, 0x33e906589a94999a#64, 0x1f60b220c26f847b#64, 0xd1ceac7fa0d18518#64,
  0x32595ba18ddd19d3#64, 0x509a1cc0aaa5b446#64, 0x9f3d6367e4046bba#64, 0xf6ca19ab0b56ee7e#64, 0x1fb179eaa9282174#64, 0xe9bdf7353b3651ee#64,
  0x1d57ac5a7550d376#64, 0x3a46c2fea37d7001#64, 0xf735c1af98a4d842#64, 0x78edec209e6b6779#64, 0x41836315ea3adba8#64, 0xfac33b4d32832c83#64,
  0xa7403b1f1c2747f3#64, 0x5940f034b72d769a#64, 0xe73e4e6cd2214ffd#64, 0xb8fd8d39dc5759ef#64, 0x8d9b0c492b49ebda#64, 0x5ba2d74968f3700d#64,
  0x7d3baed07a8d5584#64, 0xf5a5e9f0e4f88e65#64, 0xa0b8a2f436103b53#64, 0x0ca8079e753eec5a#64, 0x9168949256e8884f#64, 0x5bb05c55f8babc4c#64,
  0xe3bb3b99f387947b#64, 0x75daf4d6726b1c5d#64, 0x64aeac28dc34b36d#64, 0x6c34a550b828db71#64, 0xf861e2f2108d512a#64, 0xe3db643359dd75fc#64,
  0x1cacbcf143ce3fa2#64, 0x67bbd13c02e843b0#64, 0x330a5bca8829a175#64, 0x7f34194db416535c#64, 0x923b94c30e794d1e#64, 0x797475d7b6eeaf3f#64,
  0xeaa8d4f7be1a3921#64, 0x5cf47e094c232751#64, 0x26a32453ba323cd2#64, 0x44a3174a6da6d5ad#64, 0xb51d3ea6aff2c908#64, 0x83593d98916b3c56#64,
  0x4cf87ca17286604d#64, 0x46e23ecc086ec7f6#64, 0x2f9833b3b1bc765e#64, 0x2bd666a5efc4e62a#64, 0x06f4b6e8bec1d436#64, 0x74ee8215bcef2163#64,
  0xfdc14e0df453c969#64, 0xa77d5ac406585826#64, 0x7ec1141606e0fa16#64, 0x7e90af3d28639d3f#64, 0xd2c9f2e3009bd20c#64, 0x5faace30b7d40c30#64,
  0x742a5116f2e03298#64, 0x0deb30d8e3cef89a#64, 0x4bc59e7bb5f17992#64, 0xff51e66e048668d3#64, 0x9b234d57e6966731#64, 0xcce6a6f3170a7505#64,
  0xb17681d913326cce#64, 0x3c175284f805a262#64, 0xf42bcbb378471547#64, 0xff46548223936a48#64, 0x38df58074e5e6565#64, 0xf2fc7c89fc86508e#64,
  0x31702e44d00bca86#64, 0xf04009a23078474e#64, 0x65a0ee39d1f73883#64, 0xf75ee937e42c3abd#64, 0x2197b2260113f86f#64, 0xa344edd1ef9fdee7#64,
  0x8ba0df15762592d9#64, 0x3c85f7f612dc42be#64, 0xd8a7ec7cab27b07e#64, 0x538d7ddaaa3ea8de#64, 0xaa25ce93bd0269d8#64, 0x5af643fd1a7308f9#64,
  0xc05fefda174a19a5#64, 0x974d66334cfd216a#64, 0x35b49831db411570#64, 0xea1e0fbbedcd549b#64, 0x9ad063a151974072#64, 0xf6759dbf91476fe2#64]

/-- sbox.go:3-12 -/
def initVal224 : List U64 := [0x2dfedd62f99a98ac#64, 0xae7cacd619d634e7#64, 0xa4831005bc301216#64, 0xb86038c6c9661494#64, 0x66d9899f2580706f#64, 0xce9ea31b1d9b1adc#64,
  0x11e8325f7b366e10#64, 0xf994857f02fa06c1#64, 0x1b4f1b5cd8c840b3#64, 0x97f6a17f6e738099#64, 0xdcdf93a5adeaa3d3#64, 0xa431e8dec9539a68#64,
  0x22b4a98aec86a1e4#64, 0xd574ac959ce56cf0#64, 0x15960deab5ab2bbf#64, 0x9611dcf0dd64ea6e#64]
/-- sbox.go:14-23 -/
def initVal256 : List U64 := [0xeb98a3412c20d3eb#64, 0x92cdbe7b9cb245c1#64, 0x1c93519160d4c7fa#64, 0x260082d67e508a03#64, 0xa4239e267726b945#64, 0xe0fb1a48d41a9477#64,
  0xcdb5ab26026b177a#64, 0x56f024420fff2fa8#64, 0x71a396897f2e4d75#64, 0x1d144908f77de262#64, 0x277695f776248f94#64, 0x87d5b6574780296c#64,
  0x5c5e272dac8e0d6c#64, 0x518450c657057a0f#64, 0x7be4d367702412ea#64, 0x89e3ab13d31cd769#64]
/-- sbox.go:25-34 -/
def initVal384 : List U64 := [0x481e3bc6d813398a#64, 0x6d3b5e894ade879b#64, 0x63faea68d480ad2e#64, 0x332ccb21480f8267#64, 0x98aec84d9082b928#64, 0xd455ea3041114249#64,
  0x36f555b2924847ec#64, 0xc7250a93baf43ce1#64, 0x569b7f8a27db454c#64, 0x9efcbd496397af0e#64, 0x589fc27d26aa80cd#64, 0x80c08b8c9deb2eda#64,
  0x8a7981e8f8d5373a#64, 0xf43967adddd17a71#64, 0xa9b4d3bda475d394#64, 0x976c3fba9842737f#64]
/-- sbox.go:36-45 -/
def initVal512 : List U64 := [0x6fd14b963e00aa17#64, 0x636a2e057a15d543#64, 0x8a225e8d0c97ef0b#64, 0xe9341259f2b3c361#64, 0x891da0c1536f801e#64, 0x2aa9056bea2b6d80#64,
  0x588eccdb2075baa6#64, 0xa90f3a76baf83bf7#64, 0x0169e60541e34a69#64, 0x46b58a8e2e6fe65a#64, 0x1047a7d0c1843c24#64, 0x3b6e71b12d5ac199#64,
  0xcf57f6ec9db1f856#64, 0xa706887c5716b156#64, 0xe3c2fcdfe68517fb#64, 0x545a4678cc8cdd4b#64]

/-- The statements that digest.go:170-258 repeats four times with h[j], h[4+j], h[8+j], h[12+j] and C[4r+j]. -/
def sb (cc x0 x1 x2 x3 : U64) : U64 × U64 × U64 × U64 :=
  let x3 := ~~~x3
  let x0 := x0 ^^^ (cc &&& ~~~x2)
  let tmp := cc ^^^ (x0 &&& x1)
  let x0 := x0 ^^^ (x2 &&& x3)
  let x3 := x3 ^^^ (~~~x1 &&& x2)
  let x1 := x1 ^^^ (x0 &&& x2)
  let x2 := x2 ^^^ (x0 &&& ~~~x3)
  let x0 := x0 ^^^ (x1 ||| x3)
  let x3 := x3 ^^^ (x1 &&& x2)
  let x1 := x1 ^^^ (tmp &&& x0)
  let x2 := x2 ^^^ tmp
  (x0, x1, x2, x3)

/-- digest.go:170-258 -/
def doS (h : List U64) (r : Nat) : List U64 :=
  let y := fun j => sb (C.getD (4 * r + j) 0) (h.getD j 0) (h.getD (4 + j) 0) (h.getD (8 + j) 0) (h.getD (12 + j) 0)
  [(y 0).1, (y 1).1, (y 2).1, (y 3).1, (y 0).2.1, (y 1).2.1, (y 2).2.1, (y 3).2.1,
   (y 0).2.2.1, (y 1).2.2.1, (y 2).2.2.1, (y 3).2.2.1, (y 0).2.2.2, (y 1).2.2.2, (y 2).2.2.2, (y 3).2.2.2]

/-- The statements that digest.go:260-314 repeats twice. -/
def lb (x0 x1 x2 x3 x4 x5 x6 x7 : U64) : List U64 :=
  let x4 := x4 ^^^ x1
  let x5 := x5 ^^^ x2
  let x6 := x6 ^^^ (x3 ^^^ x0)
  let x7 := x7 ^^^ x0
  let x0 := x0 ^^^ x5
  let x1 := x1 ^^^ x6
  let x2 := x2 ^^^ (x7 ^^^ x4)
  let x3 := x3 ^^^ x4
  [x0, x1, x2, x3, x4, x5, x6, x7]

/-- digest.go:260-314 -/
def doL (h : List U64) : List U64 :=
  let a := lb (h.getD 0 0) (h.getD 4 0) (h.getD 8 0) (h.getD 12 0) (h.getD 2 0) (h.getD 6 0) (h.getD 10 0) (h.getD 14 0)
  let b := lb (h.getD 1 0) (h.getD 5 0) (h.getD 9 0) (h.getD 13 0) (h.getD 3 0) (h.getD 7 0) (h.getD 11 0) (h.getD 15 0)
  [a.getD 0 0, b.getD 0 0, a.getD 4 0, b.getD 4 0, a.getD 1 0, b.getD 1 0, a.getD 5 0, b.getD 5 0,
   a.getD 2 0, b.getD 2 0, a.getD 6 0, b.getD 6 0, a.getD 3 0, b.getD 3 0, a.getD 7 0, b.getD 7 0]

/-- One statement of digest.go:316-327. -/
def sw (c : U64) (n : Nat) (w : U64) : U64 := ((w &&& c) <<< n) ||| ((w >>> n) &&& c)

/-- digest.go:316-327 -/
def doWgen (c : U64) (n : Nat) (h : List U64) : List U64 :=
  [h.getD 0 0, h.getD 1 0, sw c n (h.getD 2 0), sw c n (h.getD 3 0), h.getD 4 0, h.getD 5 0, sw c n (h.getD 6 0), sw c n (h.getD 7 0),
   h.getD 8 0, h.getD 9 0, sw c n (h.getD 10 0), sw c n (h.getD 11 0), h.getD 12 0, h.getD 13 0, sw c n (h.getD 14 0), sw c n (h.getD 15 0)]

/-- digest.go:329-337 -/
def doW6 (h : List U64) : List U64 :=
  [h.getD 0 0, h.getD 1 0, h.getD 3 0, h.getD 2 0, h.getD 4 0, h.getD 5 0, h.getD 7 0, h.getD 6 0,
   h.getD 8 0, h.getD 9 0, h.getD 11 0, h.getD 10 0, h.getD 12 0, h.getD 13 0, h.getD 15 0, h.getD 14 0]

/-- The body of the loop of digest.go:137-158. -/
def rounds7 (h : List U64) (r : Nat) : List U64 :=
  let h := doWgen 0x5555555555555555 1 (doL (doS h (r + 0)))
  let h := doWgen 0x3333333333333333 2 (doL (doS h (r + 1)))
  let h := doWgen 0x0F0F0F0F0F0F0F0F 4 (doL (doS h (r + 2)))
  let h := doWgen 0x00FF00FF00FF00FF 8 (doL (doS h (r + 3)))
  let h := doWgen 0x0000FFFF0000FFFF 16 (doL (doS h (r + 4)))
  let h := doWgen 0x00000000FFFFFFFF 32 (doL (doS h (r + 5)))
  doW6 (doL (doS h (r + 6)))

/-- `h[k+i] ^= m_i` for eight words from `k` on (digest.go:128-135 with k = 0 and 160-167 with k = 8). -/
def mixIn (k : Nat) (data : Bytes) (h : List U64) : List U64 :=
  (List.range 16).map fun i => if k ≤ i ∧ i < k + 8 then h.getD i 0 ^^^ getBE64 data (8 * (i - k)) else h.getD i 0

/-- digest.go:115-168 -/
def processBlock (h : List U64) (data : Bytes) : List U64 :=
  let h := mixIn 0 data h
  let h := (List.range 6).foldl (fun h i => rounds7 h (7 * i)) h
  mixIn 8 data h

/-- digest.go:14-22 -/
structure Digest where
  s : List U64
  x : Bytes
  nx : Nat
  len : U64
  hs : Nat
  initVal : List U64
  deriving DecidableEq

/-- digest.go:34-39 -/
def Digest.reset (d : Digest) : Digest := { d with s := d.initVal, x := zeros 64, nx := 0, len := 0 }
/-- digest.go:25-32 -/
def newDigest (hs : Nat) (initVal : List U64) : Digest := Digest.reset { s := [], x := [], nx := 0, len := 0, hs, initVal }
/-- jh2.go:8-10, 25-27, 42-44, 59-61: the four constructors by digest size in bytes. -/
def new (hs : Nat) : Digest := newDigest hs (if hs = 28 then initVal224 else if hs = 32 then initVal256 else if hs = 48 then initVal384 else initVal512)

/-- digest.go:49-71 -/
def Digest.write (d : Digest) (p : Bytes) : Digest × Nat :=
  let r := loopWrite 64 (fun s x _ => processBlock s x) (fun s _ => s) (p.length + 1) d.s d.x d.nx p
  ({ d with s := r.1, x := r.2.1, nx := r.2.2, len := d.len + BitVec.ofNat 64 p.length }, p.length)

/-- digest.go:80-113 -/
def Digest.checkSum (d : Digest) : Bytes :=
  let rem := d.nx
  let bc := d.len / 64
  let numz := if rem = 0 then 47 else 111 - rem
  let tmpBuf := (zeros 128).set 0 0x80
  let tmpBuf := goCopy tmpBuf (numz + 1) (be64 (bc >>> 55))
  let tmpBuf := goCopy tmpBuf (numz + 9) (be64 ((bc <<< 9) + (BitVec.ofNat 64 rem <<< 3)))
  let d := (d.write (tmpBuf.take (numz + 17))).1
  let tmpBuf := (List.range 8).foldl (fun b i => goCopy b (8 * i) (be64 (d.s.getD (i + 8) 0))) tmpBuf
  (tmpBuf.drop (64 - d.hs)).take d.hs

/-- digest.go:73-78 for Sum (a copy of the digest), 41-47 for the sizes. -/
def impl : HashImpl Digest where
  write d p := some (d.write p)
  sum d b := some (d, b ++ d.checkSum)
  reset := Digest.reset
  size d := d.hs
  blockSize _ := 64

end Verif.JH2
