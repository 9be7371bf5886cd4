import Verif.Basic
/-
GENERATED by tools/gen_luffa.py from luffa/digest256.go, digest384.go, digest512.go, sbox.go; do not edit.
-/
namespace Verif.Luffa
/-- Eight words: the variables Vj0, …, Vj7, or M0, …, M7. -/
structure R8 where
  v0 : U32
  v1 : U32
  v2 : U32
  v3 : U32
  v4 : U32
  v5 : U32
  v6 : U32
  v7 : U32
deriving DecidableEq, Inhabited
/-- The variables of one array Vj. -/
def reg (d : List R8) (j : Nat) : R8 := d.getD j ⟨0, 0, 0, 0, 0, 0, 0, 0⟩

/-- luffa/sbox.go:3-10 -/
def IV_256 : List U32 := [0x6d251e69, 0x44b051e0, 0x4eaa6fb4, 0xdbf78465, 0x6e292011, 0x90152df4, 0xee058139, 0xdef610bb, 0xc3b44b95, 0xd9d2f256, 0x70eee9a0, 0xde099fa3, 0x5d9b0557, 0x8fc944b3, 0xcf1ccf0e, 0x746cd581, 0xf7efc89d, 0x5dba5781, 0x04016ce5, 0xad659c05, 0x0306194f, 0x666d1836, 0x24aa230a, 0x8b264ae7]
/-- luffa/sbox.go:12-15 -/
def RC00_256 : List U32 := [0x303994a6, 0xc0e65299, 0x6cc33a12, 0xdc56983e, 0x1e00108f, 0x7800423d, 0x8f5b7882, 0x96e1db12]
/-- luffa/sbox.go:17-20 -/
def RC04_256 : List U32 := [0xe0337818, 0x441ba90d, 0x7f34d442, 0x9389217f, 0xe5a8bce6, 0x5274baf4, 0x26889ba7, 0x9a226e9d]
/-- luffa/sbox.go:22-25 -/
def RC10_256 : List U32 := [0xb6de10ed, 0x70f47aae, 0x0707a3d4, 0x1c1e8f51, 0x707a3d45, 0xaeb28562, 0xbaca1589, 0x40a46f3e]
/-- luffa/sbox.go:27-30 -/
def RC14_256 : List U32 := [0x01685f3d, 0x05a17cf4, 0xbd09caca, 0xf4272b28, 0x144ae5cc, 0xfaa7ae2b, 0x2e48f1c1, 0xb923c704]
/-- luffa/sbox.go:32-35 -/
def RC20_256 : List U32 := [0xfc20d9d2, 0x34552e25, 0x7ad8818f, 0x8438764a, 0xbb6de032, 0xedb780c8, 0xd9847356, 0xa2c78434]
/-- luffa/sbox.go:37-40 -/
def RC24_256 : List U32 := [0xe25e72c1, 0xe623bb72, 0x5c58a4a4, 0x1e38e2e7, 0x78e38b9d, 0x27586719, 0x36eda57f, 0x703aace7]
/-- luffa/sbox.go:44-53 -/
def IV_384 : List U32 := [0x6d251e69, 0x44b051e0, 0x4eaa6fb4, 0xdbf78465, 0x6e292011, 0x90152df4, 0xee058139, 0xdef610bb, 0xc3b44b95, 0xd9d2f256, 0x70eee9a0, 0xde099fa3, 0x5d9b0557, 0x8fc944b3, 0xcf1ccf0e, 0x746cd581, 0xf7efc89d, 0x5dba5781, 0x04016ce5, 0xad659c05, 0x0306194f, 0x666d1836, 0x24aa230a, 0x8b264ae7, 0x858075d5, 0x36d79cce, 0xe571f7d7, 0x204b1f67, 0x35870c6a, 0x57e9e923, 0x14bcb808, 0x7cde72ce]
/-- luffa/sbox.go:55-58 -/
def RC00_384 : List U32 := [0x303994a6, 0xc0e65299, 0x6cc33a12, 0xdc56983e, 0x1e00108f, 0x7800423d, 0x8f5b7882, 0x96e1db12]
/-- luffa/sbox.go:60-63 -/
def RC04_384 : List U32 := [0xe0337818, 0x441ba90d, 0x7f34d442, 0x9389217f, 0xe5a8bce6, 0x5274baf4, 0x26889ba7, 0x9a226e9d]
/-- luffa/sbox.go:65-68 -/
def RC10_384 : List U32 := [0xb6de10ed, 0x70f47aae, 0x0707a3d4, 0x1c1e8f51, 0x707a3d45, 0xaeb28562, 0xbaca1589, 0x40a46f3e]
/-- luffa/sbox.go:70-73 -/
def RC14_384 : List U32 := [0x01685f3d, 0x05a17cf4, 0xbd09caca, 0xf4272b28, 0x144ae5cc, 0xfaa7ae2b, 0x2e48f1c1, 0xb923c704]
/-- luffa/sbox.go:75-78 -/
def RC20_384 : List U32 := [0xfc20d9d2, 0x34552e25, 0x7ad8818f, 0x8438764a, 0xbb6de032, 0xedb780c8, 0xd9847356, 0xa2c78434]
/-- luffa/sbox.go:80-83 -/
def RC24_384 : List U32 := [0xe25e72c1, 0xe623bb72, 0x5c58a4a4, 0x1e38e2e7, 0x78e38b9d, 0x27586719, 0x36eda57f, 0x703aace7]
/-- luffa/sbox.go:85-88 -/
def RC30_384 : List U32 := [0xb213afa5, 0xc84ebe95, 0x4e608a22, 0x56d858fe, 0x343b138f, 0xd0ec4e3d, 0x2ceb4882, 0xb3ad2208]
/-- luffa/sbox.go:90-93 -/
def RC34_384 : List U32 := [0xe028c9bf, 0x44756f91, 0x7e8fce32, 0x956548be, 0xfe191be2, 0x3cb226e5, 0x5944a28e, 0xa1c4c355]
/-- luffa/sbox.go:97-108 -/
def IV_512 : List U32 := [0x6d251e69, 0x44b051e0, 0x4eaa6fb4, 0xdbf78465, 0x6e292011, 0x90152df4, 0xee058139, 0xdef610bb, 0xc3b44b95, 0xd9d2f256, 0x70eee9a0, 0xde099fa3, 0x5d9b0557, 0x8fc944b3, 0xcf1ccf0e, 0x746cd581, 0xf7efc89d, 0x5dba5781, 0x04016ce5, 0xad659c05, 0x0306194f, 0x666d1836, 0x24aa230a, 0x8b264ae7, 0x858075d5, 0x36d79cce, 0xe571f7d7, 0x204b1f67, 0x35870c6a, 0x57e9e923, 0x14bcb808, 0x7cde72ce, 0x6c68e9be, 0x5ec41e22, 0xc825b7c7, 0xaffb4363, 0xf5df3999, 0x0fc688f1, 0xb07224cc, 0x03e86cea]
/-- luffa/sbox.go:110-113 -/
def RC00_512 : List U32 := [0x303994a6, 0xc0e65299, 0x6cc33a12, 0xdc56983e, 0x1e00108f, 0x7800423d, 0x8f5b7882, 0x96e1db12]
/-- luffa/sbox.go:115-118 -/
def RC04_512 : List U32 := [0xe0337818, 0x441ba90d, 0x7f34d442, 0x9389217f, 0xe5a8bce6, 0x5274baf4, 0x26889ba7, 0x9a226e9d]
/-- luffa/sbox.go:120-123 -/
def RC10_512 : List U32 := [0xb6de10ed, 0x70f47aae, 0x0707a3d4, 0x1c1e8f51, 0x707a3d45, 0xaeb28562, 0xbaca1589, 0x40a46f3e]
/-- luffa/sbox.go:125-128 -/
def RC14_512 : List U32 := [0x01685f3d, 0x05a17cf4, 0xbd09caca, 0xf4272b28, 0x144ae5cc, 0xfaa7ae2b, 0x2e48f1c1, 0xb923c704]
/-- luffa/sbox.go:130-133 -/
def RC20_512 : List U32 := [0xfc20d9d2, 0x34552e25, 0x7ad8818f, 0x8438764a, 0xbb6de032, 0xedb780c8, 0xd9847356, 0xa2c78434]
/-- luffa/sbox.go:135-138 -/
def RC24_512 : List U32 := [0xe25e72c1, 0xe623bb72, 0x5c58a4a4, 0x1e38e2e7, 0x78e38b9d, 0x27586719, 0x36eda57f, 0x703aace7]
/-- luffa/sbox.go:140-143 -/
def RC30_512 : List U32 := [0xb213afa5, 0xc84ebe95, 0x4e608a22, 0x56d858fe, 0x343b138f, 0xd0ec4e3d, 0x2ceb4882, 0xb3ad2208]
/-- luffa/sbox.go:145-148 -/
def RC34_512 : List U32 := [0xe028c9bf, 0x44756f91, 0x7e8fce32, 0x956548be, 0xfe191be2, 0x3cb226e5, 0x5944a28e, 0xa1c4c355]
/-- luffa/sbox.go:150-153 -/
def RC40_512 : List U32 := [0xf0d2e9e3, 0xac11d7fa, 0x1bcb66f2, 0x6f2d9bc9, 0x78602649, 0x8edae952, 0x3b6ba548, 0xedae9520]
/-- luffa/sbox.go:155-158 -/
def RC44_512 : List U32 := [0x5090d577, 0x2d1925ab, 0xb46496ac, 0xd1925ab0, 0x29131ab6, 0x0fc053c3, 0x3f014f0c, 0xfc053c31]

/-- luffa/digest256.go:184-282: message injection and tweak.  The loads 147-183 (M big endian words of the block) are `M` and `d`. -/
def mi256 (d : List R8) (M : R8) : List R8 :=
  let V00 := (reg d 0).v0; let V01 := (reg d 0).v1; let V02 := (reg d 0).v2; let V03 := (reg d 0).v3; let V04 := (reg d 0).v4; let V05 := (reg d 0).v5; let V06 := (reg d 0).v6; let V07 := (reg d 0).v7
  let V10 := (reg d 1).v0; let V11 := (reg d 1).v1; let V12 := (reg d 1).v2; let V13 := (reg d 1).v3; let V14 := (reg d 1).v4; let V15 := (reg d 1).v5; let V16 := (reg d 1).v6; let V17 := (reg d 1).v7
  let V20 := (reg d 2).v0; let V21 := (reg d 2).v1; let V22 := (reg d 2).v2; let V23 := (reg d 2).v3; let V24 := (reg d 2).v4; let V25 := (reg d 2).v5; let V26 := (reg d 2).v6; let V27 := (reg d 2).v7
  let M0 := M.v0; let M1 := M.v1; let M2 := M.v2; let M3 := M.v3; let M4 := M.v4; let M5 := M.v5; let M6 := M.v6; let M7 := M.v7
  let a0 := V00 ^^^ V10; let a1 := V01 ^^^ V11; let a2 := V02 ^^^ V12; let a3 := V03 ^^^ V13; let a4 := V04 ^^^ V14; let a5 := V05 ^^^ V15; let a6 := V06 ^^^ V16; let a7 := V07 ^^^ V17
  let a0 := a0 ^^^ V20; let a1 := a1 ^^^ V21; let a2 := a2 ^^^ V22; let a3 := a3 ^^^ V23; let a4 := a4 ^^^ V24; let a5 := a5 ^^^ V25; let a6 := a6 ^^^ V26; let a7 := a7 ^^^ V27
  let tmp := a7; let a7 := a6; let a6 := a5; let a5 := a4; let a4 := a3 ^^^ tmp; let a3 := a2 ^^^ tmp; let a2 := a1; let a1 := a0 ^^^ tmp
  let a0 := tmp; let V00 := a0 ^^^ V00; let V01 := a1 ^^^ V01; let V02 := a2 ^^^ V02; let V03 := a3 ^^^ V03; let V04 := a4 ^^^ V04; let V05 := a5 ^^^ V05; let V06 := a6 ^^^ V06
  let V07 := a7 ^^^ V07; let V00 := M0 ^^^ V00; let V01 := M1 ^^^ V01; let V02 := M2 ^^^ V02; let V03 := M3 ^^^ V03; let V04 := M4 ^^^ V04; let V05 := M5 ^^^ V05; let V06 := M6 ^^^ V06
  let V07 := M7 ^^^ V07; let tmp := M7; let M7 := M6; let M6 := M5; let M5 := M4; let M4 := M3 ^^^ tmp; let M3 := M2 ^^^ tmp; let M2 := M1
  let M1 := M0 ^^^ tmp; let M0 := tmp; let V10 := a0 ^^^ V10; let V11 := a1 ^^^ V11; let V12 := a2 ^^^ V12; let V13 := a3 ^^^ V13; let V14 := a4 ^^^ V14; let V15 := a5 ^^^ V15
  let V16 := a6 ^^^ V16; let V17 := a7 ^^^ V17; let V10 := M0 ^^^ V10; let V11 := M1 ^^^ V11; let V12 := M2 ^^^ V12; let V13 := M3 ^^^ V13; let V14 := M4 ^^^ V14; let V15 := M5 ^^^ V15
  let V16 := M6 ^^^ V16; let V17 := M7 ^^^ V17; let tmp := M7; let M7 := M6; let M6 := M5; let M5 := M4; let M4 := M3 ^^^ tmp; let M3 := M2 ^^^ tmp
  let M2 := M1; let M1 := M0 ^^^ tmp; let M0 := tmp; let V20 := a0 ^^^ V20; let V21 := a1 ^^^ V21; let V22 := a2 ^^^ V22; let V23 := a3 ^^^ V23; let V24 := a4 ^^^ V24
  let V25 := a5 ^^^ V25; let V26 := a6 ^^^ V26; let V27 := a7 ^^^ V27; let V20 := M0 ^^^ V20; let V21 := M1 ^^^ V21; let V22 := M2 ^^^ V22; let V23 := M3 ^^^ V23; let V24 := M4 ^^^ V24
  let V25 := M5 ^^^ V25; let V26 := M6 ^^^ V26; let V27 := M7 ^^^ V27; let V14 := (V14 <<< 1) ||| (V14 >>> 31); let V15 := (V15 <<< 1) ||| (V15 >>> 31); let V16 := (V16 <<< 1) ||| (V16 >>> 31); let V17 := (V17 <<< 1) ||| (V17 >>> 31); let V24 := (V24 <<< 2) ||| (V24 >>> 30)
  let V25 := (V25 <<< 2) ||| (V25 >>> 30); let V26 := (V26 <<< 2) ||| (V26 >>> 30); let V27 := (V27 <<< 2) ||| (V27 >>> 30)
  [⟨V00, V01, V02, V03, V04, V05, V06, V07⟩, ⟨V10, V11, V12, V13, V14, V15, V16, V17⟩, ⟨V20, V21, V22, V23, V24, V25, V26, V27⟩]

/-- luffa/digest256.go:284-341, the body of the loop; rc0 and rc4 are RC00_256[r] and RC04_256[r]. -/
def body256_0 (rc0 rc4 : U32) (v : R8) : R8 :=
  let V00 := v.v0; let V01 := v.v1; let V02 := v.v2; let V03 := v.v3; let V04 := v.v4; let V05 := v.v5; let V06 := v.v6; let V07 := v.v7
  let tmp := V00; let V00 := V00 ||| V01; let V02 := V02 ^^^ V03; let V01 := ~~~V01; let V00 := V00 ^^^ V03; let V03 := V03 &&& tmp; let V01 := V01 ^^^ V03; let V03 := V03 ^^^ V02; let V02 := V02 &&& V00
  let V00 := ~~~V00; let V02 := V02 ^^^ V01; let V01 := V01 ||| V03; let tmp := tmp ^^^ V01; let V03 := V03 ^^^ V02; let V02 := V02 &&& V01; let V01 := V01 ^^^ V00; let V00 := tmp; let tmp := V05
  let V05 := V05 ||| V06; let V07 := V07 ^^^ V04; let V06 := ~~~V06; let V05 := V05 ^^^ V04; let V04 := V04 &&& tmp; let V06 := V06 ^^^ V04; let V04 := V04 ^^^ V07; let V07 := V07 &&& V05; let V05 := ~~~V05
  let V07 := V07 ^^^ V06; let V06 := V06 ||| V04; let tmp := tmp ^^^ V06; let V04 := V04 ^^^ V07; let V07 := V07 &&& V06; let V06 := V06 ^^^ V05; let V05 := tmp; let V04 := V04 ^^^ V00; let V00 := ((V00 <<< 2) ||| (V00 >>> 30)) ^^^ V04
  let V04 := ((V04 <<< 14) ||| (V04 >>> 18)) ^^^ V00; let V00 := ((V00 <<< 10) ||| (V00 >>> 22)) ^^^ V04; let V04 := (V04 <<< 1) ||| (V04 >>> 31); let V05 := V05 ^^^ V01; let V01 := ((V01 <<< 2) ||| (V01 >>> 30)) ^^^ V05; let V05 := ((V05 <<< 14) ||| (V05 >>> 18)) ^^^ V01; let V01 := ((V01 <<< 10) ||| (V01 >>> 22)) ^^^ V05; let V05 := (V05 <<< 1) ||| (V05 >>> 31); let V06 := V06 ^^^ V02
  let V02 := ((V02 <<< 2) ||| (V02 >>> 30)) ^^^ V06; let V06 := ((V06 <<< 14) ||| (V06 >>> 18)) ^^^ V02; let V02 := ((V02 <<< 10) ||| (V02 >>> 22)) ^^^ V06; let V06 := (V06 <<< 1) ||| (V06 >>> 31); let V07 := V07 ^^^ V03; let V03 := ((V03 <<< 2) ||| (V03 >>> 30)) ^^^ V07; let V07 := ((V07 <<< 14) ||| (V07 >>> 18)) ^^^ V03; let V03 := ((V03 <<< 10) ||| (V03 >>> 22)) ^^^ V07; let V07 := (V07 <<< 1) ||| (V07 >>> 31)
  let V00 := V00 ^^^ rc0; let V04 := V04 ^^^ rc4
  ⟨V00, V01, V02, V03, V04, V05, V06, V07⟩

/-- luffa/digest256.go:343-400, the body of the loop; rc0 and rc4 are RC10_256[r] and RC14_256[r]. -/
def body256_1 (rc0 rc4 : U32) (v : R8) : R8 :=
  let V10 := v.v0; let V11 := v.v1; let V12 := v.v2; let V13 := v.v3; let V14 := v.v4; let V15 := v.v5; let V16 := v.v6; let V17 := v.v7
  let tmp := V10; let V10 := V10 ||| V11; let V12 := V12 ^^^ V13; let V11 := ~~~V11; let V10 := V10 ^^^ V13; let V13 := V13 &&& tmp; let V11 := V11 ^^^ V13; let V13 := V13 ^^^ V12; let V12 := V12 &&& V10
  let V10 := ~~~V10; let V12 := V12 ^^^ V11; let V11 := V11 ||| V13; let tmp := tmp ^^^ V11; let V13 := V13 ^^^ V12; let V12 := V12 &&& V11; let V11 := V11 ^^^ V10; let V10 := tmp; let tmp := V15
  let V15 := V15 ||| V16; let V17 := V17 ^^^ V14; let V16 := ~~~V16; let V15 := V15 ^^^ V14; let V14 := V14 &&& tmp; let V16 := V16 ^^^ V14; let V14 := V14 ^^^ V17; let V17 := V17 &&& V15; let V15 := ~~~V15
  let V17 := V17 ^^^ V16; let V16 := V16 ||| V14; let tmp := tmp ^^^ V16; let V14 := V14 ^^^ V17; let V17 := V17 &&& V16; let V16 := V16 ^^^ V15; let V15 := tmp; let V14 := V14 ^^^ V10; let V10 := ((V10 <<< 2) ||| (V10 >>> 30)) ^^^ V14
  let V14 := ((V14 <<< 14) ||| (V14 >>> 18)) ^^^ V10; let V10 := ((V10 <<< 10) ||| (V10 >>> 22)) ^^^ V14; let V14 := (V14 <<< 1) ||| (V14 >>> 31); let V15 := V15 ^^^ V11; let V11 := ((V11 <<< 2) ||| (V11 >>> 30)) ^^^ V15; let V15 := ((V15 <<< 14) ||| (V15 >>> 18)) ^^^ V11; let V11 := ((V11 <<< 10) ||| (V11 >>> 22)) ^^^ V15; let V15 := (V15 <<< 1) ||| (V15 >>> 31); let V16 := V16 ^^^ V12
  let V12 := ((V12 <<< 2) ||| (V12 >>> 30)) ^^^ V16; let V16 := ((V16 <<< 14) ||| (V16 >>> 18)) ^^^ V12; let V12 := ((V12 <<< 10) ||| (V12 >>> 22)) ^^^ V16; let V16 := (V16 <<< 1) ||| (V16 >>> 31); let V17 := V17 ^^^ V13; let V13 := ((V13 <<< 2) ||| (V13 >>> 30)) ^^^ V17; let V17 := ((V17 <<< 14) ||| (V17 >>> 18)) ^^^ V13; let V13 := ((V13 <<< 10) ||| (V13 >>> 22)) ^^^ V17; let V17 := (V17 <<< 1) ||| (V17 >>> 31)
  let V10 := V10 ^^^ rc0; let V14 := V14 ^^^ rc4
  ⟨V10, V11, V12, V13, V14, V15, V16, V17⟩

/-- luffa/digest256.go:402-459, the body of the loop; rc0 and rc4 are RC20_256[r] and RC24_256[r]. -/
def body256_2 (rc0 rc4 : U32) (v : R8) : R8 :=
  let V20 := v.v0; let V21 := v.v1; let V22 := v.v2; let V23 := v.v3; let V24 := v.v4; let V25 := v.v5; let V26 := v.v6; let V27 := v.v7
  let tmp := V20; let V20 := V20 ||| V21; let V22 := V22 ^^^ V23; let V21 := ~~~V21; let V20 := V20 ^^^ V23; let V23 := V23 &&& tmp; let V21 := V21 ^^^ V23; let V23 := V23 ^^^ V22; let V22 := V22 &&& V20
  let V20 := ~~~V20; let V22 := V22 ^^^ V21; let V21 := V21 ||| V23; let tmp := tmp ^^^ V21; let V23 := V23 ^^^ V22; let V22 := V22 &&& V21; let V21 := V21 ^^^ V20; let V20 := tmp; let tmp := V25
  let V25 := V25 ||| V26; let V27 := V27 ^^^ V24; let V26 := ~~~V26; let V25 := V25 ^^^ V24; let V24 := V24 &&& tmp; let V26 := V26 ^^^ V24; let V24 := V24 ^^^ V27; let V27 := V27 &&& V25; let V25 := ~~~V25
  let V27 := V27 ^^^ V26; let V26 := V26 ||| V24; let tmp := tmp ^^^ V26; let V24 := V24 ^^^ V27; let V27 := V27 &&& V26; let V26 := V26 ^^^ V25; let V25 := tmp; let V24 := V24 ^^^ V20; let V20 := ((V20 <<< 2) ||| (V20 >>> 30)) ^^^ V24
  let V24 := ((V24 <<< 14) ||| (V24 >>> 18)) ^^^ V20; let V20 := ((V20 <<< 10) ||| (V20 >>> 22)) ^^^ V24; let V24 := (V24 <<< 1) ||| (V24 >>> 31); let V25 := V25 ^^^ V21; let V21 := ((V21 <<< 2) ||| (V21 >>> 30)) ^^^ V25; let V25 := ((V25 <<< 14) ||| (V25 >>> 18)) ^^^ V21; let V21 := ((V21 <<< 10) ||| (V21 >>> 22)) ^^^ V25; let V25 := (V25 <<< 1) ||| (V25 >>> 31); let V26 := V26 ^^^ V22
  let V22 := ((V22 <<< 2) ||| (V22 >>> 30)) ^^^ V26; let V26 := ((V26 <<< 14) ||| (V26 >>> 18)) ^^^ V22; let V22 := ((V22 <<< 10) ||| (V22 >>> 22)) ^^^ V26; let V26 := (V26 <<< 1) ||| (V26 >>> 31); let V27 := V27 ^^^ V23; let V23 := ((V23 <<< 2) ||| (V23 >>> 30)) ^^^ V27; let V27 := ((V27 <<< 14) ||| (V27 >>> 18)) ^^^ V23; let V23 := ((V23 <<< 10) ||| (V23 >>> 22)) ^^^ V27; let V27 := (V27 <<< 1) ||| (V27 >>> 31)
  let V20 := V20 ^^^ rc0; let V24 := V24 ^^^ rc4
  ⟨V20, V21, V22, V23, V24, V25, V26, V27⟩

/-- luffa/digest256.go:146-485 -/
def block256 (d : List R8) (M : R8) : List R8 :=
  let d := mi256 d M
  [forLoop 0 8 (fun v r => body256_0 (RC00_256.getD r 0) (RC04_256.getD r 0) v) (reg d 0),
   forLoop 0 8 (fun v r => body256_1 (RC10_256.getD r 0) (RC14_256.getD r 0) v) (reg d 1),
   forLoop 0 8 (fun v r => body256_2 (RC20_256.getD r 0) (RC24_256.getD r 0) v) (reg d 2)]

/-- luffa/digest384.go:196-399: message injection and tweak.  The loads 150-195 (M big endian words of the block) are `M` and `d`. -/
def mi384 (d : List R8) (M : R8) : List R8 :=
  let V00 := (reg d 0).v0; let V01 := (reg d 0).v1; let V02 := (reg d 0).v2; let V03 := (reg d 0).v3; let V04 := (reg d 0).v4; let V05 := (reg d 0).v5; let V06 := (reg d 0).v6; let V07 := (reg d 0).v7
  let V10 := (reg d 1).v0; let V11 := (reg d 1).v1; let V12 := (reg d 1).v2; let V13 := (reg d 1).v3; let V14 := (reg d 1).v4; let V15 := (reg d 1).v5; let V16 := (reg d 1).v6; let V17 := (reg d 1).v7
  let V20 := (reg d 2).v0; let V21 := (reg d 2).v1; let V22 := (reg d 2).v2; let V23 := (reg d 2).v3; let V24 := (reg d 2).v4; let V25 := (reg d 2).v5; let V26 := (reg d 2).v6; let V27 := (reg d 2).v7
  let V30 := (reg d 3).v0; let V31 := (reg d 3).v1; let V32 := (reg d 3).v2; let V33 := (reg d 3).v3; let V34 := (reg d 3).v4; let V35 := (reg d 3).v5; let V36 := (reg d 3).v6; let V37 := (reg d 3).v7
  let M0 := M.v0; let M1 := M.v1; let M2 := M.v2; let M3 := M.v3; let M4 := M.v4; let M5 := M.v5; let M6 := M.v6; let M7 := M.v7
  let a0 := V00 ^^^ V10; let a1 := V01 ^^^ V11; let a2 := V02 ^^^ V12; let a3 := V03 ^^^ V13; let a4 := V04 ^^^ V14; let a5 := V05 ^^^ V15; let a6 := V06 ^^^ V16; let a7 := V07 ^^^ V17
  let b0 := V20 ^^^ V30; let b1 := V21 ^^^ V31; let b2 := V22 ^^^ V32; let b3 := V23 ^^^ V33; let b4 := V24 ^^^ V34; let b5 := V25 ^^^ V35; let b6 := V26 ^^^ V36; let b7 := V27 ^^^ V37
  let a0 := a0 ^^^ b0; let a1 := a1 ^^^ b1; let a2 := a2 ^^^ b2; let a3 := a3 ^^^ b3; let a4 := a4 ^^^ b4; let a5 := a5 ^^^ b5; let a6 := a6 ^^^ b6; let a7 := a7 ^^^ b7
  let tmp := a7; let a7 := a6; let a6 := a5; let a5 := a4; let a4 := a3 ^^^ tmp; let a3 := a2 ^^^ tmp; let a2 := a1; let a1 := a0 ^^^ tmp
  let a0 := tmp; let V00 := a0 ^^^ V00; let V01 := a1 ^^^ V01; let V02 := a2 ^^^ V02; let V03 := a3 ^^^ V03; let V04 := a4 ^^^ V04; let V05 := a5 ^^^ V05; let V06 := a6 ^^^ V06
  let V07 := a7 ^^^ V07; let V10 := a0 ^^^ V10; let V11 := a1 ^^^ V11; let V12 := a2 ^^^ V12; let V13 := a3 ^^^ V13; let V14 := a4 ^^^ V14; let V15 := a5 ^^^ V15; let V16 := a6 ^^^ V16
  let V17 := a7 ^^^ V17; let V20 := a0 ^^^ V20; let V21 := a1 ^^^ V21; let V22 := a2 ^^^ V22; let V23 := a3 ^^^ V23; let V24 := a4 ^^^ V24; let V25 := a5 ^^^ V25; let V26 := a6 ^^^ V26
  let V27 := a7 ^^^ V27; let V30 := a0 ^^^ V30; let V31 := a1 ^^^ V31; let V32 := a2 ^^^ V32; let V33 := a3 ^^^ V33; let V34 := a4 ^^^ V34; let V35 := a5 ^^^ V35; let V36 := a6 ^^^ V36
  let V37 := a7 ^^^ V37; let tmp := V07; let b7 := V06; let b6 := V05; let b5 := V04; let b4 := V03 ^^^ tmp; let b3 := V02 ^^^ tmp; let b2 := V01
  let b1 := V00 ^^^ tmp; let b0 := tmp; let b0 := b0 ^^^ V30; let b1 := b1 ^^^ V31; let b2 := b2 ^^^ V32; let b3 := b3 ^^^ V33; let b4 := b4 ^^^ V34; let b5 := b5 ^^^ V35
  let b6 := b6 ^^^ V36; let b7 := b7 ^^^ V37; let tmp := V37; let V37 := V36; let V36 := V35; let V35 := V34; let V34 := V33 ^^^ tmp; let V33 := V32 ^^^ tmp
  let V32 := V31; let V31 := V30 ^^^ tmp; let V30 := tmp; let V30 := V30 ^^^ V20; let V31 := V31 ^^^ V21; let V32 := V32 ^^^ V22; let V33 := V33 ^^^ V23; let V34 := V34 ^^^ V24
  let V35 := V35 ^^^ V25; let V36 := V36 ^^^ V26; let V37 := V37 ^^^ V27; let tmp := V27; let V27 := V26; let V26 := V25; let V25 := V24; let V24 := V23 ^^^ tmp
  let V23 := V22 ^^^ tmp; let V22 := V21; let V21 := V20 ^^^ tmp; let V20 := tmp; let V20 := V20 ^^^ V10; let V21 := V21 ^^^ V11; let V22 := V22 ^^^ V12; let V23 := V23 ^^^ V13
  let V24 := V24 ^^^ V14; let V25 := V25 ^^^ V15; let V26 := V26 ^^^ V16; let V27 := V27 ^^^ V17; let tmp := V17; let V17 := V16; let V16 := V15; let V15 := V14
  let V14 := V13 ^^^ tmp; let V13 := V12 ^^^ tmp; let V12 := V11; let V11 := V10 ^^^ tmp; let V10 := tmp; let V10 := V10 ^^^ V00; let V11 := V11 ^^^ V01; let V12 := V12 ^^^ V02
  let V13 := V13 ^^^ V03; let V14 := V14 ^^^ V04; let V15 := V15 ^^^ V05; let V16 := V16 ^^^ V06; let V17 := V17 ^^^ V07; let V00 := b0 ^^^ M0; let V01 := b1 ^^^ M1; let V02 := b2 ^^^ M2
  let V03 := b3 ^^^ M3; let V04 := b4 ^^^ M4; let V05 := b5 ^^^ M5; let V06 := b6 ^^^ M6; let V07 := b7 ^^^ M7; let tmp := M7; let M7 := M6; let M6 := M5
  let M5 := M4; let M4 := M3 ^^^ tmp; let M3 := M2 ^^^ tmp; let M2 := M1; let M1 := M0 ^^^ tmp; let M0 := tmp; let V10 := V10 ^^^ M0; let V11 := V11 ^^^ M1
  let V12 := V12 ^^^ M2; let V13 := V13 ^^^ M3; let V14 := V14 ^^^ M4; let V15 := V15 ^^^ M5; let V16 := V16 ^^^ M6; let V17 := V17 ^^^ M7; let tmp := M7; let M7 := M6
  let M6 := M5; let M5 := M4; let M4 := M3 ^^^ tmp; let M3 := M2 ^^^ tmp; let M2 := M1; let M1 := M0 ^^^ tmp; let M0 := tmp; let V20 := V20 ^^^ M0
  let V21 := V21 ^^^ M1; let V22 := V22 ^^^ M2; let V23 := V23 ^^^ M3; let V24 := V24 ^^^ M4; let V25 := V25 ^^^ M5; let V26 := V26 ^^^ M6; let V27 := V27 ^^^ M7; let tmp := M7
  let M7 := M6; let M6 := M5; let M5 := M4; let M4 := M3 ^^^ tmp; let M3 := M2 ^^^ tmp; let M2 := M1; let M1 := M0 ^^^ tmp; let M0 := tmp
  let V30 := V30 ^^^ M0; let V31 := V31 ^^^ M1; let V32 := V32 ^^^ M2; let V33 := V33 ^^^ M3; let V34 := V34 ^^^ M4; let V35 := V35 ^^^ M5; let V36 := V36 ^^^ M6; let V37 := V37 ^^^ M7
  let V14 := (V14 <<< 1) ||| (V14 >>> 31); let V15 := (V15 <<< 1) ||| (V15 >>> 31); let V16 := (V16 <<< 1) ||| (V16 >>> 31); let V17 := (V17 <<< 1) ||| (V17 >>> 31); let V24 := (V24 <<< 2) ||| (V24 >>> 30); let V25 := (V25 <<< 2) ||| (V25 >>> 30); let V26 := (V26 <<< 2) ||| (V26 >>> 30); let V27 := (V27 <<< 2) ||| (V27 >>> 30)
  let V34 := (V34 <<< 3) ||| (V34 >>> 29); let V35 := (V35 <<< 3) ||| (V35 >>> 29); let V36 := (V36 <<< 3) ||| (V36 >>> 29); let V37 := (V37 <<< 3) ||| (V37 >>> 29)
  [⟨V00, V01, V02, V03, V04, V05, V06, V07⟩, ⟨V10, V11, V12, V13, V14, V15, V16, V17⟩, ⟨V20, V21, V22, V23, V24, V25, V26, V27⟩, ⟨V30, V31, V32, V33, V34, V35, V36, V37⟩]

/-- luffa/digest384.go:401-458, the body of the loop; rc0 and rc4 are RC00_384[r] and RC04_384[r]. -/
def body384_0 (rc0 rc4 : U32) (v : R8) : R8 :=
  let V00 := v.v0; let V01 := v.v1; let V02 := v.v2; let V03 := v.v3; let V04 := v.v4; let V05 := v.v5; let V06 := v.v6; let V07 := v.v7
  let tmp := V00; let V00 := V00 ||| V01; let V02 := V02 ^^^ V03; let V01 := ~~~V01; let V00 := V00 ^^^ V03; let V03 := V03 &&& tmp; let V01 := V01 ^^^ V03; let V03 := V03 ^^^ V02; let V02 := V02 &&& V00
  let V00 := ~~~V00; let V02 := V02 ^^^ V01; let V01 := V01 ||| V03; let tmp := tmp ^^^ V01; let V03 := V03 ^^^ V02; let V02 := V02 &&& V01; let V01 := V01 ^^^ V00; let V00 := tmp; let tmp := V05
  let V05 := V05 ||| V06; let V07 := V07 ^^^ V04; let V06 := ~~~V06; let V05 := V05 ^^^ V04; let V04 := V04 &&& tmp; let V06 := V06 ^^^ V04; let V04 := V04 ^^^ V07; let V07 := V07 &&& V05; let V05 := ~~~V05
  let V07 := V07 ^^^ V06; let V06 := V06 ||| V04; let tmp := tmp ^^^ V06; let V04 := V04 ^^^ V07; let V07 := V07 &&& V06; let V06 := V06 ^^^ V05; let V05 := tmp; let V04 := V04 ^^^ V00; let V00 := ((V00 <<< 2) ||| (V00 >>> 30)) ^^^ V04
  let V04 := ((V04 <<< 14) ||| (V04 >>> 18)) ^^^ V00; let V00 := ((V00 <<< 10) ||| (V00 >>> 22)) ^^^ V04; let V04 := (V04 <<< 1) ||| (V04 >>> 31); let V05 := V05 ^^^ V01; let V01 := ((V01 <<< 2) ||| (V01 >>> 30)) ^^^ V05; let V05 := ((V05 <<< 14) ||| (V05 >>> 18)) ^^^ V01; let V01 := ((V01 <<< 10) ||| (V01 >>> 22)) ^^^ V05; let V05 := (V05 <<< 1) ||| (V05 >>> 31); let V06 := V06 ^^^ V02
  let V02 := ((V02 <<< 2) ||| (V02 >>> 30)) ^^^ V06; let V06 := ((V06 <<< 14) ||| (V06 >>> 18)) ^^^ V02; let V02 := ((V02 <<< 10) ||| (V02 >>> 22)) ^^^ V06; let V06 := (V06 <<< 1) ||| (V06 >>> 31); let V07 := V07 ^^^ V03; let V03 := ((V03 <<< 2) ||| (V03 >>> 30)) ^^^ V07; let V07 := ((V07 <<< 14) ||| (V07 >>> 18)) ^^^ V03; let V03 := ((V03 <<< 10) ||| (V03 >>> 22)) ^^^ V07; let V07 := (V07 <<< 1) ||| (V07 >>> 31)
  let V00 := V00 ^^^ rc0; let V04 := V04 ^^^ rc4
  ⟨V00, V01, V02, V03, V04, V05, V06, V07⟩

/-- luffa/digest384.go:460-517, the body of the loop; rc0 and rc4 are RC10_384[r] and RC14_384[r]. -/
def body384_1 (rc0 rc4 : U32) (v : R8) : R8 :=
  let V10 := v.v0; let V11 := v.v1; let V12 := v.v2; let V13 := v.v3; let V14 := v.v4; let V15 := v.v5; let V16 := v.v6; let V17 := v.v7
  let tmp := V10; let V10 := V10 ||| V11; let V12 := V12 ^^^ V13; let V11 := ~~~V11; let V10 := V10 ^^^ V13; let V13 := V13 &&& tmp; let V11 := V11 ^^^ V13; let V13 := V13 ^^^ V12; let V12 := V12 &&& V10
  let V10 := ~~~V10; let V12 := V12 ^^^ V11; let V11 := V11 ||| V13; let tmp := tmp ^^^ V11; let V13 := V13 ^^^ V12; let V12 := V12 &&& V11; let V11 := V11 ^^^ V10; let V10 := tmp; let tmp := V15
  let V15 := V15 ||| V16; let V17 := V17 ^^^ V14; let V16 := ~~~V16; let V15 := V15 ^^^ V14; let V14 := V14 &&& tmp; let V16 := V16 ^^^ V14; let V14 := V14 ^^^ V17; let V17 := V17 &&& V15; let V15 := ~~~V15
  let V17 := V17 ^^^ V16; let V16 := V16 ||| V14; let tmp := tmp ^^^ V16; let V14 := V14 ^^^ V17; let V17 := V17 &&& V16; let V16 := V16 ^^^ V15; let V15 := tmp; let V14 := V14 ^^^ V10; let V10 := ((V10 <<< 2) ||| (V10 >>> 30)) ^^^ V14
  let V14 := ((V14 <<< 14) ||| (V14 >>> 18)) ^^^ V10; let V10 := ((V10 <<< 10) ||| (V10 >>> 22)) ^^^ V14; let V14 := (V14 <<< 1) ||| (V14 >>> 31); let V15 := V15 ^^^ V11; let V11 := ((V11 <<< 2) ||| (V11 >>> 30)) ^^^ V15; let V15 := ((V15 <<< 14) ||| (V15 >>> 18)) ^^^ V11; let V11 := ((V11 <<< 10) ||| (V11 >>> 22)) ^^^ V15; let V15 := (V15 <<< 1) ||| (V15 >>> 31); let V16 := V16 ^^^ V12
  let V12 := ((V12 <<< 2) ||| (V12 >>> 30)) ^^^ V16; let V16 := ((V16 <<< 14) ||| (V16 >>> 18)) ^^^ V12; let V12 := ((V12 <<< 10) ||| (V12 >>> 22)) ^^^ V16; let V16 := (V16 <<< 1) ||| (V16 >>> 31); let V17 := V17 ^^^ V13; let V13 := ((V13 <<< 2) ||| (V13 >>> 30)) ^^^ V17; let V17 := ((V17 <<< 14) ||| (V17 >>> 18)) ^^^ V13; let V13 := ((V13 <<< 10) ||| (V13 >>> 22)) ^^^ V17; let V17 := (V17 <<< 1) ||| (V17 >>> 31)
  let V10 := V10 ^^^ rc0; let V14 := V14 ^^^ rc4
  ⟨V10, V11, V12, V13, V14, V15, V16, V17⟩

/-- luffa/digest384.go:519-576, the body of the loop; rc0 and rc4 are RC20_384[r] and RC24_384[r]. -/
def body384_2 (rc0 rc4 : U32) (v : R8) : R8 :=
  let V20 := v.v0; let V21 := v.v1; let V22 := v.v2; let V23 := v.v3; let V24 := v.v4; let V25 := v.v5; let V26 := v.v6; let V27 := v.v7
  let tmp := V20; let V20 := V20 ||| V21; let V22 := V22 ^^^ V23; let V21 := ~~~V21; let V20 := V20 ^^^ V23; let V23 := V23 &&& tmp; let V21 := V21 ^^^ V23; let V23 := V23 ^^^ V22; let V22 := V22 &&& V20
  let V20 := ~~~V20; let V22 := V22 ^^^ V21; let V21 := V21 ||| V23; let tmp := tmp ^^^ V21; let V23 := V23 ^^^ V22; let V22 := V22 &&& V21; let V21 := V21 ^^^ V20; let V20 := tmp; let tmp := V25
  let V25 := V25 ||| V26; let V27 := V27 ^^^ V24; let V26 := ~~~V26; let V25 := V25 ^^^ V24; let V24 := V24 &&& tmp; let V26 := V26 ^^^ V24; let V24 := V24 ^^^ V27; let V27 := V27 &&& V25; let V25 := ~~~V25
  let V27 := V27 ^^^ V26; let V26 := V26 ||| V24; let tmp := tmp ^^^ V26; let V24 := V24 ^^^ V27; let V27 := V27 &&& V26; let V26 := V26 ^^^ V25; let V25 := tmp; let V24 := V24 ^^^ V20; let V20 := ((V20 <<< 2) ||| (V20 >>> 30)) ^^^ V24
  let V24 := ((V24 <<< 14) ||| (V24 >>> 18)) ^^^ V20; let V20 := ((V20 <<< 10) ||| (V20 >>> 22)) ^^^ V24; let V24 := (V24 <<< 1) ||| (V24 >>> 31); let V25 := V25 ^^^ V21; let V21 := ((V21 <<< 2) ||| (V21 >>> 30)) ^^^ V25; let V25 := ((V25 <<< 14) ||| (V25 >>> 18)) ^^^ V21; let V21 := ((V21 <<< 10) ||| (V21 >>> 22)) ^^^ V25; let V25 := (V25 <<< 1) ||| (V25 >>> 31); let V26 := V26 ^^^ V22
  let V22 := ((V22 <<< 2) ||| (V22 >>> 30)) ^^^ V26; let V26 := ((V26 <<< 14) ||| (V26 >>> 18)) ^^^ V22; let V22 := ((V22 <<< 10) ||| (V22 >>> 22)) ^^^ V26; let V26 := (V26 <<< 1) ||| (V26 >>> 31); let V27 := V27 ^^^ V23; let V23 := ((V23 <<< 2) ||| (V23 >>> 30)) ^^^ V27; let V27 := ((V27 <<< 14) ||| (V27 >>> 18)) ^^^ V23; let V23 := ((V23 <<< 10) ||| (V23 >>> 22)) ^^^ V27; let V27 := (V27 <<< 1) ||| (V27 >>> 31)
  let V20 := V20 ^^^ rc0; let V24 := V24 ^^^ rc4
  ⟨V20, V21, V22, V23, V24, V25, V26, V27⟩

/-- luffa/digest384.go:578-635, the body of the loop; rc0 and rc4 are RC30_384[r] and RC34_384[r]. -/
def body384_3 (rc0 rc4 : U32) (v : R8) : R8 :=
  let V30 := v.v0; let V31 := v.v1; let V32 := v.v2; let V33 := v.v3; let V34 := v.v4; let V35 := v.v5; let V36 := v.v6; let V37 := v.v7
  let tmp := V30; let V30 := V30 ||| V31; let V32 := V32 ^^^ V33; let V31 := ~~~V31; let V30 := V30 ^^^ V33; let V33 := V33 &&& tmp; let V31 := V31 ^^^ V33; let V33 := V33 ^^^ V32; let V32 := V32 &&& V30
  let V30 := ~~~V30; let V32 := V32 ^^^ V31; let V31 := V31 ||| V33; let tmp := tmp ^^^ V31; let V33 := V33 ^^^ V32; let V32 := V32 &&& V31; let V31 := V31 ^^^ V30; let V30 := tmp; let tmp := V35
  let V35 := V35 ||| V36; let V37 := V37 ^^^ V34; let V36 := ~~~V36; let V35 := V35 ^^^ V34; let V34 := V34 &&& tmp; let V36 := V36 ^^^ V34; let V34 := V34 ^^^ V37; let V37 := V37 &&& V35; let V35 := ~~~V35
  let V37 := V37 ^^^ V36; let V36 := V36 ||| V34; let tmp := tmp ^^^ V36; let V34 := V34 ^^^ V37; let V37 := V37 &&& V36; let V36 := V36 ^^^ V35; let V35 := tmp; let V34 := V34 ^^^ V30; let V30 := ((V30 <<< 2) ||| (V30 >>> 30)) ^^^ V34
  let V34 := ((V34 <<< 14) ||| (V34 >>> 18)) ^^^ V30; let V30 := ((V30 <<< 10) ||| (V30 >>> 22)) ^^^ V34; let V34 := (V34 <<< 1) ||| (V34 >>> 31); let V35 := V35 ^^^ V31; let V31 := ((V31 <<< 2) ||| (V31 >>> 30)) ^^^ V35; let V35 := ((V35 <<< 14) ||| (V35 >>> 18)) ^^^ V31; let V31 := ((V31 <<< 10) ||| (V31 >>> 22)) ^^^ V35; let V35 := (V35 <<< 1) ||| (V35 >>> 31); let V36 := V36 ^^^ V32
  let V32 := ((V32 <<< 2) ||| (V32 >>> 30)) ^^^ V36; let V36 := ((V36 <<< 14) ||| (V36 >>> 18)) ^^^ V32; let V32 := ((V32 <<< 10) ||| (V32 >>> 22)) ^^^ V36; let V36 := (V36 <<< 1) ||| (V36 >>> 31); let V37 := V37 ^^^ V33; let V33 := ((V33 <<< 2) ||| (V33 >>> 30)) ^^^ V37; let V37 := ((V37 <<< 14) ||| (V37 >>> 18)) ^^^ V33; let V33 := ((V33 <<< 10) ||| (V33 >>> 22)) ^^^ V37; let V37 := (V37 <<< 1) ||| (V37 >>> 31)
  let V30 := V30 ^^^ rc0; let V34 := V34 ^^^ rc4
  ⟨V30, V31, V32, V33, V34, V35, V36, V37⟩

/-- luffa/digest384.go:149-669 -/
def block384 (d : List R8) (M : R8) : List R8 :=
  let d := mi384 d M
  [forLoop 0 8 (fun v r => body384_0 (RC00_384.getD r 0) (RC04_384.getD r 0) v) (reg d 0),
   forLoop 0 8 (fun v r => body384_1 (RC10_384.getD r 0) (RC14_384.getD r 0) v) (reg d 1),
   forLoop 0 8 (fun v r => body384_2 (RC20_384.getD r 0) (RC24_384.getD r 0) v) (reg d 2),
   forLoop 0 8 (fun v r => body384_3 (RC30_384.getD r 0) (RC34_384.getD r 0) v) (reg d 3)]

/-- luffa/digest512.go:217-559: message injection and tweak.  The loads 163-216 (M big endian words of the block) are `M` and `d`. -/
def mi512 (d : List R8) (M : R8) : List R8 :=
  let V00 := (reg d 0).v0; let V01 := (reg d 0).v1; let V02 := (reg d 0).v2; let V03 := (reg d 0).v3; let V04 := (reg d 0).v4; let V05 := (reg d 0).v5; let V06 := (reg d 0).v6; let V07 := (reg d 0).v7
  let V10 := (reg d 1).v0; let V11 := (reg d 1).v1; let V12 := (reg d 1).v2; let V13 := (reg d 1).v3; let V14 := (reg d 1).v4; let V15 := (reg d 1).v5; let V16 := (reg d 1).v6; let V17 := (reg d 1).v7
  let V20 := (reg d 2).v0; let V21 := (reg d 2).v1; let V22 := (reg d 2).v2; let V23 := (reg d 2).v3; let V24 := (reg d 2).v4; let V25 := (reg d 2).v5; let V26 := (reg d 2).v6; let V27 := (reg d 2).v7
  let V30 := (reg d 3).v0; let V31 := (reg d 3).v1; let V32 := (reg d 3).v2; let V33 := (reg d 3).v3; let V34 := (reg d 3).v4; let V35 := (reg d 3).v5; let V36 := (reg d 3).v6; let V37 := (reg d 3).v7
  let V40 := (reg d 4).v0; let V41 := (reg d 4).v1; let V42 := (reg d 4).v2; let V43 := (reg d 4).v3; let V44 := (reg d 4).v4; let V45 := (reg d 4).v5; let V46 := (reg d 4).v6; let V47 := (reg d 4).v7
  let M0 := M.v0; let M1 := M.v1; let M2 := M.v2; let M3 := M.v3; let M4 := M.v4; let M5 := M.v5; let M6 := M.v6; let M7 := M.v7
  let a0 := V00 ^^^ V10; let a1 := V01 ^^^ V11; let a2 := V02 ^^^ V12; let a3 := V03 ^^^ V13; let a4 := V04 ^^^ V14; let a5 := V05 ^^^ V15; let a6 := V06 ^^^ V16; let a7 := V07 ^^^ V17
  let b0 := V20 ^^^ V30; let b1 := V21 ^^^ V31; let b2 := V22 ^^^ V32; let b3 := V23 ^^^ V33; let b4 := V24 ^^^ V34; let b5 := V25 ^^^ V35; let b6 := V26 ^^^ V36; let b7 := V27 ^^^ V37
  let a0 := a0 ^^^ b0; let a1 := a1 ^^^ b1; let a2 := a2 ^^^ b2; let a3 := a3 ^^^ b3; let a4 := a4 ^^^ b4; let a5 := a5 ^^^ b5; let a6 := a6 ^^^ b6; let a7 := a7 ^^^ b7
  let a0 := a0 ^^^ V40; let a1 := a1 ^^^ V41; let a2 := a2 ^^^ V42; let a3 := a3 ^^^ V43; let a4 := a4 ^^^ V44; let a5 := a5 ^^^ V45; let a6 := a6 ^^^ V46; let a7 := a7 ^^^ V47
  let tmp := a7; let a7 := a6; let a6 := a5; let a5 := a4; let a4 := a3 ^^^ tmp; let a3 := a2 ^^^ tmp; let a2 := a1; let a1 := a0 ^^^ tmp
  let a0 := tmp; let V00 := a0 ^^^ V00; let V01 := a1 ^^^ V01; let V02 := a2 ^^^ V02; let V03 := a3 ^^^ V03; let V04 := a4 ^^^ V04; let V05 := a5 ^^^ V05; let V06 := a6 ^^^ V06
  let V07 := a7 ^^^ V07; let V10 := a0 ^^^ V10; let V11 := a1 ^^^ V11; let V12 := a2 ^^^ V12; let V13 := a3 ^^^ V13; let V14 := a4 ^^^ V14; let V15 := a5 ^^^ V15; let V16 := a6 ^^^ V16
  let V17 := a7 ^^^ V17; let V20 := a0 ^^^ V20; let V21 := a1 ^^^ V21; let V22 := a2 ^^^ V22; let V23 := a3 ^^^ V23; let V24 := a4 ^^^ V24; let V25 := a5 ^^^ V25; let V26 := a6 ^^^ V26
  let V27 := a7 ^^^ V27; let V30 := a0 ^^^ V30; let V31 := a1 ^^^ V31; let V32 := a2 ^^^ V32; let V33 := a3 ^^^ V33; let V34 := a4 ^^^ V34; let V35 := a5 ^^^ V35; let V36 := a6 ^^^ V36
  let V37 := a7 ^^^ V37; let V40 := a0 ^^^ V40; let V41 := a1 ^^^ V41; let V42 := a2 ^^^ V42; let V43 := a3 ^^^ V43; let V44 := a4 ^^^ V44; let V45 := a5 ^^^ V45; let V46 := a6 ^^^ V46
  let V47 := a7 ^^^ V47; let tmp := V07; let b7 := V06; let b6 := V05; let b5 := V04; let b4 := V03 ^^^ tmp; let b3 := V02 ^^^ tmp; let b2 := V01
  let b1 := V00 ^^^ tmp; let b0 := tmp; let b0 := b0 ^^^ V10; let b1 := b1 ^^^ V11; let b2 := b2 ^^^ V12; let b3 := b3 ^^^ V13; let b4 := b4 ^^^ V14; let b5 := b5 ^^^ V15
  let b6 := b6 ^^^ V16; let b7 := b7 ^^^ V17; let tmp := V17; let V17 := V16; let V16 := V15; let V15 := V14; let V14 := V13 ^^^ tmp; let V13 := V12 ^^^ tmp
  let V12 := V11; let V11 := V10 ^^^ tmp; let V10 := tmp; let V10 := V10 ^^^ V20; let V11 := V11 ^^^ V21; let V12 := V12 ^^^ V22; let V13 := V13 ^^^ V23; let V14 := V14 ^^^ V24
  let V15 := V15 ^^^ V25; let V16 := V16 ^^^ V26; let V17 := V17 ^^^ V27; let tmp := V27; let V27 := V26; let V26 := V25; let V25 := V24; let V24 := V23 ^^^ tmp
  let V23 := V22 ^^^ tmp; let V22 := V21; let V21 := V20 ^^^ tmp; let V20 := tmp; let V20 := V20 ^^^ V30; let V21 := V21 ^^^ V31; let V22 := V22 ^^^ V32; let V23 := V23 ^^^ V33
  let V24 := V24 ^^^ V34; let V25 := V25 ^^^ V35; let V26 := V26 ^^^ V36; let V27 := V27 ^^^ V37; let tmp := V37; let V37 := V36; let V36 := V35; let V35 := V34
  let V34 := V33 ^^^ tmp; let V33 := V32 ^^^ tmp; let V32 := V31; let V31 := V30 ^^^ tmp; let V30 := tmp; let V30 := V30 ^^^ V40; let V31 := V31 ^^^ V41; let V32 := V32 ^^^ V42
  let V33 := V33 ^^^ V43; let V34 := V34 ^^^ V44; let V35 := V35 ^^^ V45; let V36 := V36 ^^^ V46; let V37 := V37 ^^^ V47; let tmp := V47; let V47 := V46; let V46 := V45
  let V45 := V44; let V44 := V43 ^^^ tmp; let V43 := V42 ^^^ tmp; let V42 := V41; let V41 := V40 ^^^ tmp; let V40 := tmp; let V40 := V40 ^^^ V00; let V41 := V41 ^^^ V01
  let V42 := V42 ^^^ V02; let V43 := V43 ^^^ V03; let V44 := V44 ^^^ V04; let V45 := V45 ^^^ V05; let V46 := V46 ^^^ V06; let V47 := V47 ^^^ V07; let tmp := b7; let V07 := b6
  let V06 := b5; let V05 := b4; let V04 := b3 ^^^ tmp; let V03 := b2 ^^^ tmp; let V02 := b1; let V01 := b0 ^^^ tmp; let V00 := tmp; let V00 := V00 ^^^ V40
  let V01 := V01 ^^^ V41; let V02 := V02 ^^^ V42; let V03 := V03 ^^^ V43; let V04 := V04 ^^^ V44; let V05 := V05 ^^^ V45; let V06 := V06 ^^^ V46; let V07 := V07 ^^^ V47; let tmp := V47
  let V47 := V46; let V46 := V45; let V45 := V44; let V44 := V43 ^^^ tmp; let V43 := V42 ^^^ tmp; let V42 := V41; let V41 := V40 ^^^ tmp; let V40 := tmp
  let V40 := V40 ^^^ V30; let V41 := V41 ^^^ V31; let V42 := V42 ^^^ V32; let V43 := V43 ^^^ V33; let V44 := V44 ^^^ V34; let V45 := V45 ^^^ V35; let V46 := V46 ^^^ V36; let V47 := V47 ^^^ V37
  let tmp := V37; let V37 := V36; let V36 := V35; let V35 := V34; let V34 := V33 ^^^ tmp; let V33 := V32 ^^^ tmp; let V32 := V31; let V31 := V30 ^^^ tmp
  let V30 := tmp; let V30 := V30 ^^^ V20; let V31 := V31 ^^^ V21; let V32 := V32 ^^^ V22; let V33 := V33 ^^^ V23; let V34 := V34 ^^^ V24; let V35 := V35 ^^^ V25; let V36 := V36 ^^^ V26
  let V37 := V37 ^^^ V27; let tmp := V27; let V27 := V26; let V26 := V25; let V25 := V24; let V24 := V23 ^^^ tmp; let V23 := V22 ^^^ tmp; let V22 := V21
  let V21 := V20 ^^^ tmp; let V20 := tmp; let V20 := V20 ^^^ V10; let V21 := V21 ^^^ V11; let V22 := V22 ^^^ V12; let V23 := V23 ^^^ V13; let V24 := V24 ^^^ V14; let V25 := V25 ^^^ V15
  let V26 := V26 ^^^ V16; let V27 := V27 ^^^ V17; let tmp := V17; let V17 := V16; let V16 := V15; let V15 := V14; let V14 := V13 ^^^ tmp; let V13 := V12 ^^^ tmp
  let V12 := V11; let V11 := V10 ^^^ tmp; let V10 := tmp; let V10 := V10 ^^^ b0; let V11 := V11 ^^^ b1; let V12 := V12 ^^^ b2; let V13 := V13 ^^^ b3; let V14 := V14 ^^^ b4
  let V15 := V15 ^^^ b5; let V16 := V16 ^^^ b6; let V17 := V17 ^^^ b7; let V00 := V00 ^^^ M0; let V01 := V01 ^^^ M1; let V02 := V02 ^^^ M2; let V03 := V03 ^^^ M3; let V04 := V04 ^^^ M4
  let V05 := V05 ^^^ M5; let V06 := V06 ^^^ M6; let V07 := V07 ^^^ M7; let tmp := M7; let M7 := M6; let M6 := M5; let M5 := M4; let M4 := M3 ^^^ tmp
  let M3 := M2 ^^^ tmp; let M2 := M1; let M1 := M0 ^^^ tmp; let M0 := tmp; let V10 := V10 ^^^ M0; let V11 := V11 ^^^ M1; let V12 := V12 ^^^ M2; let V13 := V13 ^^^ M3
  let V14 := V14 ^^^ M4; let V15 := V15 ^^^ M5; let V16 := V16 ^^^ M6; let V17 := V17 ^^^ M7; let tmp := M7; let M7 := M6; let M6 := M5; let M5 := M4
  let M4 := M3 ^^^ tmp; let M3 := M2 ^^^ tmp; let M2 := M1; let M1 := M0 ^^^ tmp; let M0 := tmp; let V20 := V20 ^^^ M0; let V21 := V21 ^^^ M1; let V22 := V22 ^^^ M2
  let V23 := V23 ^^^ M3; let V24 := V24 ^^^ M4; let V25 := V25 ^^^ M5; let V26 := V26 ^^^ M6; let V27 := V27 ^^^ M7; let tmp := M7; let M7 := M6; let M6 := M5
  let M5 := M4; let M4 := M3 ^^^ tmp; let M3 := M2 ^^^ tmp; let M2 := M1; let M1 := M0 ^^^ tmp; let M0 := tmp; let V30 := V30 ^^^ M0; let V31 := V31 ^^^ M1
  let V32 := V32 ^^^ M2; let V33 := V33 ^^^ M3; let V34 := V34 ^^^ M4; let V35 := V35 ^^^ M5; let V36 := V36 ^^^ M6; let V37 := V37 ^^^ M7; let tmp := M7; let M7 := M6
  let M6 := M5; let M5 := M4; let M4 := M3 ^^^ tmp; let M3 := M2 ^^^ tmp; let M2 := M1; let M1 := M0 ^^^ tmp; let M0 := tmp; let V40 := V40 ^^^ M0
  let V41 := V41 ^^^ M1; let V42 := V42 ^^^ M2; let V43 := V43 ^^^ M3; let V44 := V44 ^^^ M4; let V45 := V45 ^^^ M5; let V46 := V46 ^^^ M6; let V47 := V47 ^^^ M7; let V14 := (V14 <<< 1) ||| (V14 >>> 31)
  let V15 := (V15 <<< 1) ||| (V15 >>> 31); let V16 := (V16 <<< 1) ||| (V16 >>> 31); let V17 := (V17 <<< 1) ||| (V17 >>> 31); let V24 := (V24 <<< 2) ||| (V24 >>> 30); let V25 := (V25 <<< 2) ||| (V25 >>> 30); let V26 := (V26 <<< 2) ||| (V26 >>> 30); let V27 := (V27 <<< 2) ||| (V27 >>> 30); let V34 := (V34 <<< 3) ||| (V34 >>> 29)
  let V35 := (V35 <<< 3) ||| (V35 >>> 29); let V36 := (V36 <<< 3) ||| (V36 >>> 29); let V37 := (V37 <<< 3) ||| (V37 >>> 29); let V44 := (V44 <<< 4) ||| (V44 >>> 28); let V45 := (V45 <<< 4) ||| (V45 >>> 28); let V46 := (V46 <<< 4) ||| (V46 >>> 28); let V47 := (V47 <<< 4) ||| (V47 >>> 28)
  [⟨V00, V01, V02, V03, V04, V05, V06, V07⟩, ⟨V10, V11, V12, V13, V14, V15, V16, V17⟩, ⟨V20, V21, V22, V23, V24, V25, V26, V27⟩, ⟨V30, V31, V32, V33, V34, V35, V36, V37⟩, ⟨V40, V41, V42, V43, V44, V45, V46, V47⟩]

/-- luffa/digest512.go:561-618, the body of the loop; rc0 and rc4 are RC00_512[r] and RC04_512[r]. -/
def body512_0 (rc0 rc4 : U32) (v : R8) : R8 :=
  let V00 := v.v0; let V01 := v.v1; let V02 := v.v2; let V03 := v.v3; let V04 := v.v4; let V05 := v.v5; let V06 := v.v6; let V07 := v.v7
  let tmp := V00; let V00 := V00 ||| V01; let V02 := V02 ^^^ V03; let V01 := ~~~V01; let V00 := V00 ^^^ V03; let V03 := V03 &&& tmp; let V01 := V01 ^^^ V03; let V03 := V03 ^^^ V02; let V02 := V02 &&& V00
  let V00 := ~~~V00; let V02 := V02 ^^^ V01; let V01 := V01 ||| V03; let tmp := tmp ^^^ V01; let V03 := V03 ^^^ V02; let V02 := V02 &&& V01; let V01 := V01 ^^^ V00; let V00 := tmp; let tmp := V05
  let V05 := V05 ||| V06; let V07 := V07 ^^^ V04; let V06 := ~~~V06; let V05 := V05 ^^^ V04; let V04 := V04 &&& tmp; let V06 := V06 ^^^ V04; let V04 := V04 ^^^ V07; let V07 := V07 &&& V05; let V05 := ~~~V05
  let V07 := V07 ^^^ V06; let V06 := V06 ||| V04; let tmp := tmp ^^^ V06; let V04 := V04 ^^^ V07; let V07 := V07 &&& V06; let V06 := V06 ^^^ V05; let V05 := tmp; let V04 := V04 ^^^ V00; let V00 := ((V00 <<< 2) ||| (V00 >>> 30)) ^^^ V04
  let V04 := ((V04 <<< 14) ||| (V04 >>> 18)) ^^^ V00; let V00 := ((V00 <<< 10) ||| (V00 >>> 22)) ^^^ V04; let V04 := (V04 <<< 1) ||| (V04 >>> 31); let V05 := V05 ^^^ V01; let V01 := ((V01 <<< 2) ||| (V01 >>> 30)) ^^^ V05; let V05 := ((V05 <<< 14) ||| (V05 >>> 18)) ^^^ V01; let V01 := ((V01 <<< 10) ||| (V01 >>> 22)) ^^^ V05; let V05 := (V05 <<< 1) ||| (V05 >>> 31); let V06 := V06 ^^^ V02
  let V02 := ((V02 <<< 2) ||| (V02 >>> 30)) ^^^ V06; let V06 := ((V06 <<< 14) ||| (V06 >>> 18)) ^^^ V02; let V02 := ((V02 <<< 10) ||| (V02 >>> 22)) ^^^ V06; let V06 := (V06 <<< 1) ||| (V06 >>> 31); let V07 := V07 ^^^ V03; let V03 := ((V03 <<< 2) ||| (V03 >>> 30)) ^^^ V07; let V07 := ((V07 <<< 14) ||| (V07 >>> 18)) ^^^ V03; let V03 := ((V03 <<< 10) ||| (V03 >>> 22)) ^^^ V07; let V07 := (V07 <<< 1) ||| (V07 >>> 31)
  let V00 := V00 ^^^ rc0; let V04 := V04 ^^^ rc4
  ⟨V00, V01, V02, V03, V04, V05, V06, V07⟩

/-- luffa/digest512.go:620-677, the body of the loop; rc0 and rc4 are RC10_512[r] and RC14_512[r]. -/
def body512_1 (rc0 rc4 : U32) (v : R8) : R8 :=
  let V10 := v.v0; let V11 := v.v1; let V12 := v.v2; let V13 := v.v3; let V14 := v.v4; let V15 := v.v5; let V16 := v.v6; let V17 := v.v7
  let tmp := V10; let V10 := V10 ||| V11; let V12 := V12 ^^^ V13; let V11 := ~~~V11; let V10 := V10 ^^^ V13; let V13 := V13 &&& tmp; let V11 := V11 ^^^ V13; let V13 := V13 ^^^ V12; let V12 := V12 &&& V10
  let V10 := ~~~V10; let V12 := V12 ^^^ V11; let V11 := V11 ||| V13; let tmp := tmp ^^^ V11; let V13 := V13 ^^^ V12; let V12 := V12 &&& V11; let V11 := V11 ^^^ V10; let V10 := tmp; let tmp := V15
  let V15 := V15 ||| V16; let V17 := V17 ^^^ V14; let V16 := ~~~V16; let V15 := V15 ^^^ V14; let V14 := V14 &&& tmp; let V16 := V16 ^^^ V14; let V14 := V14 ^^^ V17; let V17 := V17 &&& V15; let V15 := ~~~V15
  let V17 := V17 ^^^ V16; let V16 := V16 ||| V14; let tmp := tmp ^^^ V16; let V14 := V14 ^^^ V17; let V17 := V17 &&& V16; let V16 := V16 ^^^ V15; let V15 := tmp; let V14 := V14 ^^^ V10; let V10 := ((V10 <<< 2) ||| (V10 >>> 30)) ^^^ V14
  let V14 := ((V14 <<< 14) ||| (V14 >>> 18)) ^^^ V10; let V10 := ((V10 <<< 10) ||| (V10 >>> 22)) ^^^ V14; let V14 := (V14 <<< 1) ||| (V14 >>> 31); let V15 := V15 ^^^ V11; let V11 := ((V11 <<< 2) ||| (V11 >>> 30)) ^^^ V15; let V15 := ((V15 <<< 14) ||| (V15 >>> 18)) ^^^ V11; let V11 := ((V11 <<< 10) ||| (V11 >>> 22)) ^^^ V15; let V15 := (V15 <<< 1) ||| (V15 >>> 31); let V16 := V16 ^^^ V12
  let V12 := ((V12 <<< 2) ||| (V12 >>> 30)) ^^^ V16; let V16 := ((V16 <<< 14) ||| (V16 >>> 18)) ^^^ V12; let V12 := ((V12 <<< 10) ||| (V12 >>> 22)) ^^^ V16; let V16 := (V16 <<< 1) ||| (V16 >>> 31); let V17 := V17 ^^^ V13; let V13 := ((V13 <<< 2) ||| (V13 >>> 30)) ^^^ V17; let V17 := ((V17 <<< 14) ||| (V17 >>> 18)) ^^^ V13; let V13 := ((V13 <<< 10) ||| (V13 >>> 22)) ^^^ V17; let V17 := (V17 <<< 1) ||| (V17 >>> 31)
  let V10 := V10 ^^^ rc0; let V14 := V14 ^^^ rc4
  ⟨V10, V11, V12, V13, V14, V15, V16, V17⟩

/-- luffa/digest512.go:679-736, the body of the loop; rc0 and rc4 are RC20_512[r] and RC24_512[r]. -/
def body512_2 (rc0 rc4 : U32) (v : R8) : R8 :=
  let V20 := v.v0; let V21 := v.v1; let V22 := v.v2; let V23 := v.v3; let V24 := v.v4; let V25 := v.v5; let V26 := v.v6; let V27 := v.v7
  let tmp := V20; let V20 := V20 ||| V21; let V22 := V22 ^^^ V23; let V21 := ~~~V21; let V20 := V20 ^^^ V23; let V23 := V23 &&& tmp; let V21 := V21 ^^^ V23; let V23 := V23 ^^^ V22; let V22 := V22 &&& V20
  let V20 := ~~~V20; let V22 := V22 ^^^ V21; let V21 := V21 ||| V23; let tmp := tmp ^^^ V21; let V23 := V23 ^^^ V22; let V22 := V22 &&& V21; let V21 := V21 ^^^ V20; let V20 := tmp; let tmp := V25
  let V25 := V25 ||| V26; let V27 := V27 ^^^ V24; let V26 := ~~~V26; let V25 := V25 ^^^ V24; let V24 := V24 &&& tmp; let V26 := V26 ^^^ V24; let V24 := V24 ^^^ V27; let V27 := V27 &&& V25; let V25 := ~~~V25
  let V27 := V27 ^^^ V26; let V26 := V26 ||| V24; let tmp := tmp ^^^ V26; let V24 := V24 ^^^ V27; let V27 := V27 &&& V26; let V26 := V26 ^^^ V25; let V25 := tmp; let V24 := V24 ^^^ V20; let V20 := ((V20 <<< 2) ||| (V20 >>> 30)) ^^^ V24
  let V24 := ((V24 <<< 14) ||| (V24 >>> 18)) ^^^ V20; let V20 := ((V20 <<< 10) ||| (V20 >>> 22)) ^^^ V24; let V24 := (V24 <<< 1) ||| (V24 >>> 31); let V25 := V25 ^^^ V21; let V21 := ((V21 <<< 2) ||| (V21 >>> 30)) ^^^ V25; let V25 := ((V25 <<< 14) ||| (V25 >>> 18)) ^^^ V21; let V21 := ((V21 <<< 10) ||| (V21 >>> 22)) ^^^ V25; let V25 := (V25 <<< 1) ||| (V25 >>> 31); let V26 := V26 ^^^ V22
  let V22 := ((V22 <<< 2) ||| (V22 >>> 30)) ^^^ V26; let V26 := ((V26 <<< 14) ||| (V26 >>> 18)) ^^^ V22; let V22 := ((V22 <<< 10) ||| (V22 >>> 22)) ^^^ V26; let V26 := (V26 <<< 1) ||| (V26 >>> 31); let V27 := V27 ^^^ V23; let V23 := ((V23 <<< 2) ||| (V23 >>> 30)) ^^^ V27; let V27 := ((V27 <<< 14) ||| (V27 >>> 18)) ^^^ V23; let V23 := ((V23 <<< 10) ||| (V23 >>> 22)) ^^^ V27; let V27 := (V27 <<< 1) ||| (V27 >>> 31)
  let V20 := V20 ^^^ rc0; let V24 := V24 ^^^ rc4
  ⟨V20, V21, V22, V23, V24, V25, V26, V27⟩

/-- luffa/digest512.go:738-795, the body of the loop; rc0 and rc4 are RC30_512[r] and RC34_512[r]. -/
def body512_3 (rc0 rc4 : U32) (v : R8) : R8 :=
  let V30 := v.v0; let V31 := v.v1; let V32 := v.v2; let V33 := v.v3; let V34 := v.v4; let V35 := v.v5; let V36 := v.v6; let V37 := v.v7
  let tmp := V30; let V30 := V30 ||| V31; let V32 := V32 ^^^ V33; let V31 := ~~~V31; let V30 := V30 ^^^ V33; let V33 := V33 &&& tmp; let V31 := V31 ^^^ V33; let V33 := V33 ^^^ V32; let V32 := V32 &&& V30
  let V30 := ~~~V30; let V32 := V32 ^^^ V31; let V31 := V31 ||| V33; let tmp := tmp ^^^ V31; let V33 := V33 ^^^ V32; let V32 := V32 &&& V31; let V31 := V31 ^^^ V30; let V30 := tmp; let tmp := V35
  let V35 := V35 ||| V36; let V37 := V37 ^^^ V34; let V36 := ~~~V36; let V35 := V35 ^^^ V34; let V34 := V34 &&& tmp; let V36 := V36 ^^^ V34; let V34 := V34 ^^^ V37; let V37 := V37 &&& V35; let V35 := ~~~V35
  let V37 := V37 ^^^ V36; let V36 := V36 ||| V34; let tmp := tmp ^^^ V36; let V34 := V34 ^^^ V37; let V37 := V37 &&& V36; let V36 := V36 ^^^ V35; let V35 := tmp; let V34 := V34 ^^^ V30; let V30 := ((V30 <<< 2) ||| (V30 >>> 30)) ^^^ V34
  let V34 := ((V34 <<< 14) ||| (V34 >>> 18)) ^^^ V30; let V30 := ((V30 <<< 10) ||| (V30 >>> 22)) ^^^ V34; let V34 := (V34 <<< 1) ||| (V34 >>> 31); let V35 := V35 ^^^ V31; let V31 := ((V31 <<< 2) ||| (V31 >>> 30)) ^^^ V35; let V35 := ((V35 <<< 14) ||| (V35 >>> 18)) ^^^ V31; let V31 := ((V31 <<< 10) ||| (V31 >>> 22)) ^^^ V35; let V35 := (V35 <<< 1) ||| (V35 >>> 31); let V36 := V36 ^^^ V32
  let V32 := ((V32 <<< 2) ||| (V32 >>> 30)) ^^^ V36; let V36 := ((V36 <<< 14) ||| (V36 >>> 18)) ^^^ V32; let V32 := ((V32 <<< 10) ||| (V32 >>> 22)) ^^^ V36; let V36 := (V36 <<< 1) ||| (V36 >>> 31); let V37 := V37 ^^^ V33; let V33 := ((V33 <<< 2) ||| (V33 >>> 30)) ^^^ V37; let V37 := ((V37 <<< 14) ||| (V37 >>> 18)) ^^^ V33; let V33 := ((V33 <<< 10) ||| (V33 >>> 22)) ^^^ V37; let V37 := (V37 <<< 1) ||| (V37 >>> 31)
  let V30 := V30 ^^^ rc0; let V34 := V34 ^^^ rc4
  ⟨V30, V31, V32, V33, V34, V35, V36, V37⟩

/-- luffa/digest512.go:797-854, the body of the loop; rc0 and rc4 are RC40_512[r] and RC44_512[r]. -/
def body512_4 (rc0 rc4 : U32) (v : R8) : R8 :=
  let V40 := v.v0; let V41 := v.v1; let V42 := v.v2; let V43 := v.v3; let V44 := v.v4; let V45 := v.v5; let V46 := v.v6; let V47 := v.v7
  let tmp := V40; let V40 := V40 ||| V41; let V42 := V42 ^^^ V43; let V41 := ~~~V41; let V40 := V40 ^^^ V43; let V43 := V43 &&& tmp; let V41 := V41 ^^^ V43; let V43 := V43 ^^^ V42; let V42 := V42 &&& V40
  let V40 := ~~~V40; let V42 := V42 ^^^ V41; let V41 := V41 ||| V43; let tmp := tmp ^^^ V41; let V43 := V43 ^^^ V42; let V42 := V42 &&& V41; let V41 := V41 ^^^ V40; let V40 := tmp; let tmp := V45
  let V45 := V45 ||| V46; let V47 := V47 ^^^ V44; let V46 := ~~~V46; let V45 := V45 ^^^ V44; let V44 := V44 &&& tmp; let V46 := V46 ^^^ V44; let V44 := V44 ^^^ V47; let V47 := V47 &&& V45; let V45 := ~~~V45
  let V47 := V47 ^^^ V46; let V46 := V46 ||| V44; let tmp := tmp ^^^ V46; let V44 := V44 ^^^ V47; let V47 := V47 &&& V46; let V46 := V46 ^^^ V45; let V45 := tmp; let V44 := V44 ^^^ V40; let V40 := ((V40 <<< 2) ||| (V40 >>> 30)) ^^^ V44
  let V44 := ((V44 <<< 14) ||| (V44 >>> 18)) ^^^ V40; let V40 := ((V40 <<< 10) ||| (V40 >>> 22)) ^^^ V44; let V44 := (V44 <<< 1) ||| (V44 >>> 31); let V45 := V45 ^^^ V41; let V41 := ((V41 <<< 2) ||| (V41 >>> 30)) ^^^ V45; let V45 := ((V45 <<< 14) ||| (V45 >>> 18)) ^^^ V41; let V41 := ((V41 <<< 10) ||| (V41 >>> 22)) ^^^ V45; let V45 := (V45 <<< 1) ||| (V45 >>> 31); let V46 := V46 ^^^ V42
  let V42 := ((V42 <<< 2) ||| (V42 >>> 30)) ^^^ V46; let V46 := ((V46 <<< 14) ||| (V46 >>> 18)) ^^^ V42; let V42 := ((V42 <<< 10) ||| (V42 >>> 22)) ^^^ V46; let V46 := (V46 <<< 1) ||| (V46 >>> 31); let V47 := V47 ^^^ V43; let V43 := ((V43 <<< 2) ||| (V43 >>> 30)) ^^^ V47; let V47 := ((V47 <<< 14) ||| (V47 >>> 18)) ^^^ V43; let V43 := ((V43 <<< 10) ||| (V43 >>> 22)) ^^^ V47; let V47 := (V47 <<< 1) ||| (V47 >>> 31)
  let V40 := V40 ^^^ rc0; let V44 := V44 ^^^ rc4
  ⟨V40, V41, V42, V43, V44, V45, V46, V47⟩

/-- luffa/digest512.go:162-896 -/
def block512 (d : List R8) (M : R8) : List R8 :=
  let d := mi512 d M
  [forLoop 0 8 (fun v r => body512_0 (RC00_512.getD r 0) (RC04_512.getD r 0) v) (reg d 0),
   forLoop 0 8 (fun v r => body512_1 (RC10_512.getD r 0) (RC14_512.getD r 0) v) (reg d 1),
   forLoop 0 8 (fun v r => body512_2 (RC20_512.getD r 0) (RC24_512.getD r 0) v) (reg d 2),
   forLoop 0 8 (fun v r => body512_3 (RC30_512.getD r 0) (RC34_512.getD r 0) v) (reg d 3),
   forLoop 0 8 (fun v r => body512_4 (RC40_512.getD r 0) (RC44_512.getD r 0) v) (reg d 4)]
end Verif.Luffa
