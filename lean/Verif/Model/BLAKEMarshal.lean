import Verif.Model.BLAKE256
import Verif.Model.BLAKE512
/-
Model of blake256/binary.go and blake512/binary.go: `MarshalBinary` and `UnmarshalBinary`.
-/
namespace Verif

namespace BLAKE256

/-- blake256/binary.go:10, `"blake256\x03"` -/
def magic : Bytes := [0x62#8, 0x6c#8, 0x61#8, 0x6b#8, 0x65#8, 0x32#8, 0x35#8, 0x36#8, 0x03#8]

/-- blake256/binary.go:11 -/
def marshaledSize : Nat := magic.length + 4*4 + 64 + 8 + 8*4 + 8 + 1

/-- blake256/binary.go:14-46 `MarshalBinary`.  The slice is extended over the unused part of the
buffer, `b = b[:len(b) + len(d.x) - nx]`: that memory is fresh from `make`, hence zero. -/
def marshal (d : Digest) : Bytes :=
  magic ++ be32 (d.s.s.getD 0 0) ++ be32 (d.s.s.getD 1 0) ++ be32 (d.s.s.getD 2 0) ++ be32 (d.s.s.getD 3 0) ++
    d.x.take d.nx ++ zeros (64 - d.nx) ++ be64 d.len ++
    be32 (d.s.h.getD 0 0) ++ be32 (d.s.h.getD 1 0) ++ be32 (d.s.h.getD 2 0) ++ be32 (d.s.h.getD 3 0) ++
    be32 (d.s.h.getD 4 0) ++ be32 (d.s.h.getD 5 0) ++ be32 (d.s.h.getD 6 0) ++ be32 (d.s.h.getD 7 0) ++
    be64 d.s.t ++ (if d.s.nullt then [1#8] else [0#8])

/-- blake256/binary.go:48-90 `UnmarshalBinary`, `none` when it returns an error; `consumeUint32` and
`consumeUint64` (:108-132) read big-endian words at successive offsets.  Every field but `hs` and
`initVal`, which are parameters of `impl`, is overwritten. -/
def unmarshal (_ : Digest) (b : Bytes) : Option Digest :=
  if b.length < magic.length ∨ b.take magic.length ≠ magic then none
  else if b.length ≠ marshaledSize then none
  else
    let b := b.drop magic.length
    let s := [getBE32 b 0, getBE32 b 4, getBE32 b 8, getBE32 b 12]
    let b := b.drop 16
    let x := b.take 64
    let b := b.drop 64
    let length := getBE64 b
    let b := b.drop 8
    let h := [getBE32 b 0, getBE32 b 4, getBE32 b 8, getBE32 b 12,
      getBE32 b 16, getBE32 b 20, getBE32 b 24, getBE32 b 28]
    let b := b.drop 32
    let t := getBE64 b
    let b := b.drop 8
    some { s := { s := s, h := h, t := t, nullt := at8 b 0 == 1#8 }, x := x,
           nx := length.toNat % 64, len := length }

end BLAKE256

namespace BLAKE512

/-- blake512/binary.go:10, `"blake512\x03"` -/
def magic : Bytes := [0x62#8, 0x6c#8, 0x61#8, 0x6b#8, 0x65#8, 0x35#8, 0x31#8, 0x32#8, 0x03#8]

/-- blake512/binary.go:11 -/
def marshaledSize : Nat := magic.length + 4*8 + 128 + 8 + 8*8 + 2*8

/-- blake512/binary.go:14-41 `MarshalBinary`. -/
def marshal (d : Digest) : Bytes :=
  magic ++ be64 (d.s.s.getD 0 0) ++ be64 (d.s.s.getD 1 0) ++ be64 (d.s.s.getD 2 0) ++ be64 (d.s.s.getD 3 0) ++
    d.x.take d.nx ++ zeros (128 - d.nx) ++ be64 d.len ++
    be64 (d.s.h.getD 0 0) ++ be64 (d.s.h.getD 1 0) ++ be64 (d.s.h.getD 2 0) ++ be64 (d.s.h.getD 3 0) ++
    be64 (d.s.h.getD 4 0) ++ be64 (d.s.h.getD 5 0) ++ be64 (d.s.h.getD 6 0) ++ be64 (d.s.h.getD 7 0) ++
    be64 d.s.t0 ++ be64 d.s.t1

/-- blake512/binary.go:43-80 `UnmarshalBinary`, `none` when it returns an error; `consumeUint64`
(:88-101) reads big-endian words at successive offsets. -/
def unmarshal (_ : Digest) (b : Bytes) : Option Digest :=
  if b.length < magic.length ∨ b.take magic.length ≠ magic then none
  else if b.length ≠ marshaledSize then none
  else
    let b := b.drop magic.length
    let s := [getBE64 b 0, getBE64 b 8, getBE64 b 16, getBE64 b 24]
    let b := b.drop 32
    let x := b.take 128
    let b := b.drop 128
    let length := getBE64 b
    let b := b.drop 8
    let h := [getBE64 b 0, getBE64 b 8, getBE64 b 16, getBE64 b 24,
      getBE64 b 32, getBE64 b 40, getBE64 b 48, getBE64 b 56]
    let b := b.drop 64
    some { s := { s := s, h := h, t0 := getBE64 b, t1 := getBE64 b 8 }, x := x,
           nx := length.toNat % 128, len := length }

end BLAKE512
end Verif
