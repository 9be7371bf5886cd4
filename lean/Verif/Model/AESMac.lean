import Verif.Model.CMAC
import Verif.Model.PMAC
/-
Model of packages cmac/aes and pmac/aes.  `aes` is crypto/aes.NewCipher: the encryption function of a key, `none` is its error.
-/
namespace Verif.AESMac

/-- cmac/aes/cmac.go:40-47 `NewWithTagSize`; `none` is an error. -/
def cmacNewWithTagSize (aes : Bytes → Option (Bytes → Bytes)) (key : Bytes) (tagsize : Int) : Option CMAC.Cmac :=
  match aes key with
  | none => none
  | some c => CMAC.newWithTagSize 16 c tagsize
/-- cmac/aes/cmac.go:34-36 `New` -/
def cmacNew (aes : Bytes → Option (Bytes → Bytes)) (key : Bytes) : Option CMAC.Cmac := cmacNewWithTagSize aes key 16
/-- cmac/aes/cmac.go:13-19 `Sum` -/
def cmacSum (aes : Bytes → Option (Bytes → Bytes)) (msg key : Bytes) (tagsize : Int) : Option Bytes :=
  match aes key with
  | none => none
  | some c => CMAC.sum msg 16 c tagsize
/-- cmac/aes/cmac.go:24-31 `Verify` -/
def cmacVerify (aes : Bytes → Option (Bytes → Bytes)) (mac msg key : Bytes) (tagsize : Int) : Bool :=
  match aes key with
  | none => false
  | some c => CMAC.verify mac msg 16 c tagsize

/-- pmac/aes/pmac.go:41-48 `NewWithTagSize`; `none` is an error. -/
def pmacNewWithTagSize (aes : Bytes → Option (Bytes → Bytes)) (key : Bytes) (tagsize : Int) : Option PMAC.Pmac :=
  match aes key with
  | none => none
  | some c => PMAC.newWithTagSize 16 c tagsize
/-- pmac/aes/pmac.go:35-37 `New` -/
def pmacNew (aes : Bytes → Option (Bytes → Bytes)) (key : Bytes) : Option PMAC.Pmac := pmacNewWithTagSize aes key 16
/-- pmac/aes/pmac.go:13-20 `Sum`; the outer option is a panic, the inner one an error. -/
def pmacSum (aes : Bytes → Option (Bytes → Bytes)) (msg key : Bytes) (tagsize : Int) : Option (Option Bytes) :=
  match aes key with
  | none => some none
  | some c => PMAC.sum msg 16 c tagsize
/-- pmac/aes/pmac.go:25-32 `Verify` -/
def pmacVerify (aes : Bytes → Option (Bytes → Bytes)) (mac msg key : Bytes) (tagsize : Int) : Option Bool :=
  match aes key with
  | none => some false
  | some c => PMAC.verify mac msg 16 c tagsize

end Verif.AESMac
