import Verif.Basic
/-
GENERATED by tools/gen_bmw.py from bmw/digest256.go and bmw/digest512.go; do not edit.
The assignments of the two functions compress, in program order.  A statement `a[i] = e` is the pair of i and of e as a function of the
arrays it reads; each reads the current contents of the array it assigns.
-/
namespace Verif.BMW
/-- bmw/sbox.go:24-35 -/
def K512 : List U64 := [16 * 0x0555555555555555, 17 * 0x0555555555555555, 18 * 0x0555555555555555, 19 * 0x0555555555555555, 20 * 0x0555555555555555, 21 * 0x0555555555555555, 22 * 0x0555555555555555, 23 * 0x0555555555555555, 24 * 0x0555555555555555, 25 * 0x0555555555555555, 26 * 0x0555555555555555, 27 * 0x0555555555555555, 28 * 0x0555555555555555, 29 * 0x0555555555555555, 30 * 0x0555555555555555, 31 * 0x0555555555555555]

/-- bmw/digest256.go:132-163 -/
def qStmts256 : List (Nat × ((Nat → U32) → (Nat → U32) → (Nat → U32) → U32)) := [
  (0, fun m h q => (((((m 5) ^^^ (h 5)) - ((m 7) ^^^ (h 7)) + ((m 10) ^^^ (h 10)) + ((m 13) ^^^ (h 13)) + ((m 14) ^^^ (h 14))) >>> 1) ^^^ ((((m 5) ^^^ (h 5)) - ((m 7) ^^^ (h 7)) + ((m 10) ^^^ (h 10)) + ((m 13) ^^^ (h 13)) + ((m 14) ^^^ (h 14))) <<< 3) ^^^ ((((m 5)^^^(h 5))-((m 7)^^^(h 7))+((m 10)^^^(h 10))+((m 13)^^^(h 13))+((m 14)^^^(h 14)))).rotateLeft (4) ^^^ ((((m 5)^^^(h 5))-((m 7)^^^(h 7))+((m 10)^^^(h 10))+((m 13)^^^(h 13))+((m 14)^^^(h 14)))).rotateLeft (19)) + (h 1)),
  (1, fun m h q => (((((m 6) ^^^ (h 6)) - ((m 8) ^^^ (h 8)) + ((m 11) ^^^ (h 11)) + ((m 14) ^^^ (h 14)) - ((m 15) ^^^ (h 15))) >>> 1) ^^^ ((((m 6) ^^^ (h 6)) - ((m 8) ^^^ (h 8)) + ((m 11) ^^^ (h 11)) + ((m 14) ^^^ (h 14)) - ((m 15) ^^^ (h 15))) <<< 2) ^^^ ((((m 6)^^^(h 6))-((m 8)^^^(h 8))+((m 11)^^^(h 11))+((m 14)^^^(h 14))-((m 15)^^^(h 15)))).rotateLeft (8) ^^^ ((((m 6)^^^(h 6))-((m 8)^^^(h 8))+((m 11)^^^(h 11))+((m 14)^^^(h 14))-((m 15)^^^(h 15)))).rotateLeft (23)) + (h 2)),
  (2, fun m h q => (((((m 0) ^^^ (h 0)) + ((m 7) ^^^ (h 7)) + ((m 9) ^^^ (h 9)) - ((m 12) ^^^ (h 12)) + ((m 15) ^^^ (h 15))) >>> 2) ^^^ ((((m 0) ^^^ (h 0)) + ((m 7) ^^^ (h 7)) + ((m 9) ^^^ (h 9)) - ((m 12) ^^^ (h 12)) + ((m 15) ^^^ (h 15))) <<< 1) ^^^ ((((m 0)^^^(h 0))+((m 7)^^^(h 7))+((m 9)^^^(h 9))-((m 12)^^^(h 12))+((m 15)^^^(h 15)))).rotateLeft (12) ^^^ ((((m 0)^^^(h 0))+((m 7)^^^(h 7))+((m 9)^^^(h 9))-((m 12)^^^(h 12))+((m 15)^^^(h 15)))).rotateLeft (25)) + (h 3)),
  (3, fun m h q => (((((m 0) ^^^ (h 0)) - ((m 1) ^^^ (h 1)) + ((m 8) ^^^ (h 8)) - ((m 10) ^^^ (h 10)) + ((m 13) ^^^ (h 13))) >>> 2) ^^^ ((((m 0) ^^^ (h 0)) - ((m 1) ^^^ (h 1)) + ((m 8) ^^^ (h 8)) - ((m 10) ^^^ (h 10)) + ((m 13) ^^^ (h 13))) <<< 2) ^^^ ((((m 0)^^^(h 0))-((m 1)^^^(h 1))+((m 8)^^^(h 8))-((m 10)^^^(h 10))+((m 13)^^^(h 13)))).rotateLeft (15) ^^^ ((((m 0)^^^(h 0))-((m 1)^^^(h 1))+((m 8)^^^(h 8))-((m 10)^^^(h 10))+((m 13)^^^(h 13)))).rotateLeft (29)) + (h 4)),
  (4, fun m h q => (((((m 1) ^^^ (h 1)) + ((m 2) ^^^ (h 2)) + ((m 9) ^^^ (h 9)) - ((m 11) ^^^ (h 11)) - ((m 14) ^^^ (h 14))) >>> 1) ^^^ (((m 1) ^^^ (h 1)) + ((m 2) ^^^ (h 2)) + ((m 9) ^^^ (h 9)) - ((m 11) ^^^ (h 11)) - ((m 14) ^^^ (h 14)))) + (h 5)),
  (5, fun m h q => (((((m 3) ^^^ (h 3)) - ((m 2) ^^^ (h 2)) + ((m 10) ^^^ (h 10)) - ((m 12) ^^^ (h 12)) + ((m 15) ^^^ (h 15))) >>> 1) ^^^ ((((m 3) ^^^ (h 3)) - ((m 2) ^^^ (h 2)) + ((m 10) ^^^ (h 10)) - ((m 12) ^^^ (h 12)) + ((m 15) ^^^ (h 15))) <<< 3) ^^^ ((((m 3)^^^(h 3))-((m 2)^^^(h 2))+((m 10)^^^(h 10))-((m 12)^^^(h 12))+((m 15)^^^(h 15)))).rotateLeft (4) ^^^ ((((m 3)^^^(h 3))-((m 2)^^^(h 2))+((m 10)^^^(h 10))-((m 12)^^^(h 12))+((m 15)^^^(h 15)))).rotateLeft (19)) + (h 6)),
  (6, fun m h q => (((((m 4) ^^^ (h 4)) - ((m 0) ^^^ (h 0)) - ((m 3) ^^^ (h 3)) - ((m 11) ^^^ (h 11)) + ((m 13) ^^^ (h 13))) >>> 1) ^^^ ((((m 4) ^^^ (h 4)) - ((m 0) ^^^ (h 0)) - ((m 3) ^^^ (h 3)) - ((m 11) ^^^ (h 11)) + ((m 13) ^^^ (h 13))) <<< 2) ^^^ ((((m 4)^^^(h 4))-((m 0)^^^(h 0))-((m 3)^^^(h 3))-((m 11)^^^(h 11))+((m 13)^^^(h 13)))).rotateLeft (8) ^^^ ((((m 4)^^^(h 4))-((m 0)^^^(h 0))-((m 3)^^^(h 3))-((m 11)^^^(h 11))+((m 13)^^^(h 13)))).rotateLeft (23)) + (h 7)),
  (7, fun m h q => (((((m 1) ^^^ (h 1)) - ((m 4) ^^^ (h 4)) - ((m 5) ^^^ (h 5)) - ((m 12) ^^^ (h 12)) - ((m 14) ^^^ (h 14))) >>> 2) ^^^ ((((m 1) ^^^ (h 1)) - ((m 4) ^^^ (h 4)) - ((m 5) ^^^ (h 5)) - ((m 12) ^^^ (h 12)) - ((m 14) ^^^ (h 14))) <<< 1) ^^^ ((((m 1)^^^(h 1))-((m 4)^^^(h 4))-((m 5)^^^(h 5))-((m 12)^^^(h 12))-((m 14)^^^(h 14)))).rotateLeft (12) ^^^ ((((m 1)^^^(h 1))-((m 4)^^^(h 4))-((m 5)^^^(h 5))-((m 12)^^^(h 12))-((m 14)^^^(h 14)))).rotateLeft (25)) + (h 8)),
  (8, fun m h q => (((((m 2) ^^^ (h 2)) - ((m 5) ^^^ (h 5)) - ((m 6) ^^^ (h 6)) + ((m 13) ^^^ (h 13)) - ((m 15) ^^^ (h 15))) >>> 2) ^^^ ((((m 2) ^^^ (h 2)) - ((m 5) ^^^ (h 5)) - ((m 6) ^^^ (h 6)) + ((m 13) ^^^ (h 13)) - ((m 15) ^^^ (h 15))) <<< 2) ^^^ ((((m 2)^^^(h 2))-((m 5)^^^(h 5))-((m 6)^^^(h 6))+((m 13)^^^(h 13))-((m 15)^^^(h 15)))).rotateLeft (15) ^^^ ((((m 2)^^^(h 2))-((m 5)^^^(h 5))-((m 6)^^^(h 6))+((m 13)^^^(h 13))-((m 15)^^^(h 15)))).rotateLeft (29)) + (h 9)),
  (9, fun m h q => (((((m 0) ^^^ (h 0)) - ((m 3) ^^^ (h 3)) + ((m 6) ^^^ (h 6)) - ((m 7) ^^^ (h 7)) + ((m 14) ^^^ (h 14))) >>> 1) ^^^ (((m 0) ^^^ (h 0)) - ((m 3) ^^^ (h 3)) + ((m 6) ^^^ (h 6)) - ((m 7) ^^^ (h 7)) + ((m 14) ^^^ (h 14)))) + (h 10)),
  (10, fun m h q => (((((m 8) ^^^ (h 8)) - ((m 1) ^^^ (h 1)) - ((m 4) ^^^ (h 4)) - ((m 7) ^^^ (h 7)) + ((m 15) ^^^ (h 15))) >>> 1) ^^^ ((((m 8) ^^^ (h 8)) - ((m 1) ^^^ (h 1)) - ((m 4) ^^^ (h 4)) - ((m 7) ^^^ (h 7)) + ((m 15) ^^^ (h 15))) <<< 3) ^^^ ((((m 8)^^^(h 8))-((m 1)^^^(h 1))-((m 4)^^^(h 4))-((m 7)^^^(h 7))+((m 15)^^^(h 15)))).rotateLeft (4) ^^^ ((((m 8)^^^(h 8))-((m 1)^^^(h 1))-((m 4)^^^(h 4))-((m 7)^^^(h 7))+((m 15)^^^(h 15)))).rotateLeft (19)) + (h 11)),
  (11, fun m h q => (((((m 8) ^^^ (h 8)) - ((m 0) ^^^ (h 0)) - ((m 2) ^^^ (h 2)) - ((m 5) ^^^ (h 5)) + ((m 9) ^^^ (h 9))) >>> 1) ^^^ ((((m 8) ^^^ (h 8)) - ((m 0) ^^^ (h 0)) - ((m 2) ^^^ (h 2)) - ((m 5) ^^^ (h 5)) + ((m 9) ^^^ (h 9))) <<< 2) ^^^ ((((m 8)^^^(h 8))-((m 0)^^^(h 0))-((m 2)^^^(h 2))-((m 5)^^^(h 5))+((m 9)^^^(h 9)))).rotateLeft (8) ^^^ ((((m 8)^^^(h 8))-((m 0)^^^(h 0))-((m 2)^^^(h 2))-((m 5)^^^(h 5))+((m 9)^^^(h 9)))).rotateLeft (23)) + (h 12)),
  (12, fun m h q => (((((m 1) ^^^ (h 1)) + ((m 3) ^^^ (h 3)) - ((m 6) ^^^ (h 6)) - ((m 9) ^^^ (h 9)) + ((m 10) ^^^ (h 10))) >>> 2) ^^^ ((((m 1) ^^^ (h 1)) + ((m 3) ^^^ (h 3)) - ((m 6) ^^^ (h 6)) - ((m 9) ^^^ (h 9)) + ((m 10) ^^^ (h 10))) <<< 1) ^^^ ((((m 1)^^^(h 1))+((m 3)^^^(h 3))-((m 6)^^^(h 6))-((m 9)^^^(h 9))+((m 10)^^^(h 10)))).rotateLeft (12) ^^^ ((((m 1)^^^(h 1))+((m 3)^^^(h 3))-((m 6)^^^(h 6))-((m 9)^^^(h 9))+((m 10)^^^(h 10)))).rotateLeft (25)) + (h 13)),
  (13, fun m h q => (((((m 2) ^^^ (h 2)) + ((m 4) ^^^ (h 4)) + ((m 7) ^^^ (h 7)) + ((m 10) ^^^ (h 10)) + ((m 11) ^^^ (h 11))) >>> 2) ^^^ ((((m 2) ^^^ (h 2)) + ((m 4) ^^^ (h 4)) + ((m 7) ^^^ (h 7)) + ((m 10) ^^^ (h 10)) + ((m 11) ^^^ (h 11))) <<< 2) ^^^ ((((m 2)^^^(h 2))+((m 4)^^^(h 4))+((m 7)^^^(h 7))+((m 10)^^^(h 10))+((m 11)^^^(h 11)))).rotateLeft (15) ^^^ ((((m 2)^^^(h 2))+((m 4)^^^(h 4))+((m 7)^^^(h 7))+((m 10)^^^(h 10))+((m 11)^^^(h 11)))).rotateLeft (29)) + (h 14)),
  (14, fun m h q => (((((m 3) ^^^ (h 3)) - ((m 5) ^^^ (h 5)) + ((m 8) ^^^ (h 8)) - ((m 11) ^^^ (h 11)) - ((m 12) ^^^ (h 12))) >>> 1) ^^^ (((m 3) ^^^ (h 3)) - ((m 5) ^^^ (h 5)) + ((m 8) ^^^ (h 8)) - ((m 11) ^^^ (h 11)) - ((m 12) ^^^ (h 12)))) + (h 15)),
  (15, fun m h q => (((((m 12) ^^^ (h 12)) - ((m 4) ^^^ (h 4)) - ((m 6) ^^^ (h 6)) - ((m 9) ^^^ (h 9)) + ((m 13) ^^^ (h 13))) >>> 1) ^^^ ((((m 12) ^^^ (h 12)) - ((m 4) ^^^ (h 4)) - ((m 6) ^^^ (h 6)) - ((m 9) ^^^ (h 9)) + ((m 13) ^^^ (h 13))) <<< 3) ^^^ ((((m 12)^^^(h 12))-((m 4)^^^(h 4))-((m 6)^^^(h 6))-((m 9)^^^(h 9))+((m 13)^^^(h 13)))).rotateLeft (4) ^^^ ((((m 12)^^^(h 12))-((m 4)^^^(h 4))-((m 6)^^^(h 6))-((m 9)^^^(h 9))+((m 13)^^^(h 13)))).rotateLeft (19)) + (h 0)),
  (16, fun m h q => ((((q 0) >>> 1) ^^^ ((q 0) <<< 2) ^^^ ((q 0)).rotateLeft (8) ^^^ ((q 0)).rotateLeft (23)) + (((q 1) >>> 2) ^^^ ((q 1) <<< 1) ^^^ ((q 1)).rotateLeft (12) ^^^ ((q 1)).rotateLeft (25)) + (((q 2) >>> 2) ^^^ ((q 2) <<< 2) ^^^ ((q 2)).rotateLeft (15) ^^^ ((q 2)).rotateLeft (29)) + (((q 3) >>> 1) ^^^ ((q 3) <<< 3) ^^^ ((q 3)).rotateLeft (4) ^^^ ((q 3)).rotateLeft (19)) + (((q 4) >>> 1) ^^^ ((q 4) <<< 2) ^^^ ((q 4)).rotateLeft (8) ^^^ ((q 4)).rotateLeft (23)) + (((q 5) >>> 2) ^^^ ((q 5) <<< 1) ^^^ ((q 5)).rotateLeft (12) ^^^ ((q 5)).rotateLeft (25)) + (((q 6) >>> 2) ^^^ ((q 6) <<< 2) ^^^ ((q 6)).rotateLeft (15) ^^^ ((q 6)).rotateLeft (29)) + (((q 7) >>> 1) ^^^ ((q 7) <<< 3) ^^^ ((q 7)).rotateLeft (4) ^^^ ((q 7)).rotateLeft (19)) + (((q 8) >>> 1) ^^^ ((q 8) <<< 2) ^^^ ((q 8)).rotateLeft (8) ^^^ ((q 8)).rotateLeft (23)) + (((q 9) >>> 2) ^^^ ((q 9) <<< 1) ^^^ ((q 9)).rotateLeft (12) ^^^ ((q 9)).rotateLeft (25)) + (((q 10) >>> 2) ^^^ ((q 10) <<< 2) ^^^ ((q 10)).rotateLeft (15) ^^^ ((q 10)).rotateLeft (29)) + (((q 11) >>> 1) ^^^ ((q 11) <<< 3) ^^^ ((q 11)).rotateLeft (4) ^^^ ((q 11)).rotateLeft (19)) + (((q 12) >>> 1) ^^^ ((q 12) <<< 2) ^^^ ((q 12)).rotateLeft (8) ^^^ ((q 12)).rotateLeft (23)) + (((q 13) >>> 2) ^^^ ((q 13) <<< 1) ^^^ ((q 13)).rotateLeft (12) ^^^ ((q 13)).rotateLeft (25)) + (((q 14) >>> 2) ^^^ ((q 14) <<< 2) ^^^ ((q 14)).rotateLeft (15) ^^^ ((q 14)).rotateLeft (29)) + (((q 15) >>> 1) ^^^ ((q 15) <<< 3) ^^^ ((q 15)).rotateLeft (4) ^^^ ((q 15)).rotateLeft (19)) + ((((m 0)).rotateLeft (1) + ((m 3)).rotateLeft (4) - ((m 10)).rotateLeft (11) + (16 * 0x05555555)) ^^^ (h 7)))),
  (17, fun m h q => ((((q 1) >>> 1) ^^^ ((q 1) <<< 2) ^^^ ((q 1)).rotateLeft (8) ^^^ ((q 1)).rotateLeft (23)) + (((q 2) >>> 2) ^^^ ((q 2) <<< 1) ^^^ ((q 2)).rotateLeft (12) ^^^ ((q 2)).rotateLeft (25)) + (((q 3) >>> 2) ^^^ ((q 3) <<< 2) ^^^ ((q 3)).rotateLeft (15) ^^^ ((q 3)).rotateLeft (29)) + (((q 4) >>> 1) ^^^ ((q 4) <<< 3) ^^^ ((q 4)).rotateLeft (4) ^^^ ((q 4)).rotateLeft (19)) + (((q 5) >>> 1) ^^^ ((q 5) <<< 2) ^^^ ((q 5)).rotateLeft (8) ^^^ ((q 5)).rotateLeft (23)) + (((q 6) >>> 2) ^^^ ((q 6) <<< 1) ^^^ ((q 6)).rotateLeft (12) ^^^ ((q 6)).rotateLeft (25)) + (((q 7) >>> 2) ^^^ ((q 7) <<< 2) ^^^ ((q 7)).rotateLeft (15) ^^^ ((q 7)).rotateLeft (29)) + (((q 8) >>> 1) ^^^ ((q 8) <<< 3) ^^^ ((q 8)).rotateLeft (4) ^^^ ((q 8)).rotateLeft (19)) + (((q 9) >>> 1) ^^^ ((q 9) <<< 2) ^^^ ((q 9)).rotateLeft (8) ^^^ ((q 9)).rotateLeft (23)) + (((q 10) >>> 2) ^^^ ((q 10) <<< 1) ^^^ ((q 10)).rotateLeft (12) ^^^ ((q 10)).rotateLeft (25)) + (((q 11) >>> 2) ^^^ ((q 11) <<< 2) ^^^ ((q 11)).rotateLeft (15) ^^^ ((q 11)).rotateLeft (29)) + (((q 12) >>> 1) ^^^ ((q 12) <<< 3) ^^^ ((q 12)).rotateLeft (4) ^^^ ((q 12)).rotateLeft (19)) + (((q 13) >>> 1) ^^^ ((q 13) <<< 2) ^^^ ((q 13)).rotateLeft (8) ^^^ ((q 13)).rotateLeft (23)) + (((q 14) >>> 2) ^^^ ((q 14) <<< 1) ^^^ ((q 14)).rotateLeft (12) ^^^ ((q 14)).rotateLeft (25)) + (((q 15) >>> 2) ^^^ ((q 15) <<< 2) ^^^ ((q 15)).rotateLeft (15) ^^^ ((q 15)).rotateLeft (29)) + (((q 16) >>> 1) ^^^ ((q 16) <<< 3) ^^^ ((q 16)).rotateLeft (4) ^^^ ((q 16)).rotateLeft (19)) + ((((m 1)).rotateLeft (2) + ((m 4)).rotateLeft (5) - ((m 11)).rotateLeft (12) + (17 * 0x05555555)) ^^^ (h 8)))),
  (18, fun m h q => ((q 2) + ((q 3)).rotateLeft (3) + (q 4) + ((q 5)).rotateLeft (7) + (q 6) + ((q 7)).rotateLeft (13) + (q 8) + ((q 9)).rotateLeft (16) + (q 10) + ((q 11)).rotateLeft (19) + (q 12) + ((q 13)).rotateLeft (23) + (q 14) + ((q 15)).rotateLeft (27) + (((q 16) >>> 1) ^^^ (q 16)) + (((q 17) >>> 2) ^^^ (q 17)) + ((((m 2)).rotateLeft (3) + ((m 5)).rotateLeft (6) - ((m 12)).rotateLeft (13) + (18 * 0x05555555)) ^^^ (h 9)))),
  (19, fun m h q => ((q 3) + ((q 4)).rotateLeft (3) + (q 5) + ((q 6)).rotateLeft (7) + (q 7) + ((q 8)).rotateLeft (13) + (q 9) + ((q 10)).rotateLeft (16) + (q 11) + ((q 12)).rotateLeft (19) + (q 13) + ((q 14)).rotateLeft (23) + (q 15) + ((q 16)).rotateLeft (27) + (((q 17) >>> 1) ^^^ (q 17)) + (((q 18) >>> 2) ^^^ (q 18)) + ((((m 3)).rotateLeft (4) + ((m 6)).rotateLeft (7) - ((m 13)).rotateLeft (14) + (19 * 0x05555555)) ^^^ (h 10)))),
  (20, fun m h q => ((q 4) + ((q 5)).rotateLeft (3) + (q 6) + ((q 7)).rotateLeft (7) + (q 8) + ((q 9)).rotateLeft (13) + (q 10) + ((q 11)).rotateLeft (16) + (q 12) + ((q 13)).rotateLeft (19) + (q 14) + ((q 15)).rotateLeft (23) + (q 16) + ((q 17)).rotateLeft (27) + (((q 18) >>> 1) ^^^ (q 18)) + (((q 19) >>> 2) ^^^ (q 19)) + ((((m 4)).rotateLeft (5) + ((m 7)).rotateLeft (8) - ((m 14)).rotateLeft (15) + (20 * 0x05555555)) ^^^ (h 11)))),
  (21, fun m h q => ((q 5) + ((q 6)).rotateLeft (3) + (q 7) + ((q 8)).rotateLeft (7) + (q 9) + ((q 10)).rotateLeft (13) + (q 11) + ((q 12)).rotateLeft (16) + (q 13) + ((q 14)).rotateLeft (19) + (q 15) + ((q 16)).rotateLeft (23) + (q 17) + ((q 18)).rotateLeft (27) + (((q 19) >>> 1) ^^^ (q 19)) + (((q 20) >>> 2) ^^^ (q 20)) + ((((m 5)).rotateLeft (6) + ((m 8)).rotateLeft (9) - ((m 15)).rotateLeft (16) + (21 * 0x05555555)) ^^^ (h 12)))),
  (22, fun m h q => ((q 6) + ((q 7)).rotateLeft (3) + (q 8) + ((q 9)).rotateLeft (7) + (q 10) + ((q 11)).rotateLeft (13) + (q 12) + ((q 13)).rotateLeft (16) + (q 14) + ((q 15)).rotateLeft (19) + (q 16) + ((q 17)).rotateLeft (23) + (q 18) + ((q 19)).rotateLeft (27) + (((q 20) >>> 1) ^^^ (q 20)) + (((q 21) >>> 2) ^^^ (q 21)) + ((((m 6)).rotateLeft (7) + ((m 9)).rotateLeft (10) - ((m 0)).rotateLeft (1) + (22 * 0x05555555)) ^^^ (h 13)))),
  (23, fun m h q => ((q 7) + ((q 8)).rotateLeft (3) + (q 9) + ((q 10)).rotateLeft (7) + (q 11) + ((q 12)).rotateLeft (13) + (q 13) + ((q 14)).rotateLeft (16) + (q 15) + ((q 16)).rotateLeft (19) + (q 17) + ((q 18)).rotateLeft (23) + (q 19) + ((q 20)).rotateLeft (27) + (((q 21) >>> 1) ^^^ (q 21)) + (((q 22) >>> 2) ^^^ (q 22)) + ((((m 7)).rotateLeft (8) + ((m 10)).rotateLeft (11) - ((m 1)).rotateLeft (2) + (23 * 0x05555555)) ^^^ (h 14)))),
  (24, fun m h q => ((q 8) + ((q 9)).rotateLeft (3) + (q 10) + ((q 11)).rotateLeft (7) + (q 12) + ((q 13)).rotateLeft (13) + (q 14) + ((q 15)).rotateLeft (16) + (q 16) + ((q 17)).rotateLeft (19) + (q 18) + ((q 19)).rotateLeft (23) + (q 20) + ((q 21)).rotateLeft (27) + (((q 22) >>> 1) ^^^ (q 22)) + (((q 23) >>> 2) ^^^ (q 23)) + ((((m 8)).rotateLeft (9) + ((m 11)).rotateLeft (12) - ((m 2)).rotateLeft (3) + (24 * 0x05555555)) ^^^ (h 15)))),
  (25, fun m h q => ((q 9) + ((q 10)).rotateLeft (3) + (q 11) + ((q 12)).rotateLeft (7) + (q 13) + ((q 14)).rotateLeft (13) + (q 15) + ((q 16)).rotateLeft (16) + (q 17) + ((q 18)).rotateLeft (19) + (q 19) + ((q 20)).rotateLeft (23) + (q 21) + ((q 22)).rotateLeft (27) + (((q 23) >>> 1) ^^^ (q 23)) + (((q 24) >>> 2) ^^^ (q 24)) + ((((m 9)).rotateLeft (10) + ((m 12)).rotateLeft (13) - ((m 3)).rotateLeft (4) + (25 * 0x05555555)) ^^^ (h 0)))),
  (26, fun m h q => ((q 10) + ((q 11)).rotateLeft (3) + (q 12) + ((q 13)).rotateLeft (7) + (q 14) + ((q 15)).rotateLeft (13) + (q 16) + ((q 17)).rotateLeft (16) + (q 18) + ((q 19)).rotateLeft (19) + (q 20) + ((q 21)).rotateLeft (23) + (q 22) + ((q 23)).rotateLeft (27) + (((q 24) >>> 1) ^^^ (q 24)) + (((q 25) >>> 2) ^^^ (q 25)) + ((((m 10)).rotateLeft (11) + ((m 13)).rotateLeft (14) - ((m 4)).rotateLeft (5) + (26 * 0x05555555)) ^^^ (h 1)))),
  (27, fun m h q => ((q 11) + ((q 12)).rotateLeft (3) + (q 13) + ((q 14)).rotateLeft (7) + (q 15) + ((q 16)).rotateLeft (13) + (q 17) + ((q 18)).rotateLeft (16) + (q 19) + ((q 20)).rotateLeft (19) + (q 21) + ((q 22)).rotateLeft (23) + (q 23) + ((q 24)).rotateLeft (27) + (((q 25) >>> 1) ^^^ (q 25)) + (((q 26) >>> 2) ^^^ (q 26)) + ((((m 11)).rotateLeft (12) + ((m 14)).rotateLeft (15) - ((m 5)).rotateLeft (6) + (27 * 0x05555555)) ^^^ (h 2)))),
  (28, fun m h q => ((q 12) + ((q 13)).rotateLeft (3) + (q 14) + ((q 15)).rotateLeft (7) + (q 16) + ((q 17)).rotateLeft (13) + (q 18) + ((q 19)).rotateLeft (16) + (q 20) + ((q 21)).rotateLeft (19) + (q 22) + ((q 23)).rotateLeft (23) + (q 24) + ((q 25)).rotateLeft (27) + (((q 26) >>> 1) ^^^ (q 26)) + (((q 27) >>> 2) ^^^ (q 27)) + ((((m 12)).rotateLeft (13) + ((m 15)).rotateLeft (16) - ((m 6)).rotateLeft (7) + (28 * 0x05555555)) ^^^ (h 3)))),
  (29, fun m h q => ((q 13) + ((q 14)).rotateLeft (3) + (q 15) + ((q 16)).rotateLeft (7) + (q 17) + ((q 18)).rotateLeft (13) + (q 19) + ((q 20)).rotateLeft (16) + (q 21) + ((q 22)).rotateLeft (19) + (q 23) + ((q 24)).rotateLeft (23) + (q 25) + ((q 26)).rotateLeft (27) + (((q 27) >>> 1) ^^^ (q 27)) + (((q 28) >>> 2) ^^^ (q 28)) + ((((m 13)).rotateLeft (14) + ((m 0)).rotateLeft (1) - ((m 7)).rotateLeft (8) + (29 * 0x05555555)) ^^^ (h 4)))),
  (30, fun m h q => ((q 14) + ((q 15)).rotateLeft (3) + (q 16) + ((q 17)).rotateLeft (7) + (q 18) + ((q 19)).rotateLeft (13) + (q 20) + ((q 21)).rotateLeft (16) + (q 22) + ((q 23)).rotateLeft (19) + (q 24) + ((q 25)).rotateLeft (23) + (q 26) + ((q 27)).rotateLeft (27) + (((q 28) >>> 1) ^^^ (q 28)) + (((q 29) >>> 2) ^^^ (q 29)) + ((((m 14)).rotateLeft (15) + ((m 1)).rotateLeft (2) - ((m 8)).rotateLeft (9) + (30 * 0x05555555)) ^^^ (h 5)))),
  (31, fun m h q => ((q 15) + ((q 16)).rotateLeft (3) + (q 17) + ((q 18)).rotateLeft (7) + (q 19) + ((q 20)).rotateLeft (13) + (q 21) + ((q 22)).rotateLeft (16) + (q 23) + ((q 24)).rotateLeft (19) + (q 25) + ((q 26)).rotateLeft (23) + (q 27) + ((q 28)).rotateLeft (27) + (((q 29) >>> 1) ^^^ (q 29)) + (((q 30) >>> 2) ^^^ (q 30)) + ((((m 15)).rotateLeft (16) + ((m 2)).rotateLeft (3) - ((m 9)).rotateLeft (10) + (31 * 0x05555555)) ^^^ (h 6))))]

/-- bmw/digest256.go:165 -/
def xl256 (q : Nat → U32) : U32 := (q 16) ^^^ (q 17) ^^^ (q 18) ^^^ (q 19) ^^^ (q 20) ^^^ (q 21) ^^^ (q 22) ^^^ (q 23)
/-- bmw/digest256.go:166 -/
def xh256 (xl : U32) (q : Nat → U32) : U32 := xl ^^^ (q 24) ^^^ (q 25) ^^^ (q 26) ^^^ (q 27) ^^^ (q 28) ^^^ (q 29) ^^^ (q 30) ^^^ (q 31)

/-- bmw/digest256.go:168-183 -/
def hStmts256 : List (Nat × (U32 → U32 → (Nat → U32) → (Nat → U32) → (Nat → U32) → U32)) := [
  (0, fun xl xh m q h => ((xh <<< 5) ^^^ ((q 16) >>> 5) ^^^ (m 0)) + (xl ^^^ (q 24) ^^^ (q 0))),
  (1, fun xl xh m q h => ((xh >>> 7) ^^^ ((q 17) <<< 8) ^^^ (m 1)) + (xl ^^^ (q 25) ^^^ (q 1))),
  (2, fun xl xh m q h => ((xh >>> 5) ^^^ ((q 18) <<< 5) ^^^ (m 2)) + (xl ^^^ (q 26) ^^^ (q 2))),
  (3, fun xl xh m q h => ((xh >>> 1) ^^^ ((q 19) <<< 5) ^^^ (m 3)) + (xl ^^^ (q 27) ^^^ (q 3))),
  (4, fun xl xh m q h => ((xh >>> 3) ^^^ ((q 20) <<< 0) ^^^ (m 4)) + (xl ^^^ (q 28) ^^^ (q 4))),
  (5, fun xl xh m q h => ((xh <<< 6) ^^^ ((q 21) >>> 6) ^^^ (m 5)) + (xl ^^^ (q 29) ^^^ (q 5))),
  (6, fun xl xh m q h => ((xh >>> 4) ^^^ ((q 22) <<< 6) ^^^ (m 6)) + (xl ^^^ (q 30) ^^^ (q 6))),
  (7, fun xl xh m q h => ((xh >>> 11) ^^^ ((q 23) <<< 2) ^^^ (m 7)) + (xl ^^^ (q 31) ^^^ (q 7))),
  (8, fun xl xh m q h => ((h 4)).rotateLeft (9) + (xh ^^^ (q 24) ^^^ (m 8)) + ((xl <<< 8) ^^^ (q 23) ^^^ (q 8))),
  (9, fun xl xh m q h => ((h 5)).rotateLeft (10) + (xh ^^^ (q 25) ^^^ (m 9)) + ((xl >>> 6) ^^^ (q 16) ^^^ (q 9))),
  (10, fun xl xh m q h => ((h 6)).rotateLeft (11) + (xh ^^^ (q 26) ^^^ (m 10)) + ((xl <<< 6) ^^^ (q 17) ^^^ (q 10))),
  (11, fun xl xh m q h => ((h 7)).rotateLeft (12) + (xh ^^^ (q 27) ^^^ (m 11)) + ((xl <<< 4) ^^^ (q 18) ^^^ (q 11))),
  (12, fun xl xh m q h => ((h 0)).rotateLeft (13) + (xh ^^^ (q 28) ^^^ (m 12)) + ((xl >>> 3) ^^^ (q 19) ^^^ (q 12))),
  (13, fun xl xh m q h => ((h 1)).rotateLeft (14) + (xh ^^^ (q 29) ^^^ (m 13)) + ((xl >>> 4) ^^^ (q 20) ^^^ (q 13))),
  (14, fun xl xh m q h => ((h 2)).rotateLeft (15) + (xh ^^^ (q 30) ^^^ (m 14)) + ((xl >>> 7) ^^^ (q 21) ^^^ (q 14))),
  (15, fun xl xh m q h => ((h 3)).rotateLeft (16) + (xh ^^^ (q 31) ^^^ (m 15)) + ((xl >>> 2) ^^^ (q 22) ^^^ (q 15)))]

/-- bmw/digest512.go:134-149 -/
def wStmts512 : List (Nat × ((Nat → U64) → (Nat → U64) → U64)) := [
  (0, fun m h => ((m 5) ^^^ (h 5)) - ((m 7) ^^^ (h 7)) + ((m 10) ^^^ (h 10)) + ((m 13) ^^^ (h 13)) + ((m 14) ^^^ (h 14))),
  (1, fun m h => ((m 6) ^^^ (h 6)) - ((m 8) ^^^ (h 8)) + ((m 11) ^^^ (h 11)) + ((m 14) ^^^ (h 14)) - ((m 15) ^^^ (h 15))),
  (2, fun m h => ((m 0) ^^^ (h 0)) + ((m 7) ^^^ (h 7)) + ((m 9) ^^^ (h 9)) - ((m 12) ^^^ (h 12)) + ((m 15) ^^^ (h 15))),
  (3, fun m h => ((m 0) ^^^ (h 0)) - ((m 1) ^^^ (h 1)) + ((m 8) ^^^ (h 8)) - ((m 10) ^^^ (h 10)) + ((m 13) ^^^ (h 13))),
  (4, fun m h => ((m 1) ^^^ (h 1)) + ((m 2) ^^^ (h 2)) + ((m 9) ^^^ (h 9)) - ((m 11) ^^^ (h 11)) - ((m 14) ^^^ (h 14))),
  (5, fun m h => ((m 3) ^^^ (h 3)) - ((m 2) ^^^ (h 2)) + ((m 10) ^^^ (h 10)) - ((m 12) ^^^ (h 12)) + ((m 15) ^^^ (h 15))),
  (6, fun m h => ((m 4) ^^^ (h 4)) - ((m 0) ^^^ (h 0)) - ((m 3) ^^^ (h 3)) - ((m 11) ^^^ (h 11)) + ((m 13) ^^^ (h 13))),
  (7, fun m h => ((m 1) ^^^ (h 1)) - ((m 4) ^^^ (h 4)) - ((m 5) ^^^ (h 5)) - ((m 12) ^^^ (h 12)) - ((m 14) ^^^ (h 14))),
  (8, fun m h => ((m 2) ^^^ (h 2)) - ((m 5) ^^^ (h 5)) - ((m 6) ^^^ (h 6)) + ((m 13) ^^^ (h 13)) - ((m 15) ^^^ (h 15))),
  (9, fun m h => ((m 0) ^^^ (h 0)) - ((m 3) ^^^ (h 3)) + ((m 6) ^^^ (h 6)) - ((m 7) ^^^ (h 7)) + ((m 14) ^^^ (h 14))),
  (10, fun m h => ((m 8) ^^^ (h 8)) - ((m 1) ^^^ (h 1)) - ((m 4) ^^^ (h 4)) - ((m 7) ^^^ (h 7)) + ((m 15) ^^^ (h 15))),
  (11, fun m h => ((m 8) ^^^ (h 8)) - ((m 0) ^^^ (h 0)) - ((m 2) ^^^ (h 2)) - ((m 5) ^^^ (h 5)) + ((m 9) ^^^ (h 9))),
  (12, fun m h => ((m 1) ^^^ (h 1)) + ((m 3) ^^^ (h 3)) - ((m 6) ^^^ (h 6)) - ((m 9) ^^^ (h 9)) + ((m 10) ^^^ (h 10))),
  (13, fun m h => ((m 2) ^^^ (h 2)) + ((m 4) ^^^ (h 4)) + ((m 7) ^^^ (h 7)) + ((m 10) ^^^ (h 10)) + ((m 11) ^^^ (h 11))),
  (14, fun m h => ((m 3) ^^^ (h 3)) - ((m 5) ^^^ (h 5)) + ((m 8) ^^^ (h 8)) - ((m 11) ^^^ (h 11)) - ((m 12) ^^^ (h 12))),
  (15, fun m h => ((m 12) ^^^ (h 12)) - ((m 4) ^^^ (h 4)) - ((m 6) ^^^ (h 6)) - ((m 9) ^^^ (h 9)) + ((m 13) ^^^ (h 13)))]

/-- bmw/digest512.go:151-157, the loop over u unrolled -/
def qStmts512_0 : List (Nat × ((Nat → U64) → (Nat → U64) → (Nat → U64) → (Nat → U64) → U64)) := [0, 5, 10].flatMap fun u => [
  (u + 0, fun m h w q => (((w (u + 0)) >>> 1) ^^^ ((w (u + 0)) <<< 3) ^^^ ((w (u + 0))).rotateLeft (4) ^^^ ((w (u + 0))).rotateLeft (37)) + (h (u + 1))),
  (u + 1, fun m h w q => (((w (u + 1)) >>> 1) ^^^ ((w (u + 1)) <<< 2) ^^^ ((w (u + 1))).rotateLeft (13) ^^^ ((w (u + 1))).rotateLeft (43)) + (h (u + 2))),
  (u + 2, fun m h w q => (((w (u + 2)) >>> 2) ^^^ ((w (u + 2)) <<< 1) ^^^ ((w (u + 2))).rotateLeft (19) ^^^ ((w (u + 2))).rotateLeft (53)) + (h (u + 3))),
  (u + 3, fun m h w q => (((w (u + 3)) >>> 2) ^^^ ((w (u + 3)) <<< 2) ^^^ ((w (u + 3))).rotateLeft (28) ^^^ ((w (u + 3))).rotateLeft (59)) + (h (u + 4))),
  (u + 4, fun m h w q => (((w (u + 4)) >>> 1) ^^^ (w (u + 4))) + (h (u + 5)))]

/-- bmw/digest512.go:159-161 -/
def qStmts512_1 : List (Nat × ((Nat → U64) → (Nat → U64) → (Nat → U64) → (Nat → U64) → U64)) := [
  (15, fun m h w q => (((w 15) >>> 1) ^^^ ((w 15) <<< 3) ^^^ ((w 15)).rotateLeft (4) ^^^ ((w 15)).rotateLeft (37)) + (h 0))]

/-- bmw/digest512.go:163-216, the loop over u unrolled -/
def qStmts512_2 : List (Nat × ((Nat → U64) → (Nat → U64) → (Nat → U64) → (Nat → U64) → U64)) := [16, 17].flatMap fun u => [
  (u, fun m h w q => (((q (u - 16)) >>> 1) ^^^ ((q (u - 16)) <<< 2) ^^^ ((q (u - 16))).rotateLeft (13) ^^^ ((q (u - 16))).rotateLeft (43)) + (((q (u - 15)) >>> 2) ^^^ ((q (u - 15)) <<< 1) ^^^ ((q (u - 15))).rotateLeft (19) ^^^ ((q (u - 15))).rotateLeft (53)) + (((q (u - 14)) >>> 2) ^^^ ((q (u - 14)) <<< 2) ^^^ ((q (u - 14))).rotateLeft (28) ^^^ ((q (u - 14))).rotateLeft (59)) + (((q (u - 13)) >>> 1) ^^^ ((q (u - 13)) <<< 3) ^^^ ((q (u - 13))).rotateLeft (4) ^^^ ((q (u - 13))).rotateLeft (37)) + (((q (u - 12)) >>> 1) ^^^ ((q (u - 12)) <<< 2) ^^^ ((q (u - 12))).rotateLeft (13) ^^^ ((q (u - 12))).rotateLeft (43)) + (((q (u - 11)) >>> 2) ^^^ ((q (u - 11)) <<< 1) ^^^ ((q (u - 11))).rotateLeft (19) ^^^ ((q (u - 11))).rotateLeft (53)) + (((q (u - 10)) >>> 2) ^^^ ((q (u - 10)) <<< 2) ^^^ ((q (u - 10))).rotateLeft (28) ^^^ ((q (u - 10))).rotateLeft (59)) + (((q (u - 9)) >>> 1) ^^^ ((q (u - 9)) <<< 3) ^^^ ((q (u - 9))).rotateLeft (4) ^^^ ((q (u - 9))).rotateLeft (37)) + (((q (u - 8)) >>> 1) ^^^ ((q (u - 8)) <<< 2) ^^^ ((q (u - 8))).rotateLeft (13) ^^^ ((q (u - 8))).rotateLeft (43)) + (((q (u - 7)) >>> 2) ^^^ ((q (u - 7)) <<< 1) ^^^ ((q (u - 7))).rotateLeft (19) ^^^ ((q (u - 7))).rotateLeft (53)) + (((q (u - 6)) >>> 2) ^^^ ((q (u - 6)) <<< 2) ^^^ ((q (u - 6))).rotateLeft (28) ^^^ ((q (u - 6))).rotateLeft (59)) + (((q (u - 5)) >>> 1) ^^^ ((q (u - 5)) <<< 3) ^^^ ((q (u - 5))).rotateLeft (4) ^^^ ((q (u - 5))).rotateLeft (37)) + (((q (u - 4)) >>> 1) ^^^ ((q (u - 4)) <<< 2) ^^^ ((q (u - 4))).rotateLeft (13) ^^^ ((q (u - 4))).rotateLeft (43)) + (((q (u - 3)) >>> 2) ^^^ ((q (u - 3)) <<< 1) ^^^ ((q (u - 3))).rotateLeft (19) ^^^ ((q (u - 3))).rotateLeft (53)) + (((q (u - 2)) >>> 2) ^^^ ((q (u - 2)) <<< 2) ^^^ ((q (u - 2))).rotateLeft (28) ^^^ ((q (u - 2))).rotateLeft (59)) + (((q (u - 1)) >>> 1) ^^^ ((q (u - 1)) <<< 3) ^^^ ((q (u - 1))).rotateLeft (4) ^^^ ((q (u - 1))).rotateLeft (37)) + ((((m ((u - 16 + 0) &&& 15))).rotateLeft (((u - 16 + 0) &&& 15) + 1) + ((m ((u - 16 + 3) &&& 15))).rotateLeft (((u - 16 + 3) &&& 15) + 1) - ((m ((u - 16 + 10) &&& 15))).rotateLeft (((u - 16 + 10) &&& 15) + 1) + (K512.getD (u - 16) 0)) ^^^ (h ((u - 16 + 7) &&& 15))))]

/-- bmw/digest512.go:218-232, the loop over u unrolled -/
def qStmts512_3 : List (Nat × ((Nat → U64) → (Nat → U64) → (Nat → U64) → (Nat → U64) → U64)) := [18, 19, 20, 21, 22, 23, 24, 25, 26, 27, 28, 29, 30, 31].flatMap fun u => [
  (u, fun m h w q => (q (u - 16)) + ((q (u - 15))).rotateLeft (5) + (q (u - 14)) + ((q (u - 13))).rotateLeft (11) + (q (u - 12)) + ((q (u - 11))).rotateLeft (27) + (q (u - 10)) + ((q (u - 9))).rotateLeft (32) + (q (u - 8)) + ((q (u - 7))).rotateLeft (37) + (q (u - 6)) + ((q (u - 5))).rotateLeft (43) + (q (u - 4)) + ((q (u - 3))).rotateLeft (53) + (((q (u - 2)) >>> 1) ^^^ (q (u - 2))) + (((q (u - 1)) >>> 2) ^^^ (q (u - 1))) + ((((m ((u - 16 + 0) &&& 15))).rotateLeft (((u - 16 + 0) &&& 15) + 1) + ((m ((u - 16 + 3) &&& 15))).rotateLeft (((u - 16 + 3) &&& 15) + 1) - ((m ((u - 16 + 10) &&& 15))).rotateLeft (((u - 16 + 10) &&& 15) + 1) + (K512.getD (u - 16) 0)) ^^^ (h ((u - 16 + 7) &&& 15))))]

/-- bmw/digest512.go:151-232 -/
def qStmts512 := qStmts512_0 ++ qStmts512_1 ++ qStmts512_2 ++ qStmts512_3
/-- bmw/digest512.go:234 -/
def xl512 (q : Nat → U64) : U64 := (q 16) ^^^ (q 17) ^^^ (q 18) ^^^ (q 19) ^^^ (q 20) ^^^ (q 21) ^^^ (q 22) ^^^ (q 23)
/-- bmw/digest512.go:236 -/
def xh512 (xl : U64) (q : Nat → U64) : U64 := xl ^^^ (q 24) ^^^ (q 25) ^^^ (q 26) ^^^ (q 27) ^^^ (q 28) ^^^ (q 29) ^^^ (q 30) ^^^ (q 31)

/-- bmw/digest512.go:238-261 -/
def hStmts512 : List (Nat × (U64 → U64 → (Nat → U64) → (Nat → U64) → (Nat → U64) → U64)) := [
  (0, fun xl xh m q h => ((xh <<< 5) ^^^ ((q 16) >>> 5) ^^^ (m 0)) + (xl ^^^ (q 24) ^^^ (q 0))),
  (1, fun xl xh m q h => ((xh >>> 7) ^^^ ((q 17) <<< 8) ^^^ (m 1)) + (xl ^^^ (q 25) ^^^ (q 1))),
  (2, fun xl xh m q h => ((xh >>> 5) ^^^ ((q 18) <<< 5) ^^^ (m 2)) + (xl ^^^ (q 26) ^^^ (q 2))),
  (3, fun xl xh m q h => ((xh >>> 1) ^^^ ((q 19) <<< 5) ^^^ (m 3)) + (xl ^^^ (q 27) ^^^ (q 3))),
  (4, fun xl xh m q h => ((xh >>> 3) ^^^ ((q 20) <<< 0) ^^^ (m 4)) + (xl ^^^ (q 28) ^^^ (q 4))),
  (5, fun xl xh m q h => ((xh <<< 6) ^^^ ((q 21) >>> 6) ^^^ (m 5)) + (xl ^^^ (q 29) ^^^ (q 5))),
  (6, fun xl xh m q h => ((xh >>> 4) ^^^ ((q 22) <<< 6) ^^^ (m 6)) + (xl ^^^ (q 30) ^^^ (q 6))),
  (7, fun xl xh m q h => ((xh >>> 11) ^^^ ((q 23) <<< 2) ^^^ (m 7)) + (xl ^^^ (q 31) ^^^ (q 7))),
  (8, fun xl xh m q h => ((h 4)).rotateLeft (9) + (xh ^^^ (q 24) ^^^ (m 8)) + ((xl <<< 8) ^^^ (q 23) ^^^ (q 8))),
  (9, fun xl xh m q h => ((h 5)).rotateLeft (10) + (xh ^^^ (q 25) ^^^ (m 9)) + ((xl >>> 6) ^^^ (q 16) ^^^ (q 9))),
  (10, fun xl xh m q h => ((h 6)).rotateLeft (11) + (xh ^^^ (q 26) ^^^ (m 10)) + ((xl <<< 6) ^^^ (q 17) ^^^ (q 10))),
  (11, fun xl xh m q h => ((h 7)).rotateLeft (12) + (xh ^^^ (q 27) ^^^ (m 11)) + ((xl <<< 4) ^^^ (q 18) ^^^ (q 11))),
  (12, fun xl xh m q h => ((h 0)).rotateLeft (13) + (xh ^^^ (q 28) ^^^ (m 12)) + ((xl >>> 3) ^^^ (q 19) ^^^ (q 12))),
  (13, fun xl xh m q h => ((h 1)).rotateLeft (14) + (xh ^^^ (q 29) ^^^ (m 13)) + ((xl >>> 4) ^^^ (q 20) ^^^ (q 13))),
  (14, fun xl xh m q h => ((h 2)).rotateLeft (15) + (xh ^^^ (q 30) ^^^ (m 14)) + ((xl >>> 7) ^^^ (q 21) ^^^ (q 14))),
  (15, fun xl xh m q h => ((h 3)).rotateLeft (16) + (xh ^^^ (q 31) ^^^ (m 15)) + ((xl >>> 2) ^^^ (q 22) ^^^ (q 15)))]

end Verif.BMW
