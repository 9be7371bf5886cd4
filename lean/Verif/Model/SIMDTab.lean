import Verif.Words
/-
Generated by tools/gen_simd.py: the tables of simd/sbox.go.
-/
namespace Verif.SIMD

/-- simd/sbox.go:3-8 -/
def iv224 : List U32 := [
  0x33586e9f#32, 0x12fff033#32, 0xb2d9f64d#32, 0x6f8fea53#32, 0xde943106#32, 0x2742e439#32, 0x4fbab5ac#32, 0x62b9ff96#32, 0x22e7b0af#32, 0xc862b3a8#32, 0x33e00cdc#32, 0x236b86a6#32, 0xf64ae77c#32, 0xfa373b76#32, 0x7dc1ee5b#32, 0x7fb29ce8#32]
/-- simd/sbox.go:10-15 -/
def iv256 : List U32 := [
  0x4d567983#32, 0x07190ba9#32, 0x8474577b#32, 0x39d726e9#32, 0xaaf3d925#32, 0x3ee20b03#32, 0xafd5e751#32, 0xc96006d3#32, 0xc2c2ba14#32, 0x49b3bcb4#32, 0xf67caf46#32, 0x668626c9#32, 0xe2eaa8d2#32, 0x1ff47833#32, 0xd0c661a5#32, 0x55693de1#32]
/-- simd/sbox.go:17-26 -/
def iv384 : List U32 := [
  0x8a36eebc#32, 0x94a3bd90#32, 0xd1537b83#32, 0xb25b070b#32, 0xf463f1b5#32, 0xb6f81e20#32, 0x0055c339#32, 0xb4d144d1#32, 0x7360ca61#32, 0x18361a03#32, 0x17dcb4b9#32, 0x3414c45a#32, 0xa699a9d2#32, 0xe39e9664#32, 0x468bfe77#32, 0x51d062f8#32,
  0xb9e3bfe8#32, 0x63bece2a#32, 0x8fe506b9#32, 0xf8cc4ac2#32, 0x7ae11542#32, 0xb1aadda1#32, 0x64b06794#32, 0x28d2f462#32, 0xe64071ec#32, 0x1deb91a8#32, 0x8ac8db23#32, 0x3f782ab5#32, 0x039b5cb8#32, 0x71ddd962#32, 0xfade2cea#32, 0x1416df71#32]
/-- simd/sbox.go:28-37 -/
def iv512 : List U32 := [
  0x0ba16b95#32, 0x72f999ad#32, 0x9fecc2ae#32, 0xba3264fc#32, 0x5e894929#32, 0x8e9f30e5#32, 0x2f1daa37#32, 0xf0f2c558#32, 0xac506643#32, 0xa90635a5#32, 0xe25b878b#32, 0xaab7878f#32, 0x88817f7a#32, 0x0a02892b#32, 0x559a7550#32, 0x598f657e#32,
  0x7eef60a1#32, 0x6b70e3e8#32, 0x9c1714d1#32, 0xb958e2a8#32, 0xab02675e#32, 0xed1c014f#32, 0xcd8d65bb#32, 0xfdb7a257#32, 0x09254899#32, 0xd699c7bc#32, 0x9019b6dc#32, 0x2b9022e4#32, 0x8fa14956#32, 0x21bf9bd3#32, 0xb94d0943#32, 0x6ffddc22#32]
/-- simd/sbox.go:41-64 -/
def alphaTab256 : List U32 := [
  1#32, 41#32, 139#32, 45#32, 46#32, 87#32, 226#32, 14#32, 60#32, 147#32, 116#32, 130#32, 190#32, 80#32, 196#32, 69#32,
  2#32, 82#32, 21#32, 90#32, 92#32, 174#32, 195#32, 28#32, 120#32, 37#32, 232#32, 3#32, 123#32, 160#32, 135#32, 138#32,
  4#32, 164#32, 42#32, 180#32, 184#32, 91#32, 133#32, 56#32, 240#32, 74#32, 207#32, 6#32, 246#32, 63#32, 13#32, 19#32,
  8#32, 71#32, 84#32, 103#32, 111#32, 182#32, 9#32, 112#32, 223#32, 148#32, 157#32, 12#32, 235#32, 126#32, 26#32, 38#32,
  16#32, 142#32, 168#32, 206#32, 222#32, 107#32, 18#32, 224#32, 189#32, 39#32, 57#32, 24#32, 213#32, 252#32, 52#32, 76#32,
  32#32, 27#32, 79#32, 155#32, 187#32, 214#32, 36#32, 191#32, 121#32, 78#32, 114#32, 48#32, 169#32, 247#32, 104#32, 152#32,
  64#32, 54#32, 158#32, 53#32, 117#32, 171#32, 72#32, 125#32, 242#32, 156#32, 228#32, 96#32, 81#32, 237#32, 208#32, 47#32,
  128#32, 108#32, 59#32, 106#32, 234#32, 85#32, 144#32, 250#32, 227#32, 55#32, 199#32, 192#32, 162#32, 217#32, 159#32, 94#32,
  256#32, 216#32, 118#32, 212#32, 211#32, 170#32, 31#32, 243#32, 197#32, 110#32, 141#32, 127#32, 67#32, 177#32, 61#32, 188#32,
  255#32, 175#32, 236#32, 167#32, 165#32, 83#32, 62#32, 229#32, 137#32, 220#32, 25#32, 254#32, 134#32, 97#32, 122#32, 119#32,
  253#32, 93#32, 215#32, 77#32, 73#32, 166#32, 124#32, 201#32, 17#32, 183#32, 50#32, 251#32, 11#32, 194#32, 244#32, 238#32,
  249#32, 186#32, 173#32, 154#32, 146#32, 75#32, 248#32, 145#32, 34#32, 109#32, 100#32, 245#32, 22#32, 131#32, 231#32, 219#32,
  241#32, 115#32, 89#32, 51#32, 35#32, 150#32, 239#32, 33#32, 68#32, 218#32, 200#32, 233#32, 44#32, 5#32, 205#32, 181#32,
  225#32, 230#32, 178#32, 102#32, 70#32, 43#32, 221#32, 66#32, 136#32, 179#32, 143#32, 209#32, 88#32, 10#32, 153#32, 105#32,
  193#32, 203#32, 99#32, 204#32, 140#32, 86#32, 185#32, 132#32, 15#32, 101#32, 29#32, 161#32, 176#32, 20#32, 49#32, 210#32,
  129#32, 149#32, 198#32, 151#32, 23#32, 172#32, 113#32, 7#32, 30#32, 202#32, 58#32, 65#32, 95#32, 40#32, 98#32, 163#32]
/-- simd/sbox.go:66-78 -/
def yoffN256 : List U32 := [
  1#32, 98#32, 95#32, 58#32, 30#32, 113#32, 23#32, 198#32, 129#32, 49#32, 176#32, 29#32, 15#32, 185#32, 140#32, 99#32,
  193#32, 153#32, 88#32, 143#32, 136#32, 221#32, 70#32, 178#32, 225#32, 205#32, 44#32, 200#32, 68#32, 239#32, 35#32, 89#32,
  241#32, 231#32, 22#32, 100#32, 34#32, 248#32, 146#32, 173#32, 249#32, 244#32, 11#32, 50#32, 17#32, 124#32, 73#32, 215#32,
  253#32, 122#32, 134#32, 25#32, 137#32, 62#32, 165#32, 236#32, 255#32, 61#32, 67#32, 141#32, 197#32, 31#32, 211#32, 118#32,
  256#32, 159#32, 162#32, 199#32, 227#32, 144#32, 234#32, 59#32, 128#32, 208#32, 81#32, 228#32, 242#32, 72#32, 117#32, 158#32,
  64#32, 104#32, 169#32, 114#32, 121#32, 36#32, 187#32, 79#32, 32#32, 52#32, 213#32, 57#32, 189#32, 18#32, 222#32, 168#32,
  16#32, 26#32, 235#32, 157#32, 223#32, 9#32, 111#32, 84#32, 8#32, 13#32, 246#32, 207#32, 240#32, 133#32, 184#32, 42#32,
  4#32, 135#32, 123#32, 232#32, 120#32, 195#32, 92#32, 21#32, 2#32, 196#32, 190#32, 116#32, 60#32, 226#32, 46#32, 139#32]
/-- simd/sbox.go:80-92 -/
def yoffF256 : List U32 := [
  2#32, 156#32, 118#32, 107#32, 45#32, 212#32, 111#32, 162#32, 97#32, 249#32, 211#32, 3#32, 49#32, 101#32, 151#32, 223#32,
  189#32, 178#32, 253#32, 204#32, 76#32, 82#32, 232#32, 65#32, 96#32, 176#32, 161#32, 47#32, 189#32, 61#32, 248#32, 107#32,
  0#32, 131#32, 133#32, 113#32, 17#32, 33#32, 12#32, 111#32, 251#32, 103#32, 57#32, 148#32, 47#32, 65#32, 249#32, 143#32,
  189#32, 8#32, 204#32, 230#32, 205#32, 151#32, 187#32, 227#32, 247#32, 111#32, 140#32, 6#32, 77#32, 10#32, 21#32, 149#32,
  255#32, 101#32, 139#32, 150#32, 212#32, 45#32, 146#32, 95#32, 160#32, 8#32, 46#32, 254#32, 208#32, 156#32, 106#32, 34#32,
  68#32, 79#32, 4#32, 53#32, 181#32, 175#32, 25#32, 192#32, 161#32, 81#32, 96#32, 210#32, 68#32, 196#32, 9#32, 150#32,
  0#32, 126#32, 124#32, 144#32, 240#32, 224#32, 245#32, 146#32, 6#32, 154#32, 200#32, 109#32, 210#32, 192#32, 8#32, 114#32,
  68#32, 249#32, 53#32, 27#32, 52#32, 106#32, 70#32, 30#32, 10#32, 146#32, 117#32, 251#32, 180#32, 247#32, 236#32, 108#32]
/-- simd/sbox.go:94-96 -/
def pp4k256 : List Nat := [
  1, 2, 3, 1, 2, 3, 1, 2, 3, 1, 2]
/-- simd/sbox.go:98-107 -/
def wsp256 : List Nat := [
  32, 48, 0, 16, 56, 40, 24, 8, 120, 88, 96, 64, 72, 104, 80, 112,
  136, 144, 184, 160, 176, 168, 128, 152, 240, 192, 200, 248, 216, 232, 224, 208]
/-- simd/sbox.go:111-134 -/
def alphaTab512 : List U32 := [
  1#32, 41#32, 139#32, 45#32, 46#32, 87#32, 226#32, 14#32, 60#32, 147#32, 116#32, 130#32, 190#32, 80#32, 196#32, 69#32,
  2#32, 82#32, 21#32, 90#32, 92#32, 174#32, 195#32, 28#32, 120#32, 37#32, 232#32, 3#32, 123#32, 160#32, 135#32, 138#32,
  4#32, 164#32, 42#32, 180#32, 184#32, 91#32, 133#32, 56#32, 240#32, 74#32, 207#32, 6#32, 246#32, 63#32, 13#32, 19#32,
  8#32, 71#32, 84#32, 103#32, 111#32, 182#32, 9#32, 112#32, 223#32, 148#32, 157#32, 12#32, 235#32, 126#32, 26#32, 38#32,
  16#32, 142#32, 168#32, 206#32, 222#32, 107#32, 18#32, 224#32, 189#32, 39#32, 57#32, 24#32, 213#32, 252#32, 52#32, 76#32,
  32#32, 27#32, 79#32, 155#32, 187#32, 214#32, 36#32, 191#32, 121#32, 78#32, 114#32, 48#32, 169#32, 247#32, 104#32, 152#32,
  64#32, 54#32, 158#32, 53#32, 117#32, 171#32, 72#32, 125#32, 242#32, 156#32, 228#32, 96#32, 81#32, 237#32, 208#32, 47#32,
  128#32, 108#32, 59#32, 106#32, 234#32, 85#32, 144#32, 250#32, 227#32, 55#32, 199#32, 192#32, 162#32, 217#32, 159#32, 94#32,
  256#32, 216#32, 118#32, 212#32, 211#32, 170#32, 31#32, 243#32, 197#32, 110#32, 141#32, 127#32, 67#32, 177#32, 61#32, 188#32,
  255#32, 175#32, 236#32, 167#32, 165#32, 83#32, 62#32, 229#32, 137#32, 220#32, 25#32, 254#32, 134#32, 97#32, 122#32, 119#32,
  253#32, 93#32, 215#32, 77#32, 73#32, 166#32, 124#32, 201#32, 17#32, 183#32, 50#32, 251#32, 11#32, 194#32, 244#32, 238#32,
  249#32, 186#32, 173#32, 154#32, 146#32, 75#32, 248#32, 145#32, 34#32, 109#32, 100#32, 245#32, 22#32, 131#32, 231#32, 219#32,
  241#32, 115#32, 89#32, 51#32, 35#32, 150#32, 239#32, 33#32, 68#32, 218#32, 200#32, 233#32, 44#32, 5#32, 205#32, 181#32,
  225#32, 230#32, 178#32, 102#32, 70#32, 43#32, 221#32, 66#32, 136#32, 179#32, 143#32, 209#32, 88#32, 10#32, 153#32, 105#32,
  193#32, 203#32, 99#32, 204#32, 140#32, 86#32, 185#32, 132#32, 15#32, 101#32, 29#32, 161#32, 176#32, 20#32, 49#32, 210#32,
  129#32, 149#32, 198#32, 151#32, 23#32, 172#32, 113#32, 7#32, 30#32, 202#32, 58#32, 65#32, 95#32, 40#32, 98#32, 163#32]
/-- simd/sbox.go:136-159 -/
def yoffN512 : List U32 := [
  1#32, 163#32, 98#32, 40#32, 95#32, 65#32, 58#32, 202#32, 30#32, 7#32, 113#32, 172#32, 23#32, 151#32, 198#32, 149#32,
  129#32, 210#32, 49#32, 20#32, 176#32, 161#32, 29#32, 101#32, 15#32, 132#32, 185#32, 86#32, 140#32, 204#32, 99#32, 203#32,
  193#32, 105#32, 153#32, 10#32, 88#32, 209#32, 143#32, 179#32, 136#32, 66#32, 221#32, 43#32, 70#32, 102#32, 178#32, 230#32,
  225#32, 181#32, 205#32, 5#32, 44#32, 233#32, 200#32, 218#32, 68#32, 33#32, 239#32, 150#32, 35#32, 51#32, 89#32, 115#32,
  241#32, 219#32, 231#32, 131#32, 22#32, 245#32, 100#32, 109#32, 34#32, 145#32, 248#32, 75#32, 146#32, 154#32, 173#32, 186#32,
  249#32, 238#32, 244#32, 194#32, 11#32, 251#32, 50#32, 183#32, 17#32, 201#32, 124#32, 166#32, 73#32, 77#32, 215#32, 93#32,
  253#32, 119#32, 122#32, 97#32, 134#32, 254#32, 25#32, 220#32, 137#32, 229#32, 62#32, 83#32, 165#32, 167#32, 236#32, 175#32,
  255#32, 188#32, 61#32, 177#32, 67#32, 127#32, 141#32, 110#32, 197#32, 243#32, 31#32, 170#32, 211#32, 212#32, 118#32, 216#32,
  256#32, 94#32, 159#32, 217#32, 162#32, 192#32, 199#32, 55#32, 227#32, 250#32, 144#32, 85#32, 234#32, 106#32, 59#32, 108#32,
  128#32, 47#32, 208#32, 237#32, 81#32, 96#32, 228#32, 156#32, 242#32, 125#32, 72#32, 171#32, 117#32, 53#32, 158#32, 54#32,
  64#32, 152#32, 104#32, 247#32, 169#32, 48#32, 114#32, 78#32, 121#32, 191#32, 36#32, 214#32, 187#32, 155#32, 79#32, 27#32,
  32#32, 76#32, 52#32, 252#32, 213#32, 24#32, 57#32, 39#32, 189#32, 224#32, 18#32, 107#32, 222#32, 206#32, 168#32, 142#32,
  16#32, 38#32, 26#32, 126#32, 235#32, 12#32, 157#32, 148#32, 223#32, 112#32, 9#32, 182#32, 111#32, 103#32, 84#32, 71#32,
  8#32, 19#32, 13#32, 63#32, 246#32, 6#32, 207#32, 74#32, 240#32, 56#32, 133#32, 91#32, 184#32, 180#32, 42#32, 164#32,
  4#32, 138#32, 135#32, 160#32, 123#32, 3#32, 232#32, 37#32, 120#32, 28#32, 195#32, 174#32, 92#32, 90#32, 21#32, 82#32,
  2#32, 69#32, 196#32, 80#32, 190#32, 130#32, 116#32, 147#32, 60#32, 14#32, 226#32, 87#32, 46#32, 45#32, 139#32, 41#32]
/-- simd/sbox.go:161-184 -/
def yoffF512 : List U32 := [
  2#32, 203#32, 156#32, 47#32, 118#32, 214#32, 107#32, 106#32, 45#32, 93#32, 212#32, 20#32, 111#32, 73#32, 162#32, 251#32,
  97#32, 215#32, 249#32, 53#32, 211#32, 19#32, 3#32, 89#32, 49#32, 207#32, 101#32, 67#32, 151#32, 130#32, 223#32, 23#32,
  189#32, 202#32, 178#32, 239#32, 253#32, 127#32, 204#32, 49#32, 76#32, 236#32, 82#32, 137#32, 232#32, 157#32, 65#32, 79#32,
  96#32, 161#32, 176#32, 130#32, 161#32, 30#32, 47#32, 9#32, 189#32, 247#32, 61#32, 226#32, 248#32, 90#32, 107#32, 64#32,
  0#32, 88#32, 131#32, 243#32, 133#32, 59#32, 113#32, 115#32, 17#32, 236#32, 33#32, 213#32, 12#32, 191#32, 111#32, 19#32,
  251#32, 61#32, 103#32, 208#32, 57#32, 35#32, 148#32, 248#32, 47#32, 116#32, 65#32, 119#32, 249#32, 178#32, 143#32, 40#32,
  189#32, 129#32, 8#32, 163#32, 204#32, 227#32, 230#32, 196#32, 205#32, 122#32, 151#32, 45#32, 187#32, 19#32, 227#32, 72#32,
  247#32, 125#32, 111#32, 121#32, 140#32, 220#32, 6#32, 107#32, 77#32, 69#32, 10#32, 101#32, 21#32, 65#32, 149#32, 171#32,
  255#32, 54#32, 101#32, 210#32, 139#32, 43#32, 150#32, 151#32, 212#32, 164#32, 45#32, 237#32, 146#32, 184#32, 95#32, 6#32,
  160#32, 42#32, 8#32, 204#32, 46#32, 238#32, 254#32, 168#32, 208#32, 50#32, 156#32, 190#32, 106#32, 127#32, 34#32, 234#32,
  68#32, 55#32, 79#32, 18#32, 4#32, 130#32, 53#32, 208#32, 181#32, 21#32, 175#32, 120#32, 25#32, 100#32, 192#32, 178#32,
  161#32, 96#32, 81#32, 127#32, 96#32, 227#32, 210#32, 248#32, 68#32, 10#32, 196#32, 31#32, 9#32, 167#32, 150#32, 193#32,
  0#32, 169#32, 126#32, 14#32, 124#32, 198#32, 144#32, 142#32, 240#32, 21#32, 224#32, 44#32, 245#32, 66#32, 146#32, 238#32,
  6#32, 196#32, 154#32, 49#32, 200#32, 222#32, 109#32, 9#32, 210#32, 141#32, 192#32, 138#32, 8#32, 79#32, 114#32, 217#32,
  68#32, 128#32, 249#32, 94#32, 53#32, 30#32, 27#32, 61#32, 52#32, 135#32, 106#32, 212#32, 70#32, 238#32, 30#32, 185#32,
  10#32, 132#32, 146#32, 136#32, 117#32, 37#32, 251#32, 150#32, 180#32, 188#32, 247#32, 156#32, 236#32, 192#32, 108#32, 86#32]
/-- simd/sbox.go:186-188 -/
def pp8k512 : List Nat := [
  1, 6, 2, 3, 5, 7, 4, 1, 6, 2, 3]
/-- simd/sbox.go:190-199 -/
def wbp512 : List Nat := [
  64, 96, 0, 32, 112, 80, 48, 16, 240, 176, 192, 128, 144, 208, 160, 224,
  272, 288, 368, 320, 352, 336, 256, 304, 480, 384, 400, 496, 432, 464, 448, 416]

end Verif.SIMD
