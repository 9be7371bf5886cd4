import Verif.Words
/-
Generated by tools/gen_hamsi.py: the tables of hamsi/sbox.go and the straight-line parts of hamsi/digest256.go and hamsi/digest512.go.
-/
namespace Verif.Hamsi

/-- hamsi/sbox.go:3-68 -/
def Tsrc256 : List (List U32) := [
  [0x045f0000#32, 0x9c4a93c9#32, 0x62fc79d0#32, 0x731ebdc2#32, 0xe0278000#32, 0x19dce008#32, 0xd7075d82#32, 0x5ad2e31d#32],
  [0xe4788000#32, 0x859673c1#32, 0xb5fb2452#32, 0x29cc5edf#32, 0x045f0000#32, 0x9c4a93c9#32, 0x62fc79d0#32, 0x731ebdc2#32],
  [0xe6570000#32, 0x4bb33a25#32, 0x848598ba#32, 0x1041003e#32, 0xf44c4000#32, 0x10a4e3cd#32, 0x097f5711#32, 0xde77cc4c#32],
  [0x121b4000#32, 0x5b17d9e8#32, 0x8dfacfab#32, 0xce36cc72#32, 0xe6570000#32, 0x4bb33a25#32, 0x848598ba#32, 0x1041003e#32],
  [0x97530000#32, 0x204f6ed3#32, 0x77b9e80f#32, 0xa1ec5ec1#32, 0x7e792000#32, 0x9418e22f#32, 0x6643d258#32, 0x9c255be5#32],
  [0xe92a2000#32, 0xb4578cfc#32, 0x11fa3a57#32, 0x3dc90524#32, 0x97530000#32, 0x204f6ed3#32, 0x77b9e80f#32, 0xa1ec5ec1#32],
  [0xcba90000#32, 0x90273769#32, 0xbbdcf407#32, 0xd0f4af61#32, 0xbf3c1000#32, 0xca0c7117#32, 0x3321e92c#32, 0xce122df3#32],
  [0x74951000#32, 0x5a2b467e#32, 0x88fd1d2b#32, 0x1ee68292#32, 0xcba90000#32, 0x90273769#32, 0xbbdcf407#32, 0xd0f4af61#32],
  [0xe18b0000#32, 0x5459887d#32, 0xbf1283d3#32, 0x1b666a73#32, 0x3fb90800#32, 0x7cdad883#32, 0xce97a914#32, 0xbdd9f5e5#32],
  [0xde320800#32, 0x288350fe#32, 0x71852ac7#32, 0xa6bf9f96#32, 0xe18b0000#32, 0x5459887d#32, 0xbf1283d3#32, 0x1b666a73#32],
  [0x14bd0000#32, 0x2fba37ff#32, 0x6a72e5bb#32, 0x247febe6#32, 0x9b830400#32, 0x2227ff88#32, 0x05b7ad5a#32, 0xadf2c730#32],
  [0x8f3e0400#32, 0x0d9dc877#32, 0x6fc548e1#32, 0x898d2cd6#32, 0x14bd0000#32, 0x2fba37ff#32, 0x6a72e5bb#32, 0x247febe6#32],
  [0xee260000#32, 0x124b683e#32, 0x80c2d68f#32, 0x3bf3ab2c#32, 0x499e0200#32, 0x0d59ec0d#32, 0xe0272f7d#32, 0xa5e7de5a#32],
  [0xa7b80200#32, 0x1f128433#32, 0x60e5f9f2#32, 0x9e147576#32, 0xee260000#32, 0x124b683e#32, 0x80c2d68f#32, 0x3bf3ab2c#32],
  [0x734c0000#32, 0x956fa7d6#32, 0xa29d1297#32, 0x6ee56854#32, 0xc4e80100#32, 0x1f70960e#32, 0x2714ca3c#32, 0x88210c30#32],
  [0xb7a40100#32, 0x8a1f31d8#32, 0x8589d8ab#32, 0xe6c46464#32, 0x734c0000#32, 0x956fa7d6#32, 0xa29d1297#32, 0x6ee56854#32],
  [0x39a60000#32, 0x4ab753eb#32, 0xd14e094b#32, 0xb772b42b#32, 0x62740080#32, 0x0fb84b07#32, 0x138a651e#32, 0x44100618#32],
  [0x5bd20080#32, 0x450f18ec#32, 0xc2c46c55#32, 0xf362b233#32, 0x39a60000#32, 0x4ab753eb#32, 0xd14e094b#32, 0xb772b42b#32],
  [0x78ab0000#32, 0xa0cd5a34#32, 0x5d5ca0f7#32, 0x727784cb#32, 0x35650040#32, 0x9b96b64a#32, 0x6b39cb5f#32, 0x5114bece#32],
  [0x4dce0040#32, 0x3b5bec7e#32, 0x36656ba8#32, 0x23633a05#32, 0x78ab0000#32, 0xa0cd5a34#32, 0x5d5ca0f7#32, 0x727784cb#32],
  [0x5c720000#32, 0xc9bacd12#32, 0x79a90df9#32, 0x63e92178#32, 0xfeca0020#32, 0x485d28e4#32, 0x806741fd#32, 0x814681b8#32],
  [0xa2b80020#32, 0x81e7e5f6#32, 0xf9ce4c04#32, 0xe2afa0c0#32, 0x5c720000#32, 0xc9bacd12#32, 0x79a90df9#32, 0x63e92178#32],
  [0x2e390000#32, 0x64dd6689#32, 0x3cd406fc#32, 0xb1f490bc#32, 0x7f650010#32, 0x242e1472#32, 0xc03320fe#32, 0xc0a3c0dd#32],
  [0x515c0010#32, 0x40f372fb#32, 0xfce72602#32, 0x71575061#32, 0x2e390000#32, 0x64dd6689#32, 0x3cd406fc#32, 0xb1f490bc#32],
  [0x171c0000#32, 0xb26e3344#32, 0x9e6a837e#32, 0x58f8485f#32, 0xbfb20008#32, 0x92170a39#32, 0x6019107f#32, 0xe051606e#32],
  [0xa8ae0008#32, 0x2079397d#32, 0xfe739301#32, 0xb8a92831#32, 0x171c0000#32, 0xb26e3344#32, 0x9e6a837e#32, 0x58f8485f#32],
  [0x6ba90000#32, 0x40ebf9aa#32, 0x98321c3d#32, 0x76acc733#32, 0xbba10004#32, 0xcc9d76dd#32, 0x05f7ac6d#32, 0xd9e6eee9#32],
  [0xd0080004#32, 0x8c768f77#32, 0x9dc5b050#32, 0xaf4a29da#32, 0x6ba90000#32, 0x40ebf9aa#32, 0x98321c3d#32, 0x76acc733#32],
  [0x51ac0000#32, 0x25e30f14#32, 0x79e22a4c#32, 0x1298bd46#32, 0xd98f0002#32, 0x7a04a8a7#32, 0xe007afe6#32, 0x9fed4ab7#32],
  [0x88230002#32, 0x5fe7a7b3#32, 0x99e585aa#32, 0x8d75f7f1#32, 0x51ac0000#32, 0x25e30f14#32, 0x79e22a4c#32, 0x1298bd46#32],
  [0xc8f10000#32, 0x0b2de782#32, 0x6bf648a4#32, 0x539cbdbf#32, 0x08bf0001#32, 0x38942792#32, 0xc5f8f3a1#32, 0xe6387b84#32],
  [0xc04e0001#32, 0x33b9c010#32, 0xae0ebb05#32, 0xb5a4c63b#32, 0xc8f10000#32, 0x0b2de782#32, 0x6bf648a4#32, 0x539cbdbf#32]]
/-- hamsi/sbox.go:131-388 -/
def Tsrc512 : List (List U32) := [
  [0x466d0c00#32, 0x08620000#32, 0xdd5d0000#32, 0xbadd0000#32, 0x6a927942#32, 0x441f2b93#32, 0x218ace6f#32, 0xbf2c0be2#32, 0x6f299000#32, 0x6c850000#32, 0x2f160000#32, 0x782e0000#32, 0x644c37cd#32, 0x12dd1cd6#32, 0xd26a8c36#32, 0x32219526#32],
  [0x29449c00#32, 0x64e70000#32, 0xf24b0000#32, 0xc2f30000#32, 0x0ede4e8f#32, 0x56c23745#32, 0xf3e04259#32, 0x8d0d9ec4#32, 0x466d0c00#32, 0x08620000#32, 0xdd5d0000#32, 0xbadd0000#32, 0x6a927942#32, 0x441f2b93#32, 0x218ace6f#32, 0xbf2c0be2#32],
  [0x9cbb1800#32, 0xb0d30000#32, 0x92510000#32, 0xed930000#32, 0x593a4345#32, 0xe114d5f4#32, 0x430633da#32, 0x78cace29#32, 0xc8934400#32, 0x5a3e0000#32, 0x57870000#32, 0x4c560000#32, 0xea982435#32, 0x75b11115#32, 0x28b67247#32, 0x2dd1f9ab#32],
  [0x54285c00#32, 0xeaed0000#32, 0xc5d60000#32, 0xa1c50000#32, 0xb3a26770#32, 0x94a5c4e1#32, 0x6bb0419d#32, 0x551b3782#32, 0x9cbb1800#32, 0xb0d30000#32, 0x92510000#32, 0xed930000#32, 0x593a4345#32, 0xe114d5f4#32, 0x430633da#32, 0x78cace29#32],
  [0x23671400#32, 0xc8b90000#32, 0xf4c70000#32, 0xfb750000#32, 0x73cd2465#32, 0xf8a6a549#32, 0x02c40a3f#32, 0xdc24e61f#32, 0x373d2800#32, 0x71500000#32, 0x95e00000#32, 0x0a140000#32, 0xbdac1909#32, 0x48ef9831#32, 0x456d6d1f#32, 0x3daac2da#32],
  [0x145a3c00#32, 0xb9e90000#32, 0x61270000#32, 0xf1610000#32, 0xce613d6c#32, 0xb0493d78#32, 0x47a96720#32, 0xe18e24c5#32, 0x23671400#32, 0xc8b90000#32, 0xf4c70000#32, 0xfb750000#32, 0x73cd2465#32, 0xf8a6a549#32, 0x02c40a3f#32, 0xdc24e61f#32],
  [0xc96b0030#32, 0xe7250000#32, 0x2f840000#32, 0x264f0000#32, 0x08695bf9#32, 0x6dfcf137#32, 0x509f6984#32, 0x9e69af68#32, 0x26600240#32, 0xddd80000#32, 0x722a0000#32, 0x4f060000#32, 0x936667ff#32, 0x29f944ce#32, 0x368b63d5#32, 0x0c26f262#32],
  [0xef0b0270#32, 0x3afd0000#32, 0x5dae0000#32, 0x69490000#32, 0x9b0f3c06#32, 0x4405b5f9#32, 0x66140a51#32, 0x924f5d0a#32, 0xc96b0030#32, 0xe7250000#32, 0x2f840000#32, 0x264f0000#32, 0x08695bf9#32, 0x6dfcf137#32, 0x509f6984#32, 0x9e69af68#32],
  [0xb4370060#32, 0x0c4c0000#32, 0x56c20000#32, 0x5cae0000#32, 0x94541f3f#32, 0x3b3ef825#32, 0x1b365f3d#32, 0xf3d45758#32, 0x5cb00110#32, 0x913e0000#32, 0x44190000#32, 0x888c0000#32, 0x66dc7418#32, 0x921f1d66#32, 0x55ceea25#32, 0x925c44e9#32],
  [0xe8870170#32, 0x9d720000#32, 0x12db0000#32, 0xd4220000#32, 0xf2886b27#32, 0xa921e543#32, 0x4ef8b518#32, 0x618813b1#32, 0xb4370060#32, 0x0c4c0000#32, 0x56c20000#32, 0x5cae0000#32, 0x94541f3f#32, 0x3b3ef825#32, 0x1b365f3d#32, 0xf3d45758#32],
  [0xf46c0050#32, 0x96180000#32, 0x14a50000#32, 0x031f0000#32, 0x42947eb8#32, 0x66bf7e19#32, 0x9ca470d2#32, 0x8a341574#32, 0x832800a0#32, 0x67420000#32, 0xe1170000#32, 0x370b0000#32, 0xcba30034#32, 0x3c34923c#32, 0x9767bdcc#32, 0x450360bf#32],
  [0x774400f0#32, 0xf15a0000#32, 0xf5b20000#32, 0x34140000#32, 0x89377e8c#32, 0x5a8bec25#32, 0x0bc3cd1e#32, 0xcf3775cb#32, 0xf46c0050#32, 0x96180000#32, 0x14a50000#32, 0x031f0000#32, 0x42947eb8#32, 0x66bf7e19#32, 0x9ca470d2#32, 0x8a341574#32],
  [0xd46a0000#32, 0x8dc8c000#32, 0xa5af0000#32, 0x4a290000#32, 0xfc4e427a#32, 0xc9b4866c#32, 0x98369604#32, 0xf746c320#32, 0x231f0009#32, 0x42f40000#32, 0x66790000#32, 0x4ebb0000#32, 0xfedb5bd3#32, 0x315cb0d6#32, 0xe2b1674a#32, 0x69505b3a#32],
  [0xf7750009#32, 0xcf3cc000#32, 0xc3d60000#32, 0x04920000#32, 0x029519a9#32, 0xf8e836ba#32, 0x7a87f14e#32, 0x9e16981a#32, 0xd46a0000#32, 0x8dc8c000#32, 0xa5af0000#32, 0x4a290000#32, 0xfc4e427a#32, 0xc9b4866c#32, 0x98369604#32, 0xf746c320#32],
  [0xa67f0001#32, 0x71378000#32, 0x19fc0000#32, 0x96db0000#32, 0x3a8b6dfd#32, 0xebcaaef3#32, 0x2c6d478f#32, 0xac8e6c88#32, 0x50ff0004#32, 0x45744000#32, 0x3dfb0000#32, 0x19e60000#32, 0x1bbc5606#32, 0xe1727b5d#32, 0xe1a8cc96#32, 0x7b1bd6b9#32],
  [0xf6800005#32, 0x3443c000#32, 0x24070000#32, 0x8f3d0000#32, 0x21373bfb#32, 0x0ab8d5ae#32, 0xcdc58b19#32, 0xd795ba31#32, 0xa67f0001#32, 0x71378000#32, 0x19fc0000#32, 0x96db0000#32, 0x3a8b6dfd#32, 0xebcaaef3#32, 0x2c6d478f#32, 0xac8e6c88#32],
  [0xeecf0001#32, 0x6f564000#32, 0xf33e0000#32, 0xa79e0000#32, 0xbdb57219#32, 0xb711ebc5#32, 0x4a3b40ba#32, 0xfeabf254#32, 0x9b060002#32, 0x61468000#32, 0x221e0000#32, 0x1d740000#32, 0x36715d27#32, 0x30495c92#32, 0xf11336a7#32, 0xfe1cdc7f#32],
  [0x75c90003#32, 0x0e10c000#32, 0xd1200000#32, 0xbaea0000#32, 0x8bc42f3e#32, 0x8758b757#32, 0xbb28761d#32, 0x00b72e2b#32, 0xeecf0001#32, 0x6f564000#32, 0xf33e0000#32, 0xa79e0000#32, 0xbdb57219#32, 0xb711ebc5#32, 0x4a3b40ba#32, 0xfeabf254#32],
  [0xd1660000#32, 0x1bbc0300#32, 0x9eec0000#32, 0xf6940000#32, 0x03024527#32, 0xcf70fcf2#32, 0xb4431b17#32, 0x857f3c2b#32, 0xa4c20000#32, 0xd9372400#32, 0x0a480000#32, 0x66610000#32, 0xf87a12c7#32, 0x86bef75c#32, 0xa324df94#32, 0x2ba05a55#32],
  [0x75a40000#32, 0xc28b2700#32, 0x94a40000#32, 0x90f50000#32, 0xfb7857e0#32, 0x49ce0bae#32, 0x1767c483#32, 0xaedf667e#32, 0xd1660000#32, 0x1bbc0300#32, 0x9eec0000#32, 0xf6940000#32, 0x03024527#32, 0xcf70fcf2#32, 0xb4431b17#32, 0x857f3c2b#32],
  [0xb83d0000#32, 0x16710600#32, 0x379a0000#32, 0xf5b10000#32, 0x228161ac#32, 0xae48f145#32, 0x66241616#32, 0xc5c1eb3e#32, 0xfd250000#32, 0xb3c41100#32, 0xcef00000#32, 0xcef90000#32, 0x3c4d7580#32, 0x8d5b6493#32, 0x7098b0a6#32, 0x1af21fe1#32],
  [0x45180000#32, 0xa5b51700#32, 0xf96a0000#32, 0x3b480000#32, 0x1ecc142c#32, 0x231395d6#32, 0x16bca6b0#32, 0xdf33f4df#32, 0xb83d0000#32, 0x16710600#32, 0x379a0000#32, 0xf5b10000#32, 0x228161ac#32, 0xae48f145#32, 0x66241616#32, 0xc5c1eb3e#32],
  [0xfe220000#32, 0xa7580500#32, 0x25d10000#32, 0xf7600000#32, 0x893178da#32, 0x1fd4f860#32, 0x4ed0a315#32, 0xa123ff9f#32, 0xf2500000#32, 0xeebd0a00#32, 0x67a80000#32, 0xab8a0000#32, 0xba9b48c0#32, 0x0a56dd74#32, 0xdb73e86e#32, 0x1568ff0f#32],
  [0x0c720000#32, 0x49e50f00#32, 0x42790000#32, 0x5cea0000#32, 0x33aa301a#32, 0x15822514#32, 0x95a34b7b#32, 0xb44b0090#32, 0xfe220000#32, 0xa7580500#32, 0x25d10000#32, 0xf7600000#32, 0x893178da#32, 0x1fd4f860#32, 0x4ed0a315#32, 0xa123ff9f#32],
  [0xc6730000#32, 0xaf8d000c#32, 0xa4c10000#32, 0x218d0000#32, 0x23111587#32, 0x7913512f#32, 0x1d28ac88#32, 0x378dd173#32, 0xaf220000#32, 0x7b6c0090#32, 0x67e20000#32, 0x8da20000#32, 0xc7841e29#32, 0xb7b744f3#32, 0x9ac484f4#32, 0x8b6c72bd#32],
  [0x69510000#32, 0xd4e1009c#32, 0xc3230000#32, 0xac2f0000#32, 0xe4950bae#32, 0xcea415dc#32, 0x87ec287c#32, 0xbce1a3ce#32, 0xc6730000#32, 0xaf8d000c#32, 0xa4c10000#32, 0x218d0000#32, 0x23111587#32, 0x7913512f#32, 0x1d28ac88#32, 0x378dd173#32],
  [0xbc8d0000#32, 0xfc3b0018#32, 0x19830000#32, 0xd10b0000#32, 0xae1878c4#32, 0x42a69856#32, 0x0012da37#32, 0x2c3b504e#32, 0xe8dd0000#32, 0xfa4a0044#32, 0x3c2d0000#32, 0xbb150000#32, 0x80bd361b#32, 0x24e81d44#32, 0xbfa8c2f4#32, 0x524a0d59#32],
  [0x54500000#32, 0x0671005c#32, 0x25ae0000#32, 0x6a1e0000#32, 0x2ea54edf#32, 0x664e8512#32, 0xbfba18c3#32, 0x7e715d17#32, 0xbc8d0000#32, 0xfc3b0018#32, 0x19830000#32, 0xd10b0000#32, 0xae1878c4#32, 0x42a69856#32, 0x0012da37#32, 0x2c3b504e#32],
  [0xe3430000#32, 0x3a4e0014#32, 0xf2c60000#32, 0xaa4e0000#32, 0xdb1e42a6#32, 0x256bbe15#32, 0x123db156#32, 0x3a4e99d7#32, 0xf75a0000#32, 0x19840028#32, 0xa2190000#32, 0xeef80000#32, 0xc0722516#32, 0x19981260#32, 0x73dba1e6#32, 0xe1844257#32],
  [0x14190000#32, 0x23ca003c#32, 0x50df0000#32, 0x44b60000#32, 0x1b6c67b0#32, 0x3cf3ac75#32, 0x61e610b0#32, 0xdbcadb80#32, 0xe3430000#32, 0x3a4e0014#32, 0xf2c60000#32, 0xaa4e0000#32, 0xdb1e42a6#32, 0x256bbe15#32, 0x123db156#32, 0x3a4e99d7#32],
  [0x30b70000#32, 0xe5d00000#32, 0xf4f46000#32, 0x42c40000#32, 0x63b83d6a#32, 0x78ba9460#32, 0x21afa1ea#32, 0xb0a51834#32, 0xb6ce0000#32, 0xdae90002#32, 0x156e8000#32, 0xda920000#32, 0xf6dd5a64#32, 0x36325c8a#32, 0xf272e8ae#32, 0xa6b8c28d#32],
  [0x86790000#32, 0x3f390002#32, 0xe19ae000#32, 0x98560000#32, 0x9565670e#32, 0x4e88c8ea#32, 0xd3dd4944#32, 0x161ddab9#32, 0x30b70000#32, 0xe5d00000#32, 0xf4f46000#32, 0x42c40000#32, 0x63b83d6a#32, 0x78ba9460#32, 0x21afa1ea#32, 0xb0a51834#32],
  [0xdb250000#32, 0x09290000#32, 0x49aac000#32, 0x81e10000#32, 0xcafe6b59#32, 0x42793431#32, 0x43566b76#32, 0xe86cba2e#32, 0x75e60000#32, 0x95660001#32, 0x307b2000#32, 0xadf40000#32, 0x8f321eea#32, 0x24298307#32, 0xe8c49cf9#32, 0x4b7eec55#32],
  [0xaec30000#32, 0x9c4f0001#32, 0x79d1e000#32, 0x2c150000#32, 0x45cc75b3#32, 0x6650b736#32, 0xab92f78f#32, 0xa312567b#32, 0xdb250000#32, 0x09290000#32, 0x49aac000#32, 0x81e10000#32, 0xcafe6b59#32, 0x42793431#32, 0x43566b76#32, 0xe86cba2e#32],
  [0x1e4e0000#32, 0xdecf0000#32, 0x6df80180#32, 0x77240000#32, 0xec47079e#32, 0xf4a0694e#32, 0xcda31812#32, 0x98aa496e#32, 0xb2060000#32, 0xc5690000#32, 0x28031200#32, 0x74670000#32, 0xb6c236f4#32, 0xeb1239f8#32, 0x33d1dfec#32, 0x094e3198#32],
  [0xac480000#32, 0x1ba60000#32, 0x45fb1380#32, 0x03430000#32, 0x5a85316a#32, 0x1fb250b6#32, 0xfe72c7fe#32, 0x91e478f6#32, 0x1e4e0000#32, 0xdecf0000#32, 0x6df80180#32, 0x77240000#32, 0xec47079e#32, 0xf4a0694e#32, 0xcda31812#32, 0x98aa496e#32],
  [0x02af0000#32, 0xb7280000#32, 0xba1c0300#32, 0x56980000#32, 0xba8d45d3#32, 0x8048c667#32, 0xa95c149a#32, 0xf4f6ea7b#32, 0x7a8c0000#32, 0xa5d40000#32, 0x13260880#32, 0xc63d0000#32, 0xcbb36daa#32, 0xfea14f43#32, 0x59d0b4f8#32, 0x979961d0#32],
  [0x78230000#32, 0x12fc0000#32, 0xa93a0b80#32, 0x90a50000#32, 0x713e2879#32, 0x7ee98924#32, 0xf08ca062#32, 0x636f8bab#32, 0x02af0000#32, 0xb7280000#32, 0xba1c0300#32, 0x56980000#32, 0xba8d45d3#32, 0x8048c667#32, 0xa95c149a#32, 0xf4f6ea7b#32],
  [0x819e0000#32, 0xec570000#32, 0x66320280#32, 0x95f30000#32, 0x5da92802#32, 0x48f43cbc#32, 0xe65aa22d#32, 0x8e67b7fa#32, 0x4d8a0000#32, 0x49340000#32, 0x3c8b0500#32, 0xaea30000#32, 0x16793bfd#32, 0xcf6f08a4#32, 0x8f19eaec#32, 0x443d3004#32],
  [0xcc140000#32, 0xa5630000#32, 0x5ab90780#32, 0x3b500000#32, 0x4bd013ff#32, 0x879b3418#32, 0x694348c1#32, 0xca5a87fe#32, 0x819e0000#32, 0xec570000#32, 0x66320280#32, 0x95f30000#32, 0x5da92802#32, 0x48f43cbc#32, 0xe65aa22d#32, 0x8e67b7fa#32],
  [0x538d0000#32, 0xa9fc0000#32, 0x9ef70006#32, 0x56ff0000#32, 0x0ae4004e#32, 0x92c5cdf9#32, 0xa9444018#32, 0x7f975691#32, 0x01dd0000#32, 0x80a80000#32, 0xf4960048#32, 0xa6000000#32, 0x90d57ea2#32, 0xd7e68c37#32, 0x6612cffd#32, 0x2c94459e#32],
  [0x52500000#32, 0x29540000#32, 0x6a61004e#32, 0xf0ff0000#32, 0x9a317eec#32, 0x452341ce#32, 0xcf568fe5#32, 0x5303130f#32, 0x538d0000#32, 0xa9fc0000#32, 0x9ef70006#32, 0x56ff0000#32, 0x0ae4004e#32, 0x92c5cdf9#32, 0xa9444018#32, 0x7f975691#32],
  [0x0bc20000#32, 0xdb630000#32, 0x7e88000c#32, 0x15860000#32, 0x91fd48f3#32, 0x7581bb43#32, 0xf460449e#32, 0xd8b61463#32, 0x835a0000#32, 0xc4f70000#32, 0x01470022#32, 0xeec80000#32, 0x60a54f69#32, 0x142f2a24#32, 0x5cf534f2#32, 0x3ea660f7#32],
  [0x88980000#32, 0x1f940000#32, 0x7fcf002e#32, 0xfb4e0000#32, 0xf158079a#32, 0x61ae9167#32, 0xa895706c#32, 0xe6107494#32, 0x0bc20000#32, 0xdb630000#32, 0x7e88000c#32, 0x15860000#32, 0x91fd48f3#32, 0x7581bb43#32, 0xf460449e#32, 0xd8b61463#32],
  [0x07ed0000#32, 0xb2500000#32, 0x8774000a#32, 0x970d0000#32, 0x437223ae#32, 0x48c76ea4#32, 0xf4786222#32, 0x9075b1ce#32, 0xa2d60000#32, 0xa6760000#32, 0xc9440014#32, 0xeba30000#32, 0xccec2e7b#32, 0x3018c499#32, 0x03490afa#32, 0x9b6ef888#32],
  [0xa53b0000#32, 0x14260000#32, 0x4e30001e#32, 0x7cae0000#32, 0x8f9e0dd5#32, 0x78dfaa3d#32, 0xf73168d8#32, 0x0b1b4946#32, 0x07ed0000#32, 0xb2500000#32, 0x8774000a#32, 0x970d0000#32, 0x437223ae#32, 0x48c76ea4#32, 0xf4786222#32, 0x9075b1ce#32],
  [0x1d5a0000#32, 0x2b720000#32, 0x488d0000#32, 0xaf611800#32, 0x25cb2ec5#32, 0xc879bfd0#32, 0x81a20429#32, 0x1e7536a6#32, 0x45190000#32, 0xab0c0000#32, 0x30be0001#32, 0x690a2000#32, 0xc2fc7219#32, 0xb1d4800d#32, 0x2dd1fa46#32, 0x24314f17#32],
  [0x58430000#32, 0x807e0000#32, 0x78330001#32, 0xc66b3800#32, 0xe7375cdc#32, 0x79ad3fdd#32, 0xac73fe6f#32, 0x3a4479b1#32, 0x1d5a0000#32, 0x2b720000#32, 0x488d0000#32, 0xaf611800#32, 0x25cb2ec5#32, 0xc879bfd0#32, 0x81a20429#32, 0x1e7536a6#32],
  [0x92560000#32, 0x1eda0000#32, 0xea510000#32, 0xe8b13000#32, 0xa93556a5#32, 0xebfb6199#32, 0xb15c2254#32, 0x33c5244f#32, 0x8c3a0000#32, 0xda980000#32, 0x607f0000#32, 0x54078800#32, 0x85714513#32, 0x6006b243#32, 0xdb50399c#32, 0x8a58e6a4#32],
  [0x1e6c0000#32, 0xc4420000#32, 0x8a2e0000#32, 0xbcb6b800#32, 0x2c4413b6#32, 0x8bfdd3da#32, 0x6a0c1bc8#32, 0xb99dc2eb#32, 0x92560000#32, 0x1eda0000#32, 0xea510000#32, 0xe8b13000#32, 0xa93556a5#32, 0xebfb6199#32, 0xb15c2254#32, 0x33c5244f#32],
  [0xbadd0000#32, 0x13ad0000#32, 0xb7e70000#32, 0xf7282800#32, 0xdf45144d#32, 0x361ac33a#32, 0xea5a8d14#32, 0x2a2c18f0#32, 0xb82f0000#32, 0xb12c0000#32, 0x30d80000#32, 0x14445000#32, 0xc15860a2#32, 0x3127e8ec#32, 0x2e98bf23#32, 0x551e3d6e#32],
  [0x02f20000#32, 0xa2810000#32, 0x873f0000#32, 0xe36c7800#32, 0x1e1d74ef#32, 0x073d2bd6#32, 0xc4c23237#32, 0x7f32259e#32, 0xbadd0000#32, 0x13ad0000#32, 0xb7e70000#32, 0xf7282800#32, 0xdf45144d#32, 0x361ac33a#32, 0xea5a8d14#32, 0x2a2c18f0#32],
  [0xe3060000#32, 0xbdc10000#32, 0x87130000#32, 0xbff20060#32, 0x2eba0a1a#32, 0x8db53751#32, 0x73c5ab06#32, 0x5bd61539#32, 0x57370000#32, 0xcaf20000#32, 0x364e0000#32, 0xc0220480#32, 0x56186b22#32, 0x5ca3f40c#32, 0xa1937f8f#32, 0x15b961e7#32],
  [0xb4310000#32, 0x77330000#32, 0xb15d0000#32, 0x7fd004e0#32, 0x78a26138#32, 0xd116c35d#32, 0xd256d489#32, 0x4e6f74de#32, 0xe3060000#32, 0xbdc10000#32, 0x87130000#32, 0xbff20060#32, 0x2eba0a1a#32, 0x8db53751#32, 0x73c5ab06#32, 0x5bd61539#32],
  [0xf0c50000#32, 0x59230000#32, 0x45820000#32, 0xe18d00c0#32, 0x3b6d0631#32, 0xc2ed5699#32, 0xcbe0fe1c#32, 0x56a7b19f#32, 0x16ed0000#32, 0x15680000#32, 0xedd70000#32, 0x325d0220#32, 0xe30c3689#32, 0x5a4ae643#32, 0xe375f8a8#32, 0x81fdf908#32],
  [0xe6280000#32, 0x4c4b0000#32, 0xa8550000#32, 0xd3d002e0#32, 0xd86130b8#32, 0x98a7b0da#32, 0x289506b4#32, 0xd75a4897#32, 0xf0c50000#32, 0x59230000#32, 0x45820000#32, 0xe18d00c0#32, 0x3b6d0631#32, 0xc2ed5699#32, 0xcbe0fe1c#32, 0x56a7b19f#32],
  [0x7b280000#32, 0x57420000#32, 0xa9e50000#32, 0x634300a0#32, 0x9edb442f#32, 0x6d9995bb#32, 0x27f83b03#32, 0xc7ff60f0#32, 0x95bb0000#32, 0x81450000#32, 0x3b240000#32, 0x48db0140#32, 0x0a8a6c53#32, 0x56f56eec#32, 0x62c91877#32, 0xe7e00a94#32],
  [0xee930000#32, 0xd6070000#32, 0x92c10000#32, 0x2b9801e0#32, 0x9451287c#32, 0x3b6cfb57#32, 0x45312374#32, 0x201f6a64#32, 0x7b280000#32, 0x57420000#32, 0xa9e50000#32, 0x634300a0#32, 0x9edb442f#32, 0x6d9995bb#32, 0x27f83b03#32, 0xc7ff60f0#32],
  [0x00440000#32, 0x7f480000#32, 0xda7c0000#32, 0x2a230001#32, 0x3badc9cc#32, 0xa9b69c87#32, 0x030a9e60#32, 0xbe0a679e#32, 0x5fec0000#32, 0x294b0000#32, 0x99d20000#32, 0x4ed00012#32, 0x1ed34f73#32, 0xbaa708c9#32, 0x57140bdf#32, 0x30aebcf7#32],
  [0x5fa80000#32, 0x56030000#32, 0x43ae0000#32, 0x64f30013#32, 0x257e86bf#32, 0x1311944e#32, 0x541e95bf#32, 0x8ea4db69#32, 0x00440000#32, 0x7f480000#32, 0xda7c0000#32, 0x2a230001#32, 0x3badc9cc#32, 0xa9b69c87#32, 0x030a9e60#32, 0xbe0a679e#32],
  [0x92280000#32, 0xdc850000#32, 0x57fa0000#32, 0x56dc0003#32, 0xbae92316#32, 0x5aefa30c#32, 0x90cef752#32, 0x7b1675d7#32, 0x93bb0000#32, 0x3b070000#32, 0xba010000#32, 0x99d00008#32, 0x3739ae4e#32, 0xe64c1722#32, 0x96f896b3#32, 0x2879ebac#32],
  [0x01930000#32, 0xe7820000#32, 0xedfb0000#32, 0xcf0c000b#32, 0x8dd08d58#32, 0xbca3b42e#32, 0x063661e1#32, 0x536f9e7b#32, 0x92280000#32, 0xdc850000#32, 0x57fa0000#32, 0x56dc0003#32, 0xbae92316#32, 0x5aefa30c#32, 0x90cef752#32, 0x7b1675d7#32],
  [0xa8da0000#32, 0x96be0000#32, 0x5c1d0000#32, 0x07da0002#32, 0x7d669583#32, 0x1f98708a#32, 0xbb668808#32, 0xda878000#32, 0xabe70000#32, 0x9e0d0000#32, 0xaf270000#32, 0x3d180005#32, 0x2c4f1fd3#32, 0x74f61695#32, 0xb5c347eb#32, 0x3c5dfffe#32],
  [0x033d0000#32, 0x08b30000#32, 0xf33a0000#32, 0x3ac20007#32, 0x51298a50#32, 0x6b6e661f#32, 0x0ea5cfe3#32, 0xe6da7ffe#32, 0xa8da0000#32, 0x96be0000#32, 0x5c1d0000#32, 0x07da0002#32, 0x7d669583#32, 0x1f98708a#32, 0xbb668808#32, 0xda878000#32]]
/-- hamsi/sbox.go:107-116 -/
def ALPHA_N256 : List U32 := [
  0xff00f0f0#32, 0xccccaaaa#32, 0xf0f0cccc#32, 0xff00aaaa#32, 0xccccaaaa#32, 0xf0f0ff00#32, 0xaaaacccc#32, 0xf0f0ff00#32,
  0xf0f0cccc#32, 0xaaaaff00#32, 0xccccff00#32, 0xaaaaf0f0#32, 0xaaaaf0f0#32, 0xff00cccc#32, 0xccccf0f0#32, 0xff00aaaa#32,
  0xccccaaaa#32, 0xff00f0f0#32, 0xff00aaaa#32, 0xf0f0cccc#32, 0xf0f0ff00#32, 0xccccaaaa#32, 0xf0f0ff00#32, 0xaaaacccc#32,
  0xaaaaff00#32, 0xf0f0cccc#32, 0xaaaaf0f0#32, 0xccccff00#32, 0xff00cccc#32, 0xaaaaf0f0#32, 0xff00aaaa#32, 0xccccf0f0#32]
/-- hamsi/sbox.go:118-127 -/
def ALPHA_F256 : List U32 := [
  0xcaf9639c#32, 0x0ff0f9c0#32, 0x639c0ff0#32, 0xcaf9f9c0#32, 0x0ff0f9c0#32, 0x639ccaf9#32, 0xf9c00ff0#32, 0x639ccaf9#32,
  0x639c0ff0#32, 0xf9c0caf9#32, 0x0ff0caf9#32, 0xf9c0639c#32, 0xf9c0639c#32, 0xcaf90ff0#32, 0x0ff0639c#32, 0xcaf9f9c0#32,
  0x0ff0f9c0#32, 0xcaf9639c#32, 0xcaf9f9c0#32, 0x639c0ff0#32, 0x639ccaf9#32, 0x0ff0f9c0#32, 0x639ccaf9#32, 0xf9c00ff0#32,
  0xf9c0caf9#32, 0x639c0ff0#32, 0xf9c0639c#32, 0x0ff0caf9#32, 0xcaf90ff0#32, 0xf9c0639c#32, 0xcaf9f9c0#32, 0x0ff0639c#32]
/-- hamsi/sbox.go:435-444 -/
def ALPHA_N512 : List U32 := [
  0xff00f0f0#32, 0xccccaaaa#32, 0xf0f0cccc#32, 0xff00aaaa#32, 0xccccaaaa#32, 0xf0f0ff00#32, 0xaaaacccc#32, 0xf0f0ff00#32,
  0xf0f0cccc#32, 0xaaaaff00#32, 0xccccff00#32, 0xaaaaf0f0#32, 0xaaaaf0f0#32, 0xff00cccc#32, 0xccccf0f0#32, 0xff00aaaa#32,
  0xccccaaaa#32, 0xff00f0f0#32, 0xff00aaaa#32, 0xf0f0cccc#32, 0xf0f0ff00#32, 0xccccaaaa#32, 0xf0f0ff00#32, 0xaaaacccc#32,
  0xaaaaff00#32, 0xf0f0cccc#32, 0xaaaaf0f0#32, 0xccccff00#32, 0xff00cccc#32, 0xaaaaf0f0#32, 0xff00aaaa#32, 0xccccf0f0#32]
/-- hamsi/sbox.go:446-455 -/
def ALPHA_F512 : List U32 := [
  0xcaf9639c#32, 0x0ff0f9c0#32, 0x639c0ff0#32, 0xcaf9f9c0#32, 0x0ff0f9c0#32, 0x639ccaf9#32, 0xf9c00ff0#32, 0x639ccaf9#32,
  0x639c0ff0#32, 0xf9c0caf9#32, 0x0ff0caf9#32, 0xf9c0639c#32, 0xf9c0639c#32, 0xcaf90ff0#32, 0x0ff0639c#32, 0xcaf9f9c0#32,
  0x0ff0f9c0#32, 0xcaf9639c#32, 0xcaf9f9c0#32, 0x639c0ff0#32, 0x639ccaf9#32, 0x0ff0f9c0#32, 0x639ccaf9#32, 0xf9c00ff0#32,
  0xf9c0caf9#32, 0x639c0ff0#32, 0xf9c0639c#32, 0x0ff0caf9#32, 0xcaf90ff0#32, 0xf9c0639c#32, 0xcaf9f9c0#32, 0x0ff0639c#32]
/-- hamsi/sbox.go:457-459 -/
def HOFF384 : List Nat := [
  0, 1, 3, 4, 5, 6, 8, 9,
  10, 12, 13, 15]
/-- hamsi/sbox.go:461-463 -/
def HOFF512 : List Nat := [
  0, 1, 2, 3, 4, 5, 6, 7,
  8, 9, 10, 11, 12, 13, 14, 15]
/-- hamsi/sbox.go:467-470 -/
def iv224 : List U32 := [
  0xc3967a67#32, 0xc3bc6c20#32, 0x4bc3bcc3#32, 0xa7c3bc6b#32, 0x2c204b61#32, 0x74686f6c#32, 0x69656b65#32, 0x20556e69#32]
/-- hamsi/sbox.go:472-475 -/
def iv256 : List U32 := [
  0x76657273#32, 0x69746569#32, 0x74204c65#32, 0x7576656e#32, 0x2c204465#32, 0x70617274#32, 0x656d656e#32, 0x7420456c#32]
/-- hamsi/sbox.go:477-482 -/
def iv384 : List U32 := [
  0x656b7472#32, 0x6f746563#32, 0x686e6965#32, 0x6b2c2043#32, 0x6f6d7075#32, 0x74657220#32, 0x53656375#32, 0x72697479#32,
  0x20616e64#32, 0x20496e64#32, 0x75737472#32, 0x69616c20#32, 0x43727970#32, 0x746f6772#32, 0x61706879#32, 0x2c204b61#32]
/-- hamsi/sbox.go:484-489 -/
def iv512 : List U32 := [
  0x73746565#32, 0x6c706172#32, 0x6b204172#32, 0x656e6265#32, 0x72672031#32, 0x302c2062#32, 0x75732032#32, 0x3434362c#32,
  0x20422d33#32, 0x30303120#32, 0x4c657576#32, 0x656e2d48#32, 0x65766572#32, 0x6c65652c#32, 0x2042656c#32, 0x6769756d#32]

/-- The statements of the straight-line parts.  Registers: m0 ... mF are 0 ... 15, c0 ... cF are 16 ... 31, t is 32. -/
inductive Ins
  /-- a ^= ALPHA[i] -/
  | xk (a i : Nat)
  /-- a ^= ALPHA[i] ^ (number of the round) -/
  | xkr (a i : Nat)
  /-- a = b -/
  | mov (a b : Nat)
  /-- a &= b -/
  | and (a b : Nat)
  /-- a |= b -/
  | or (a b : Nat)
  /-- a ^= b -/
  | xor (a b : Nat)
  /-- a = ^b -/
  | not (a b : Nat)
  /-- a = (a << n) | (a >> (32 - n)) -/
  | rol (a n : Nat)
  /-- a ^= b ^ c -/
  | xor2 (a b c : Nat)
  /-- a ^= b ^ (c << n) -/
  | xors (a b c n : Nat)
  deriving DecidableEq

/-- hamsi/digest256.go:216-611: the three unrolled rounds with their numbers -/
def rounds256 : List (Nat × List Ins) := [
  (0, [.xk 0 0, .xkr 1 1, .xk 16 2, .xk 17 3, .xk 18 8, .xk 19 9, .xk 2 10, .xk 3 11, .xk 4 16, .xk 5 17, .xk 20 18, .xk 21 19, .xk 22 24, .xk 23 25, .xk 6 26, .xk 7 27, .mov 32 0, .and 0 4, .xor 0 22, .xor 4 18, .xor 4 0, .or 22 32, .xor 22 18, .xor 32 4, .mov 18 22, .or 22 32, .xor 22 0, .and 0 18, .xor 32 0, .xor 18 22, .xor 18 32, .mov 0 4, .mov 4 18, .mov 18 22, .not 22 32, .mov 32 1, .and 1 5, .xor 1 23, .xor 5 19, .xor 5 1, .or 23 32, .xor 23 19, .xor 32 5, .mov 19 23, .or 23 32, .xor 23 1, .and 1 19, .xor 32 1, .xor 19 23, .xor 19 32, .mov 1 5, .mov 5 19, .mov 19 23, .not 23 32, .mov 32 16, .and 16 20, .xor 16 6, .xor 20 2, .xor 20 16, .or 6 32, .xor 6 2, .xor 32 20, .mov 2 6, .or 6 32, .xor 6 16, .and 16 2, .xor 32 16, .xor 2 6, .xor 2 32, .mov 16 20, .mov 20 2, .mov 2 6, .not 6 32, .mov 32 17, .and 17 21, .xor 17 7, .xor 21 3, .xor 21 17, .or 7 32, .xor 7 3, .xor 32 21, .mov 3 7, .or 7 32, .xor 7 17, .and 17 3, .xor 32 17, .xor 3 7, .xor 3 32, .mov 17 21, .mov 21 3, .mov 3 7, .not 7 32, .rol 0 13, .rol 20 3, .xor2 19 0 20, .xors 7 20 0 3, .rol 19 1, .rol 7 7, .xor2 0 19 7, .xors 20 7 19 7, .rol 0 5, .rol 20 22, .rol 1 13, .rol 21 3, .xor2 2 1 21, .xors 22 21 1 3, .rol 2 1, .rol 22 7, .xor2 1 2 22, .xors 21 22 2 7, .rol 1 5, .rol 21 22, .rol 16 13, .rol 4 3, .xor2 3 16 4, .xors 23 4 16 3, .rol 3 1, .rol 23 7, .xor2 16 3 23, .xors 4 23 3 7, .rol 16 5, .rol 4 22, .rol 17 13, .rol 5 3, .xor2 18 17 5, .xors 6 5 17 3, .rol 18 1, .rol 6 7, .xor2 17 18 6, .xors 5 6 18 7, .rol 17 5, .rol 5 22]),
  (1, [.xk 0 0, .xkr 1 1, .xk 16 2, .xk 17 3, .xk 18 8, .xk 19 9, .xk 2 10, .xk 3 11, .xk 4 16, .xk 5 17, .xk 20 18, .xk 21 19, .xk 22 24, .xk 23 25, .xk 6 26, .xk 7 27, .mov 32 0, .and 0 4, .xor 0 22, .xor 4 18, .xor 4 0, .or 22 32, .xor 22 18, .xor 32 4, .mov 18 22, .or 22 32, .xor 22 0, .and 0 18, .xor 32 0, .xor 18 22, .xor 18 32, .mov 0 4, .mov 4 18, .mov 18 22, .not 22 32, .mov 32 1, .and 1 5, .xor 1 23, .xor 5 19, .xor 5 1, .or 23 32, .xor 23 19, .xor 32 5, .mov 19 23, .or 23 32, .xor 23 1, .and 1 19, .xor 32 1, .xor 19 23, .xor 19 32, .mov 1 5, .mov 5 19, .mov 19 23, .not 23 32, .mov 32 16, .and 16 20, .xor 16 6, .xor 20 2, .xor 20 16, .or 6 32, .xor 6 2, .xor 32 20, .mov 2 6, .or 6 32, .xor 6 16, .and 16 2, .xor 32 16, .xor 2 6, .xor 2 32, .mov 16 20, .mov 20 2, .mov 2 6, .not 6 32, .mov 32 17, .and 17 21, .xor 17 7, .xor 21 3, .xor 21 17, .or 7 32, .xor 7 3, .xor 32 21, .mov 3 7, .or 7 32, .xor 7 17, .and 17 3, .xor 32 17, .xor 3 7, .xor 3 32, .mov 17 21, .mov 21 3, .mov 3 7, .not 7 32, .rol 0 13, .rol 20 3, .xor2 19 0 20, .xors 7 20 0 3, .rol 19 1, .rol 7 7, .xor2 0 19 7, .xors 20 7 19 7, .rol 0 5, .rol 20 22, .rol 1 13, .rol 21 3, .xor2 2 1 21, .xors 22 21 1 3, .rol 2 1, .rol 22 7, .xor2 1 2 22, .xors 21 22 2 7, .rol 1 5, .rol 21 22, .rol 16 13, .rol 4 3, .xor2 3 16 4, .xors 23 4 16 3, .rol 3 1, .rol 23 7, .xor2 16 3 23, .xors 4 23 3 7, .rol 16 5, .rol 4 22, .rol 17 13, .rol 5 3, .xor2 18 17 5, .xors 6 5 17 3, .rol 18 1, .rol 6 7, .xor2 17 18 6, .xors 5 6 18 7, .rol 17 5, .rol 5 22]),
  (2, [.xk 0 0, .xkr 1 1, .xk 16 2, .xk 17 3, .xk 18 8, .xk 19 9, .xk 2 10, .xk 3 11, .xk 4 16, .xk 5 17, .xk 20 18, .xk 21 19, .xk 22 24, .xk 23 25, .xk 6 26, .xk 7 27, .mov 32 0, .and 0 4, .xor 0 22, .xor 4 18, .xor 4 0, .or 22 32, .xor 22 18, .xor 32 4, .mov 18 22, .or 22 32, .xor 22 0, .and 0 18, .xor 32 0, .xor 18 22, .xor 18 32, .mov 0 4, .mov 4 18, .mov 18 22, .not 22 32, .mov 32 1, .and 1 5, .xor 1 23, .xor 5 19, .xor 5 1, .or 23 32, .xor 23 19, .xor 32 5, .mov 19 23, .or 23 32, .xor 23 1, .and 1 19, .xor 32 1, .xor 19 23, .xor 19 32, .mov 1 5, .mov 5 19, .mov 19 23, .not 23 32, .mov 32 16, .and 16 20, .xor 16 6, .xor 20 2, .xor 20 16, .or 6 32, .xor 6 2, .xor 32 20, .mov 2 6, .or 6 32, .xor 6 16, .and 16 2, .xor 32 16, .xor 2 6, .xor 2 32, .mov 16 20, .mov 20 2, .mov 2 6, .not 6 32, .mov 32 17, .and 17 21, .xor 17 7, .xor 21 3, .xor 21 17, .or 7 32, .xor 7 3, .xor 32 21, .mov 3 7, .or 7 32, .xor 7 17, .and 17 3, .xor 32 17, .xor 3 7, .xor 3 32, .mov 17 21, .mov 21 3, .mov 3 7, .not 7 32, .rol 0 13, .rol 20 3, .xor2 19 0 20, .xors 7 20 0 3, .rol 19 1, .rol 7 7, .xor2 0 19 7, .xors 20 7 19 7, .rol 0 5, .rol 20 22, .rol 1 13, .rol 21 3, .xor2 2 1 21, .xors 22 21 1 3, .rol 2 1, .rol 22 7, .xor2 1 2 22, .xors 21 22 2 7, .rol 1 5, .rol 21 22, .rol 16 13, .rol 4 3, .xor2 3 16 4, .xors 23 4 16 3, .rol 3 1, .rol 23 7, .xor2 16 3 23, .xors 4 23 3 7, .rol 16 5, .rol 4 22, .rol 17 13, .rol 5 3, .xor2 18 17 5, .xors 6 5 17 3, .rol 18 1, .rol 6 7, .xor2 17 18 6, .xors 5 6 18 7, .rol 17 5, .rol 5 22])]
/-- The registers added to d.s at the end of process (the same in processFinal). -/
def outs256 : List Nat := [0, 1, 16, 17, 4, 5, 20, 21]
/-- hamsi/digest256.go:673-805 -/
def final256 : List Ins := [
  .xk 0 0, .xkr 1 1, .xk 16 2, .xk 17 3, .xk 18 8, .xk 19 9, .xk 2 10, .xk 3 11, .xk 4 16, .xk 5 17, .xk 20 18, .xk 21 19,
  .xk 22 24, .xk 23 25, .xk 6 26, .xk 7 27, .mov 32 0, .and 0 4, .xor 0 22, .xor 4 18, .xor 4 0, .or 22 32, .xor 22 18, .xor 32 4,
  .mov 18 22, .or 22 32, .xor 22 0, .and 0 18, .xor 32 0, .xor 18 22, .xor 18 32, .mov 0 4, .mov 4 18, .mov 18 22, .not 22 32, .mov 32 1,
  .and 1 5, .xor 1 23, .xor 5 19, .xor 5 1, .or 23 32, .xor 23 19, .xor 32 5, .mov 19 23, .or 23 32, .xor 23 1, .and 1 19, .xor 32 1,
  .xor 19 23, .xor 19 32, .mov 1 5, .mov 5 19, .mov 19 23, .not 23 32, .mov 32 16, .and 16 20, .xor 16 6, .xor 20 2, .xor 20 16, .or 6 32,
  .xor 6 2, .xor 32 20, .mov 2 6, .or 6 32, .xor 6 16, .and 16 2, .xor 32 16, .xor 2 6, .xor 2 32, .mov 16 20, .mov 20 2, .mov 2 6,
  .not 6 32, .mov 32 17, .and 17 21, .xor 17 7, .xor 21 3, .xor 21 17, .or 7 32, .xor 7 3, .xor 32 21, .mov 3 7, .or 7 32, .xor 7 17,
  .and 17 3, .xor 32 17, .xor 3 7, .xor 3 32, .mov 17 21, .mov 21 3, .mov 3 7, .not 7 32, .rol 0 13, .rol 20 3, .xor2 19 0 20, .xors 7 20 0 3,
  .rol 19 1, .rol 7 7, .xor2 0 19 7, .xors 20 7 19 7, .rol 0 5, .rol 20 22, .rol 1 13, .rol 21 3, .xor2 2 1 21, .xors 22 21 1 3, .rol 2 1, .rol 22 7,
  .xor2 1 2 22, .xors 21 22 2 7, .rol 1 5, .rol 21 22, .rol 16 13, .rol 4 3, .xor2 3 16 4, .xors 23 4 16 3, .rol 3 1, .rol 23 7, .xor2 16 3 23, .xors 4 23 3 7,
  .rol 16 5, .rol 4 22, .rol 17 13, .rol 5 3, .xor2 18 17 5, .xors 6 5 17 3, .rol 18 1, .rol 6 7, .xor2 17 18 6, .xors 5 6 18 7, .rol 17 5, .rol 5 22]
/-- hamsi/digest512.go:339-643 -/
def round512 : List Ins := [
  .xk 0 0, .xkr 1 1, .xk 16 2, .xk 17 3, .xk 2 4, .xk 3 5, .xk 18 6, .xk 19 7, .xk 20 8, .xk 21 9, .xk 4 10, .xk 5 11,
  .xk 22 12, .xk 23 13, .xk 6 14, .xk 7 15, .xk 8 16, .xk 9 17, .xk 24 18, .xk 25 19, .xk 10 20, .xk 11 21, .xk 26 22, .xk 27 23,
  .xk 28 24, .xk 29 25, .xk 12 26, .xk 13 27, .xk 30 28, .xk 31 29, .xk 14 30, .xk 15 31, .mov 32 0, .and 0 8, .xor 0 28, .xor 8 20,
  .xor 8 0, .or 28 32, .xor 28 20, .xor 32 8, .mov 20 28, .or 28 32, .xor 28 0, .and 0 20, .xor 32 0, .xor 20 28, .xor 20 32, .mov 0 8,
  .mov 8 20, .mov 20 28, .not 28 32, .mov 32 1, .and 1 9, .xor 1 29, .xor 9 21, .xor 9 1, .or 29 32, .xor 29 21, .xor 32 9, .mov 21 29,
  .or 29 32, .xor 29 1, .and 1 21, .xor 32 1, .xor 21 29, .xor 21 32, .mov 1 9, .mov 9 21, .mov 21 29, .not 29 32, .mov 32 16, .and 16 24,
  .xor 16 12, .xor 24 4, .xor 24 16, .or 12 32, .xor 12 4, .xor 32 24, .mov 4 12, .or 12 32, .xor 12 16, .and 16 4, .xor 32 16, .xor 4 12,
  .xor 4 32, .mov 16 24, .mov 24 4, .mov 4 12, .not 12 32, .mov 32 17, .and 17 25, .xor 17 13, .xor 25 5, .xor 25 17, .or 13 32, .xor 13 5,
  .xor 32 25, .mov 5 13, .or 13 32, .xor 13 17, .and 17 5, .xor 32 17, .xor 5 13, .xor 5 32, .mov 17 25, .mov 25 5, .mov 5 13, .not 13 32,
  .mov 32 2, .and 2 10, .xor 2 30, .xor 10 22, .xor 10 2, .or 30 32, .xor 30 22, .xor 32 10, .mov 22 30, .or 30 32, .xor 30 2, .and 2 22,
  .xor 32 2, .xor 22 30, .xor 22 32, .mov 2 10, .mov 10 22, .mov 22 30, .not 30 32, .mov 32 3, .and 3 11, .xor 3 31, .xor 11 23, .xor 11 3,
  .or 31 32, .xor 31 23, .xor 32 11, .mov 23 31, .or 31 32, .xor 31 3, .and 3 23, .xor 32 3, .xor 23 31, .xor 23 32, .mov 3 11, .mov 11 23,
  .mov 23 31, .not 31 32, .mov 32 18, .and 18 26, .xor 18 14, .xor 26 6, .xor 26 18, .or 14 32, .xor 14 6, .xor 32 26, .mov 6 14, .or 14 32,
  .xor 14 18, .and 18 6, .xor 32 18, .xor 6 14, .xor 6 32, .mov 18 26, .mov 26 6, .mov 6 14, .not 14 32, .mov 32 19, .and 19 27, .xor 19 15,
  .xor 27 7, .xor 27 19, .or 15 32, .xor 15 7, .xor 32 27, .mov 7 15, .or 15 32, .xor 15 19, .and 19 7, .xor 32 19, .xor 7 15, .xor 7 32,
  .mov 19 27, .mov 27 7, .mov 7 15, .not 15 32, .rol 0 13, .rol 24 3, .xor2 21 0 24, .xors 13 24 0 3, .rol 21 1, .rol 13 7, .xor2 0 21 13, .xors 24 13 21 7,
  .rol 0 5, .rol 24 22, .rol 1 13, .rol 25 3, .xor2 4 1 25, .xors 30 25 1 3, .rol 4 1, .rol 30 7, .xor2 1 4 30, .xors 25 30 4 7, .rol 1 5, .rol 25 22,
  .rol 16 13, .rol 10 3, .xor2 5 16 10, .xors 31 10 16 3, .rol 5 1, .rol 31 7, .xor2 16 5 31, .xors 10 31 5 7, .rol 16 5, .rol 10 22, .rol 17 13, .rol 11 3,
  .xor2 22 17 11, .xors 14 11 17 3, .rol 22 1, .rol 14 7, .xor2 17 22 14, .xors 11 14 22 7, .rol 17 5, .rol 11 22, .rol 2 13, .rol 26 3, .xor2 23 2 26, .xors 15 26 2 3,
  .rol 23 1, .rol 15 7, .xor2 2 23 15, .xors 26 15 23 7, .rol 2 5, .rol 26 22, .rol 3 13, .rol 27 3, .xor2 6 3 27, .xors 28 27 3 3, .rol 6 1, .rol 28 7,
  .xor2 3 6 28, .xors 27 28 6 7, .rol 3 5, .rol 27 22, .rol 18 13, .rol 8 3, .xor2 7 18 8, .xors 29 8 18 3, .rol 7 1, .rol 29 7, .xor2 18 7 29, .xors 8 29 7 7,
  .rol 18 5, .rol 8 22, .rol 19 13, .rol 9 3, .xor2 20 19 9, .xors 12 9 19 3, .rol 20 1, .rol 12 7, .xor2 19 20 12, .xors 9 12 20 7, .rol 19 5, .rol 9 22,
  .rol 0 13, .rol 3 3, .xor2 16 0 3, .xors 19 3 0 3, .rol 16 1, .rol 19 7, .xor2 0 16 19, .xors 3 19 16 7, .rol 0 5, .rol 3 22, .rol 8 13, .rol 11 3,
  .xor2 25 8 11, .xors 26 11 8 3, .rol 25 1, .rol 26 7, .xor2 8 25 26, .xors 11 26 25 7, .rol 8 5, .rol 11 22, .rol 21 13, .rol 22 3, .xor2 5 21 22, .xors 6 22 21 3,
  .rol 5 1, .rol 6 7, .xor2 21 5 6, .xors 22 6 5 7, .rol 21 5, .rol 22 22, .rol 29 13, .rol 30 3, .xor2 12 29 30, .xors 15 30 29 3, .rol 12 1, .rol 15 7,
  .xor2 29 12 15, .xors 30 15 12 7, .rol 29 5, .rol 30 22]
/-- The registers added to d.s at the end of process (the same in processFinal). -/
def outs512 : List Nat := [0, 1, 16, 17, 2, 3, 18, 19, 8, 9, 24, 25, 10, 11, 26, 27]
/-- hamsi/digest512.go:825-1129 -/
def final512 : List Ins := [
  .xk 0 0, .xkr 1 1, .xk 16 2, .xk 17 3, .xk 2 4, .xk 3 5, .xk 18 6, .xk 19 7, .xk 20 8, .xk 21 9, .xk 4 10, .xk 5 11,
  .xk 22 12, .xk 23 13, .xk 6 14, .xk 7 15, .xk 8 16, .xk 9 17, .xk 24 18, .xk 25 19, .xk 10 20, .xk 11 21, .xk 26 22, .xk 27 23,
  .xk 28 24, .xk 29 25, .xk 12 26, .xk 13 27, .xk 30 28, .xk 31 29, .xk 14 30, .xk 15 31, .mov 32 0, .and 0 8, .xor 0 28, .xor 8 20,
  .xor 8 0, .or 28 32, .xor 28 20, .xor 32 8, .mov 20 28, .or 28 32, .xor 28 0, .and 0 20, .xor 32 0, .xor 20 28, .xor 20 32, .mov 0 8,
  .mov 8 20, .mov 20 28, .not 28 32, .mov 32 1, .and 1 9, .xor 1 29, .xor 9 21, .xor 9 1, .or 29 32, .xor 29 21, .xor 32 9, .mov 21 29,
  .or 29 32, .xor 29 1, .and 1 21, .xor 32 1, .xor 21 29, .xor 21 32, .mov 1 9, .mov 9 21, .mov 21 29, .not 29 32, .mov 32 16, .and 16 24,
  .xor 16 12, .xor 24 4, .xor 24 16, .or 12 32, .xor 12 4, .xor 32 24, .mov 4 12, .or 12 32, .xor 12 16, .and 16 4, .xor 32 16, .xor 4 12,
  .xor 4 32, .mov 16 24, .mov 24 4, .mov 4 12, .not 12 32, .mov 32 17, .and 17 25, .xor 17 13, .xor 25 5, .xor 25 17, .or 13 32, .xor 13 5,
  .xor 32 25, .mov 5 13, .or 13 32, .xor 13 17, .and 17 5, .xor 32 17, .xor 5 13, .xor 5 32, .mov 17 25, .mov 25 5, .mov 5 13, .not 13 32,
  .mov 32 2, .and 2 10, .xor 2 30, .xor 10 22, .xor 10 2, .or 30 32, .xor 30 22, .xor 32 10, .mov 22 30, .or 30 32, .xor 30 2, .and 2 22,
  .xor 32 2, .xor 22 30, .xor 22 32, .mov 2 10, .mov 10 22, .mov 22 30, .not 30 32, .mov 32 3, .and 3 11, .xor 3 31, .xor 11 23, .xor 11 3,
  .or 31 32, .xor 31 23, .xor 32 11, .mov 23 31, .or 31 32, .xor 31 3, .and 3 23, .xor 32 3, .xor 23 31, .xor 23 32, .mov 3 11, .mov 11 23,
  .mov 23 31, .not 31 32, .mov 32 18, .and 18 26, .xor 18 14, .xor 26 6, .xor 26 18, .or 14 32, .xor 14 6, .xor 32 26, .mov 6 14, .or 14 32,
  .xor 14 18, .and 18 6, .xor 32 18, .xor 6 14, .xor 6 32, .mov 18 26, .mov 26 6, .mov 6 14, .not 14 32, .mov 32 19, .and 19 27, .xor 19 15,
  .xor 27 7, .xor 27 19, .or 15 32, .xor 15 7, .xor 32 27, .mov 7 15, .or 15 32, .xor 15 19, .and 19 7, .xor 32 19, .xor 7 15, .xor 7 32,
  .mov 19 27, .mov 27 7, .mov 7 15, .not 15 32, .rol 0 13, .rol 24 3, .xor2 21 0 24, .xors 13 24 0 3, .rol 21 1, .rol 13 7, .xor2 0 21 13, .xors 24 13 21 7,
  .rol 0 5, .rol 24 22, .rol 1 13, .rol 25 3, .xor2 4 1 25, .xors 30 25 1 3, .rol 4 1, .rol 30 7, .xor2 1 4 30, .xors 25 30 4 7, .rol 1 5, .rol 25 22,
  .rol 16 13, .rol 10 3, .xor2 5 16 10, .xors 31 10 16 3, .rol 5 1, .rol 31 7, .xor2 16 5 31, .xors 10 31 5 7, .rol 16 5, .rol 10 22, .rol 17 13, .rol 11 3,
  .xor2 22 17 11, .xors 14 11 17 3, .rol 22 1, .rol 14 7, .xor2 17 22 14, .xors 11 14 22 7, .rol 17 5, .rol 11 22, .rol 2 13, .rol 26 3, .xor2 23 2 26, .xors 15 26 2 3,
  .rol 23 1, .rol 15 7, .xor2 2 23 15, .xors 26 15 23 7, .rol 2 5, .rol 26 22, .rol 3 13, .rol 27 3, .xor2 6 3 27, .xors 28 27 3 3, .rol 6 1, .rol 28 7,
  .xor2 3 6 28, .xors 27 28 6 7, .rol 3 5, .rol 27 22, .rol 18 13, .rol 8 3, .xor2 7 18 8, .xors 29 8 18 3, .rol 7 1, .rol 29 7, .xor2 18 7 29, .xors 8 29 7 7,
  .rol 18 5, .rol 8 22, .rol 19 13, .rol 9 3, .xor2 20 19 9, .xors 12 9 19 3, .rol 20 1, .rol 12 7, .xor2 19 20 12, .xors 9 12 20 7, .rol 19 5, .rol 9 22,
  .rol 0 13, .rol 3 3, .xor2 16 0 3, .xors 19 3 0 3, .rol 16 1, .rol 19 7, .xor2 0 16 19, .xors 3 19 16 7, .rol 0 5, .rol 3 22, .rol 8 13, .rol 11 3,
  .xor2 25 8 11, .xors 26 11 8 3, .rol 25 1, .rol 26 7, .xor2 8 25 26, .xors 11 26 25 7, .rol 8 5, .rol 11 22, .rol 21 13, .rol 22 3, .xor2 5 21 22, .xors 6 22 21 3,
  .rol 5 1, .rol 6 7, .xor2 21 5 6, .xors 22 6 5 7, .rol 21 5, .rol 22 22, .rol 29 13, .rol 30 3, .xor2 12 29 30, .xors 15 30 29 3, .rol 12 1, .rol 15 7,
  .xor2 29 12 15, .xors 30 15 12 7, .rol 29 5, .rol 30 22]

end Verif.Hamsi
