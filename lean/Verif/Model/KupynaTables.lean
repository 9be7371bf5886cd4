import Verif.Basic
/-
Tables and unrolled functions of package kupyna; generated from kupyna/sbox.go, kbox.go, kupyna256.go, kupyna512.go by tools/gen_kupyna.py.
-/
namespace Verif.Kupyna

/-- kupyna/sbox.go:3-68 -/
def T0 : List U64 := [
  0xa832a829d77f9aa8, 0x4352432297d41143, 0x5f3e5fc2df80615f, 0x061e063014121806, 0x6bda6b7f670cb16b, 0x75bc758f2356c975, 0x6cc16c477519ad6c, 0x592059f2cb927959,
  0x71a871af3b4ad971, 0xdf84dfb6f8275bdf, 0x87a1874c35b22687, 0x95fb95dc59cc6e95, 0x174b17b872655c17, 0xf017f0d31aeae7f0, 0xd89fd88eea3247d8, 0x092d0948363f2409,
  0x6dc46d4f731ea96d, 0xf318f3cb10e3ebf3, 0x1d691de84e53741d, 0xcbc0cb16804b0bcb, 0xc9cac9068c4503c9, 0x4d644d52b3fe294d, 0x2c9c2c7de8c4b02c, 0xaf29af11c56a86af,
  0x798079ef0b72f979, 0xe047e0537a9aa7e0, 0x97f197cc55c26697, 0xfd2efdbb34c9d3fd, 0x6fce6f5f7f10a16f, 0x4b7a4b62a7ec314b, 0x454c451283c60945, 0x39dd39d596afe439,
  0x3ec63eed84baf83e, 0xdd8edda6f42953dd, 0xa315a371ed4eb6a3, 0x4f6e4f42bff0214f, 0xb45eb4c99f2beab4, 0xb654b6d99325e2b6, 0x9ac89aa47be1529a, 0x0e360e70242a380e,
  0x1f631ff8425d7c1f, 0xbf79bf91a51ac6bf, 0x154115a87e6b5415, 0xe142e15b7c9da3e1, 0x49704972abe23949, 0xd2bdd2ded6046fd2, 0x93e593ec4dde7693, 0xc6f9c67eae683fc6,
  0x92e092e44bd97292, 0x72a772b73143d572, 0x9edc9e8463fd429e, 0x61f8612f5b3a9961, 0xd1b2d1c6dc0d63d1, 0x63f2633f57349163, 0xfa35fa8326dccffa, 0xee71ee235eb09fee,
  0xf403f4f302f6f7f4, 0x197d19c8564f6419, 0xd5a6d5e6c41173d5, 0xad23ad01c9648ead, 0x582558facd957d58, 0xa40ea449ff5baaa4, 0xbb6dbbb1bd06d6bb, 0xa11fa161e140bea1,
  0xdc8bdcaef22e57dc, 0xf21df2c316e4eff2, 0x83b5836c2dae3683, 0x37eb37a5b285dc37, 0x4257422a91d31542, 0xe453e4736286b7e4, 0x7a8f7af7017bf57a, 0x32fa328dac9ec832,
  0x9cd69c946ff34a9c, 0xccdbcc2e925e17cc, 0xab3dab31dd7696ab, 0x4a7f4a6aa1eb354a, 0x8f898f0c058a068f, 0x6ecb6e577917a56e, 0x04140420181c1004, 0x27bb2725d2f59c27,
  0x2e962e6de4cab82e, 0xe75ce76b688fbbe7, 0xe24de2437694afe2, 0x5a2f5aeac19b755a, 0x96f496c453c56296, 0x164e16b074625816, 0x23af2305cae98c23, 0x2b872b45fad1ac2b,
  0xc2edc25eb6742fc2, 0x65ec650f43268965, 0x66e36617492f8566, 0x0f330f78222d3c0f, 0xbc76bc89af13cabc, 0xa937a921d1789ea9, 0x474647028fc80147, 0x415841329bda1941,
  0x34e434bdb88cd034, 0x4875487aade53d48, 0xfc2bfcb332ced7fc, 0xb751b7d19522e6b7, 0x6adf6a77610bb56a, 0x88928834179f1a88, 0xa50ba541f95caea5, 0x530253a2f7a45153,
  0x86a4864433b52286, 0xf93af99b2cd5c3f9, 0x5b2a5be2c79c715b, 0xdb90db96e03b4bdb, 0x38d838dd90a8e038, 0x7b8a7bff077cf17b, 0xc3e8c356b0732bc3, 0x1e661ef0445a781e,
  0x22aa220dccee8822, 0x33ff3385aa99cc33, 0x24b4243dd8fc9024, 0x2888285df0d8a028, 0x36ee36adb482d836, 0xc7fcc776a86f3bc7, 0xb240b2f98b39f2b2, 0x3bd73bc59aa1ec3b,
  0x8e8c8e04038d028e, 0x77b6779f2f58c177, 0xba68bab9bb01d2ba, 0xf506f5fb04f1f3f5, 0x144414a0786c5014, 0x9fd99f8c65fa469f, 0x0828084030382008, 0x551c5592e3b64955,
  0x9bcd9bac7de6569b, 0x4c614c5ab5f92d4c, 0xfe21fea33ec0dffe, 0x60fd60275d3d9d60, 0x5c315cdad5896d5c, 0xda95da9ee63c4fda, 0x187818c050486018, 0x4643460a89cf0546,
  0xcddecd26945913cd, 0x7d947dcf136ee97d, 0x21a52115c6e78421, 0xb04ab0e98737fab0, 0x3fc33fe582bdfc3f, 0x1b771bd85a416c1b, 0x8997893c11981e89, 0xff24ffab38c7dbff,
  0xeb60eb0b40ab8beb, 0x84ae84543fbb2a84, 0x69d0696f6b02b969, 0x3ad23acd9ca6e83a, 0x9dd39d9c69f44e9d, 0xd7acd7f6c81f7bd7, 0xd3b8d3d6d0036bd3, 0x70ad70a73d4ddd70,
  0x67e6671f4f288167, 0x405d403a9ddd1d40, 0xb55bb5c1992ceeb5, 0xde81debefe205fde, 0x5d345dd2d38e695d, 0x30f0309da090c030, 0x91ef91fc41d07e91, 0xb14fb1e18130feb1,
  0x788578e70d75fd78, 0x1155118866774411, 0x0105010806070401, 0xe556e57b6481b3e5, 0x0000000000000000, 0x68d568676d05bd68, 0x98c298b477ef5a98, 0xa01aa069e747baa0,
  0xc5f6c566a46133c5, 0x020a02100c0e0802, 0xa604a659f355a2a6, 0x74b974872551cd74, 0x2d992d75eec3b42d, 0x0b270b583a312c0b, 0xa210a279eb49b2a2, 0x76b37697295fc576,
  0xb345b3f18d3ef6b3, 0xbe7cbe99a31dc2be, 0xced1ce3e9e501fce, 0xbd73bd81a914cebd, 0xae2cae19c36d82ae, 0xe96ae91b4ca583e9, 0x8a988a241b91128a, 0x31f53195a697c431,
  0x1c6c1ce04854701c, 0xec7bec3352be97ec, 0xf112f1db1cede3f1, 0x99c799bc71e85e99, 0x94fe94d45fcb6a94, 0xaa38aa39db7192aa, 0xf609f6e30ef8fff6, 0x26be262dd4f29826,
  0x2f932f65e2cdbc2f, 0xef74ef2b58b79bef, 0xe86fe8134aa287e8, 0x8c868c140f830a8c, 0x35e135b5be8bd435, 0x030f03180a090c03, 0xd4a3d4eec21677d4, 0x7f9e7fdf1f60e17f,
  0xfb30fb8b20dbcbfb, 0x051105281e1b1405, 0xc1e2c146bc7d23c1, 0x5e3b5ecad987655e, 0x90ea90f447d77a90, 0x20a0201dc0e08020, 0x3dc93df58eb3f43d, 0x82b082642ba93282,
  0xf70cf7eb08fffbf7, 0xea65ea0346ac8fea, 0x0a220a503c36280a, 0x0d390d682e23340d, 0x7e9b7ed71967e57e, 0xf83ff8932ad2c7f8, 0x500d50bafdad5d50, 0x1a721ad05c46681a,
  0xc4f3c46ea26637c4, 0x071b073812151c07, 0x57165782efb84157, 0xb862b8a9b70fdab8, 0x3ccc3cfd88b4f03c, 0x62f7623751339562, 0xe348e34b7093abe3, 0xc8cfc80e8a4207c8,
  0xac26ac09cf638aac, 0x520752aaf1a35552, 0x64e9640745218d64, 0x1050108060704010, 0xd0b7d0ceda0a67d0, 0xd99ad986ec3543d9, 0x135f13986a794c13, 0x0c3c0c602824300c,
  0x125a12906c7e4812, 0x298d2955f6dfa429, 0x510851b2fbaa5951, 0xb967b9a1b108deb9, 0xcfd4cf3698571bcf, 0xd6a9d6fece187fd6, 0x73a273bf3744d173, 0x8d838d1c09840e8d,
  0x81bf817c21a03e81, 0x5419549ae5b14d54, 0xc0e7c04eba7a27c0, 0xed7eed3b54b993ed, 0x4e6b4e4ab9f7254e, 0x4449441a85c10d44, 0xa701a751f552a6a7, 0x2a822a4dfcd6a82a,
  0x85ab855c39bc2e85, 0x25b12535defb9425, 0xe659e6636e88bfe6, 0xcac5ca1e864c0fca, 0x7c917cc71569ed7c, 0x8b9d8b2c1d96168b, 0x5613568ae9bf4556, 0x80ba807427a73a80]
/-- kupyna/sbox.go:70-135 -/
def T1 : List U64 := [
  0xd1ce3e9e501fcece, 0x6dbbb1bd06d6bbbb, 0x60eb0b40ab8bebeb, 0xe092e44bd9729292, 0x65ea0346ac8feaea, 0xc0cb16804b0bcbcb, 0x5f13986a794c1313, 0xe2c146bc7d23c1c1,
  0x6ae91b4ca583e9e9, 0xd23acd9ca6e83a3a, 0xa9d6fece187fd6d6, 0x40b2f98b39f2b2b2, 0xbdd2ded6046fd2d2, 0xea90f447d77a9090, 0x4b17b872655c1717, 0x3ff8932ad2c7f8f8,
  0x57422a91d3154242, 0x4115a87e6b541515, 0x13568ae9bf455656, 0x5eb4c99f2beab4b4, 0xec650f4326896565, 0x6c1ce04854701c1c, 0x928834179f1a8888, 0x52432297d4114343,
  0xf6c566a46133c5c5, 0x315cdad5896d5c5c, 0xee36adb482d83636, 0x68bab9bb01d2baba, 0x06f5fb04f1f3f5f5, 0x165782efb8415757, 0xe6671f4f28816767, 0x838d1c09840e8d8d,
  0xf53195a697c43131, 0x09f6e30ef8fff6f6, 0xe9640745218d6464, 0x2558facd957d5858, 0xdc9e8463fd429e9e, 0x03f4f302f6f7f4f4, 0xaa220dccee882222, 0x38aa39db7192aaaa,
  0xbc758f2356c97575, 0x330f78222d3c0f0f, 0x0a02100c0e080202, 0x4fb1e18130feb1b1, 0x84dfb6f8275bdfdf, 0xc46d4f731ea96d6d, 0xa273bf3744d17373, 0x644d52b3fe294d4d,
  0x917cc71569ed7c7c, 0xbe262dd4f2982626, 0x962e6de4cab82e2e, 0x0cf7eb08fffbf7f7, 0x2808403038200808, 0x345dd2d38e695d5d, 0x49441a85c10d4444, 0xc63eed84baf83e3e,
  0xd99f8c65fa469f9f, 0x4414a0786c501414, 0xcfc80e8a4207c8c8, 0x2cae19c36d82aeae, 0x19549ae5b14d5454, 0x5010806070401010, 0x9fd88eea3247d8d8, 0x76bc89af13cabcbc,
  0x721ad05c46681a1a, 0xda6b7f670cb16b6b, 0xd0696f6b02b96969, 0x18f3cb10e3ebf3f3, 0x73bd81a914cebdbd, 0xff3385aa99cc3333, 0x3dab31dd7696abab, 0x35fa8326dccffafa,
  0xb2d1c6dc0d63d1d1, 0xcd9bac7de6569b9b, 0xd568676d05bd6868, 0x6b4e4ab9f7254e4e, 0x4e16b07462581616, 0xfb95dc59cc6e9595, 0xef91fc41d07e9191, 0x71ee235eb09feeee,
  0x614c5ab5f92d4c4c, 0xf2633f5734916363, 0x8c8e04038d028e8e, 0x2a5be2c79c715b5b, 0xdbcc2e925e17cccc, 0xcc3cfd88b4f03c3c, 0x7d19c8564f641919, 0x1fa161e140bea1a1,
  0xbf817c21a03e8181, 0x704972abe2394949, 0x8a7bff077cf17b7b, 0x9ad986ec3543d9d9, 0xce6f5f7f10a16f6f, 0xeb37a5b285dc3737, 0xfd60275d3d9d6060, 0xc5ca1e864c0fcaca,
  0x5ce76b688fbbe7e7, 0x872b45fad1ac2b2b, 0x75487aade53d4848, 0x2efdbb34c9d3fdfd, 0xf496c453c5629696, 0x4c451283c6094545, 0x2bfcb332ced7fcfc, 0x5841329bda194141,
  0x5a12906c7e481212, 0x390d682e23340d0d, 0x8079ef0b72f97979, 0x56e57b6481b3e5e5, 0x97893c11981e8989, 0x868c140f830a8c8c, 0x48e34b7093abe3e3, 0xa0201dc0e0802020,
  0xf0309da090c03030, 0x8bdcaef22e57dcdc, 0x51b7d19522e6b7b7, 0xc16c477519ad6c6c, 0x7f4a6aa1eb354a4a, 0x5bb5c1992ceeb5b5, 0xc33fe582bdfc3f3f, 0xf197cc55c2669797,
  0xa3d4eec21677d4d4, 0xf762375133956262, 0x992d75eec3b42d2d, 0x1e06301412180606, 0x0ea449ff5baaa4a4, 0x0ba541f95caea5a5, 0xb5836c2dae368383, 0x3e5fc2df80615f5f,
  0x822a4dfcd6a82a2a, 0x95da9ee63c4fdada, 0xcac9068c4503c9c9, 0x0000000000000000, 0x9b7ed71967e57e7e, 0x10a279eb49b2a2a2, 0x1c5592e3b6495555, 0x79bf91a51ac6bfbf,
  0x5511886677441111, 0xa6d5e6c41173d5d5, 0xd69c946ff34a9c9c, 0xd4cf3698571bcfcf, 0x360e70242a380e0e, 0x220a503c36280a0a, 0xc93df58eb3f43d3d, 0x0851b2fbaa595151,
  0x947dcf136ee97d7d, 0xe593ec4dde769393, 0x771bd85a416c1b1b, 0x21fea33ec0dffefe, 0xf3c46ea26637c4c4, 0x4647028fc8014747, 0x2d0948363f240909, 0xa4864433b5228686,
  0x270b583a312c0b0b, 0x898f0c058a068f8f, 0xd39d9c69f44e9d9d, 0xdf6a77610bb56a6a, 0x1b073812151c0707, 0x67b9a1b108deb9b9, 0x4ab0e98737fab0b0, 0xc298b477ef5a9898,
  0x7818c05048601818, 0xfa328dac9ec83232, 0xa871af3b4ad97171, 0x7a4b62a7ec314b4b, 0x74ef2b58b79befef, 0xd73bc59aa1ec3b3b, 0xad70a73d4ddd7070, 0x1aa069e747baa0a0,
  0x53e4736286b7e4e4, 0x5d403a9ddd1d4040, 0x24ffab38c7dbffff, 0xe8c356b0732bc3c3, 0x37a921d1789ea9a9, 0x59e6636e88bfe6e6, 0x8578e70d75fd7878, 0x3af99b2cd5c3f9f9,
  0x9d8b2c1d96168b8b, 0x43460a89cf054646, 0xba807427a73a8080, 0x661ef0445a781e1e, 0xd838dd90a8e03838, 0x42e15b7c9da3e1e1, 0x62b8a9b70fdab8b8, 0x32a829d77f9aa8a8,
  0x47e0537a9aa7e0e0, 0x3c0c602824300c0c, 0xaf2305cae98c2323, 0xb37697295fc57676, 0x691de84e53741d1d, 0xb12535defb942525, 0xb4243dd8fc902424, 0x1105281e1b140505,
  0x12f1db1cede3f1f1, 0xcb6e577917a56e6e, 0xfe94d45fcb6a9494, 0x88285df0d8a02828, 0xc89aa47be1529a9a, 0xae84543fbb2a8484, 0x6fe8134aa287e8e8, 0x15a371ed4eb6a3a3,
  0x6e4f42bff0214f4f, 0xb6779f2f58c17777, 0xb8d3d6d0036bd3d3, 0xab855c39bc2e8585, 0x4de2437694afe2e2, 0x0752aaf1a3555252, 0x1df2c316e4eff2f2, 0xb082642ba9328282,
  0x0d50bafdad5d5050, 0x8f7af7017bf57a7a, 0x932f65e2cdbc2f2f, 0xb974872551cd7474, 0x0253a2f7a4515353, 0x45b3f18d3ef6b3b3, 0xf8612f5b3a996161, 0x29af11c56a86afaf,
  0xdd39d596afe43939, 0xe135b5be8bd43535, 0x81debefe205fdede, 0xdecd26945913cdcd, 0x631ff8425d7c1f1f, 0xc799bc71e85e9999, 0x26ac09cf638aacac, 0x23ad01c9648eadad,
  0xa772b73143d57272, 0x9c2c7de8c4b02c2c, 0x8edda6f42953dddd, 0xb7d0ceda0a67d0d0, 0xa1874c35b2268787, 0x7cbe99a31dc2bebe, 0x3b5ecad987655e5e, 0x04a659f355a2a6a6,
  0x7bec3352be97ecec, 0x140420181c100404, 0xf9c67eae683fc6c6, 0x0f03180a090c0303, 0xe434bdb88cd03434, 0x30fb8b20dbcbfbfb, 0x90db96e03b4bdbdb, 0x2059f2cb92795959,
  0x54b6d99325e2b6b6, 0xedc25eb6742fc2c2, 0x0501080607040101, 0x17f0d31aeae7f0f0, 0x2f5aeac19b755a5a, 0x7eed3b54b993eded, 0x01a751f552a6a7a7, 0xe36617492f856666,
  0xa52115c6e7842121, 0x9e7fdf1f60e17f7f, 0x988a241b91128a8a, 0xbb2725d2f59c2727, 0xfcc776a86f3bc7c7, 0xe7c04eba7a27c0c0, 0x8d2955f6dfa42929, 0xacd7f6c81f7bd7d7]
/-- kupyna/sbox.go:137-202 -/
def T2 : List U64 := [
  0x93ec4dde769393e5, 0xd986ec3543d9d99a, 0x9aa47be1529a9ac8, 0xb5c1992ceeb5b55b, 0x98b477ef5a9898c2, 0x220dccee882222aa, 0x451283c60945454c, 0xfcb332ced7fcfc2b,
  0xbab9bb01d2baba68, 0x6a77610bb56a6adf, 0xdfb6f8275bdfdf84, 0x02100c0e0802020a, 0x9f8c65fa469f9fd9, 0xdcaef22e57dcdc8b, 0x51b2fbaa59515108, 0x59f2cb9279595920,
  0x4a6aa1eb354a4a7f, 0x17b872655c17174b, 0x2b45fad1ac2b2b87, 0xc25eb6742fc2c2ed, 0x94d45fcb6a9494fe, 0xf4f302f6f7f4f403, 0xbbb1bd06d6bbbb6d, 0xa371ed4eb6a3a315,
  0x62375133956262f7, 0xe4736286b7e4e453, 0x71af3b4ad97171a8, 0xd4eec21677d4d4a3, 0xcd26945913cdcdde, 0x70a73d4ddd7070ad, 0x16b074625816164e, 0xe15b7c9da3e1e142,
  0x4972abe239494970, 0x3cfd88b4f03c3ccc, 0xc04eba7a27c0c0e7, 0xd88eea3247d8d89f, 0x5cdad5896d5c5c31, 0x9bac7de6569b9bcd, 0xad01c9648eadad23, 0x855c39bc2e8585ab,
  0x53a2f7a451535302, 0xa161e140bea1a11f, 0x7af7017bf57a7a8f, 0xc80e8a4207c8c8cf, 0x2d75eec3b42d2d99, 0xe0537a9aa7e0e047, 0xd1c6dc0d63d1d1b2, 0x72b73143d57272a7,
  0xa659f355a2a6a604, 0x2c7de8c4b02c2c9c, 0xc46ea26637c4c4f3, 0xe34b7093abe3e348, 0x7697295fc57676b3, 0x78e70d75fd787885, 0xb7d19522e6b7b751, 0xb4c99f2beab4b45e,
  0x0948363f2409092d, 0x3bc59aa1ec3b3bd7, 0x0e70242a380e0e36, 0x41329bda19414158, 0x4c5ab5f92d4c4c61, 0xdebefe205fdede81, 0xb2f98b39f2b2b240, 0x90f447d77a9090ea,
  0x2535defb942525b1, 0xa541f95caea5a50b, 0xd7f6c81f7bd7d7ac, 0x03180a090c03030f, 0x1188667744111155, 0x0000000000000000, 0xc356b0732bc3c3e8, 0x2e6de4cab82e2e96,
  0x92e44bd9729292e0, 0xef2b58b79befef74, 0x4e4ab9f7254e4e6b, 0x12906c7e4812125a, 0x9d9c69f44e9d9dd3, 0x7dcf136ee97d7d94, 0xcb16804b0bcbcbc0, 0x35b5be8bd43535e1,
  0x1080607040101050, 0xd5e6c41173d5d5a6, 0x4f42bff0214f4f6e, 0x9e8463fd429e9edc, 0x4d52b3fe294d4d64, 0xa921d1789ea9a937, 0x5592e3b64955551c, 0xc67eae683fc6c6f9,
  0xd0ceda0a67d0d0b7, 0x7bff077cf17b7b8a, 0x18c0504860181878, 0x97cc55c2669797f1, 0xd3d6d0036bd3d3b8, 0x36adb482d83636ee, 0xe6636e88bfe6e659, 0x487aade53d484875,
  0x568ae9bf45565613, 0x817c21a03e8181bf, 0x8f0c058a068f8f89, 0x779f2f58c17777b6, 0xcc2e925e17ccccdb, 0x9c946ff34a9c9cd6, 0xb9a1b108deb9b967, 0xe2437694afe2e24d,
  0xac09cf638aacac26, 0xb8a9b70fdab8b862, 0x2f65e2cdbc2f2f93, 0x15a87e6b54151541, 0xa449ff5baaa4a40e, 0x7cc71569ed7c7c91, 0xda9ee63c4fdada95, 0x38dd90a8e03838d8,
  0x1ef0445a781e1e66, 0x0b583a312c0b0b27, 0x05281e1b14050511, 0xd6fece187fd6d6a9, 0x14a0786c50141444, 0x6e577917a56e6ecb, 0x6c477519ad6c6cc1, 0x7ed71967e57e7e9b,
  0x6617492f856666e3, 0xfdbb34c9d3fdfd2e, 0xb1e18130feb1b14f, 0xe57b6481b3e5e556, 0x60275d3d9d6060fd, 0xaf11c56a86afaf29, 0x5ecad987655e5e3b, 0x3385aa99cc3333ff,
  0x874c35b2268787a1, 0xc9068c4503c9c9ca, 0xf0d31aeae7f0f017, 0x5dd2d38e695d5d34, 0x6d4f731ea96d6dc4, 0x3fe582bdfc3f3fc3, 0x8834179f1a888892, 0x8d1c09840e8d8d83,
  0xc776a86f3bc7c7fc, 0xf7eb08fffbf7f70c, 0x1de84e53741d1d69, 0xe91b4ca583e9e96a, 0xec3352be97ecec7b, 0xed3b54b993eded7e, 0x807427a73a8080ba, 0x2955f6dfa429298d,
  0x2725d2f59c2727bb, 0xcf3698571bcfcfd4, 0x99bc71e85e9999c7, 0xa829d77f9aa8a832, 0x50bafdad5d50500d, 0x0f78222d3c0f0f33, 0x37a5b285dc3737eb, 0x243dd8fc902424b4,
  0x285df0d8a0282888, 0x309da090c03030f0, 0x95dc59cc6e9595fb, 0xd2ded6046fd2d2bd, 0x3eed84baf83e3ec6, 0x5be2c79c715b5b2a, 0x403a9ddd1d40405d, 0x836c2dae368383b5,
  0xb3f18d3ef6b3b345, 0x696f6b02b96969d0, 0x5782efb841575716, 0x1ff8425d7c1f1f63, 0x073812151c07071b, 0x1ce04854701c1c6c, 0x8a241b91128a8a98, 0xbc89af13cabcbc76,
  0x201dc0e0802020a0, 0xeb0b40ab8bebeb60, 0xce3e9e501fceced1, 0x8e04038d028e8e8c, 0xab31dd7696abab3d, 0xee235eb09feeee71, 0x3195a697c43131f5, 0xa279eb49b2a2a210,
  0x73bf3744d17373a2, 0xf99b2cd5c3f9f93a, 0xca1e864c0fcacac5, 0x3acd9ca6e83a3ad2, 0x1ad05c46681a1a72, 0xfb8b20dbcbfbfb30, 0x0d682e23340d0d39, 0xc146bc7d23c1c1e2,
  0xfea33ec0dffefe21, 0xfa8326dccffafa35, 0xf2c316e4eff2f21d, 0x6f5f7f10a16f6fce, 0xbd81a914cebdbd73, 0x96c453c5629696f4, 0xdda6f42953dddd8e, 0x432297d411434352,
  0x52aaf1a355525207, 0xb6d99325e2b6b654, 0x0840303820080828, 0xf3cb10e3ebf3f318, 0xae19c36d82aeae2c, 0xbe99a31dc2bebe7c, 0x19c8564f6419197d, 0x893c11981e898997,
  0x328dac9ec83232fa, 0x262dd4f2982626be, 0xb0e98737fab0b04a, 0xea0346ac8feaea65, 0x4b62a7ec314b4b7a, 0x640745218d6464e9, 0x84543fbb2a8484ae, 0x82642ba9328282b0,
  0x6b7f670cb16b6bda, 0xf5fb04f1f3f5f506, 0x79ef0b72f9797980, 0xbf91a51ac6bfbf79, 0x0108060704010105, 0x5fc2df80615f5f3e, 0x758f2356c97575bc, 0x633f5734916363f2,
  0x1bd85a416c1b1b77, 0x2305cae98c2323af, 0x3df58eb3f43d3dc9, 0x68676d05bd6868d5, 0x2a4dfcd6a82a2a82, 0x650f4326896565ec, 0xe8134aa287e8e86f, 0x91fc41d07e9191ef,
  0xf6e30ef8fff6f609, 0xffab38c7dbffff24, 0x13986a794c13135f, 0x58facd957d585825, 0xf1db1cede3f1f112, 0x47028fc801474746, 0x0a503c36280a0a22, 0x7fdf1f60e17f7f9e,
  0xc566a46133c5c5f6, 0xa751f552a6a7a701, 0xe76b688fbbe7e75c, 0x612f5b3a996161f8, 0x5aeac19b755a5a2f, 0x063014121806061e, 0x460a89cf05464643, 0x441a85c10d444449,
  0x422a91d315424257, 0x0420181c10040414, 0xa069e747baa0a01a, 0xdb96e03b4bdbdb90, 0x39d596afe43939dd, 0x864433b5228686a4, 0x549ae5b14d545419, 0xaa39db7192aaaa38,
  0x8c140f830a8c8c86, 0x34bdb88cd03434e4, 0x2115c6e7842121a5, 0x8b2c1d96168b8b9d, 0xf8932ad2c7f8f83f, 0x0c602824300c0c3c, 0x74872551cd7474b9, 0x671f4f28816767e6]
/-- kupyna/sbox.go:204-269 -/
def T3 : List U64 := [
  0x676d05bd6868d568, 0x1c09840e8d8d838d, 0x1e864c0fcacac5ca, 0x52b3fe294d4d644d, 0xbf3744d17373a273, 0x62a7ec314b4b7a4b, 0x4ab9f7254e4e6b4e, 0x4dfcd6a82a2a822a,
  0xeec21677d4d4a3d4, 0xaaf1a35552520752, 0x2dd4f2982626be26, 0xf18d3ef6b3b345b3, 0x9ae5b14d54541954, 0xf0445a781e1e661e, 0xc8564f6419197d19, 0xf8425d7c1f1f631f,
  0x0dccee882222aa22, 0x180a090c03030f03, 0x0a89cf0546464346, 0xf58eb3f43d3dc93d, 0x75eec3b42d2d992d, 0x6aa1eb354a4a7f4a, 0xa2f7a45153530253, 0x6c2dae368383b583,
  0x986a794c13135f13, 0x241b91128a8a988a, 0xd19522e6b7b751b7, 0xe6c41173d5d5a6d5, 0x35defb942525b125, 0xef0b72f979798079, 0xfb04f1f3f5f506f5, 0x81a914cebdbd73bd,
  0xfacd957d58582558, 0x65e2cdbc2f2f932f, 0x682e23340d0d390d, 0x100c0e0802020a02, 0x3b54b993eded7eed, 0xb2fbaa5951510851, 0x8463fd429e9edc9e, 0x8866774411115511,
  0xc316e4eff2f21df2, 0xed84baf83e3ec63e, 0x92e3b64955551c55, 0xcad987655e5e3b5e, 0xc6dc0d63d1d1b2d1, 0xb074625816164e16, 0xfd88b4f03c3ccc3c, 0x17492f856666e366,
  0xa73d4ddd7070ad70, 0xd2d38e695d5d345d, 0xcb10e3ebf3f318f3, 0x1283c60945454c45, 0x3a9ddd1d40405d40, 0x2e925e17ccccdbcc, 0x134aa287e8e86fe8, 0xd45fcb6a9494fe94,
  0x8ae9bf4556561356, 0x4030382008082808, 0x3e9e501fceced1ce, 0xd05c46681a1a721a, 0xcd9ca6e83a3ad23a, 0xded6046fd2d2bdd2, 0x5b7c9da3e1e142e1, 0xb6f8275bdfdf84df,
  0xc1992ceeb5b55bb5, 0xdd90a8e03838d838, 0x577917a56e6ecb6e, 0x70242a380e0e360e, 0x7b6481b3e5e556e5, 0xf302f6f7f4f403f4, 0x9b2cd5c3f9f93af9, 0x4433b5228686a486,
  0x1b4ca583e9e96ae9, 0x42bff0214f4f6e4f, 0xfece187fd6d6a9d6, 0x5c39bc2e8585ab85, 0x05cae98c2323af23, 0x3698571bcfcfd4cf, 0x8dac9ec83232fa32, 0xbc71e85e9999c799,
  0x95a697c43131f531, 0xa0786c5014144414, 0x19c36d82aeae2cae, 0x235eb09feeee71ee, 0x0e8a4207c8c8cfc8, 0x7aade53d48487548, 0xd6d0036bd3d3b8d3, 0x9da090c03030f030,
  0x61e140bea1a11fa1, 0xe44bd9729292e092, 0x329bda1941415841, 0xe18130feb1b14fb1, 0xc050486018187818, 0x6ea26637c4c4f3c4, 0x7de8c4b02c2c9c2c, 0xaf3b4ad97171a871,
  0xb73143d57272a772, 0x1a85c10d44444944, 0xa87e6b5415154115, 0xbb34c9d3fdfd2efd, 0xa5b285dc3737eb37, 0x99a31dc2bebe7cbe, 0xc2df80615f5f3e5f, 0x39db7192aaaa38aa,
  0xac7de6569b9bcd9b, 0x34179f1a88889288, 0x8eea3247d8d89fd8, 0x31dd7696abab3dab, 0x3c11981e89899789, 0x946ff34a9c9cd69c, 0x8326dccffafa35fa, 0x275d3d9d6060fd60,
  0x0346ac8feaea65ea, 0x89af13cabcbc76bc, 0x375133956262f762, 0x602824300c0c3c0c, 0x3dd8fc902424b424, 0x59f355a2a6a604a6, 0x29d77f9aa8a832a8, 0x3352be97ecec7bec,
  0x1f4f28816767e667, 0x1dc0e0802020a020, 0x96e03b4bdbdb90db, 0xc71569ed7c7c917c, 0x5df0d8a028288828, 0xa6f42953dddd8edd, 0x09cf638aacac26ac, 0xe2c79c715b5b2a5b,
  0xbdb88cd03434e434, 0xd71967e57e7e9b7e, 0x8060704010105010, 0xdb1cede3f1f112f1, 0xff077cf17b7b8a7b, 0x0c058a068f8f898f, 0x3f5734916363f263, 0x69e747baa0a01aa0,
  0x281e1b1405051105, 0xa47be1529a9ac89a, 0x2297d41143435243, 0x9f2f58c17777b677, 0x15c6e7842121a521, 0x91a51ac6bfbf79bf, 0x25d2f59c2727bb27, 0x48363f2409092d09,
  0x56b0732bc3c3e8c3, 0x8c65fa469f9fd99f, 0xd99325e2b6b654b6, 0xf6c81f7bd7d7acd7, 0x55f6dfa429298d29, 0x5eb6742fc2c2edc2, 0x0b40ab8bebeb60eb, 0x4eba7a27c0c0e7c0,
  0x49ff5baaa4a40ea4, 0x2c1d96168b8b9d8b, 0x140f830a8c8c868c, 0xe84e53741d1d691d, 0x8b20dbcbfbfb30fb, 0xab38c7dbffff24ff, 0x46bc7d23c1c1e2c1, 0xf98b39f2b2b240b2,
  0xcc55c2669797f197, 0x6de4cab82e2e962e, 0x932ad2c7f8f83ff8, 0x0f4326896565ec65, 0xe30ef8fff6f609f6, 0x8f2356c97575bc75, 0x3812151c07071b07, 0x20181c1004041404,
  0x72abe23949497049, 0x85aa99cc3333ff33, 0x736286b7e4e453e4, 0x86ec3543d9d99ad9, 0xa1b108deb9b967b9, 0xceda0a67d0d0b7d0, 0x2a91d31542425742, 0x76a86f3bc7c7fcc7,
  0x477519ad6c6cc16c, 0xf447d77a9090ea90, 0x0000000000000000, 0x04038d028e8e8c8e, 0x5f7f10a16f6fce6f, 0xbafdad5d50500d50, 0x0806070401010501, 0x66a46133c5c5f6c5,
  0x9ee63c4fdada95da, 0x028fc80147474647, 0xe582bdfc3f3fc33f, 0x26945913cdcddecd, 0x6f6b02b96969d069, 0x79eb49b2a2a210a2, 0x437694afe2e24de2, 0xf7017bf57a7a8f7a,
  0x51f552a6a7a701a7, 0x7eae683fc6c6f9c6, 0xec4dde769393e593, 0x78222d3c0f0f330f, 0x503c36280a0a220a, 0x3014121806061e06, 0x636e88bfe6e659e6, 0x45fad1ac2b2b872b,
  0xc453c5629696f496, 0x71ed4eb6a3a315a3, 0xe04854701c1c6c1c, 0x11c56a86afaf29af, 0x77610bb56a6adf6a, 0x906c7e4812125a12, 0x543fbb2a8484ae84, 0xd596afe43939dd39,
  0x6b688fbbe7e75ce7, 0xe98737fab0b04ab0, 0x642ba9328282b082, 0xeb08fffbf7f70cf7, 0xa33ec0dffefe21fe, 0x9c69f44e9d9dd39d, 0x4c35b2268787a187, 0xdad5896d5c5c315c,
  0x7c21a03e8181bf81, 0xb5be8bd43535e135, 0xbefe205fdede81de, 0xc99f2beab4b45eb4, 0x41f95caea5a50ba5, 0xb332ced7fcfc2bfc, 0x7427a73a8080ba80, 0x2b58b79befef74ef,
  0x16804b0bcbcbc0cb, 0xb1bd06d6bbbb6dbb, 0x7f670cb16b6bda6b, 0x97295fc57676b376, 0xb9bb01d2baba68ba, 0xeac19b755a5a2f5a, 0xcf136ee97d7d947d, 0xe70d75fd78788578,
  0x583a312c0b0b270b, 0xdc59cc6e9595fb95, 0x4b7093abe3e348e3, 0x01c9648eadad23ad, 0x872551cd7474b974, 0xb477ef5a9898c298, 0xc59aa1ec3b3bd73b, 0xadb482d83636ee36,
  0x0745218d6464e964, 0x4f731ea96d6dc46d, 0xaef22e57dcdc8bdc, 0xd31aeae7f0f017f0, 0xf2cb927959592059, 0x21d1789ea9a937a9, 0x5ab5f92d4c4c614c, 0xb872655c17174b17,
  0xdf1f60e17f7f9e7f, 0xfc41d07e9191ef91, 0xa9b70fdab8b862b8, 0x068c4503c9c9cac9, 0x82efb84157571657, 0xd85a416c1b1b771b, 0x537a9aa7e0e047e0, 0x2f5b3a996161f861]
/-- kupyna/sbox.go:271-336 -/
def T4 : List U64 := [
  0xd77f9aa8a832a829, 0x97d4114343524322, 0xdf80615f5f3e5fc2, 0x14121806061e0630, 0x670cb16b6bda6b7f, 0x2356c97575bc758f, 0x7519ad6c6cc16c47, 0xcb927959592059f2,
  0x3b4ad97171a871af, 0xf8275bdfdf84dfb6, 0x35b2268787a1874c, 0x59cc6e9595fb95dc, 0x72655c17174b17b8, 0x1aeae7f0f017f0d3, 0xea3247d8d89fd88e, 0x363f2409092d0948,
  0x731ea96d6dc46d4f, 0x10e3ebf3f318f3cb, 0x4e53741d1d691de8, 0x804b0bcbcbc0cb16, 0x8c4503c9c9cac906, 0xb3fe294d4d644d52, 0xe8c4b02c2c9c2c7d, 0xc56a86afaf29af11,
  0x0b72f979798079ef, 0x7a9aa7e0e047e053, 0x55c2669797f197cc, 0x34c9d3fdfd2efdbb, 0x7f10a16f6fce6f5f, 0xa7ec314b4b7a4b62, 0x83c60945454c4512, 0x96afe43939dd39d5,
  0x84baf83e3ec63eed, 0xf42953dddd8edda6, 0xed4eb6a3a315a371, 0xbff0214f4f6e4f42, 0x9f2beab4b45eb4c9, 0x9325e2b6b654b6d9, 0x7be1529a9ac89aa4, 0x242a380e0e360e70,
  0x425d7c1f1f631ff8, 0xa51ac6bfbf79bf91, 0x7e6b5415154115a8, 0x7c9da3e1e142e15b, 0xabe2394949704972, 0xd6046fd2d2bdd2de, 0x4dde769393e593ec, 0xae683fc6c6f9c67e,
  0x4bd9729292e092e4, 0x3143d57272a772b7, 0x63fd429e9edc9e84, 0x5b3a996161f8612f, 0xdc0d63d1d1b2d1c6, 0x5734916363f2633f, 0x26dccffafa35fa83, 0x5eb09feeee71ee23,
  0x02f6f7f4f403f4f3, 0x564f6419197d19c8, 0xc41173d5d5a6d5e6, 0xc9648eadad23ad01, 0xcd957d58582558fa, 0xff5baaa4a40ea449, 0xbd06d6bbbb6dbbb1, 0xe140bea1a11fa161,
  0xf22e57dcdc8bdcae, 0x16e4eff2f21df2c3, 0x2dae368383b5836c, 0xb285dc3737eb37a5, 0x91d315424257422a, 0x6286b7e4e453e473, 0x017bf57a7a8f7af7, 0xac9ec83232fa328d,
  0x6ff34a9c9cd69c94, 0x925e17ccccdbcc2e, 0xdd7696abab3dab31, 0xa1eb354a4a7f4a6a, 0x058a068f8f898f0c, 0x7917a56e6ecb6e57, 0x181c100404140420, 0xd2f59c2727bb2725,
  0xe4cab82e2e962e6d, 0x688fbbe7e75ce76b, 0x7694afe2e24de243, 0xc19b755a5a2f5aea, 0x53c5629696f496c4, 0x74625816164e16b0, 0xcae98c2323af2305, 0xfad1ac2b2b872b45,
  0xb6742fc2c2edc25e, 0x4326896565ec650f, 0x492f856666e36617, 0x222d3c0f0f330f78, 0xaf13cabcbc76bc89, 0xd1789ea9a937a921, 0x8fc8014747464702, 0x9bda194141584132,
  0xb88cd03434e434bd, 0xade53d484875487a, 0x32ced7fcfc2bfcb3, 0x9522e6b7b751b7d1, 0x610bb56a6adf6a77, 0x179f1a8888928834, 0xf95caea5a50ba541, 0xf7a45153530253a2,
  0x33b5228686a48644, 0x2cd5c3f9f93af99b, 0xc79c715b5b2a5be2, 0xe03b4bdbdb90db96, 0x90a8e03838d838dd, 0x077cf17b7b8a7bff, 0xb0732bc3c3e8c356, 0x445a781e1e661ef0,
  0xccee882222aa220d, 0xaa99cc3333ff3385, 0xd8fc902424b4243d, 0xf0d8a0282888285d, 0xb482d83636ee36ad, 0xa86f3bc7c7fcc776, 0x8b39f2b2b240b2f9, 0x9aa1ec3b3bd73bc5,
  0x038d028e8e8c8e04, 0x2f58c17777b6779f, 0xbb01d2baba68bab9, 0x04f1f3f5f506f5fb, 0x786c5014144414a0, 0x65fa469f9fd99f8c, 0x3038200808280840, 0xe3b64955551c5592,
  0x7de6569b9bcd9bac, 0xb5f92d4c4c614c5a, 0x3ec0dffefe21fea3, 0x5d3d9d6060fd6027, 0xd5896d5c5c315cda, 0xe63c4fdada95da9e, 0x50486018187818c0, 0x89cf05464643460a,
  0x945913cdcddecd26, 0x136ee97d7d947dcf, 0xc6e7842121a52115, 0x8737fab0b04ab0e9, 0x82bdfc3f3fc33fe5, 0x5a416c1b1b771bd8, 0x11981e898997893c, 0x38c7dbffff24ffab,
  0x40ab8bebeb60eb0b, 0x3fbb2a8484ae8454, 0x6b02b96969d0696f, 0x9ca6e83a3ad23acd, 0x69f44e9d9dd39d9c, 0xc81f7bd7d7acd7f6, 0xd0036bd3d3b8d3d6, 0x3d4ddd7070ad70a7,
  0x4f28816767e6671f, 0x9ddd1d40405d403a, 0x992ceeb5b55bb5c1, 0xfe205fdede81debe, 0xd38e695d5d345dd2, 0xa090c03030f0309d, 0x41d07e9191ef91fc, 0x8130feb1b14fb1e1,
  0x0d75fd78788578e7, 0x6677441111551188, 0x0607040101050108, 0x6481b3e5e556e57b, 0x0000000000000000, 0x6d05bd6868d56867, 0x77ef5a9898c298b4, 0xe747baa0a01aa069,
  0xa46133c5c5f6c566, 0x0c0e0802020a0210, 0xf355a2a6a604a659, 0x2551cd7474b97487, 0xeec3b42d2d992d75, 0x3a312c0b0b270b58, 0xeb49b2a2a210a279, 0x295fc57676b37697,
  0x8d3ef6b3b345b3f1, 0xa31dc2bebe7cbe99, 0x9e501fceced1ce3e, 0xa914cebdbd73bd81, 0xc36d82aeae2cae19, 0x4ca583e9e96ae91b, 0x1b91128a8a988a24, 0xa697c43131f53195,
  0x4854701c1c6c1ce0, 0x52be97ecec7bec33, 0x1cede3f1f112f1db, 0x71e85e9999c799bc, 0x5fcb6a9494fe94d4, 0xdb7192aaaa38aa39, 0x0ef8fff6f609f6e3, 0xd4f2982626be262d,
  0xe2cdbc2f2f932f65, 0x58b79befef74ef2b, 0x4aa287e8e86fe813, 0x0f830a8c8c868c14, 0xbe8bd43535e135b5, 0x0a090c03030f0318, 0xc21677d4d4a3d4ee, 0x1f60e17f7f9e7fdf,
  0x20dbcbfbfb30fb8b, 0x1e1b140505110528, 0xbc7d23c1c1e2c146, 0xd987655e5e3b5eca, 0x47d77a9090ea90f4, 0xc0e0802020a0201d, 0x8eb3f43d3dc93df5, 0x2ba9328282b08264,
  0x08fffbf7f70cf7eb, 0x46ac8feaea65ea03, 0x3c36280a0a220a50, 0x2e23340d0d390d68, 0x1967e57e7e9b7ed7, 0x2ad2c7f8f83ff893, 0xfdad5d50500d50ba, 0x5c46681a1a721ad0,
  0xa26637c4c4f3c46e, 0x12151c07071b0738, 0xefb8415757165782, 0xb70fdab8b862b8a9, 0x88b4f03c3ccc3cfd, 0x5133956262f76237, 0x7093abe3e348e34b, 0x8a4207c8c8cfc80e,
  0xcf638aacac26ac09, 0xf1a35552520752aa, 0x45218d6464e96407, 0x6070401010501080, 0xda0a67d0d0b7d0ce, 0xec3543d9d99ad986, 0x6a794c13135f1398, 0x2824300c0c3c0c60,
  0x6c7e4812125a1290, 0xf6dfa429298d2955, 0xfbaa5951510851b2, 0xb108deb9b967b9a1, 0x98571bcfcfd4cf36, 0xce187fd6d6a9d6fe, 0x3744d17373a273bf, 0x09840e8d8d838d1c,
  0x21a03e8181bf817c, 0xe5b14d545419549a, 0xba7a27c0c0e7c04e, 0x54b993eded7eed3b, 0xb9f7254e4e6b4e4a, 0x85c10d444449441a, 0xf552a6a7a701a751, 0xfcd6a82a2a822a4d,
  0x39bc2e8585ab855c, 0xdefb942525b12535, 0x6e88bfe6e659e663, 0x864c0fcacac5ca1e, 0x1569ed7c7c917cc7, 0x1d96168b8b9d8b2c, 0xe9bf45565613568a, 0x27a73a8080ba8074]
/-- kupyna/sbox.go:338-403 -/
def T5 : List U64 := [
  0x501fceced1ce3e9e, 0x06d6bbbb6dbbb1bd, 0xab8bebeb60eb0b40, 0xd9729292e092e44b, 0xac8feaea65ea0346, 0x4b0bcbcbc0cb1680, 0x794c13135f13986a, 0x7d23c1c1e2c146bc,
  0xa583e9e96ae91b4c, 0xa6e83a3ad23acd9c, 0x187fd6d6a9d6fece, 0x39f2b2b240b2f98b, 0x046fd2d2bdd2ded6, 0xd77a9090ea90f447, 0x655c17174b17b872, 0xd2c7f8f83ff8932a,
  0xd315424257422a91, 0x6b5415154115a87e, 0xbf45565613568ae9, 0x2beab4b45eb4c99f, 0x26896565ec650f43, 0x54701c1c6c1ce048, 0x9f1a888892883417, 0xd411434352432297,
  0x6133c5c5f6c566a4, 0x896d5c5c315cdad5, 0x82d83636ee36adb4, 0x01d2baba68bab9bb, 0xf1f3f5f506f5fb04, 0xb8415757165782ef, 0x28816767e6671f4f, 0x840e8d8d838d1c09,
  0x97c43131f53195a6, 0xf8fff6f609f6e30e, 0x218d6464e9640745, 0x957d58582558facd, 0xfd429e9edc9e8463, 0xf6f7f4f403f4f302, 0xee882222aa220dcc, 0x7192aaaa38aa39db,
  0x56c97575bc758f23, 0x2d3c0f0f330f7822, 0x0e0802020a02100c, 0x30feb1b14fb1e181, 0x275bdfdf84dfb6f8, 0x1ea96d6dc46d4f73, 0x44d17373a273bf37, 0xfe294d4d644d52b3,
  0x69ed7c7c917cc715, 0xf2982626be262dd4, 0xcab82e2e962e6de4, 0xfffbf7f70cf7eb08, 0x3820080828084030, 0x8e695d5d345dd2d3, 0xc10d444449441a85, 0xbaf83e3ec63eed84,
  0xfa469f9fd99f8c65, 0x6c5014144414a078, 0x4207c8c8cfc80e8a, 0x6d82aeae2cae19c3, 0xb14d545419549ae5, 0x7040101050108060, 0x3247d8d89fd88eea, 0x13cabcbc76bc89af,
  0x46681a1a721ad05c, 0x0cb16b6bda6b7f67, 0x02b96969d0696f6b, 0xe3ebf3f318f3cb10, 0x14cebdbd73bd81a9, 0x99cc3333ff3385aa, 0x7696abab3dab31dd, 0xdccffafa35fa8326,
  0x0d63d1d1b2d1c6dc, 0xe6569b9bcd9bac7d, 0x05bd6868d568676d, 0xf7254e4e6b4e4ab9, 0x625816164e16b074, 0xcc6e9595fb95dc59, 0xd07e9191ef91fc41, 0xb09feeee71ee235e,
  0xf92d4c4c614c5ab5, 0x34916363f2633f57, 0x8d028e8e8c8e0403, 0x9c715b5b2a5be2c7, 0x5e17ccccdbcc2e92, 0xb4f03c3ccc3cfd88, 0x4f6419197d19c856, 0x40bea1a11fa161e1,
  0xa03e8181bf817c21, 0xe2394949704972ab, 0x7cf17b7b8a7bff07, 0x3543d9d99ad986ec, 0x10a16f6fce6f5f7f, 0x85dc3737eb37a5b2, 0x3d9d6060fd60275d, 0x4c0fcacac5ca1e86,
  0x8fbbe7e75ce76b68, 0xd1ac2b2b872b45fa, 0xe53d484875487aad, 0xc9d3fdfd2efdbb34, 0xc5629696f496c453, 0xc60945454c451283, 0xced7fcfc2bfcb332, 0xda1941415841329b,
  0x7e4812125a12906c, 0x23340d0d390d682e, 0x72f979798079ef0b, 0x81b3e5e556e57b64, 0x981e898997893c11, 0x830a8c8c868c140f, 0x93abe3e348e34b70, 0xe0802020a0201dc0,
  0x90c03030f0309da0, 0x2e57dcdc8bdcaef2, 0x22e6b7b751b7d195, 0x19ad6c6cc16c4775, 0xeb354a4a7f4a6aa1, 0x2ceeb5b55bb5c199, 0xbdfc3f3fc33fe582, 0xc2669797f197cc55,
  0x1677d4d4a3d4eec2, 0x33956262f7623751, 0xc3b42d2d992d75ee, 0x121806061e063014, 0x5baaa4a40ea449ff, 0x5caea5a50ba541f9, 0xae368383b5836c2d, 0x80615f5f3e5fc2df,
  0xd6a82a2a822a4dfc, 0x3c4fdada95da9ee6, 0x4503c9c9cac9068c, 0x0000000000000000, 0x67e57e7e9b7ed719, 0x49b2a2a210a279eb, 0xb64955551c5592e3, 0x1ac6bfbf79bf91a5,
  0x7744111155118866, 0x1173d5d5a6d5e6c4, 0xf34a9c9cd69c946f, 0x571bcfcfd4cf3698, 0x2a380e0e360e7024, 0x36280a0a220a503c, 0xb3f43d3dc93df58e, 0xaa5951510851b2fb,
  0x6ee97d7d947dcf13, 0xde769393e593ec4d, 0x416c1b1b771bd85a, 0xc0dffefe21fea33e, 0x6637c4c4f3c46ea2, 0xc80147474647028f, 0x3f2409092d094836, 0xb5228686a4864433,
  0x312c0b0b270b583a, 0x8a068f8f898f0c05, 0xf44e9d9dd39d9c69, 0x0bb56a6adf6a7761, 0x151c07071b073812, 0x08deb9b967b9a1b1, 0x37fab0b04ab0e987, 0xef5a9898c298b477,
  0x486018187818c050, 0x9ec83232fa328dac, 0x4ad97171a871af3b, 0xec314b4b7a4b62a7, 0xb79befef74ef2b58, 0xa1ec3b3bd73bc59a, 0x4ddd7070ad70a73d, 0x47baa0a01aa069e7,
  0x86b7e4e453e47362, 0xdd1d40405d403a9d, 0xc7dbffff24ffab38, 0x732bc3c3e8c356b0, 0x789ea9a937a921d1, 0x88bfe6e659e6636e, 0x75fd78788578e70d, 0xd5c3f9f93af99b2c,
  0x96168b8b9d8b2c1d, 0xcf05464643460a89, 0xa73a8080ba807427, 0x5a781e1e661ef044, 0xa8e03838d838dd90, 0x9da3e1e142e15b7c, 0x0fdab8b862b8a9b7, 0x7f9aa8a832a829d7,
  0x9aa7e0e047e0537a, 0x24300c0c3c0c6028, 0xe98c2323af2305ca, 0x5fc57676b3769729, 0x53741d1d691de84e, 0xfb942525b12535de, 0xfc902424b4243dd8, 0x1b1405051105281e,
  0xede3f1f112f1db1c, 0x17a56e6ecb6e5779, 0xcb6a9494fe94d45f, 0xd8a0282888285df0, 0xe1529a9ac89aa47b, 0xbb2a8484ae84543f, 0xa287e8e86fe8134a, 0x4eb6a3a315a371ed,
  0xf0214f4f6e4f42bf, 0x58c17777b6779f2f, 0x036bd3d3b8d3d6d0, 0xbc2e8585ab855c39, 0x94afe2e24de24376, 0xa35552520752aaf1, 0xe4eff2f21df2c316, 0xa9328282b082642b,
  0xad5d50500d50bafd, 0x7bf57a7a8f7af701, 0xcdbc2f2f932f65e2, 0x51cd7474b9748725, 0xa45153530253a2f7, 0x3ef6b3b345b3f18d, 0x3a996161f8612f5b, 0x6a86afaf29af11c5,
  0xafe43939dd39d596, 0x8bd43535e135b5be, 0x205fdede81debefe, 0x5913cdcddecd2694, 0x5d7c1f1f631ff842, 0xe85e9999c799bc71, 0x638aacac26ac09cf, 0x648eadad23ad01c9,
  0x43d57272a772b731, 0xc4b02c2c9c2c7de8, 0x2953dddd8edda6f4, 0x0a67d0d0b7d0ceda, 0xb2268787a1874c35, 0x1dc2bebe7cbe99a3, 0x87655e5e3b5ecad9, 0x55a2a6a604a659f3,
  0xbe97ecec7bec3352, 0x1c10040414042018, 0x683fc6c6f9c67eae, 0x090c03030f03180a, 0x8cd03434e434bdb8, 0xdbcbfbfb30fb8b20, 0x3b4bdbdb90db96e0, 0x927959592059f2cb,
  0x25e2b6b654b6d993, 0x742fc2c2edc25eb6, 0x0704010105010806, 0xeae7f0f017f0d31a, 0x9b755a5a2f5aeac1, 0xb993eded7eed3b54, 0x52a6a7a701a751f5, 0x2f856666e3661749,
  0xe7842121a52115c6, 0x60e17f7f9e7fdf1f, 0x91128a8a988a241b, 0xf59c2727bb2725d2, 0x6f3bc7c7fcc776a8, 0x7a27c0c0e7c04eba, 0xdfa429298d2955f6, 0x1f7bd7d7acd7f6c8]
/-- kupyna/sbox.go:405-470 -/
def T6 : List U64 := [
  0x769393e593ec4dde, 0x43d9d99ad986ec35, 0x529a9ac89aa47be1, 0xeeb5b55bb5c1992c, 0x5a9898c298b477ef, 0x882222aa220dccee, 0x0945454c451283c6, 0xd7fcfc2bfcb332ce,
  0xd2baba68bab9bb01, 0xb56a6adf6a77610b, 0x5bdfdf84dfb6f827, 0x0802020a02100c0e, 0x469f9fd99f8c65fa, 0x57dcdc8bdcaef22e, 0x5951510851b2fbaa, 0x7959592059f2cb92,
  0x354a4a7f4a6aa1eb, 0x5c17174b17b87265, 0xac2b2b872b45fad1, 0x2fc2c2edc25eb674, 0x6a9494fe94d45fcb, 0xf7f4f403f4f302f6, 0xd6bbbb6dbbb1bd06, 0xb6a3a315a371ed4e,
  0x956262f762375133, 0xb7e4e453e4736286, 0xd97171a871af3b4a, 0x77d4d4a3d4eec216, 0x13cdcddecd269459, 0xdd7070ad70a73d4d, 0x5816164e16b07462, 0xa3e1e142e15b7c9d,
  0x394949704972abe2, 0xf03c3ccc3cfd88b4, 0x27c0c0e7c04eba7a, 0x47d8d89fd88eea32, 0x6d5c5c315cdad589, 0x569b9bcd9bac7de6, 0x8eadad23ad01c964, 0x2e8585ab855c39bc,
  0x5153530253a2f7a4, 0xbea1a11fa161e140, 0xf57a7a8f7af7017b, 0x07c8c8cfc80e8a42, 0xb42d2d992d75eec3, 0xa7e0e047e0537a9a, 0x63d1d1b2d1c6dc0d, 0xd57272a772b73143,
  0xa2a6a604a659f355, 0xb02c2c9c2c7de8c4, 0x37c4c4f3c46ea266, 0xabe3e348e34b7093, 0xc57676b37697295f, 0xfd78788578e70d75, 0xe6b7b751b7d19522, 0xeab4b45eb4c99f2b,
  0x2409092d0948363f, 0xec3b3bd73bc59aa1, 0x380e0e360e70242a, 0x1941415841329bda, 0x2d4c4c614c5ab5f9, 0x5fdede81debefe20, 0xf2b2b240b2f98b39, 0x7a9090ea90f447d7,
  0x942525b12535defb, 0xaea5a50ba541f95c, 0x7bd7d7acd7f6c81f, 0x0c03030f03180a09, 0x4411115511886677, 0x0000000000000000, 0x2bc3c3e8c356b073, 0xb82e2e962e6de4ca,
  0x729292e092e44bd9, 0x9befef74ef2b58b7, 0x254e4e6b4e4ab9f7, 0x4812125a12906c7e, 0x4e9d9dd39d9c69f4, 0xe97d7d947dcf136e, 0x0bcbcbc0cb16804b, 0xd43535e135b5be8b,
  0x4010105010806070, 0x73d5d5a6d5e6c411, 0x214f4f6e4f42bff0, 0x429e9edc9e8463fd, 0x294d4d644d52b3fe, 0x9ea9a937a921d178, 0x4955551c5592e3b6, 0x3fc6c6f9c67eae68,
  0x67d0d0b7d0ceda0a, 0xf17b7b8a7bff077c, 0x6018187818c05048, 0x669797f197cc55c2, 0x6bd3d3b8d3d6d003, 0xd83636ee36adb482, 0xbfe6e659e6636e88, 0x3d484875487aade5,
  0x45565613568ae9bf, 0x3e8181bf817c21a0, 0x068f8f898f0c058a, 0xc17777b6779f2f58, 0x17ccccdbcc2e925e, 0x4a9c9cd69c946ff3, 0xdeb9b967b9a1b108, 0xafe2e24de2437694,
  0x8aacac26ac09cf63, 0xdab8b862b8a9b70f, 0xbc2f2f932f65e2cd, 0x5415154115a87e6b, 0xaaa4a40ea449ff5b, 0xed7c7c917cc71569, 0x4fdada95da9ee63c, 0xe03838d838dd90a8,
  0x781e1e661ef0445a, 0x2c0b0b270b583a31, 0x1405051105281e1b, 0x7fd6d6a9d6fece18, 0x5014144414a0786c, 0xa56e6ecb6e577917, 0xad6c6cc16c477519, 0xe57e7e9b7ed71967,
  0x856666e36617492f, 0xd3fdfd2efdbb34c9, 0xfeb1b14fb1e18130, 0xb3e5e556e57b6481, 0x9d6060fd60275d3d, 0x86afaf29af11c56a, 0x655e5e3b5ecad987, 0xcc3333ff3385aa99,
  0x268787a1874c35b2, 0x03c9c9cac9068c45, 0xe7f0f017f0d31aea, 0x695d5d345dd2d38e, 0xa96d6dc46d4f731e, 0xfc3f3fc33fe582bd, 0x1a8888928834179f, 0x0e8d8d838d1c0984,
  0x3bc7c7fcc776a86f, 0xfbf7f70cf7eb08ff, 0x741d1d691de84e53, 0x83e9e96ae91b4ca5, 0x97ecec7bec3352be, 0x93eded7eed3b54b9, 0x3a8080ba807427a7, 0xa429298d2955f6df,
  0x9c2727bb2725d2f5, 0x1bcfcfd4cf369857, 0x5e9999c799bc71e8, 0x9aa8a832a829d77f, 0x5d50500d50bafdad, 0x3c0f0f330f78222d, 0xdc3737eb37a5b285, 0x902424b4243dd8fc,
  0xa0282888285df0d8, 0xc03030f0309da090, 0x6e9595fb95dc59cc, 0x6fd2d2bdd2ded604, 0xf83e3ec63eed84ba, 0x715b5b2a5be2c79c, 0x1d40405d403a9ddd, 0x368383b5836c2dae,
  0xf6b3b345b3f18d3e, 0xb96969d0696f6b02, 0x415757165782efb8, 0x7c1f1f631ff8425d, 0x1c07071b07381215, 0x701c1c6c1ce04854, 0x128a8a988a241b91, 0xcabcbc76bc89af13,
  0x802020a0201dc0e0, 0x8bebeb60eb0b40ab, 0x1fceced1ce3e9e50, 0x028e8e8c8e04038d, 0x96abab3dab31dd76, 0x9feeee71ee235eb0, 0xc43131f53195a697, 0xb2a2a210a279eb49,
  0xd17373a273bf3744, 0xc3f9f93af99b2cd5, 0x0fcacac5ca1e864c, 0xe83a3ad23acd9ca6, 0x681a1a721ad05c46, 0xcbfbfb30fb8b20db, 0x340d0d390d682e23, 0x23c1c1e2c146bc7d,
  0xdffefe21fea33ec0, 0xcffafa35fa8326dc, 0xeff2f21df2c316e4, 0xa16f6fce6f5f7f10, 0xcebdbd73bd81a914, 0x629696f496c453c5, 0x53dddd8edda6f429, 0x11434352432297d4,
  0x5552520752aaf1a3, 0xe2b6b654b6d99325, 0x2008082808403038, 0xebf3f318f3cb10e3, 0x82aeae2cae19c36d, 0xc2bebe7cbe99a31d, 0x6419197d19c8564f, 0x1e898997893c1198,
  0xc83232fa328dac9e, 0x982626be262dd4f2, 0xfab0b04ab0e98737, 0x8feaea65ea0346ac, 0x314b4b7a4b62a7ec, 0x8d6464e964074521, 0x2a8484ae84543fbb, 0x328282b082642ba9,
  0xb16b6bda6b7f670c, 0xf3f5f506f5fb04f1, 0xf979798079ef0b72, 0xc6bfbf79bf91a51a, 0x0401010501080607, 0x615f5f3e5fc2df80, 0xc97575bc758f2356, 0x916363f2633f5734,
  0x6c1b1b771bd85a41, 0x8c2323af2305cae9, 0xf43d3dc93df58eb3, 0xbd6868d568676d05, 0xa82a2a822a4dfcd6, 0x896565ec650f4326, 0x87e8e86fe8134aa2, 0x7e9191ef91fc41d0,
  0xfff6f609f6e30ef8, 0xdbffff24ffab38c7, 0x4c13135f13986a79, 0x7d58582558facd95, 0xe3f1f112f1db1ced, 0x0147474647028fc8, 0x280a0a220a503c36, 0xe17f7f9e7fdf1f60,
  0x33c5c5f6c566a461, 0xa6a7a701a751f552, 0xbbe7e75ce76b688f, 0x996161f8612f5b3a, 0x755a5a2f5aeac19b, 0x1806061e06301412, 0x05464643460a89cf, 0x0d444449441a85c1,
  0x15424257422a91d3, 0x100404140420181c, 0xbaa0a01aa069e747, 0x4bdbdb90db96e03b, 0xe43939dd39d596af, 0x228686a4864433b5, 0x4d545419549ae5b1, 0x92aaaa38aa39db71,
  0x0a8c8c868c140f83, 0xd03434e434bdb88c, 0x842121a52115c6e7, 0x168b8b9d8b2c1d96, 0xc7f8f83ff8932ad2, 0x300c0c3c0c602824, 0xcd7474b974872551, 0x816767e6671f4f28]
/-- kupyna/sbox.go:472-537 -/
def T7 : List U64 := [
  0x6868d568676d05bd, 0x8d8d838d1c09840e, 0xcacac5ca1e864c0f, 0x4d4d644d52b3fe29, 0x7373a273bf3744d1, 0x4b4b7a4b62a7ec31, 0x4e4e6b4e4ab9f725, 0x2a2a822a4dfcd6a8,
  0xd4d4a3d4eec21677, 0x52520752aaf1a355, 0x2626be262dd4f298, 0xb3b345b3f18d3ef6, 0x545419549ae5b14d, 0x1e1e661ef0445a78, 0x19197d19c8564f64, 0x1f1f631ff8425d7c,
  0x2222aa220dccee88, 0x03030f03180a090c, 0x464643460a89cf05, 0x3d3dc93df58eb3f4, 0x2d2d992d75eec3b4, 0x4a4a7f4a6aa1eb35, 0x53530253a2f7a451, 0x8383b5836c2dae36,
  0x13135f13986a794c, 0x8a8a988a241b9112, 0xb7b751b7d19522e6, 0xd5d5a6d5e6c41173, 0x2525b12535defb94, 0x79798079ef0b72f9, 0xf5f506f5fb04f1f3, 0xbdbd73bd81a914ce,
  0x58582558facd957d, 0x2f2f932f65e2cdbc, 0x0d0d390d682e2334, 0x02020a02100c0e08, 0xeded7eed3b54b993, 0x51510851b2fbaa59, 0x9e9edc9e8463fd42, 0x1111551188667744,
  0xf2f21df2c316e4ef, 0x3e3ec63eed84baf8, 0x55551c5592e3b649, 0x5e5e3b5ecad98765, 0xd1d1b2d1c6dc0d63, 0x16164e16b0746258, 0x3c3ccc3cfd88b4f0, 0x6666e36617492f85,
  0x7070ad70a73d4ddd, 0x5d5d345dd2d38e69, 0xf3f318f3cb10e3eb, 0x45454c451283c609, 0x40405d403a9ddd1d, 0xccccdbcc2e925e17, 0xe8e86fe8134aa287, 0x9494fe94d45fcb6a,
  0x565613568ae9bf45, 0x0808280840303820, 0xceced1ce3e9e501f, 0x1a1a721ad05c4668, 0x3a3ad23acd9ca6e8, 0xd2d2bdd2ded6046f, 0xe1e142e15b7c9da3, 0xdfdf84dfb6f8275b,
  0xb5b55bb5c1992cee, 0x3838d838dd90a8e0, 0x6e6ecb6e577917a5, 0x0e0e360e70242a38, 0xe5e556e57b6481b3, 0xf4f403f4f302f6f7, 0xf9f93af99b2cd5c3, 0x8686a4864433b522,
  0xe9e96ae91b4ca583, 0x4f4f6e4f42bff021, 0xd6d6a9d6fece187f, 0x8585ab855c39bc2e, 0x2323af2305cae98c, 0xcfcfd4cf3698571b, 0x3232fa328dac9ec8, 0x9999c799bc71e85e,
  0x3131f53195a697c4, 0x14144414a0786c50, 0xaeae2cae19c36d82, 0xeeee71ee235eb09f, 0xc8c8cfc80e8a4207, 0x484875487aade53d, 0xd3d3b8d3d6d0036b, 0x3030f0309da090c0,
  0xa1a11fa161e140be, 0x9292e092e44bd972, 0x41415841329bda19, 0xb1b14fb1e18130fe, 0x18187818c0504860, 0xc4c4f3c46ea26637, 0x2c2c9c2c7de8c4b0, 0x7171a871af3b4ad9,
  0x7272a772b73143d5, 0x444449441a85c10d, 0x15154115a87e6b54, 0xfdfd2efdbb34c9d3, 0x3737eb37a5b285dc, 0xbebe7cbe99a31dc2, 0x5f5f3e5fc2df8061, 0xaaaa38aa39db7192,
  0x9b9bcd9bac7de656, 0x8888928834179f1a, 0xd8d89fd88eea3247, 0xabab3dab31dd7696, 0x898997893c11981e, 0x9c9cd69c946ff34a, 0xfafa35fa8326dccf, 0x6060fd60275d3d9d,
  0xeaea65ea0346ac8f, 0xbcbc76bc89af13ca, 0x6262f76237513395, 0x0c0c3c0c60282430, 0x2424b4243dd8fc90, 0xa6a604a659f355a2, 0xa8a832a829d77f9a, 0xecec7bec3352be97,
  0x6767e6671f4f2881, 0x2020a0201dc0e080, 0xdbdb90db96e03b4b, 0x7c7c917cc71569ed, 0x282888285df0d8a0, 0xdddd8edda6f42953, 0xacac26ac09cf638a, 0x5b5b2a5be2c79c71,
  0x3434e434bdb88cd0, 0x7e7e9b7ed71967e5, 0x1010501080607040, 0xf1f112f1db1cede3, 0x7b7b8a7bff077cf1, 0x8f8f898f0c058a06, 0x6363f2633f573491, 0xa0a01aa069e747ba,
  0x05051105281e1b14, 0x9a9ac89aa47be152, 0x434352432297d411, 0x7777b6779f2f58c1, 0x2121a52115c6e784, 0xbfbf79bf91a51ac6, 0x2727bb2725d2f59c, 0x09092d0948363f24,
  0xc3c3e8c356b0732b, 0x9f9fd99f8c65fa46, 0xb6b654b6d99325e2, 0xd7d7acd7f6c81f7b, 0x29298d2955f6dfa4, 0xc2c2edc25eb6742f, 0xebeb60eb0b40ab8b, 0xc0c0e7c04eba7a27,
  0xa4a40ea449ff5baa, 0x8b8b9d8b2c1d9616, 0x8c8c868c140f830a, 0x1d1d691de84e5374, 0xfbfb30fb8b20dbcb, 0xffff24ffab38c7db, 0xc1c1e2c146bc7d23, 0xb2b240b2f98b39f2,
  0x9797f197cc55c266, 0x2e2e962e6de4cab8, 0xf8f83ff8932ad2c7, 0x6565ec650f432689, 0xf6f609f6e30ef8ff, 0x7575bc758f2356c9, 0x07071b073812151c, 0x0404140420181c10,
  0x4949704972abe239, 0x3333ff3385aa99cc, 0xe4e453e4736286b7, 0xd9d99ad986ec3543, 0xb9b967b9a1b108de, 0xd0d0b7d0ceda0a67, 0x424257422a91d315, 0xc7c7fcc776a86f3b,
  0x6c6cc16c477519ad, 0x9090ea90f447d77a, 0x0000000000000000, 0x8e8e8c8e04038d02, 0x6f6fce6f5f7f10a1, 0x50500d50bafdad5d, 0x0101050108060704, 0xc5c5f6c566a46133,
  0xdada95da9ee63c4f, 0x47474647028fc801, 0x3f3fc33fe582bdfc, 0xcdcddecd26945913, 0x6969d0696f6b02b9, 0xa2a210a279eb49b2, 0xe2e24de2437694af, 0x7a7a8f7af7017bf5,
  0xa7a701a751f552a6, 0xc6c6f9c67eae683f, 0x9393e593ec4dde76, 0x0f0f330f78222d3c, 0x0a0a220a503c3628, 0x06061e0630141218, 0xe6e659e6636e88bf, 0x2b2b872b45fad1ac,
  0x9696f496c453c562, 0xa3a315a371ed4eb6, 0x1c1c6c1ce0485470, 0xafaf29af11c56a86, 0x6a6adf6a77610bb5, 0x12125a12906c7e48, 0x8484ae84543fbb2a, 0x3939dd39d596afe4,
  0xe7e75ce76b688fbb, 0xb0b04ab0e98737fa, 0x8282b082642ba932, 0xf7f70cf7eb08fffb, 0xfefe21fea33ec0df, 0x9d9dd39d9c69f44e, 0x8787a1874c35b226, 0x5c5c315cdad5896d,
  0x8181bf817c21a03e, 0x3535e135b5be8bd4, 0xdede81debefe205f, 0xb4b45eb4c99f2bea, 0xa5a50ba541f95cae, 0xfcfc2bfcb332ced7, 0x8080ba807427a73a, 0xefef74ef2b58b79b,
  0xcbcbc0cb16804b0b, 0xbbbb6dbbb1bd06d6, 0x6b6bda6b7f670cb1, 0x7676b37697295fc5, 0xbaba68bab9bb01d2, 0x5a5a2f5aeac19b75, 0x7d7d947dcf136ee9, 0x78788578e70d75fd,
  0x0b0b270b583a312c, 0x9595fb95dc59cc6e, 0xe3e348e34b7093ab, 0xadad23ad01c9648e, 0x7474b974872551cd, 0x9898c298b477ef5a, 0x3b3bd73bc59aa1ec, 0x3636ee36adb482d8,
  0x6464e9640745218d, 0x6d6dc46d4f731ea9, 0xdcdc8bdcaef22e57, 0xf0f017f0d31aeae7, 0x59592059f2cb9279, 0xa9a937a921d1789e, 0x4c4c614c5ab5f92d, 0x17174b17b872655c,
  0x7f7f9e7fdf1f60e1, 0x9191ef91fc41d07e, 0xb8b862b8a9b70fda, 0xc9c9cac9068c4503, 0x5757165782efb841, 0x1b1b771bd85a416c, 0xe0e047e0537a9aa7, 0x6161f8612f5b3a99]
/-- kupyna/kbox.go:3-12 -/
def dpad : Bytes := [
  0x80, 0x00, 0x00, 0x00, 0x00, 0x00, 0x00, 0x00, 0x00, 0x00, 0x00, 0x00, 0x00, 0x00, 0x00, 0x00,
  0x00, 0x00, 0x00, 0x00, 0x00, 0x00, 0x00, 0x00, 0x00, 0x00, 0x00, 0x00, 0x00, 0x00, 0x00, 0x00,
  0x00, 0x00, 0x00, 0x00, 0x00, 0x00, 0x00, 0x00, 0x00, 0x00, 0x00, 0x00, 0x00, 0x00, 0x00, 0x00,
  0x00, 0x00, 0x00, 0x00, 0x00, 0x00, 0x00, 0x00, 0x00, 0x00, 0x00, 0x00, 0x00, 0x00, 0x00, 0x00,
  0x00, 0x00, 0x00, 0x00, 0x00, 0x00, 0x00, 0x00, 0x00, 0x00, 0x00, 0x00, 0x00, 0x00, 0x00, 0x00,
  0x00, 0x00, 0x00, 0x00, 0x00, 0x00, 0x00, 0x00, 0x00, 0x00, 0x00, 0x00, 0x00, 0x00, 0x00, 0x00,
  0x00, 0x00, 0x00, 0x00, 0x00, 0x00, 0x00, 0x00, 0x00, 0x00, 0x00, 0x00, 0x00, 0x00, 0x00, 0x00,
  0x00, 0x00, 0x00, 0x00, 0x00, 0x00, 0x00, 0x00, 0x00, 0x00, 0x00, 0x00, 0x00, 0x00, 0x00, 0x00]
/-- kupyna/kbox.go:14-17 -/
def kpad32 : Bytes := [
  0x80, 0x00, 0x00, 0x00, 0x00, 0x00, 0x00, 0x00, 0x00, 0x00, 0x00, 0x00, 0x00, 0x00, 0x00, 0x00,
  0x00, 0x00, 0x00, 0x00, 0x00, 0x01, 0x00, 0x00, 0x00, 0x00, 0x00, 0x00, 0x00, 0x00, 0x00, 0x00]
/-- kupyna/kbox.go:19-25 -/
def kpad48 : Bytes := [
  0x80, 0x00, 0x00, 0x00, 0x00, 0x00, 0x00, 0x00, 0x00, 0x00, 0x00, 0x00, 0x00, 0x00, 0x00, 0x00,
  0x00, 0x00, 0x00, 0x00, 0x00, 0x00, 0x00, 0x00, 0x00, 0x00, 0x00, 0x00, 0x00, 0x00, 0x00, 0x00,
  0x00, 0x00, 0x00, 0x00, 0x00, 0x00, 0x00, 0x00, 0x00, 0x00, 0x00, 0x00, 0x00, 0x00, 0x00, 0x00,
  0x00, 0x00, 0x00, 0x00, 0x00, 0x00, 0x00, 0x00, 0x00, 0x00, 0x00, 0x00, 0x00, 0x00, 0x00, 0x00,
  0x00, 0x00, 0x00, 0x00, 0x80, 0x01, 0x00, 0x00, 0x00, 0x00, 0x00, 0x00, 0x00, 0x00, 0x00, 0x00]
/-- kupyna/kbox.go:27-32 -/
def kpad64 : Bytes := [
  0x80, 0x00, 0x00, 0x00, 0x00, 0x00, 0x00, 0x00, 0x00, 0x00, 0x00, 0x00, 0x00, 0x00, 0x00, 0x00,
  0x00, 0x00, 0x00, 0x00, 0x00, 0x00, 0x00, 0x00, 0x00, 0x00, 0x00, 0x00, 0x00, 0x00, 0x00, 0x00,
  0x00, 0x00, 0x00, 0x00, 0x00, 0x00, 0x00, 0x00, 0x00, 0x00, 0x00, 0x00, 0x00, 0x00, 0x00, 0x00,
  0x00, 0x00, 0x00, 0x00, 0x00, 0x02, 0x00, 0x00, 0x00, 0x00, 0x00, 0x00, 0x00, 0x00, 0x00, 0x00]

/-- `x[i]` of a Go array (every index is in range). -/
def g (x : List U64) (i : Nat) : U64 := x.getD i 0
/-- `T[byte(x >> s)]` -/
def look (t : List U64) (x : U64) (s : Nat) : U64 := t.getD ((x >>> s).setWidth 8 : Byte).toNat 0

/-- kupyna/kupyna256.go:109-118 `G`; the result is the array written through the pointer y. -/
def G_256 (x : List U64) : List U64 :=
  [look T0 (g x 0) 0 ^^^ look T1 (g x 7) 8 ^^^ look T2 (g x 6) 16 ^^^ look T3 (g x 5) 24 ^^^ look T4 (g x 4) 32 ^^^ look T5 (g x 3) 40 ^^^ look T6 (g x 2) 48 ^^^ look T7 (g x 1) 56,
   look T0 (g x 1) 0 ^^^ look T1 (g x 0) 8 ^^^ look T2 (g x 7) 16 ^^^ look T3 (g x 6) 24 ^^^ look T4 (g x 5) 32 ^^^ look T5 (g x 4) 40 ^^^ look T6 (g x 3) 48 ^^^ look T7 (g x 2) 56,
   look T0 (g x 2) 0 ^^^ look T1 (g x 1) 8 ^^^ look T2 (g x 0) 16 ^^^ look T3 (g x 7) 24 ^^^ look T4 (g x 6) 32 ^^^ look T5 (g x 5) 40 ^^^ look T6 (g x 4) 48 ^^^ look T7 (g x 3) 56,
   look T0 (g x 3) 0 ^^^ look T1 (g x 2) 8 ^^^ look T2 (g x 1) 16 ^^^ look T3 (g x 0) 24 ^^^ look T4 (g x 7) 32 ^^^ look T5 (g x 6) 40 ^^^ look T6 (g x 5) 48 ^^^ look T7 (g x 4) 56,
   look T0 (g x 4) 0 ^^^ look T1 (g x 3) 8 ^^^ look T2 (g x 2) 16 ^^^ look T3 (g x 1) 24 ^^^ look T4 (g x 0) 32 ^^^ look T5 (g x 7) 40 ^^^ look T6 (g x 6) 48 ^^^ look T7 (g x 5) 56,
   look T0 (g x 5) 0 ^^^ look T1 (g x 4) 8 ^^^ look T2 (g x 3) 16 ^^^ look T3 (g x 2) 24 ^^^ look T4 (g x 1) 32 ^^^ look T5 (g x 0) 40 ^^^ look T6 (g x 7) 48 ^^^ look T7 (g x 6) 56,
   look T0 (g x 6) 0 ^^^ look T1 (g x 5) 8 ^^^ look T2 (g x 4) 16 ^^^ look T3 (g x 3) 24 ^^^ look T4 (g x 2) 32 ^^^ look T5 (g x 1) 40 ^^^ look T6 (g x 0) 48 ^^^ look T7 (g x 7) 56,
   look T0 (g x 7) 0 ^^^ look T1 (g x 6) 8 ^^^ look T2 (g x 5) 16 ^^^ look T3 (g x 4) 24 ^^^ look T4 (g x 3) 32 ^^^ look T5 (g x 2) 40 ^^^ look T6 (g x 1) 48 ^^^ look T7 (g x 0) 56]
/-- kupyna/kupyna256.go:120-129 `G1`; the result is the array written through the pointer y. -/
def G1_256 (x : List U64) (round : U64) : List U64 :=
  [look T0 (g x 0) 0 ^^^ look T1 (g x 7) 8 ^^^ look T2 (g x 6) 16 ^^^ look T3 (g x 5) 24 ^^^ look T4 (g x 4) 32 ^^^ look T5 (g x 3) 40 ^^^ look T6 (g x 2) 48 ^^^ look T7 (g x 1) 56 ^^^ ((0 : U64) <<< 4) ^^^ round,
   look T0 (g x 1) 0 ^^^ look T1 (g x 0) 8 ^^^ look T2 (g x 7) 16 ^^^ look T3 (g x 6) 24 ^^^ look T4 (g x 5) 32 ^^^ look T5 (g x 4) 40 ^^^ look T6 (g x 3) 48 ^^^ look T7 (g x 2) 56 ^^^ ((1 : U64) <<< 4) ^^^ round,
   look T0 (g x 2) 0 ^^^ look T1 (g x 1) 8 ^^^ look T2 (g x 0) 16 ^^^ look T3 (g x 7) 24 ^^^ look T4 (g x 6) 32 ^^^ look T5 (g x 5) 40 ^^^ look T6 (g x 4) 48 ^^^ look T7 (g x 3) 56 ^^^ ((2 : U64) <<< 4) ^^^ round,
   look T0 (g x 3) 0 ^^^ look T1 (g x 2) 8 ^^^ look T2 (g x 1) 16 ^^^ look T3 (g x 0) 24 ^^^ look T4 (g x 7) 32 ^^^ look T5 (g x 6) 40 ^^^ look T6 (g x 5) 48 ^^^ look T7 (g x 4) 56 ^^^ ((3 : U64) <<< 4) ^^^ round,
   look T0 (g x 4) 0 ^^^ look T1 (g x 3) 8 ^^^ look T2 (g x 2) 16 ^^^ look T3 (g x 1) 24 ^^^ look T4 (g x 0) 32 ^^^ look T5 (g x 7) 40 ^^^ look T6 (g x 6) 48 ^^^ look T7 (g x 5) 56 ^^^ ((4 : U64) <<< 4) ^^^ round,
   look T0 (g x 5) 0 ^^^ look T1 (g x 4) 8 ^^^ look T2 (g x 3) 16 ^^^ look T3 (g x 2) 24 ^^^ look T4 (g x 1) 32 ^^^ look T5 (g x 0) 40 ^^^ look T6 (g x 7) 48 ^^^ look T7 (g x 6) 56 ^^^ ((5 : U64) <<< 4) ^^^ round,
   look T0 (g x 6) 0 ^^^ look T1 (g x 5) 8 ^^^ look T2 (g x 4) 16 ^^^ look T3 (g x 3) 24 ^^^ look T4 (g x 2) 32 ^^^ look T5 (g x 1) 40 ^^^ look T6 (g x 0) 48 ^^^ look T7 (g x 7) 56 ^^^ ((6 : U64) <<< 4) ^^^ round,
   look T0 (g x 7) 0 ^^^ look T1 (g x 6) 8 ^^^ look T2 (g x 5) 16 ^^^ look T3 (g x 4) 24 ^^^ look T4 (g x 3) 32 ^^^ look T5 (g x 2) 40 ^^^ look T6 (g x 1) 48 ^^^ look T7 (g x 0) 56 ^^^ ((7 : U64) <<< 4) ^^^ round]
/-- kupyna/kupyna256.go:131-142 `G2`; the result is the array written through the pointer y. -/
def G2_256 (x : List U64) (round : U64) : List U64 :=
  let r : U64 := 0x00F0F0F0F0F0F0F3
  [(look T0 (g x 0) 0 ^^^ look T1 (g x 7) 8 ^^^ look T2 (g x 6) 16 ^^^ look T3 (g x 5) 24 ^^^ look T4 (g x 4) 32 ^^^ look T5 (g x 3) 40 ^^^ look T6 (g x 2) 48 ^^^ look T7 (g x 1) 56) + (r ^^^ (((((7 : U64) - 0) * 0x10) ^^^ round) <<< 56)),
   (look T0 (g x 1) 0 ^^^ look T1 (g x 0) 8 ^^^ look T2 (g x 7) 16 ^^^ look T3 (g x 6) 24 ^^^ look T4 (g x 5) 32 ^^^ look T5 (g x 4) 40 ^^^ look T6 (g x 3) 48 ^^^ look T7 (g x 2) 56) + (r ^^^ (((((7 : U64) - 1) * 0x10) ^^^ round) <<< 56)),
   (look T0 (g x 2) 0 ^^^ look T1 (g x 1) 8 ^^^ look T2 (g x 0) 16 ^^^ look T3 (g x 7) 24 ^^^ look T4 (g x 6) 32 ^^^ look T5 (g x 5) 40 ^^^ look T6 (g x 4) 48 ^^^ look T7 (g x 3) 56) + (r ^^^ (((((7 : U64) - 2) * 0x10) ^^^ round) <<< 56)),
   (look T0 (g x 3) 0 ^^^ look T1 (g x 2) 8 ^^^ look T2 (g x 1) 16 ^^^ look T3 (g x 0) 24 ^^^ look T4 (g x 7) 32 ^^^ look T5 (g x 6) 40 ^^^ look T6 (g x 5) 48 ^^^ look T7 (g x 4) 56) + (r ^^^ (((((7 : U64) - 3) * 0x10) ^^^ round) <<< 56)),
   (look T0 (g x 4) 0 ^^^ look T1 (g x 3) 8 ^^^ look T2 (g x 2) 16 ^^^ look T3 (g x 1) 24 ^^^ look T4 (g x 0) 32 ^^^ look T5 (g x 7) 40 ^^^ look T6 (g x 6) 48 ^^^ look T7 (g x 5) 56) + (r ^^^ (((((7 : U64) - 4) * 0x10) ^^^ round) <<< 56)),
   (look T0 (g x 5) 0 ^^^ look T1 (g x 4) 8 ^^^ look T2 (g x 3) 16 ^^^ look T3 (g x 2) 24 ^^^ look T4 (g x 1) 32 ^^^ look T5 (g x 0) 40 ^^^ look T6 (g x 7) 48 ^^^ look T7 (g x 6) 56) + (r ^^^ (((((7 : U64) - 5) * 0x10) ^^^ round) <<< 56)),
   (look T0 (g x 6) 0 ^^^ look T1 (g x 5) 8 ^^^ look T2 (g x 4) 16 ^^^ look T3 (g x 3) 24 ^^^ look T4 (g x 2) 32 ^^^ look T5 (g x 1) 40 ^^^ look T6 (g x 0) 48 ^^^ look T7 (g x 7) 56) + (r ^^^ (((((7 : U64) - 6) * 0x10) ^^^ round) <<< 56)),
   (look T0 (g x 7) 0 ^^^ look T1 (g x 6) 8 ^^^ look T2 (g x 5) 16 ^^^ look T3 (g x 4) 24 ^^^ look T4 (g x 3) 32 ^^^ look T5 (g x 2) 40 ^^^ look T6 (g x 1) 48 ^^^ look T7 (g x 0) 56) + (r ^^^ (((((7 : U64) - 7) * 0x10) ^^^ round) <<< 56))]
/-- kupyna/kupyna512.go:109-126 `G`; the result is the array written through the pointer y. -/
def G_512 (x : List U64) : List U64 :=
  [look T0 (g x 0) 0 ^^^ look T1 (g x 15) 8 ^^^ look T2 (g x 14) 16 ^^^ look T3 (g x 13) 24 ^^^ look T4 (g x 12) 32 ^^^ look T5 (g x 11) 40 ^^^ look T6 (g x 10) 48 ^^^ look T7 (g x 5) 56,
   look T0 (g x 1) 0 ^^^ look T1 (g x 0) 8 ^^^ look T2 (g x 15) 16 ^^^ look T3 (g x 14) 24 ^^^ look T4 (g x 13) 32 ^^^ look T5 (g x 12) 40 ^^^ look T6 (g x 11) 48 ^^^ look T7 (g x 6) 56,
   look T0 (g x 2) 0 ^^^ look T1 (g x 1) 8 ^^^ look T2 (g x 0) 16 ^^^ look T3 (g x 15) 24 ^^^ look T4 (g x 14) 32 ^^^ look T5 (g x 13) 40 ^^^ look T6 (g x 12) 48 ^^^ look T7 (g x 7) 56,
   look T0 (g x 3) 0 ^^^ look T1 (g x 2) 8 ^^^ look T2 (g x 1) 16 ^^^ look T3 (g x 0) 24 ^^^ look T4 (g x 15) 32 ^^^ look T5 (g x 14) 40 ^^^ look T6 (g x 13) 48 ^^^ look T7 (g x 8) 56,
   look T0 (g x 4) 0 ^^^ look T1 (g x 3) 8 ^^^ look T2 (g x 2) 16 ^^^ look T3 (g x 1) 24 ^^^ look T4 (g x 0) 32 ^^^ look T5 (g x 15) 40 ^^^ look T6 (g x 14) 48 ^^^ look T7 (g x 9) 56,
   look T0 (g x 5) 0 ^^^ look T1 (g x 4) 8 ^^^ look T2 (g x 3) 16 ^^^ look T3 (g x 2) 24 ^^^ look T4 (g x 1) 32 ^^^ look T5 (g x 0) 40 ^^^ look T6 (g x 15) 48 ^^^ look T7 (g x 10) 56,
   look T0 (g x 6) 0 ^^^ look T1 (g x 5) 8 ^^^ look T2 (g x 4) 16 ^^^ look T3 (g x 3) 24 ^^^ look T4 (g x 2) 32 ^^^ look T5 (g x 1) 40 ^^^ look T6 (g x 0) 48 ^^^ look T7 (g x 11) 56,
   look T0 (g x 7) 0 ^^^ look T1 (g x 6) 8 ^^^ look T2 (g x 5) 16 ^^^ look T3 (g x 4) 24 ^^^ look T4 (g x 3) 32 ^^^ look T5 (g x 2) 40 ^^^ look T6 (g x 1) 48 ^^^ look T7 (g x 12) 56,
   look T0 (g x 8) 0 ^^^ look T1 (g x 7) 8 ^^^ look T2 (g x 6) 16 ^^^ look T3 (g x 5) 24 ^^^ look T4 (g x 4) 32 ^^^ look T5 (g x 3) 40 ^^^ look T6 (g x 2) 48 ^^^ look T7 (g x 13) 56,
   look T0 (g x 9) 0 ^^^ look T1 (g x 8) 8 ^^^ look T2 (g x 7) 16 ^^^ look T3 (g x 6) 24 ^^^ look T4 (g x 5) 32 ^^^ look T5 (g x 4) 40 ^^^ look T6 (g x 3) 48 ^^^ look T7 (g x 14) 56,
   look T0 (g x 10) 0 ^^^ look T1 (g x 9) 8 ^^^ look T2 (g x 8) 16 ^^^ look T3 (g x 7) 24 ^^^ look T4 (g x 6) 32 ^^^ look T5 (g x 5) 40 ^^^ look T6 (g x 4) 48 ^^^ look T7 (g x 15) 56,
   look T0 (g x 11) 0 ^^^ look T1 (g x 10) 8 ^^^ look T2 (g x 9) 16 ^^^ look T3 (g x 8) 24 ^^^ look T4 (g x 7) 32 ^^^ look T5 (g x 6) 40 ^^^ look T6 (g x 5) 48 ^^^ look T7 (g x 0) 56,
   look T0 (g x 12) 0 ^^^ look T1 (g x 11) 8 ^^^ look T2 (g x 10) 16 ^^^ look T3 (g x 9) 24 ^^^ look T4 (g x 8) 32 ^^^ look T5 (g x 7) 40 ^^^ look T6 (g x 6) 48 ^^^ look T7 (g x 1) 56,
   look T0 (g x 13) 0 ^^^ look T1 (g x 12) 8 ^^^ look T2 (g x 11) 16 ^^^ look T3 (g x 10) 24 ^^^ look T4 (g x 9) 32 ^^^ look T5 (g x 8) 40 ^^^ look T6 (g x 7) 48 ^^^ look T7 (g x 2) 56,
   look T0 (g x 14) 0 ^^^ look T1 (g x 13) 8 ^^^ look T2 (g x 12) 16 ^^^ look T3 (g x 11) 24 ^^^ look T4 (g x 10) 32 ^^^ look T5 (g x 9) 40 ^^^ look T6 (g x 8) 48 ^^^ look T7 (g x 3) 56,
   look T0 (g x 15) 0 ^^^ look T1 (g x 14) 8 ^^^ look T2 (g x 13) 16 ^^^ look T3 (g x 12) 24 ^^^ look T4 (g x 11) 32 ^^^ look T5 (g x 10) 40 ^^^ look T6 (g x 9) 48 ^^^ look T7 (g x 4) 56]
/-- kupyna/kupyna512.go:128-145 `G1`; the result is the array written through the pointer y. -/
def G1_512 (x : List U64) (round : U64) : List U64 :=
  [look T0 (g x 0) 0 ^^^ look T1 (g x 15) 8 ^^^ look T2 (g x 14) 16 ^^^ look T3 (g x 13) 24 ^^^ look T4 (g x 12) 32 ^^^ look T5 (g x 11) 40 ^^^ look T6 (g x 10) 48 ^^^ look T7 (g x 5) 56 ^^^ ((0 : U64) <<< 4) ^^^ round,
   look T0 (g x 1) 0 ^^^ look T1 (g x 0) 8 ^^^ look T2 (g x 15) 16 ^^^ look T3 (g x 14) 24 ^^^ look T4 (g x 13) 32 ^^^ look T5 (g x 12) 40 ^^^ look T6 (g x 11) 48 ^^^ look T7 (g x 6) 56 ^^^ ((1 : U64) <<< 4) ^^^ round,
   look T0 (g x 2) 0 ^^^ look T1 (g x 1) 8 ^^^ look T2 (g x 0) 16 ^^^ look T3 (g x 15) 24 ^^^ look T4 (g x 14) 32 ^^^ look T5 (g x 13) 40 ^^^ look T6 (g x 12) 48 ^^^ look T7 (g x 7) 56 ^^^ ((2 : U64) <<< 4) ^^^ round,
   look T0 (g x 3) 0 ^^^ look T1 (g x 2) 8 ^^^ look T2 (g x 1) 16 ^^^ look T3 (g x 0) 24 ^^^ look T4 (g x 15) 32 ^^^ look T5 (g x 14) 40 ^^^ look T6 (g x 13) 48 ^^^ look T7 (g x 8) 56 ^^^ ((3 : U64) <<< 4) ^^^ round,
   look T0 (g x 4) 0 ^^^ look T1 (g x 3) 8 ^^^ look T2 (g x 2) 16 ^^^ look T3 (g x 1) 24 ^^^ look T4 (g x 0) 32 ^^^ look T5 (g x 15) 40 ^^^ look T6 (g x 14) 48 ^^^ look T7 (g x 9) 56 ^^^ ((4 : U64) <<< 4) ^^^ round,
   look T0 (g x 5) 0 ^^^ look T1 (g x 4) 8 ^^^ look T2 (g x 3) 16 ^^^ look T3 (g x 2) 24 ^^^ look T4 (g x 1) 32 ^^^ look T5 (g x 0) 40 ^^^ look T6 (g x 15) 48 ^^^ look T7 (g x 10) 56 ^^^ ((5 : U64) <<< 4) ^^^ round,
   look T0 (g x 6) 0 ^^^ look T1 (g x 5) 8 ^^^ look T2 (g x 4) 16 ^^^ look T3 (g x 3) 24 ^^^ look T4 (g x 2) 32 ^^^ look T5 (g x 1) 40 ^^^ look T6 (g x 0) 48 ^^^ look T7 (g x 11) 56 ^^^ ((6 : U64) <<< 4) ^^^ round,
   look T0 (g x 7) 0 ^^^ look T1 (g x 6) 8 ^^^ look T2 (g x 5) 16 ^^^ look T3 (g x 4) 24 ^^^ look T4 (g x 3) 32 ^^^ look T5 (g x 2) 40 ^^^ look T6 (g x 1) 48 ^^^ look T7 (g x 12) 56 ^^^ ((7 : U64) <<< 4) ^^^ round,
   look T0 (g x 8) 0 ^^^ look T1 (g x 7) 8 ^^^ look T2 (g x 6) 16 ^^^ look T3 (g x 5) 24 ^^^ look T4 (g x 4) 32 ^^^ look T5 (g x 3) 40 ^^^ look T6 (g x 2) 48 ^^^ look T7 (g x 13) 56 ^^^ ((8 : U64) <<< 4) ^^^ round,
   look T0 (g x 9) 0 ^^^ look T1 (g x 8) 8 ^^^ look T2 (g x 7) 16 ^^^ look T3 (g x 6) 24 ^^^ look T4 (g x 5) 32 ^^^ look T5 (g x 4) 40 ^^^ look T6 (g x 3) 48 ^^^ look T7 (g x 14) 56 ^^^ ((9 : U64) <<< 4) ^^^ round,
   look T0 (g x 10) 0 ^^^ look T1 (g x 9) 8 ^^^ look T2 (g x 8) 16 ^^^ look T3 (g x 7) 24 ^^^ look T4 (g x 6) 32 ^^^ look T5 (g x 5) 40 ^^^ look T6 (g x 4) 48 ^^^ look T7 (g x 15) 56 ^^^ ((10 : U64) <<< 4) ^^^ round,
   look T0 (g x 11) 0 ^^^ look T1 (g x 10) 8 ^^^ look T2 (g x 9) 16 ^^^ look T3 (g x 8) 24 ^^^ look T4 (g x 7) 32 ^^^ look T5 (g x 6) 40 ^^^ look T6 (g x 5) 48 ^^^ look T7 (g x 0) 56 ^^^ ((11 : U64) <<< 4) ^^^ round,
   look T0 (g x 12) 0 ^^^ look T1 (g x 11) 8 ^^^ look T2 (g x 10) 16 ^^^ look T3 (g x 9) 24 ^^^ look T4 (g x 8) 32 ^^^ look T5 (g x 7) 40 ^^^ look T6 (g x 6) 48 ^^^ look T7 (g x 1) 56 ^^^ ((12 : U64) <<< 4) ^^^ round,
   look T0 (g x 13) 0 ^^^ look T1 (g x 12) 8 ^^^ look T2 (g x 11) 16 ^^^ look T3 (g x 10) 24 ^^^ look T4 (g x 9) 32 ^^^ look T5 (g x 8) 40 ^^^ look T6 (g x 7) 48 ^^^ look T7 (g x 2) 56 ^^^ ((13 : U64) <<< 4) ^^^ round,
   look T0 (g x 14) 0 ^^^ look T1 (g x 13) 8 ^^^ look T2 (g x 12) 16 ^^^ look T3 (g x 11) 24 ^^^ look T4 (g x 10) 32 ^^^ look T5 (g x 9) 40 ^^^ look T6 (g x 8) 48 ^^^ look T7 (g x 3) 56 ^^^ ((14 : U64) <<< 4) ^^^ round,
   look T0 (g x 15) 0 ^^^ look T1 (g x 14) 8 ^^^ look T2 (g x 13) 16 ^^^ look T3 (g x 12) 24 ^^^ look T4 (g x 11) 32 ^^^ look T5 (g x 10) 40 ^^^ look T6 (g x 9) 48 ^^^ look T7 (g x 4) 56 ^^^ ((15 : U64) <<< 4) ^^^ round]
/-- kupyna/kupyna512.go:147-166 `G2`; the result is the array written through the pointer y. -/
def G2_512 (x : List U64) (round : U64) : List U64 :=
  let r : U64 := 0x00F0F0F0F0F0F0F3
  [(look T0 (g x 0) 0 ^^^ look T1 (g x 15) 8 ^^^ look T2 (g x 14) 16 ^^^ look T3 (g x 13) 24 ^^^ look T4 (g x 12) 32 ^^^ look T5 (g x 11) 40 ^^^ look T6 (g x 10) 48 ^^^ look T7 (g x 5) 56) + (r ^^^ (((((15 : U64) - 0) * 0x10) ^^^ round) <<< 56)),
   (look T0 (g x 1) 0 ^^^ look T1 (g x 0) 8 ^^^ look T2 (g x 15) 16 ^^^ look T3 (g x 14) 24 ^^^ look T4 (g x 13) 32 ^^^ look T5 (g x 12) 40 ^^^ look T6 (g x 11) 48 ^^^ look T7 (g x 6) 56) + (r ^^^ (((((15 : U64) - 1) * 0x10) ^^^ round) <<< 56)),
   (look T0 (g x 2) 0 ^^^ look T1 (g x 1) 8 ^^^ look T2 (g x 0) 16 ^^^ look T3 (g x 15) 24 ^^^ look T4 (g x 14) 32 ^^^ look T5 (g x 13) 40 ^^^ look T6 (g x 12) 48 ^^^ look T7 (g x 7) 56) + (r ^^^ (((((15 : U64) - 2) * 0x10) ^^^ round) <<< 56)),
   (look T0 (g x 3) 0 ^^^ look T1 (g x 2) 8 ^^^ look T2 (g x 1) 16 ^^^ look T3 (g x 0) 24 ^^^ look T4 (g x 15) 32 ^^^ look T5 (g x 14) 40 ^^^ look T6 (g x 13) 48 ^^^ look T7 (g x 8) 56) + (r ^^^ (((((15 : U64) - 3) * 0x10) ^^^ round) <<< 56)),
   (look T0 (g x 4) 0 ^^^ look T1 (g x 3) 8 ^^^ look T2 (g x 2) 16 ^^^ look T3 (g x 1) 24 ^^^ look T4 (g x 0) 32 ^^^ look T5 (g x 15) 40 ^^^ look T6 (g x 14) 48 ^^^ look T7 (g x 9) 56) + (r ^^^ (((((15 : U64) - 4) * 0x10) ^^^ round) <<< 56)),
   (look T0 (g x 5) 0 ^^^ look T1 (g x 4) 8 ^^^ look T2 (g x 3) 16 ^^^ look T3 (g x 2) 24 ^^^ look T4 (g x 1) 32 ^^^ look T5 (g x 0) 40 ^^^ look T6 (g x 15) 48 ^^^ look T7 (g x 10) 56) + (r ^^^ (((((15 : U64) - 5) * 0x10) ^^^ round) <<< 56)),
   (look T0 (g x 6) 0 ^^^ look T1 (g x 5) 8 ^^^ look T2 (g x 4) 16 ^^^ look T3 (g x 3) 24 ^^^ look T4 (g x 2) 32 ^^^ look T5 (g x 1) 40 ^^^ look T6 (g x 0) 48 ^^^ look T7 (g x 11) 56) + (r ^^^ (((((15 : U64) - 6) * 0x10) ^^^ round) <<< 56)),
   (look T0 (g x 7) 0 ^^^ look T1 (g x 6) 8 ^^^ look T2 (g x 5) 16 ^^^ look T3 (g x 4) 24 ^^^ look T4 (g x 3) 32 ^^^ look T5 (g x 2) 40 ^^^ look T6 (g x 1) 48 ^^^ look T7 (g x 12) 56) + (r ^^^ (((((15 : U64) - 7) * 0x10) ^^^ round) <<< 56)),
   (look T0 (g x 8) 0 ^^^ look T1 (g x 7) 8 ^^^ look T2 (g x 6) 16 ^^^ look T3 (g x 5) 24 ^^^ look T4 (g x 4) 32 ^^^ look T5 (g x 3) 40 ^^^ look T6 (g x 2) 48 ^^^ look T7 (g x 13) 56) + (r ^^^ (((((15 : U64) - 8) * 0x10) ^^^ round) <<< 56)),
   (look T0 (g x 9) 0 ^^^ look T1 (g x 8) 8 ^^^ look T2 (g x 7) 16 ^^^ look T3 (g x 6) 24 ^^^ look T4 (g x 5) 32 ^^^ look T5 (g x 4) 40 ^^^ look T6 (g x 3) 48 ^^^ look T7 (g x 14) 56) + (r ^^^ (((((15 : U64) - 9) * 0x10) ^^^ round) <<< 56)),
   (look T0 (g x 10) 0 ^^^ look T1 (g x 9) 8 ^^^ look T2 (g x 8) 16 ^^^ look T3 (g x 7) 24 ^^^ look T4 (g x 6) 32 ^^^ look T5 (g x 5) 40 ^^^ look T6 (g x 4) 48 ^^^ look T7 (g x 15) 56) + (r ^^^ (((((15 : U64) - 10) * 0x10) ^^^ round) <<< 56)),
   (look T0 (g x 11) 0 ^^^ look T1 (g x 10) 8 ^^^ look T2 (g x 9) 16 ^^^ look T3 (g x 8) 24 ^^^ look T4 (g x 7) 32 ^^^ look T5 (g x 6) 40 ^^^ look T6 (g x 5) 48 ^^^ look T7 (g x 0) 56) + (r ^^^ (((((15 : U64) - 11) * 0x10) ^^^ round) <<< 56)),
   (look T0 (g x 12) 0 ^^^ look T1 (g x 11) 8 ^^^ look T2 (g x 10) 16 ^^^ look T3 (g x 9) 24 ^^^ look T4 (g x 8) 32 ^^^ look T5 (g x 7) 40 ^^^ look T6 (g x 6) 48 ^^^ look T7 (g x 1) 56) + (r ^^^ (((((15 : U64) - 12) * 0x10) ^^^ round) <<< 56)),
   (look T0 (g x 13) 0 ^^^ look T1 (g x 12) 8 ^^^ look T2 (g x 11) 16 ^^^ look T3 (g x 10) 24 ^^^ look T4 (g x 9) 32 ^^^ look T5 (g x 8) 40 ^^^ look T6 (g x 7) 48 ^^^ look T7 (g x 2) 56) + (r ^^^ (((((15 : U64) - 13) * 0x10) ^^^ round) <<< 56)),
   (look T0 (g x 14) 0 ^^^ look T1 (g x 13) 8 ^^^ look T2 (g x 12) 16 ^^^ look T3 (g x 11) 24 ^^^ look T4 (g x 10) 32 ^^^ look T5 (g x 9) 40 ^^^ look T6 (g x 8) 48 ^^^ look T7 (g x 3) 56) + (r ^^^ (((((15 : U64) - 14) * 0x10) ^^^ round) <<< 56)),
   (look T0 (g x 15) 0 ^^^ look T1 (g x 14) 8 ^^^ look T2 (g x 13) 16 ^^^ look T3 (g x 12) 24 ^^^ look T4 (g x 11) 32 ^^^ look T5 (g x 10) 40 ^^^ look T6 (g x 9) 48 ^^^ look T7 (g x 4) 56) + (r ^^^ (((((15 : U64) - 15) * 0x10) ^^^ round) <<< 56))]

end Verif.Kupyna
