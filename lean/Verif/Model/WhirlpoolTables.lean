import Verif.Basic
/-
Tables of package whirlpool; generated from whirlpool/sbox.go by tools/gen_whirlpool.py.
-/
namespace Verif.Whirlpool

/-- sbox.go:3-68 -/
def C0 : List U64 := [
  0x18186018c07830d8, 0x23238c2305af4626, 0xc6c63fc67ef991b8, 0xe8e887e8136fcdfb, 0x878726874ca113cb, 0xb8b8dab8a9626d11, 0x0101040108050209, 0x4f4f214f426e9e0d,
  0x3636d836adee6c9b, 0xa6a6a2a6590451ff, 0xd2d26fd2debdb90c, 0xf5f5f3f5fb06f70e, 0x7979f979ef80f296, 0x6f6fa16f5fcede30, 0x91917e91fcef3f6d, 0x52525552aa07a4f8,
  0x60609d6027fdc047, 0xbcbccabc89766535, 0x9b9b569baccd2b37, 0x8e8e028e048c018a, 0xa3a3b6a371155bd2, 0x0c0c300c603c186c, 0x7b7bf17bff8af684, 0x3535d435b5e16a80,
  0x1d1d741de8693af5, 0xe0e0a7e05347ddb3, 0xd7d77bd7f6acb321, 0xc2c22fc25eed999c, 0x2e2eb82e6d965c43, 0x4b4b314b627a9629, 0xfefedffea321e15d, 0x575741578216aed5,
  0x15155415a8412abd, 0x7777c1779fb6eee8, 0x3737dc37a5eb6e92, 0xe5e5b3e57b56d79e, 0x9f9f469f8cd92313, 0xf0f0e7f0d317fd23, 0x4a4a354a6a7f9420, 0xdada4fda9e95a944,
  0x58587d58fa25b0a2, 0xc9c903c906ca8fcf, 0x2929a429558d527c, 0x0a0a280a5022145a, 0xb1b1feb1e14f7f50, 0xa0a0baa0691a5dc9, 0x6b6bb16b7fdad614, 0x85852e855cab17d9,
  0xbdbdcebd8173673c, 0x5d5d695dd234ba8f, 0x1010401080502090, 0xf4f4f7f4f303f507, 0xcbcb0bcb16c08bdd, 0x3e3ef83eedc67cd3, 0x0505140528110a2d, 0x676781671fe6ce78,
  0xe4e4b7e47353d597, 0x27279c2725bb4e02, 0x4141194132588273, 0x8b8b168b2c9d0ba7, 0xa7a7a6a7510153f6, 0x7d7de97dcf94fab2, 0x95956e95dcfb3749, 0xd8d847d88e9fad56,
  0xfbfbcbfb8b30eb70, 0xeeee9fee2371c1cd, 0x7c7ced7cc791f8bb, 0x6666856617e3cc71, 0xdddd53dda68ea77b, 0x17175c17b84b2eaf, 0x4747014702468e45, 0x9e9e429e84dc211a,
  0xcaca0fca1ec589d4, 0x2d2db42d75995a58, 0xbfbfc6bf9179632e, 0x07071c07381b0e3f, 0xadad8ead012347ac, 0x5a5a755aea2fb4b0, 0x838336836cb51bef, 0x3333cc3385ff66b6,
  0x636391633ff2c65c, 0x02020802100a0412, 0xaaaa92aa39384993, 0x7171d971afa8e2de, 0xc8c807c80ecf8dc6, 0x19196419c87d32d1, 0x494939497270923b, 0xd9d943d9869aaf5f,
  0xf2f2eff2c31df931, 0xe3e3abe34b48dba8, 0x5b5b715be22ab6b9, 0x88881a8834920dbc, 0x9a9a529aa4c8293e, 0x262698262dbe4c0b, 0x3232c8328dfa64bf, 0xb0b0fab0e94a7d59,
  0xe9e983e91b6acff2, 0x0f0f3c0f78331e77, 0xd5d573d5e6a6b733, 0x80803a8074ba1df4, 0xbebec2be997c6127, 0xcdcd13cd26de87eb, 0x3434d034bde46889, 0x48483d487a759032,
  0xffffdbffab24e354, 0x7a7af57af78ff48d, 0x90907a90f4ea3d64, 0x5f5f615fc23ebe9d, 0x202080201da0403d, 0x6868bd6867d5d00f, 0x1a1a681ad07234ca, 0xaeae82ae192c41b7,
  0xb4b4eab4c95e757d, 0x54544d549a19a8ce, 0x93937693ece53b7f, 0x222288220daa442f, 0x64648d6407e9c863, 0xf1f1e3f1db12ff2a, 0x7373d173bfa2e6cc, 0x12124812905a2482,
  0x40401d403a5d807a, 0x0808200840281048, 0xc3c32bc356e89b95, 0xecec97ec337bc5df, 0xdbdb4bdb9690ab4d, 0xa1a1bea1611f5fc0, 0x8d8d0e8d1c830791, 0x3d3df43df5c97ac8,
  0x97976697ccf1335b, 0x0000000000000000, 0xcfcf1bcf36d483f9, 0x2b2bac2b4587566e, 0x7676c57697b3ece1, 0x8282328264b019e6, 0xd6d67fd6fea9b128, 0x1b1b6c1bd87736c3,
  0xb5b5eeb5c15b7774, 0xafaf86af112943be, 0x6a6ab56a77dfd41d, 0x50505d50ba0da0ea, 0x45450945124c8a57, 0xf3f3ebf3cb18fb38, 0x3030c0309df060ad, 0xefef9bef2b74c3c4,
  0x3f3ffc3fe5c37eda, 0x55554955921caac7, 0xa2a2b2a2791059db, 0xeaea8fea0365c9e9, 0x656589650fecca6a, 0xbabad2bab9686903, 0x2f2fbc2f65935e4a, 0xc0c027c04ee79d8e,
  0xdede5fdebe81a160, 0x1c1c701ce06c38fc, 0xfdfdd3fdbb2ee746, 0x4d4d294d52649a1f, 0x92927292e4e03976, 0x7575c9758fbceafa, 0x06061806301e0c36, 0x8a8a128a249809ae,
  0xb2b2f2b2f940794b, 0xe6e6bfe66359d185, 0x0e0e380e70361c7e, 0x1f1f7c1ff8633ee7, 0x6262956237f7c455, 0xd4d477d4eea3b53a, 0xa8a89aa829324d81, 0x96966296c4f43152,
  0xf9f9c3f99b3aef62, 0xc5c533c566f697a3, 0x2525942535b14a10, 0x59597959f220b2ab, 0x84842a8454ae15d0, 0x7272d572b7a7e4c5, 0x3939e439d5dd72ec, 0x4c4c2d4c5a619816,
  0x5e5e655eca3bbc94, 0x7878fd78e785f09f, 0x3838e038ddd870e5, 0x8c8c0a8c14860598, 0xd1d163d1c6b2bf17, 0xa5a5aea5410b57e4, 0xe2e2afe2434dd9a1, 0x616199612ff8c24e,
  0xb3b3f6b3f1457b42, 0x2121842115a54234, 0x9c9c4a9c94d62508, 0x1e1e781ef0663cee, 0x4343114322528661, 0xc7c73bc776fc93b1, 0xfcfcd7fcb32be54f, 0x0404100420140824,
  0x51515951b208a2e3, 0x99995e99bcc72f25, 0x6d6da96d4fc4da22, 0x0d0d340d68391a65, 0xfafacffa8335e979, 0xdfdf5bdfb684a369, 0x7e7ee57ed79bfca9, 0x242490243db44819,
  0x3b3bec3bc5d776fe, 0xabab96ab313d4b9a, 0xcece1fce3ed181f0, 0x1111441188552299, 0x8f8f068f0c890383, 0x4e4e254e4a6b9c04, 0xb7b7e6b7d1517366, 0xebeb8beb0b60cbe0,
  0x3c3cf03cfdcc78c1, 0x81813e817cbf1ffd, 0x94946a94d4fe3540, 0xf7f7fbf7eb0cf31c, 0xb9b9deb9a1676f18, 0x13134c13985f268b, 0x2c2cb02c7d9c5851, 0xd3d36bd3d6b8bb05,
  0xe7e7bbe76b5cd38c, 0x6e6ea56e57cbdc39, 0xc4c437c46ef395aa, 0x03030c03180f061b, 0x565645568a13acdc, 0x44440d441a49885e, 0x7f7fe17fdf9efea0, 0xa9a99ea921374f88,
  0x2a2aa82a4d825467, 0xbbbbd6bbb16d6b0a, 0xc1c123c146e29f87, 0x53535153a202a6f1, 0xdcdc57dcae8ba572, 0x0b0b2c0b58271653, 0x9d9d4e9d9cd32701, 0x6c6cad6c47c1d82b,
  0x3131c43195f562a4, 0x7474cd7487b9e8f3, 0xf6f6fff6e309f115, 0x464605460a438c4c, 0xacac8aac092645a5, 0x89891e893c970fb5, 0x14145014a04428b4, 0xe1e1a3e15b42dfba,
  0x16165816b04e2ca6, 0x3a3ae83acdd274f7, 0x6969b9696fd0d206, 0x09092409482d1241, 0x7070dd70a7ade0d7, 0xb6b6e2b6d954716f, 0xd0d067d0ceb7bd1e, 0xeded93ed3b7ec7d6,
  0xcccc17cc2edb85e2, 0x424215422a578468, 0x98985a98b4c22d2c, 0xa4a4aaa4490e55ed, 0x2828a0285d885075, 0x5c5c6d5cda31b886, 0xf8f8c7f8933fed6b, 0x8686228644a411c2]
/-- sbox.go:70-135 -/
def C1 : List U64 := [
  0xd818186018c07830, 0x2623238c2305af46, 0xb8c6c63fc67ef991, 0xfbe8e887e8136fcd, 0xcb878726874ca113, 0x11b8b8dab8a9626d, 0x0901010401080502, 0x0d4f4f214f426e9e,
  0x9b3636d836adee6c, 0xffa6a6a2a6590451, 0x0cd2d26fd2debdb9, 0x0ef5f5f3f5fb06f7, 0x967979f979ef80f2, 0x306f6fa16f5fcede, 0x6d91917e91fcef3f, 0xf852525552aa07a4,
  0x4760609d6027fdc0, 0x35bcbccabc897665, 0x379b9b569baccd2b, 0x8a8e8e028e048c01, 0xd2a3a3b6a371155b, 0x6c0c0c300c603c18, 0x847b7bf17bff8af6, 0x803535d435b5e16a,
  0xf51d1d741de8693a, 0xb3e0e0a7e05347dd, 0x21d7d77bd7f6acb3, 0x9cc2c22fc25eed99, 0x432e2eb82e6d965c, 0x294b4b314b627a96, 0x5dfefedffea321e1, 0xd5575741578216ae,
  0xbd15155415a8412a, 0xe87777c1779fb6ee, 0x923737dc37a5eb6e, 0x9ee5e5b3e57b56d7, 0x139f9f469f8cd923, 0x23f0f0e7f0d317fd, 0x204a4a354a6a7f94, 0x44dada4fda9e95a9,
  0xa258587d58fa25b0, 0xcfc9c903c906ca8f, 0x7c2929a429558d52, 0x5a0a0a280a502214, 0x50b1b1feb1e14f7f, 0xc9a0a0baa0691a5d, 0x146b6bb16b7fdad6, 0xd985852e855cab17,
  0x3cbdbdcebd817367, 0x8f5d5d695dd234ba, 0x9010104010805020, 0x07f4f4f7f4f303f5, 0xddcbcb0bcb16c08b, 0xd33e3ef83eedc67c, 0x2d0505140528110a, 0x78676781671fe6ce,
  0x97e4e4b7e47353d5, 0x0227279c2725bb4e, 0x7341411941325882, 0xa78b8b168b2c9d0b, 0xf6a7a7a6a7510153, 0xb27d7de97dcf94fa, 0x4995956e95dcfb37, 0x56d8d847d88e9fad,
  0x70fbfbcbfb8b30eb, 0xcdeeee9fee2371c1, 0xbb7c7ced7cc791f8, 0x716666856617e3cc, 0x7bdddd53dda68ea7, 0xaf17175c17b84b2e, 0x454747014702468e, 0x1a9e9e429e84dc21,
  0xd4caca0fca1ec589, 0x582d2db42d75995a, 0x2ebfbfc6bf917963, 0x3f07071c07381b0e, 0xacadad8ead012347, 0xb05a5a755aea2fb4, 0xef838336836cb51b, 0xb63333cc3385ff66,
  0x5c636391633ff2c6, 0x1202020802100a04, 0x93aaaa92aa393849, 0xde7171d971afa8e2, 0xc6c8c807c80ecf8d, 0xd119196419c87d32, 0x3b49493949727092, 0x5fd9d943d9869aaf,
  0x31f2f2eff2c31df9, 0xa8e3e3abe34b48db, 0xb95b5b715be22ab6, 0xbc88881a8834920d, 0x3e9a9a529aa4c829, 0x0b262698262dbe4c, 0xbf3232c8328dfa64, 0x59b0b0fab0e94a7d,
  0xf2e9e983e91b6acf, 0x770f0f3c0f78331e, 0x33d5d573d5e6a6b7, 0xf480803a8074ba1d, 0x27bebec2be997c61, 0xebcdcd13cd26de87, 0x893434d034bde468, 0x3248483d487a7590,
  0x54ffffdbffab24e3, 0x8d7a7af57af78ff4, 0x6490907a90f4ea3d, 0x9d5f5f615fc23ebe, 0x3d202080201da040, 0x0f6868bd6867d5d0, 0xca1a1a681ad07234, 0xb7aeae82ae192c41,
  0x7db4b4eab4c95e75, 0xce54544d549a19a8, 0x7f93937693ece53b, 0x2f222288220daa44, 0x6364648d6407e9c8, 0x2af1f1e3f1db12ff, 0xcc7373d173bfa2e6, 0x8212124812905a24,
  0x7a40401d403a5d80, 0x4808082008402810, 0x95c3c32bc356e89b, 0xdfecec97ec337bc5, 0x4ddbdb4bdb9690ab, 0xc0a1a1bea1611f5f, 0x918d8d0e8d1c8307, 0xc83d3df43df5c97a,
  0x5b97976697ccf133, 0x0000000000000000, 0xf9cfcf1bcf36d483, 0x6e2b2bac2b458756, 0xe17676c57697b3ec, 0xe68282328264b019, 0x28d6d67fd6fea9b1, 0xc31b1b6c1bd87736,
  0x74b5b5eeb5c15b77, 0xbeafaf86af112943, 0x1d6a6ab56a77dfd4, 0xea50505d50ba0da0, 0x5745450945124c8a, 0x38f3f3ebf3cb18fb, 0xad3030c0309df060, 0xc4efef9bef2b74c3,
  0xda3f3ffc3fe5c37e, 0xc755554955921caa, 0xdba2a2b2a2791059, 0xe9eaea8fea0365c9, 0x6a656589650fecca, 0x03babad2bab96869, 0x4a2f2fbc2f65935e, 0x8ec0c027c04ee79d,
  0x60dede5fdebe81a1, 0xfc1c1c701ce06c38, 0x46fdfdd3fdbb2ee7, 0x1f4d4d294d52649a, 0x7692927292e4e039, 0xfa7575c9758fbcea, 0x3606061806301e0c, 0xae8a8a128a249809,
  0x4bb2b2f2b2f94079, 0x85e6e6bfe66359d1, 0x7e0e0e380e70361c, 0xe71f1f7c1ff8633e, 0x556262956237f7c4, 0x3ad4d477d4eea3b5, 0x81a8a89aa829324d, 0x5296966296c4f431,
  0x62f9f9c3f99b3aef, 0xa3c5c533c566f697, 0x102525942535b14a, 0xab59597959f220b2, 0xd084842a8454ae15, 0xc57272d572b7a7e4, 0xec3939e439d5dd72, 0x164c4c2d4c5a6198,
  0x945e5e655eca3bbc, 0x9f7878fd78e785f0, 0xe53838e038ddd870, 0x988c8c0a8c148605, 0x17d1d163d1c6b2bf, 0xe4a5a5aea5410b57, 0xa1e2e2afe2434dd9, 0x4e616199612ff8c2,
  0x42b3b3f6b3f1457b, 0x342121842115a542, 0x089c9c4a9c94d625, 0xee1e1e781ef0663c, 0x6143431143225286, 0xb1c7c73bc776fc93, 0x4ffcfcd7fcb32be5, 0x2404041004201408,
  0xe351515951b208a2, 0x2599995e99bcc72f, 0x226d6da96d4fc4da, 0x650d0d340d68391a, 0x79fafacffa8335e9, 0x69dfdf5bdfb684a3, 0xa97e7ee57ed79bfc, 0x19242490243db448,
  0xfe3b3bec3bc5d776, 0x9aabab96ab313d4b, 0xf0cece1fce3ed181, 0x9911114411885522, 0x838f8f068f0c8903, 0x044e4e254e4a6b9c, 0x66b7b7e6b7d15173, 0xe0ebeb8beb0b60cb,
  0xc13c3cf03cfdcc78, 0xfd81813e817cbf1f, 0x4094946a94d4fe35, 0x1cf7f7fbf7eb0cf3, 0x18b9b9deb9a1676f, 0x8b13134c13985f26, 0x512c2cb02c7d9c58, 0x05d3d36bd3d6b8bb,
  0x8ce7e7bbe76b5cd3, 0x396e6ea56e57cbdc, 0xaac4c437c46ef395, 0x1b03030c03180f06, 0xdc565645568a13ac, 0x5e44440d441a4988, 0xa07f7fe17fdf9efe, 0x88a9a99ea921374f,
  0x672a2aa82a4d8254, 0x0abbbbd6bbb16d6b, 0x87c1c123c146e29f, 0xf153535153a202a6, 0x72dcdc57dcae8ba5, 0x530b0b2c0b582716, 0x019d9d4e9d9cd327, 0x2b6c6cad6c47c1d8,
  0xa43131c43195f562, 0xf37474cd7487b9e8, 0x15f6f6fff6e309f1, 0x4c464605460a438c, 0xa5acac8aac092645, 0xb589891e893c970f, 0xb414145014a04428, 0xbae1e1a3e15b42df,
  0xa616165816b04e2c, 0xf73a3ae83acdd274, 0x066969b9696fd0d2, 0x4109092409482d12, 0xd77070dd70a7ade0, 0x6fb6b6e2b6d95471, 0x1ed0d067d0ceb7bd, 0xd6eded93ed3b7ec7,
  0xe2cccc17cc2edb85, 0x68424215422a5784, 0x2c98985a98b4c22d, 0xeda4a4aaa4490e55, 0x752828a0285d8850, 0x865c5c6d5cda31b8, 0x6bf8f8c7f8933fed, 0xc28686228644a411]
/-- sbox.go:137-202 -/
def C2 : List U64 := [
  0x30d818186018c078, 0x462623238c2305af, 0x91b8c6c63fc67ef9, 0xcdfbe8e887e8136f, 0x13cb878726874ca1, 0x6d11b8b8dab8a962, 0x0209010104010805, 0x9e0d4f4f214f426e,
  0x6c9b3636d836adee, 0x51ffa6a6a2a65904, 0xb90cd2d26fd2debd, 0xf70ef5f5f3f5fb06, 0xf2967979f979ef80, 0xde306f6fa16f5fce, 0x3f6d91917e91fcef, 0xa4f852525552aa07,
  0xc04760609d6027fd, 0x6535bcbccabc8976, 0x2b379b9b569baccd, 0x018a8e8e028e048c, 0x5bd2a3a3b6a37115, 0x186c0c0c300c603c, 0xf6847b7bf17bff8a, 0x6a803535d435b5e1,
  0x3af51d1d741de869, 0xddb3e0e0a7e05347, 0xb321d7d77bd7f6ac, 0x999cc2c22fc25eed, 0x5c432e2eb82e6d96, 0x96294b4b314b627a, 0xe15dfefedffea321, 0xaed5575741578216,
  0x2abd15155415a841, 0xeee87777c1779fb6, 0x6e923737dc37a5eb, 0xd79ee5e5b3e57b56, 0x23139f9f469f8cd9, 0xfd23f0f0e7f0d317, 0x94204a4a354a6a7f, 0xa944dada4fda9e95,
  0xb0a258587d58fa25, 0x8fcfc9c903c906ca, 0x527c2929a429558d, 0x145a0a0a280a5022, 0x7f50b1b1feb1e14f, 0x5dc9a0a0baa0691a, 0xd6146b6bb16b7fda, 0x17d985852e855cab,
  0x673cbdbdcebd8173, 0xba8f5d5d695dd234, 0x2090101040108050, 0xf507f4f4f7f4f303, 0x8bddcbcb0bcb16c0, 0x7cd33e3ef83eedc6, 0x0a2d050514052811, 0xce78676781671fe6,
  0xd597e4e4b7e47353, 0x4e0227279c2725bb, 0x8273414119413258, 0x0ba78b8b168b2c9d, 0x53f6a7a7a6a75101, 0xfab27d7de97dcf94, 0x374995956e95dcfb, 0xad56d8d847d88e9f,
  0xeb70fbfbcbfb8b30, 0xc1cdeeee9fee2371, 0xf8bb7c7ced7cc791, 0xcc716666856617e3, 0xa77bdddd53dda68e, 0x2eaf17175c17b84b, 0x8e45474701470246, 0x211a9e9e429e84dc,
  0x89d4caca0fca1ec5, 0x5a582d2db42d7599, 0x632ebfbfc6bf9179, 0x0e3f07071c07381b, 0x47acadad8ead0123, 0xb4b05a5a755aea2f, 0x1bef838336836cb5, 0x66b63333cc3385ff,
  0xc65c636391633ff2, 0x041202020802100a, 0x4993aaaa92aa3938, 0xe2de7171d971afa8, 0x8dc6c8c807c80ecf, 0x32d119196419c87d, 0x923b494939497270, 0xaf5fd9d943d9869a,
  0xf931f2f2eff2c31d, 0xdba8e3e3abe34b48, 0xb6b95b5b715be22a, 0x0dbc88881a883492, 0x293e9a9a529aa4c8, 0x4c0b262698262dbe, 0x64bf3232c8328dfa, 0x7d59b0b0fab0e94a,
  0xcff2e9e983e91b6a, 0x1e770f0f3c0f7833, 0xb733d5d573d5e6a6, 0x1df480803a8074ba, 0x6127bebec2be997c, 0x87ebcdcd13cd26de, 0x68893434d034bde4, 0x903248483d487a75,
  0xe354ffffdbffab24, 0xf48d7a7af57af78f, 0x3d6490907a90f4ea, 0xbe9d5f5f615fc23e, 0x403d202080201da0, 0xd00f6868bd6867d5, 0x34ca1a1a681ad072, 0x41b7aeae82ae192c,
  0x757db4b4eab4c95e, 0xa8ce54544d549a19, 0x3b7f93937693ece5, 0x442f222288220daa, 0xc86364648d6407e9, 0xff2af1f1e3f1db12, 0xe6cc7373d173bfa2, 0x248212124812905a,
  0x807a40401d403a5d, 0x1048080820084028, 0x9b95c3c32bc356e8, 0xc5dfecec97ec337b, 0xab4ddbdb4bdb9690, 0x5fc0a1a1bea1611f, 0x07918d8d0e8d1c83, 0x7ac83d3df43df5c9,
  0x335b97976697ccf1, 0x0000000000000000, 0x83f9cfcf1bcf36d4, 0x566e2b2bac2b4587, 0xece17676c57697b3, 0x19e68282328264b0, 0xb128d6d67fd6fea9, 0x36c31b1b6c1bd877,
  0x7774b5b5eeb5c15b, 0x43beafaf86af1129, 0xd41d6a6ab56a77df, 0xa0ea50505d50ba0d, 0x8a5745450945124c, 0xfb38f3f3ebf3cb18, 0x60ad3030c0309df0, 0xc3c4efef9bef2b74,
  0x7eda3f3ffc3fe5c3, 0xaac755554955921c, 0x59dba2a2b2a27910, 0xc9e9eaea8fea0365, 0xca6a656589650fec, 0x6903babad2bab968, 0x5e4a2f2fbc2f6593, 0x9d8ec0c027c04ee7,
  0xa160dede5fdebe81, 0x38fc1c1c701ce06c, 0xe746fdfdd3fdbb2e, 0x9a1f4d4d294d5264, 0x397692927292e4e0, 0xeafa7575c9758fbc, 0x0c3606061806301e, 0x09ae8a8a128a2498,
  0x794bb2b2f2b2f940, 0xd185e6e6bfe66359, 0x1c7e0e0e380e7036, 0x3ee71f1f7c1ff863, 0xc4556262956237f7, 0xb53ad4d477d4eea3, 0x4d81a8a89aa82932, 0x315296966296c4f4,
  0xef62f9f9c3f99b3a, 0x97a3c5c533c566f6, 0x4a102525942535b1, 0xb2ab59597959f220, 0x15d084842a8454ae, 0xe4c57272d572b7a7, 0x72ec3939e439d5dd, 0x98164c4c2d4c5a61,
  0xbc945e5e655eca3b, 0xf09f7878fd78e785, 0x70e53838e038ddd8, 0x05988c8c0a8c1486, 0xbf17d1d163d1c6b2, 0x57e4a5a5aea5410b, 0xd9a1e2e2afe2434d, 0xc24e616199612ff8,
  0x7b42b3b3f6b3f145, 0x42342121842115a5, 0x25089c9c4a9c94d6, 0x3cee1e1e781ef066, 0x8661434311432252, 0x93b1c7c73bc776fc, 0xe54ffcfcd7fcb32b, 0x0824040410042014,
  0xa2e351515951b208, 0x2f2599995e99bcc7, 0xda226d6da96d4fc4, 0x1a650d0d340d6839, 0xe979fafacffa8335, 0xa369dfdf5bdfb684, 0xfca97e7ee57ed79b, 0x4819242490243db4,
  0x76fe3b3bec3bc5d7, 0x4b9aabab96ab313d, 0x81f0cece1fce3ed1, 0x2299111144118855, 0x03838f8f068f0c89, 0x9c044e4e254e4a6b, 0x7366b7b7e6b7d151, 0xcbe0ebeb8beb0b60,
  0x78c13c3cf03cfdcc, 0x1ffd81813e817cbf, 0x354094946a94d4fe, 0xf31cf7f7fbf7eb0c, 0x6f18b9b9deb9a167, 0x268b13134c13985f, 0x58512c2cb02c7d9c, 0xbb05d3d36bd3d6b8,
  0xd38ce7e7bbe76b5c, 0xdc396e6ea56e57cb, 0x95aac4c437c46ef3, 0x061b03030c03180f, 0xacdc565645568a13, 0x885e44440d441a49, 0xfea07f7fe17fdf9e, 0x4f88a9a99ea92137,
  0x54672a2aa82a4d82, 0x6b0abbbbd6bbb16d, 0x9f87c1c123c146e2, 0xa6f153535153a202, 0xa572dcdc57dcae8b, 0x16530b0b2c0b5827, 0x27019d9d4e9d9cd3, 0xd82b6c6cad6c47c1,
  0x62a43131c43195f5, 0xe8f37474cd7487b9, 0xf115f6f6fff6e309, 0x8c4c464605460a43, 0x45a5acac8aac0926, 0x0fb589891e893c97, 0x28b414145014a044, 0xdfbae1e1a3e15b42,
  0x2ca616165816b04e, 0x74f73a3ae83acdd2, 0xd2066969b9696fd0, 0x124109092409482d, 0xe0d77070dd70a7ad, 0x716fb6b6e2b6d954, 0xbd1ed0d067d0ceb7, 0xc7d6eded93ed3b7e,
  0x85e2cccc17cc2edb, 0x8468424215422a57, 0x2d2c98985a98b4c2, 0x55eda4a4aaa4490e, 0x50752828a0285d88, 0xb8865c5c6d5cda31, 0xed6bf8f8c7f8933f, 0x11c28686228644a4]
/-- sbox.go:204-269 -/
def C3 : List U64 := [
  0x7830d818186018c0, 0xaf462623238c2305, 0xf991b8c6c63fc67e, 0x6fcdfbe8e887e813, 0xa113cb878726874c, 0x626d11b8b8dab8a9, 0x0502090101040108, 0x6e9e0d4f4f214f42,
  0xee6c9b3636d836ad, 0x0451ffa6a6a2a659, 0xbdb90cd2d26fd2de, 0x06f70ef5f5f3f5fb, 0x80f2967979f979ef, 0xcede306f6fa16f5f, 0xef3f6d91917e91fc, 0x07a4f852525552aa,
  0xfdc04760609d6027, 0x766535bcbccabc89, 0xcd2b379b9b569bac, 0x8c018a8e8e028e04, 0x155bd2a3a3b6a371, 0x3c186c0c0c300c60, 0x8af6847b7bf17bff, 0xe16a803535d435b5,
  0x693af51d1d741de8, 0x47ddb3e0e0a7e053, 0xacb321d7d77bd7f6, 0xed999cc2c22fc25e, 0x965c432e2eb82e6d, 0x7a96294b4b314b62, 0x21e15dfefedffea3, 0x16aed55757415782,
  0x412abd15155415a8, 0xb6eee87777c1779f, 0xeb6e923737dc37a5, 0x56d79ee5e5b3e57b, 0xd923139f9f469f8c, 0x17fd23f0f0e7f0d3, 0x7f94204a4a354a6a, 0x95a944dada4fda9e,
  0x25b0a258587d58fa, 0xca8fcfc9c903c906, 0x8d527c2929a42955, 0x22145a0a0a280a50, 0x4f7f50b1b1feb1e1, 0x1a5dc9a0a0baa069, 0xdad6146b6bb16b7f, 0xab17d985852e855c,
  0x73673cbdbdcebd81, 0x34ba8f5d5d695dd2, 0x5020901010401080, 0x03f507f4f4f7f4f3, 0xc08bddcbcb0bcb16, 0xc67cd33e3ef83eed, 0x110a2d0505140528, 0xe6ce78676781671f,
  0x53d597e4e4b7e473, 0xbb4e0227279c2725, 0x5882734141194132, 0x9d0ba78b8b168b2c, 0x0153f6a7a7a6a751, 0x94fab27d7de97dcf, 0xfb374995956e95dc, 0x9fad56d8d847d88e,
  0x30eb70fbfbcbfb8b, 0x71c1cdeeee9fee23, 0x91f8bb7c7ced7cc7, 0xe3cc716666856617, 0x8ea77bdddd53dda6, 0x4b2eaf17175c17b8, 0x468e454747014702, 0xdc211a9e9e429e84,
  0xc589d4caca0fca1e, 0x995a582d2db42d75, 0x79632ebfbfc6bf91, 0x1b0e3f07071c0738, 0x2347acadad8ead01, 0x2fb4b05a5a755aea, 0xb51bef838336836c, 0xff66b63333cc3385,
  0xf2c65c636391633f, 0x0a04120202080210, 0x384993aaaa92aa39, 0xa8e2de7171d971af, 0xcf8dc6c8c807c80e, 0x7d32d119196419c8, 0x70923b4949394972, 0x9aaf5fd9d943d986,
  0x1df931f2f2eff2c3, 0x48dba8e3e3abe34b, 0x2ab6b95b5b715be2, 0x920dbc88881a8834, 0xc8293e9a9a529aa4, 0xbe4c0b262698262d, 0xfa64bf3232c8328d, 0x4a7d59b0b0fab0e9,
  0x6acff2e9e983e91b, 0x331e770f0f3c0f78, 0xa6b733d5d573d5e6, 0xba1df480803a8074, 0x7c6127bebec2be99, 0xde87ebcdcd13cd26, 0xe468893434d034bd, 0x75903248483d487a,
  0x24e354ffffdbffab, 0x8ff48d7a7af57af7, 0xea3d6490907a90f4, 0x3ebe9d5f5f615fc2, 0xa0403d202080201d, 0xd5d00f6868bd6867, 0x7234ca1a1a681ad0, 0x2c41b7aeae82ae19,
  0x5e757db4b4eab4c9, 0x19a8ce54544d549a, 0xe53b7f93937693ec, 0xaa442f222288220d, 0xe9c86364648d6407, 0x12ff2af1f1e3f1db, 0xa2e6cc7373d173bf, 0x5a24821212481290,
  0x5d807a40401d403a, 0x2810480808200840, 0xe89b95c3c32bc356, 0x7bc5dfecec97ec33, 0x90ab4ddbdb4bdb96, 0x1f5fc0a1a1bea161, 0x8307918d8d0e8d1c, 0xc97ac83d3df43df5,
  0xf1335b97976697cc, 0x0000000000000000, 0xd483f9cfcf1bcf36, 0x87566e2b2bac2b45, 0xb3ece17676c57697, 0xb019e68282328264, 0xa9b128d6d67fd6fe, 0x7736c31b1b6c1bd8,
  0x5b7774b5b5eeb5c1, 0x2943beafaf86af11, 0xdfd41d6a6ab56a77, 0x0da0ea50505d50ba, 0x4c8a574545094512, 0x18fb38f3f3ebf3cb, 0xf060ad3030c0309d, 0x74c3c4efef9bef2b,
  0xc37eda3f3ffc3fe5, 0x1caac75555495592, 0x1059dba2a2b2a279, 0x65c9e9eaea8fea03, 0xecca6a656589650f, 0x686903babad2bab9, 0x935e4a2f2fbc2f65, 0xe79d8ec0c027c04e,
  0x81a160dede5fdebe, 0x6c38fc1c1c701ce0, 0x2ee746fdfdd3fdbb, 0x649a1f4d4d294d52, 0xe0397692927292e4, 0xbceafa7575c9758f, 0x1e0c360606180630, 0x9809ae8a8a128a24,
  0x40794bb2b2f2b2f9, 0x59d185e6e6bfe663, 0x361c7e0e0e380e70, 0x633ee71f1f7c1ff8, 0xf7c4556262956237, 0xa3b53ad4d477d4ee, 0x324d81a8a89aa829, 0xf4315296966296c4,
  0x3aef62f9f9c3f99b, 0xf697a3c5c533c566, 0xb14a102525942535, 0x20b2ab59597959f2, 0xae15d084842a8454, 0xa7e4c57272d572b7, 0xdd72ec3939e439d5, 0x6198164c4c2d4c5a,
  0x3bbc945e5e655eca, 0x85f09f7878fd78e7, 0xd870e53838e038dd, 0x8605988c8c0a8c14, 0xb2bf17d1d163d1c6, 0x0b57e4a5a5aea541, 0x4dd9a1e2e2afe243, 0xf8c24e616199612f,
  0x457b42b3b3f6b3f1, 0xa542342121842115, 0xd625089c9c4a9c94, 0x663cee1e1e781ef0, 0x5286614343114322, 0xfc93b1c7c73bc776, 0x2be54ffcfcd7fcb3, 0x1408240404100420,
  0x08a2e351515951b2, 0xc72f2599995e99bc, 0xc4da226d6da96d4f, 0x391a650d0d340d68, 0x35e979fafacffa83, 0x84a369dfdf5bdfb6, 0x9bfca97e7ee57ed7, 0xb44819242490243d,
  0xd776fe3b3bec3bc5, 0x3d4b9aabab96ab31, 0xd181f0cece1fce3e, 0x5522991111441188, 0x8903838f8f068f0c, 0x6b9c044e4e254e4a, 0x517366b7b7e6b7d1, 0x60cbe0ebeb8beb0b,
  0xcc78c13c3cf03cfd, 0xbf1ffd81813e817c, 0xfe354094946a94d4, 0x0cf31cf7f7fbf7eb, 0x676f18b9b9deb9a1, 0x5f268b13134c1398, 0x9c58512c2cb02c7d, 0xb8bb05d3d36bd3d6,
  0x5cd38ce7e7bbe76b, 0xcbdc396e6ea56e57, 0xf395aac4c437c46e, 0x0f061b03030c0318, 0x13acdc565645568a, 0x49885e44440d441a, 0x9efea07f7fe17fdf, 0x374f88a9a99ea921,
  0x8254672a2aa82a4d, 0x6d6b0abbbbd6bbb1, 0xe29f87c1c123c146, 0x02a6f153535153a2, 0x8ba572dcdc57dcae, 0x2716530b0b2c0b58, 0xd327019d9d4e9d9c, 0xc1d82b6c6cad6c47,
  0xf562a43131c43195, 0xb9e8f37474cd7487, 0x09f115f6f6fff6e3, 0x438c4c464605460a, 0x2645a5acac8aac09, 0x970fb589891e893c, 0x4428b414145014a0, 0x42dfbae1e1a3e15b,
  0x4e2ca616165816b0, 0xd274f73a3ae83acd, 0xd0d2066969b9696f, 0x2d12410909240948, 0xade0d77070dd70a7, 0x54716fb6b6e2b6d9, 0xb7bd1ed0d067d0ce, 0x7ec7d6eded93ed3b,
  0xdb85e2cccc17cc2e, 0x578468424215422a, 0xc22d2c98985a98b4, 0x0e55eda4a4aaa449, 0x8850752828a0285d, 0x31b8865c5c6d5cda, 0x3fed6bf8f8c7f893, 0xa411c28686228644]
/-- sbox.go:271-336 -/
def C4 : List U64 := [
  0xc07830d818186018, 0x05af462623238c23, 0x7ef991b8c6c63fc6, 0x136fcdfbe8e887e8, 0x4ca113cb87872687, 0xa9626d11b8b8dab8, 0x0805020901010401, 0x426e9e0d4f4f214f,
  0xadee6c9b3636d836, 0x590451ffa6a6a2a6, 0xdebdb90cd2d26fd2, 0xfb06f70ef5f5f3f5, 0xef80f2967979f979, 0x5fcede306f6fa16f, 0xfcef3f6d91917e91, 0xaa07a4f852525552,
  0x27fdc04760609d60, 0x89766535bcbccabc, 0xaccd2b379b9b569b, 0x048c018a8e8e028e, 0x71155bd2a3a3b6a3, 0x603c186c0c0c300c, 0xff8af6847b7bf17b, 0xb5e16a803535d435,
  0xe8693af51d1d741d, 0x5347ddb3e0e0a7e0, 0xf6acb321d7d77bd7, 0x5eed999cc2c22fc2, 0x6d965c432e2eb82e, 0x627a96294b4b314b, 0xa321e15dfefedffe, 0x8216aed557574157,
  0xa8412abd15155415, 0x9fb6eee87777c177, 0xa5eb6e923737dc37, 0x7b56d79ee5e5b3e5, 0x8cd923139f9f469f, 0xd317fd23f0f0e7f0, 0x6a7f94204a4a354a, 0x9e95a944dada4fda,
  0xfa25b0a258587d58, 0x06ca8fcfc9c903c9, 0x558d527c2929a429, 0x5022145a0a0a280a, 0xe14f7f50b1b1feb1, 0x691a5dc9a0a0baa0, 0x7fdad6146b6bb16b, 0x5cab17d985852e85,
  0x8173673cbdbdcebd, 0xd234ba8f5d5d695d, 0x8050209010104010, 0xf303f507f4f4f7f4, 0x16c08bddcbcb0bcb, 0xedc67cd33e3ef83e, 0x28110a2d05051405, 0x1fe6ce7867678167,
  0x7353d597e4e4b7e4, 0x25bb4e0227279c27, 0x3258827341411941, 0x2c9d0ba78b8b168b, 0x510153f6a7a7a6a7, 0xcf94fab27d7de97d, 0xdcfb374995956e95, 0x8e9fad56d8d847d8,
  0x8b30eb70fbfbcbfb, 0x2371c1cdeeee9fee, 0xc791f8bb7c7ced7c, 0x17e3cc7166668566, 0xa68ea77bdddd53dd, 0xb84b2eaf17175c17, 0x02468e4547470147, 0x84dc211a9e9e429e,
  0x1ec589d4caca0fca, 0x75995a582d2db42d, 0x9179632ebfbfc6bf, 0x381b0e3f07071c07, 0x012347acadad8ead, 0xea2fb4b05a5a755a, 0x6cb51bef83833683, 0x85ff66b63333cc33,
  0x3ff2c65c63639163, 0x100a041202020802, 0x39384993aaaa92aa, 0xafa8e2de7171d971, 0x0ecf8dc6c8c807c8, 0xc87d32d119196419, 0x7270923b49493949, 0x869aaf5fd9d943d9,
  0xc31df931f2f2eff2, 0x4b48dba8e3e3abe3, 0xe22ab6b95b5b715b, 0x34920dbc88881a88, 0xa4c8293e9a9a529a, 0x2dbe4c0b26269826, 0x8dfa64bf3232c832, 0xe94a7d59b0b0fab0,
  0x1b6acff2e9e983e9, 0x78331e770f0f3c0f, 0xe6a6b733d5d573d5, 0x74ba1df480803a80, 0x997c6127bebec2be, 0x26de87ebcdcd13cd, 0xbde468893434d034, 0x7a75903248483d48,
  0xab24e354ffffdbff, 0xf78ff48d7a7af57a, 0xf4ea3d6490907a90, 0xc23ebe9d5f5f615f, 0x1da0403d20208020, 0x67d5d00f6868bd68, 0xd07234ca1a1a681a, 0x192c41b7aeae82ae,
  0xc95e757db4b4eab4, 0x9a19a8ce54544d54, 0xece53b7f93937693, 0x0daa442f22228822, 0x07e9c86364648d64, 0xdb12ff2af1f1e3f1, 0xbfa2e6cc7373d173, 0x905a248212124812,
  0x3a5d807a40401d40, 0x4028104808082008, 0x56e89b95c3c32bc3, 0x337bc5dfecec97ec, 0x9690ab4ddbdb4bdb, 0x611f5fc0a1a1bea1, 0x1c8307918d8d0e8d, 0xf5c97ac83d3df43d,
  0xccf1335b97976697, 0x0000000000000000, 0x36d483f9cfcf1bcf, 0x4587566e2b2bac2b, 0x97b3ece17676c576, 0x64b019e682823282, 0xfea9b128d6d67fd6, 0xd87736c31b1b6c1b,
  0xc15b7774b5b5eeb5, 0x112943beafaf86af, 0x77dfd41d6a6ab56a, 0xba0da0ea50505d50, 0x124c8a5745450945, 0xcb18fb38f3f3ebf3, 0x9df060ad3030c030, 0x2b74c3c4efef9bef,
  0xe5c37eda3f3ffc3f, 0x921caac755554955, 0x791059dba2a2b2a2, 0x0365c9e9eaea8fea, 0x0fecca6a65658965, 0xb9686903babad2ba, 0x65935e4a2f2fbc2f, 0x4ee79d8ec0c027c0,
  0xbe81a160dede5fde, 0xe06c38fc1c1c701c, 0xbb2ee746fdfdd3fd, 0x52649a1f4d4d294d, 0xe4e0397692927292, 0x8fbceafa7575c975, 0x301e0c3606061806, 0x249809ae8a8a128a,
  0xf940794bb2b2f2b2, 0x6359d185e6e6bfe6, 0x70361c7e0e0e380e, 0xf8633ee71f1f7c1f, 0x37f7c45562629562, 0xeea3b53ad4d477d4, 0x29324d81a8a89aa8, 0xc4f4315296966296,
  0x9b3aef62f9f9c3f9, 0x66f697a3c5c533c5, 0x35b14a1025259425, 0xf220b2ab59597959, 0x54ae15d084842a84, 0xb7a7e4c57272d572, 0xd5dd72ec3939e439, 0x5a6198164c4c2d4c,
  0xca3bbc945e5e655e, 0xe785f09f7878fd78, 0xddd870e53838e038, 0x148605988c8c0a8c, 0xc6b2bf17d1d163d1, 0x410b57e4a5a5aea5, 0x434dd9a1e2e2afe2, 0x2ff8c24e61619961,
  0xf1457b42b3b3f6b3, 0x15a5423421218421, 0x94d625089c9c4a9c, 0xf0663cee1e1e781e, 0x2252866143431143, 0x76fc93b1c7c73bc7, 0xb32be54ffcfcd7fc, 0x2014082404041004,
  0xb208a2e351515951, 0xbcc72f2599995e99, 0x4fc4da226d6da96d, 0x68391a650d0d340d, 0x8335e979fafacffa, 0xb684a369dfdf5bdf, 0xd79bfca97e7ee57e, 0x3db4481924249024,
  0xc5d776fe3b3bec3b, 0x313d4b9aabab96ab, 0x3ed181f0cece1fce, 0x8855229911114411, 0x0c8903838f8f068f, 0x4a6b9c044e4e254e, 0xd1517366b7b7e6b7, 0x0b60cbe0ebeb8beb,
  0xfdcc78c13c3cf03c, 0x7cbf1ffd81813e81, 0xd4fe354094946a94, 0xeb0cf31cf7f7fbf7, 0xa1676f18b9b9deb9, 0x985f268b13134c13, 0x7d9c58512c2cb02c, 0xd6b8bb05d3d36bd3,
  0x6b5cd38ce7e7bbe7, 0x57cbdc396e6ea56e, 0x6ef395aac4c437c4, 0x180f061b03030c03, 0x8a13acdc56564556, 0x1a49885e44440d44, 0xdf9efea07f7fe17f, 0x21374f88a9a99ea9,
  0x4d8254672a2aa82a, 0xb16d6b0abbbbd6bb, 0x46e29f87c1c123c1, 0xa202a6f153535153, 0xae8ba572dcdc57dc, 0x582716530b0b2c0b, 0x9cd327019d9d4e9d, 0x47c1d82b6c6cad6c,
  0x95f562a43131c431, 0x87b9e8f37474cd74, 0xe309f115f6f6fff6, 0x0a438c4c46460546, 0x092645a5acac8aac, 0x3c970fb589891e89, 0xa04428b414145014, 0x5b42dfbae1e1a3e1,
  0xb04e2ca616165816, 0xcdd274f73a3ae83a, 0x6fd0d2066969b969, 0x482d124109092409, 0xa7ade0d77070dd70, 0xd954716fb6b6e2b6, 0xceb7bd1ed0d067d0, 0x3b7ec7d6eded93ed,
  0x2edb85e2cccc17cc, 0x2a57846842421542, 0xb4c22d2c98985a98, 0x490e55eda4a4aaa4, 0x5d8850752828a028, 0xda31b8865c5c6d5c, 0x933fed6bf8f8c7f8, 0x44a411c286862286]
/-- sbox.go:338-403 -/
def C5 : List U64 := [
  0x18c07830d8181860, 0x2305af462623238c, 0xc67ef991b8c6c63f, 0xe8136fcdfbe8e887, 0x874ca113cb878726, 0xb8a9626d11b8b8da, 0x0108050209010104, 0x4f426e9e0d4f4f21,
  0x36adee6c9b3636d8, 0xa6590451ffa6a6a2, 0xd2debdb90cd2d26f, 0xf5fb06f70ef5f5f3, 0x79ef80f2967979f9, 0x6f5fcede306f6fa1, 0x91fcef3f6d91917e, 0x52aa07a4f8525255,
  0x6027fdc04760609d, 0xbc89766535bcbcca, 0x9baccd2b379b9b56, 0x8e048c018a8e8e02, 0xa371155bd2a3a3b6, 0x0c603c186c0c0c30, 0x7bff8af6847b7bf1, 0x35b5e16a803535d4,
  0x1de8693af51d1d74, 0xe05347ddb3e0e0a7, 0xd7f6acb321d7d77b, 0xc25eed999cc2c22f, 0x2e6d965c432e2eb8, 0x4b627a96294b4b31, 0xfea321e15dfefedf, 0x578216aed5575741,
  0x15a8412abd151554, 0x779fb6eee87777c1, 0x37a5eb6e923737dc, 0xe57b56d79ee5e5b3, 0x9f8cd923139f9f46, 0xf0d317fd23f0f0e7, 0x4a6a7f94204a4a35, 0xda9e95a944dada4f,
  0x58fa25b0a258587d, 0xc906ca8fcfc9c903, 0x29558d527c2929a4, 0x0a5022145a0a0a28, 0xb1e14f7f50b1b1fe, 0xa0691a5dc9a0a0ba, 0x6b7fdad6146b6bb1, 0x855cab17d985852e,
  0xbd8173673cbdbdce, 0x5dd234ba8f5d5d69, 0x1080502090101040, 0xf4f303f507f4f4f7, 0xcb16c08bddcbcb0b, 0x3eedc67cd33e3ef8, 0x0528110a2d050514, 0x671fe6ce78676781,
  0xe47353d597e4e4b7, 0x2725bb4e0227279c, 0x4132588273414119, 0x8b2c9d0ba78b8b16, 0xa7510153f6a7a7a6, 0x7dcf94fab27d7de9, 0x95dcfb374995956e, 0xd88e9fad56d8d847,
  0xfb8b30eb70fbfbcb, 0xee2371c1cdeeee9f, 0x7cc791f8bb7c7ced, 0x6617e3cc71666685, 0xdda68ea77bdddd53, 0x17b84b2eaf17175c, 0x4702468e45474701, 0x9e84dc211a9e9e42,
  0xca1ec589d4caca0f, 0x2d75995a582d2db4, 0xbf9179632ebfbfc6, 0x07381b0e3f07071c, 0xad012347acadad8e, 0x5aea2fb4b05a5a75, 0x836cb51bef838336, 0x3385ff66b63333cc,
  0x633ff2c65c636391, 0x02100a0412020208, 0xaa39384993aaaa92, 0x71afa8e2de7171d9, 0xc80ecf8dc6c8c807, 0x19c87d32d1191964, 0x497270923b494939, 0xd9869aaf5fd9d943,
  0xf2c31df931f2f2ef, 0xe34b48dba8e3e3ab, 0x5be22ab6b95b5b71, 0x8834920dbc88881a, 0x9aa4c8293e9a9a52, 0x262dbe4c0b262698, 0x328dfa64bf3232c8, 0xb0e94a7d59b0b0fa,
  0xe91b6acff2e9e983, 0x0f78331e770f0f3c, 0xd5e6a6b733d5d573, 0x8074ba1df480803a, 0xbe997c6127bebec2, 0xcd26de87ebcdcd13, 0x34bde468893434d0, 0x487a75903248483d,
  0xffab24e354ffffdb, 0x7af78ff48d7a7af5, 0x90f4ea3d6490907a, 0x5fc23ebe9d5f5f61, 0x201da0403d202080, 0x6867d5d00f6868bd, 0x1ad07234ca1a1a68, 0xae192c41b7aeae82,
  0xb4c95e757db4b4ea, 0x549a19a8ce54544d, 0x93ece53b7f939376, 0x220daa442f222288, 0x6407e9c86364648d, 0xf1db12ff2af1f1e3, 0x73bfa2e6cc7373d1, 0x12905a2482121248,
  0x403a5d807a40401d, 0x0840281048080820, 0xc356e89b95c3c32b, 0xec337bc5dfecec97, 0xdb9690ab4ddbdb4b, 0xa1611f5fc0a1a1be, 0x8d1c8307918d8d0e, 0x3df5c97ac83d3df4,
  0x97ccf1335b979766, 0x0000000000000000, 0xcf36d483f9cfcf1b, 0x2b4587566e2b2bac, 0x7697b3ece17676c5, 0x8264b019e6828232, 0xd6fea9b128d6d67f, 0x1bd87736c31b1b6c,
  0xb5c15b7774b5b5ee, 0xaf112943beafaf86, 0x6a77dfd41d6a6ab5, 0x50ba0da0ea50505d, 0x45124c8a57454509, 0xf3cb18fb38f3f3eb, 0x309df060ad3030c0, 0xef2b74c3c4efef9b,
  0x3fe5c37eda3f3ffc, 0x55921caac7555549, 0xa2791059dba2a2b2, 0xea0365c9e9eaea8f, 0x650fecca6a656589, 0xbab9686903babad2, 0x2f65935e4a2f2fbc, 0xc04ee79d8ec0c027,
  0xdebe81a160dede5f, 0x1ce06c38fc1c1c70, 0xfdbb2ee746fdfdd3, 0x4d52649a1f4d4d29, 0x92e4e03976929272, 0x758fbceafa7575c9, 0x06301e0c36060618, 0x8a249809ae8a8a12,
  0xb2f940794bb2b2f2, 0xe66359d185e6e6bf, 0x0e70361c7e0e0e38, 0x1ff8633ee71f1f7c, 0x6237f7c455626295, 0xd4eea3b53ad4d477, 0xa829324d81a8a89a, 0x96c4f43152969662,
  0xf99b3aef62f9f9c3, 0xc566f697a3c5c533, 0x2535b14a10252594, 0x59f220b2ab595979, 0x8454ae15d084842a, 0x72b7a7e4c57272d5, 0x39d5dd72ec3939e4, 0x4c5a6198164c4c2d,
  0x5eca3bbc945e5e65, 0x78e785f09f7878fd, 0x38ddd870e53838e0, 0x8c148605988c8c0a, 0xd1c6b2bf17d1d163, 0xa5410b57e4a5a5ae, 0xe2434dd9a1e2e2af, 0x612ff8c24e616199,
  0xb3f1457b42b3b3f6, 0x2115a54234212184, 0x9c94d625089c9c4a, 0x1ef0663cee1e1e78, 0x4322528661434311, 0xc776fc93b1c7c73b, 0xfcb32be54ffcfcd7, 0x0420140824040410,
  0x51b208a2e3515159, 0x99bcc72f2599995e, 0x6d4fc4da226d6da9, 0x0d68391a650d0d34, 0xfa8335e979fafacf, 0xdfb684a369dfdf5b, 0x7ed79bfca97e7ee5, 0x243db44819242490,
  0x3bc5d776fe3b3bec, 0xab313d4b9aabab96, 0xce3ed181f0cece1f, 0x1188552299111144, 0x8f0c8903838f8f06, 0x4e4a6b9c044e4e25, 0xb7d1517366b7b7e6, 0xeb0b60cbe0ebeb8b,
  0x3cfdcc78c13c3cf0, 0x817cbf1ffd81813e, 0x94d4fe354094946a, 0xf7eb0cf31cf7f7fb, 0xb9a1676f18b9b9de, 0x13985f268b13134c, 0x2c7d9c58512c2cb0, 0xd3d6b8bb05d3d36b,
  0xe76b5cd38ce7e7bb, 0x6e57cbdc396e6ea5, 0xc46ef395aac4c437, 0x03180f061b03030c, 0x568a13acdc565645, 0x441a49885e44440d, 0x7fdf9efea07f7fe1, 0xa921374f88a9a99e,
  0x2a4d8254672a2aa8, 0xbbb16d6b0abbbbd6, 0xc146e29f87c1c123, 0x53a202a6f1535351, 0xdcae8ba572dcdc57, 0x0b582716530b0b2c, 0x9d9cd327019d9d4e, 0x6c47c1d82b6c6cad,
  0x3195f562a43131c4, 0x7487b9e8f37474cd, 0xf6e309f115f6f6ff, 0x460a438c4c464605, 0xac092645a5acac8a, 0x893c970fb589891e, 0x14a04428b4141450, 0xe15b42dfbae1e1a3,
  0x16b04e2ca6161658, 0x3acdd274f73a3ae8, 0x696fd0d2066969b9, 0x09482d1241090924, 0x70a7ade0d77070dd, 0xb6d954716fb6b6e2, 0xd0ceb7bd1ed0d067, 0xed3b7ec7d6eded93,
  0xcc2edb85e2cccc17, 0x422a578468424215, 0x98b4c22d2c98985a, 0xa4490e55eda4a4aa, 0x285d8850752828a0, 0x5cda31b8865c5c6d, 0xf8933fed6bf8f8c7, 0x8644a411c2868622]
/-- sbox.go:405-470 -/
def C6 : List U64 := [
  0x6018c07830d81818, 0x8c2305af46262323, 0x3fc67ef991b8c6c6, 0x87e8136fcdfbe8e8, 0x26874ca113cb8787, 0xdab8a9626d11b8b8, 0x0401080502090101, 0x214f426e9e0d4f4f,
  0xd836adee6c9b3636, 0xa2a6590451ffa6a6, 0x6fd2debdb90cd2d2, 0xf3f5fb06f70ef5f5, 0xf979ef80f2967979, 0xa16f5fcede306f6f, 0x7e91fcef3f6d9191, 0x5552aa07a4f85252,
  0x9d6027fdc0476060, 0xcabc89766535bcbc, 0x569baccd2b379b9b, 0x028e048c018a8e8e, 0xb6a371155bd2a3a3, 0x300c603c186c0c0c, 0xf17bff8af6847b7b, 0xd435b5e16a803535,
  0x741de8693af51d1d, 0xa7e05347ddb3e0e0, 0x7bd7f6acb321d7d7, 0x2fc25eed999cc2c2, 0xb82e6d965c432e2e, 0x314b627a96294b4b, 0xdffea321e15dfefe, 0x41578216aed55757,
  0x5415a8412abd1515, 0xc1779fb6eee87777, 0xdc37a5eb6e923737, 0xb3e57b56d79ee5e5, 0x469f8cd923139f9f, 0xe7f0d317fd23f0f0, 0x354a6a7f94204a4a, 0x4fda9e95a944dada,
  0x7d58fa25b0a25858, 0x03c906ca8fcfc9c9, 0xa429558d527c2929, 0x280a5022145a0a0a, 0xfeb1e14f7f50b1b1, 0xbaa0691a5dc9a0a0, 0xb16b7fdad6146b6b, 0x2e855cab17d98585,
  0xcebd8173673cbdbd, 0x695dd234ba8f5d5d, 0x4010805020901010, 0xf7f4f303f507f4f4, 0x0bcb16c08bddcbcb, 0xf83eedc67cd33e3e, 0x140528110a2d0505, 0x81671fe6ce786767,
  0xb7e47353d597e4e4, 0x9c2725bb4e022727, 0x1941325882734141, 0x168b2c9d0ba78b8b, 0xa6a7510153f6a7a7, 0xe97dcf94fab27d7d, 0x6e95dcfb37499595, 0x47d88e9fad56d8d8,
  0xcbfb8b30eb70fbfb, 0x9fee2371c1cdeeee, 0xed7cc791f8bb7c7c, 0x856617e3cc716666, 0x53dda68ea77bdddd, 0x5c17b84b2eaf1717, 0x014702468e454747, 0x429e84dc211a9e9e,
  0x0fca1ec589d4caca, 0xb42d75995a582d2d, 0xc6bf9179632ebfbf, 0x1c07381b0e3f0707, 0x8ead012347acadad, 0x755aea2fb4b05a5a, 0x36836cb51bef8383, 0xcc3385ff66b63333,
  0x91633ff2c65c6363, 0x0802100a04120202, 0x92aa39384993aaaa, 0xd971afa8e2de7171, 0x07c80ecf8dc6c8c8, 0x6419c87d32d11919, 0x39497270923b4949, 0x43d9869aaf5fd9d9,
  0xeff2c31df931f2f2, 0xabe34b48dba8e3e3, 0x715be22ab6b95b5b, 0x1a8834920dbc8888, 0x529aa4c8293e9a9a, 0x98262dbe4c0b2626, 0xc8328dfa64bf3232, 0xfab0e94a7d59b0b0,
  0x83e91b6acff2e9e9, 0x3c0f78331e770f0f, 0x73d5e6a6b733d5d5, 0x3a8074ba1df48080, 0xc2be997c6127bebe, 0x13cd26de87ebcdcd, 0xd034bde468893434, 0x3d487a7590324848,
  0xdbffab24e354ffff, 0xf57af78ff48d7a7a, 0x7a90f4ea3d649090, 0x615fc23ebe9d5f5f, 0x80201da0403d2020, 0xbd6867d5d00f6868, 0x681ad07234ca1a1a, 0x82ae192c41b7aeae,
  0xeab4c95e757db4b4, 0x4d549a19a8ce5454, 0x7693ece53b7f9393, 0x88220daa442f2222, 0x8d6407e9c8636464, 0xe3f1db12ff2af1f1, 0xd173bfa2e6cc7373, 0x4812905a24821212,
  0x1d403a5d807a4040, 0x2008402810480808, 0x2bc356e89b95c3c3, 0x97ec337bc5dfecec, 0x4bdb9690ab4ddbdb, 0xbea1611f5fc0a1a1, 0x0e8d1c8307918d8d, 0xf43df5c97ac83d3d,
  0x6697ccf1335b9797, 0x0000000000000000, 0x1bcf36d483f9cfcf, 0xac2b4587566e2b2b, 0xc57697b3ece17676, 0x328264b019e68282, 0x7fd6fea9b128d6d6, 0x6c1bd87736c31b1b,
  0xeeb5c15b7774b5b5, 0x86af112943beafaf, 0xb56a77dfd41d6a6a, 0x5d50ba0da0ea5050, 0x0945124c8a574545, 0xebf3cb18fb38f3f3, 0xc0309df060ad3030, 0x9bef2b74c3c4efef,
  0xfc3fe5c37eda3f3f, 0x4955921caac75555, 0xb2a2791059dba2a2, 0x8fea0365c9e9eaea, 0x89650fecca6a6565, 0xd2bab9686903baba, 0xbc2f65935e4a2f2f, 0x27c04ee79d8ec0c0,
  0x5fdebe81a160dede, 0x701ce06c38fc1c1c, 0xd3fdbb2ee746fdfd, 0x294d52649a1f4d4d, 0x7292e4e039769292, 0xc9758fbceafa7575, 0x1806301e0c360606, 0x128a249809ae8a8a,
  0xf2b2f940794bb2b2, 0xbfe66359d185e6e6, 0x380e70361c7e0e0e, 0x7c1ff8633ee71f1f, 0x956237f7c4556262, 0x77d4eea3b53ad4d4, 0x9aa829324d81a8a8, 0x6296c4f431529696,
  0xc3f99b3aef62f9f9, 0x33c566f697a3c5c5, 0x942535b14a102525, 0x7959f220b2ab5959, 0x2a8454ae15d08484, 0xd572b7a7e4c57272, 0xe439d5dd72ec3939, 0x2d4c5a6198164c4c,
  0x655eca3bbc945e5e, 0xfd78e785f09f7878, 0xe038ddd870e53838, 0x0a8c148605988c8c, 0x63d1c6b2bf17d1d1, 0xaea5410b57e4a5a5, 0xafe2434dd9a1e2e2, 0x99612ff8c24e6161,
  0xf6b3f1457b42b3b3, 0x842115a542342121, 0x4a9c94d625089c9c, 0x781ef0663cee1e1e, 0x1143225286614343, 0x3bc776fc93b1c7c7, 0xd7fcb32be54ffcfc, 0x1004201408240404,
  0x5951b208a2e35151, 0x5e99bcc72f259999, 0xa96d4fc4da226d6d, 0x340d68391a650d0d, 0xcffa8335e979fafa, 0x5bdfb684a369dfdf, 0xe57ed79bfca97e7e, 0x90243db448192424,
  0xec3bc5d776fe3b3b, 0x96ab313d4b9aabab, 0x1fce3ed181f0cece, 0x4411885522991111, 0x068f0c8903838f8f, 0x254e4a6b9c044e4e, 0xe6b7d1517366b7b7, 0x8beb0b60cbe0ebeb,
  0xf03cfdcc78c13c3c, 0x3e817cbf1ffd8181, 0x6a94d4fe35409494, 0xfbf7eb0cf31cf7f7, 0xdeb9a1676f18b9b9, 0x4c13985f268b1313, 0xb02c7d9c58512c2c, 0x6bd3d6b8bb05d3d3,
  0xbbe76b5cd38ce7e7, 0xa56e57cbdc396e6e, 0x37c46ef395aac4c4, 0x0c03180f061b0303, 0x45568a13acdc5656, 0x0d441a49885e4444, 0xe17fdf9efea07f7f, 0x9ea921374f88a9a9,
  0xa82a4d8254672a2a, 0xd6bbb16d6b0abbbb, 0x23c146e29f87c1c1, 0x5153a202a6f15353, 0x57dcae8ba572dcdc, 0x2c0b582716530b0b, 0x4e9d9cd327019d9d, 0xad6c47c1d82b6c6c,
  0xc43195f562a43131, 0xcd7487b9e8f37474, 0xfff6e309f115f6f6, 0x05460a438c4c4646, 0x8aac092645a5acac, 0x1e893c970fb58989, 0x5014a04428b41414, 0xa3e15b42dfbae1e1,
  0x5816b04e2ca61616, 0xe83acdd274f73a3a, 0xb9696fd0d2066969, 0x2409482d12410909, 0xdd70a7ade0d77070, 0xe2b6d954716fb6b6, 0x67d0ceb7bd1ed0d0, 0x93ed3b7ec7d6eded,
  0x17cc2edb85e2cccc, 0x15422a5784684242, 0x5a98b4c22d2c9898, 0xaaa4490e55eda4a4, 0xa0285d8850752828, 0x6d5cda31b8865c5c, 0xc7f8933fed6bf8f8, 0x228644a411c28686]
/-- sbox.go:472-537 -/
def C7 : List U64 := [
  0x186018c07830d818, 0x238c2305af462623, 0xc63fc67ef991b8c6, 0xe887e8136fcdfbe8, 0x8726874ca113cb87, 0xb8dab8a9626d11b8, 0x0104010805020901, 0x4f214f426e9e0d4f,
  0x36d836adee6c9b36, 0xa6a2a6590451ffa6, 0xd26fd2debdb90cd2, 0xf5f3f5fb06f70ef5, 0x79f979ef80f29679, 0x6fa16f5fcede306f, 0x917e91fcef3f6d91, 0x525552aa07a4f852,
  0x609d6027fdc04760, 0xbccabc89766535bc, 0x9b569baccd2b379b, 0x8e028e048c018a8e, 0xa3b6a371155bd2a3, 0x0c300c603c186c0c, 0x7bf17bff8af6847b, 0x35d435b5e16a8035,
  0x1d741de8693af51d, 0xe0a7e05347ddb3e0, 0xd77bd7f6acb321d7, 0xc22fc25eed999cc2, 0x2eb82e6d965c432e, 0x4b314b627a96294b, 0xfedffea321e15dfe, 0x5741578216aed557,
  0x155415a8412abd15, 0x77c1779fb6eee877, 0x37dc37a5eb6e9237, 0xe5b3e57b56d79ee5, 0x9f469f8cd923139f, 0xf0e7f0d317fd23f0, 0x4a354a6a7f94204a, 0xda4fda9e95a944da,
  0x587d58fa25b0a258, 0xc903c906ca8fcfc9, 0x29a429558d527c29, 0x0a280a5022145a0a, 0xb1feb1e14f7f50b1, 0xa0baa0691a5dc9a0, 0x6bb16b7fdad6146b, 0x852e855cab17d985,
  0xbdcebd8173673cbd, 0x5d695dd234ba8f5d, 0x1040108050209010, 0xf4f7f4f303f507f4, 0xcb0bcb16c08bddcb, 0x3ef83eedc67cd33e, 0x05140528110a2d05, 0x6781671fe6ce7867,
  0xe4b7e47353d597e4, 0x279c2725bb4e0227, 0x4119413258827341, 0x8b168b2c9d0ba78b, 0xa7a6a7510153f6a7, 0x7de97dcf94fab27d, 0x956e95dcfb374995, 0xd847d88e9fad56d8,
  0xfbcbfb8b30eb70fb, 0xee9fee2371c1cdee, 0x7ced7cc791f8bb7c, 0x66856617e3cc7166, 0xdd53dda68ea77bdd, 0x175c17b84b2eaf17, 0x47014702468e4547, 0x9e429e84dc211a9e,
  0xca0fca1ec589d4ca, 0x2db42d75995a582d, 0xbfc6bf9179632ebf, 0x071c07381b0e3f07, 0xad8ead012347acad, 0x5a755aea2fb4b05a, 0x8336836cb51bef83, 0x33cc3385ff66b633,
  0x6391633ff2c65c63, 0x020802100a041202, 0xaa92aa39384993aa, 0x71d971afa8e2de71, 0xc807c80ecf8dc6c8, 0x196419c87d32d119, 0x4939497270923b49, 0xd943d9869aaf5fd9,
  0xf2eff2c31df931f2, 0xe3abe34b48dba8e3, 0x5b715be22ab6b95b, 0x881a8834920dbc88, 0x9a529aa4c8293e9a, 0x2698262dbe4c0b26, 0x32c8328dfa64bf32, 0xb0fab0e94a7d59b0,
  0xe983e91b6acff2e9, 0x0f3c0f78331e770f, 0xd573d5e6a6b733d5, 0x803a8074ba1df480, 0xbec2be997c6127be, 0xcd13cd26de87ebcd, 0x34d034bde4688934, 0x483d487a75903248,
  0xffdbffab24e354ff, 0x7af57af78ff48d7a, 0x907a90f4ea3d6490, 0x5f615fc23ebe9d5f, 0x2080201da0403d20, 0x68bd6867d5d00f68, 0x1a681ad07234ca1a, 0xae82ae192c41b7ae,
  0xb4eab4c95e757db4, 0x544d549a19a8ce54, 0x937693ece53b7f93, 0x2288220daa442f22, 0x648d6407e9c86364, 0xf1e3f1db12ff2af1, 0x73d173bfa2e6cc73, 0x124812905a248212,
  0x401d403a5d807a40, 0x0820084028104808, 0xc32bc356e89b95c3, 0xec97ec337bc5dfec, 0xdb4bdb9690ab4ddb, 0xa1bea1611f5fc0a1, 0x8d0e8d1c8307918d, 0x3df43df5c97ac83d,
  0x976697ccf1335b97, 0x0000000000000000, 0xcf1bcf36d483f9cf, 0x2bac2b4587566e2b, 0x76c57697b3ece176, 0x82328264b019e682, 0xd67fd6fea9b128d6, 0x1b6c1bd87736c31b,
  0xb5eeb5c15b7774b5, 0xaf86af112943beaf, 0x6ab56a77dfd41d6a, 0x505d50ba0da0ea50, 0x450945124c8a5745, 0xf3ebf3cb18fb38f3, 0x30c0309df060ad30, 0xef9bef2b74c3c4ef,
  0x3ffc3fe5c37eda3f, 0x554955921caac755, 0xa2b2a2791059dba2, 0xea8fea0365c9e9ea, 0x6589650fecca6a65, 0xbad2bab9686903ba, 0x2fbc2f65935e4a2f, 0xc027c04ee79d8ec0,
  0xde5fdebe81a160de, 0x1c701ce06c38fc1c, 0xfdd3fdbb2ee746fd, 0x4d294d52649a1f4d, 0x927292e4e0397692, 0x75c9758fbceafa75, 0x061806301e0c3606, 0x8a128a249809ae8a,
  0xb2f2b2f940794bb2, 0xe6bfe66359d185e6, 0x0e380e70361c7e0e, 0x1f7c1ff8633ee71f, 0x62956237f7c45562, 0xd477d4eea3b53ad4, 0xa89aa829324d81a8, 0x966296c4f4315296,
  0xf9c3f99b3aef62f9, 0xc533c566f697a3c5, 0x25942535b14a1025, 0x597959f220b2ab59, 0x842a8454ae15d084, 0x72d572b7a7e4c572, 0x39e439d5dd72ec39, 0x4c2d4c5a6198164c,
  0x5e655eca3bbc945e, 0x78fd78e785f09f78, 0x38e038ddd870e538, 0x8c0a8c148605988c, 0xd163d1c6b2bf17d1, 0xa5aea5410b57e4a5, 0xe2afe2434dd9a1e2, 0x6199612ff8c24e61,
  0xb3f6b3f1457b42b3, 0x21842115a5423421, 0x9c4a9c94d625089c, 0x1e781ef0663cee1e, 0x4311432252866143, 0xc73bc776fc93b1c7, 0xfcd7fcb32be54ffc, 0x0410042014082404,
  0x515951b208a2e351, 0x995e99bcc72f2599, 0x6da96d4fc4da226d, 0x0d340d68391a650d, 0xfacffa8335e979fa, 0xdf5bdfb684a369df, 0x7ee57ed79bfca97e, 0x2490243db4481924,
  0x3bec3bc5d776fe3b, 0xab96ab313d4b9aab, 0xce1fce3ed181f0ce, 0x1144118855229911, 0x8f068f0c8903838f, 0x4e254e4a6b9c044e, 0xb7e6b7d1517366b7, 0xeb8beb0b60cbe0eb,
  0x3cf03cfdcc78c13c, 0x813e817cbf1ffd81, 0x946a94d4fe354094, 0xf7fbf7eb0cf31cf7, 0xb9deb9a1676f18b9, 0x134c13985f268b13, 0x2cb02c7d9c58512c, 0xd36bd3d6b8bb05d3,
  0xe7bbe76b5cd38ce7, 0x6ea56e57cbdc396e, 0xc437c46ef395aac4, 0x030c03180f061b03, 0x5645568a13acdc56, 0x440d441a49885e44, 0x7fe17fdf9efea07f, 0xa99ea921374f88a9,
  0x2aa82a4d8254672a, 0xbbd6bbb16d6b0abb, 0xc123c146e29f87c1, 0x535153a202a6f153, 0xdc57dcae8ba572dc, 0x0b2c0b582716530b, 0x9d4e9d9cd327019d, 0x6cad6c47c1d82b6c,
  0x31c43195f562a431, 0x74cd7487b9e8f374, 0xf6fff6e309f115f6, 0x4605460a438c4c46, 0xac8aac092645a5ac, 0x891e893c970fb589, 0x145014a04428b414, 0xe1a3e15b42dfbae1,
  0x165816b04e2ca616, 0x3ae83acdd274f73a, 0x69b9696fd0d20669, 0x092409482d124109, 0x70dd70a7ade0d770, 0xb6e2b6d954716fb6, 0xd067d0ceb7bd1ed0, 0xed93ed3b7ec7d6ed,
  0xcc17cc2edb85e2cc, 0x4215422a57846842, 0x985a98b4c22d2c98, 0xa4aaa4490e55eda4, 0x28a0285d88507528, 0x5c6d5cda31b8865c, 0xf8c7f8933fed6bf8, 0x86228644a411c286]
/-- sbox.go:560-689 -/
def T0 : List U64 := [
  0x6868b868d5670fd5, 0xd0d06dd0b7ce1eb7, 0xebeb20eb600be060, 0x2b2b7d2b87456e87, 0x4848d848757a3275, 0x9d9dba9dd39c01d3, 0x6a6abe6adf771ddf, 0xe4e431e453739753,
  0xe3e338e3484ba848, 0xa3a3f8a31571d215, 0x5656fa56138adc13, 0x81819e81bf7cfdbf, 0x7d7d877d94cfb294, 0xf1f10ef112db2a12, 0x85859285ab5cd9ab, 0x9e9ebf9edc841adc,
  0x2c2c742c9c7d519c, 0x8e8e8f8e8c048a8c, 0x7878887885e79f85, 0xcaca43cac51ed4c5, 0x171739174bb8af4b, 0xa9a9e6a937218837, 0x6161a361f82f4ef8, 0xd5d562d5a6e633a6,
  0x5d5de75d34d28f34, 0x0b0b1d0b27585327, 0x8c8c898c86149886, 0x3c3c443cccfdc1cc, 0x77779977b69fe8b6, 0x5151f35108b2e308, 0x22226622aa0d2faa, 0x4242c642572a6857,
  0x3f3f413fc3e5dac3, 0x5454fc54199ace19, 0x4141c34158327358, 0x80809d80ba74f4ba, 0xcccc49ccdb2ee2db, 0x86869786a444c2a4, 0xb3b3c8b345f14245, 0x1818281878c0d878,
  0x2e2e722e966d4396, 0x5757f9571682d516, 0x06060a061e30361e, 0x6262a662f73755f7, 0xf4f401f403f30703, 0x36365a36eead9bee, 0xd1d16ed1b2c617b2, 0x6b6bbd6bda7f14da,
  0x1b1b2d1b77d8c377, 0x6565af65ec0f6aec, 0x75759f75bc8ffabc, 0x1010301050809050, 0xdada73da959e4495, 0x4949db4970723b70, 0x26266a26be2d0bbe, 0xf9f916f93a9b623a,
  0xcbcb40cbc016ddc0, 0x6666aa66e31771e3, 0xe7e734e75c6b8c5c, 0xbabad3ba68b90368, 0xaeaeefae2c19b72c, 0x5050f0500dbaea0d, 0x5252f65207aaf807, 0xababe0ab3d319a3d,
  0x05050f0511282d11, 0xf0f00df017d32317, 0x0d0d170d39686539, 0x73739573a2bfcca2, 0x3b3b4d3bd7c5fed7, 0x04040c0414202414, 0x20206020a01d3da0, 0xfefe1ffe21a35d21,
  0xdddd7add8ea67b8e, 0xf5f502f506fb0e06, 0xb4b4c1b45ec97d5e, 0x5f5fe15f3ec29d3e, 0x0a0a1e0a22505a22, 0xb5b5c2b55bc1745b, 0xc0c05dc0e74e8ee7, 0xa0a0fda01a69c91a,
  0x71719371a8afdea8, 0xa5a5f2a50b41e40b, 0x2d2d772d99755899, 0x6060a060fd2747fd, 0x72729672a7b7c5a7, 0x9393a893e5ec7fe5, 0x39394b39ddd5ecdd, 0x0808180828404828,
  0x83839883b56cefb5, 0x21216321a51534a5, 0x5c5ce45c31da8631, 0x87879487a14ccba1, 0xb1b1ceb14fe1504f, 0xe0e03de04753b347, 0x0000000000000000, 0xc3c358c3e85695e8,
  0x121236125a90825a, 0x9191ae91effc6def, 0x8a8a838a9824ae98, 0x020206020a10120a, 0x1c1c241c6ce0fc6c, 0xe6e637e659638559, 0x4545cf454c12574c, 0xc2c25bc2ed5e9ced,
  0xc4c451c4f36eaaf3, 0xfdfd1afd2ebb462e, 0xbfbfdcbf79912e79, 0x4444cc44491a5e49, 0xa1a1fea11f61c01f, 0x4c4cd44c615a1661, 0x33335533ff85b6ff, 0xc5c552c5f666a3f6,
  0x84849184ae54d0ae, 0x23236523af0526af, 0x7c7c847c91c7bb91, 0xb0b0cdb04ae9594a, 0x25256f25b13510b1, 0x15153f1541a8bd41, 0x35355f35e1b580e1, 0x6969bb69d06f06d0,
  0xffff1cff24ab5424, 0x9494a194fed440fe, 0x4d4dd74d64521f64, 0x70709070ada7d7ad, 0xa2a2fba21079db10, 0xafafecaf2911be29, 0xcdcd4acdde26ebde, 0xd6d667d6a9fe28a9,
  0x6c6cb46cc1472bc1, 0xb7b7c4b751d16651, 0xf8f815f83f936b3f, 0x09091b092d48412d, 0xf3f308f318cb3818, 0x6767a967e61f78e6, 0xa4a4f1a40e49ed0e, 0xeaea23ea6503e965,
  0xecec29ec7b33df7b, 0xb6b6c7b654d96f54, 0xd4d461d4a3ee3aa3, 0xd2d26bd2bdde0cbd, 0x14143c1444a0b444, 0x1e1e221e66f0ee66, 0xe1e13ee1425bba42, 0x24246c24b43d19b4,
  0x38384838d8dde5d8, 0xc6c657c6f97eb8f9, 0xdbdb70db90964d90, 0x4b4bdd4b7a62297a, 0x7a7a8e7a8ff78d8f, 0x3a3a4e3ad2cdf7d2, 0xdede7fde81be6081, 0x5e5ee25e3bca943b,
  0xdfdf7cdf84b66984, 0x9595a295fbdc49fb, 0xfcfc19fc2bb34f2b, 0xaaaae3aa38399338, 0xd7d764d7acf621ac, 0xcece4fced13ef0d1, 0x070709071b383f1b, 0x0f0f110f33787733,
  0x3d3d473dc9f5c8c9, 0x5858e85825faa225, 0x9a9ab39ac8a43ec8, 0x9898b598c2b42cc2, 0x9c9cb99cd69408d6, 0xf2f20bf21dc3311d, 0xa7a7f4a70151f601, 0x1111331155889955,
  0x7e7e827e9bd7a99b, 0x8b8b808b9d2ca79d, 0x4343c54352226152, 0x030305030f181b0f, 0xe2e23be24d43a14d, 0xdcdc79dc8bae728b, 0xe5e532e5567b9e56, 0xb2b2cbb240f94b40,
  0x4e4ed24e6b4a046b, 0xc7c754c7fc76b1fc, 0x6d6db76dc44f22c4, 0xe9e926e96a1bf26a, 0x27276927bb2502bb, 0x4040c0405d3a7a5d, 0xd8d875d89f8e569f, 0x37375937eba592eb,
  0x9292ab92e0e476e0, 0x8f8f8c8f890c8389, 0x0101030105080905, 0x1d1d271d69e8f569, 0x5353f55302a2f102, 0x3e3e423ec6edd3c6, 0x5959eb5920f2ab20, 0xc1c15ec1e24687e2,
  0x4f4fd14f6e420d6e, 0x32325632fa8dbffa, 0x16163a164eb0a64e, 0xfafa13fa35837935, 0x74749c74b987f3b9, 0xfbfb10fb308b7030, 0x6363a563f23f5cf2, 0x9f9fbc9fd98c13d9,
  0x34345c34e4bd89e4, 0x1a1a2e1a72d0ca72, 0x2a2a7e2a824d6782, 0x5a5aee5a2feab02f, 0x8d8d8a8d831c9183, 0xc9c946c9ca06cfca, 0xcfcf4ccfd436f9d4, 0xf6f607f609e31509,
  0x9090ad90eaf464ea, 0x28287828885d7588, 0x888885889234bc92, 0x9b9bb09bcdac37cd, 0x31315331f595a4f5, 0x0e0e120e36707e36, 0xbdbddabd73813c73, 0x4a4ade4a7f6a207f,
  0xe8e825e86f13fb6f, 0x9696a796f4c452f4, 0xa6a6f7a60459ff04, 0x0c0c140c3c606c3c, 0xc8c845c8cf0ec6cf, 0x79798b7980ef9680, 0xbcbcd9bc76893576, 0xbebedfbe7c99277c,
  0xefef2cef742bc474, 0x6e6eb26ecb5739cb, 0x4646ca46430a4c43, 0x9797a497f1cc5bf1, 0x5b5bed5b2ae2b92a, 0xeded2aed7e3bd67e, 0x19192b197dc8d17d, 0xd9d976d99a865f9a,
  0xacace9ac2609a526, 0x9999b699c7bc25c7, 0xa8a8e5a832298132, 0x29297b298d557c8d, 0x6464ac64e90763e9, 0x1f1f211f63f8e763, 0xadadeaad2301ac23, 0x5555ff551c92c71c,
  0x131335135f988b5f, 0xbbbbd0bb6db10a6d, 0xf7f704f70ceb1c0c, 0x6f6fb16fce5f30ce, 0xb9b9d6b967a11867, 0x4747c94746024546, 0x2f2f712f93654a93, 0xeeee2fee7123cd71,
  0xb8b8d5b862a91162, 0x7b7b8d7b8aff848a, 0x89898689973cb597, 0x30305030f09dadf0, 0xd3d368d3b8d605b8, 0x7f7f817f9edfa09e, 0x76769a76b397e1b3, 0x82829b82b064e6b0]
/-- sbox.go:691-820 -/
def T1 : List U64 := [
  0xd56868b868d5670f, 0xb7d0d06dd0b7ce1e, 0x60ebeb20eb600be0, 0x872b2b7d2b87456e, 0x754848d848757a32, 0xd39d9dba9dd39c01, 0xdf6a6abe6adf771d, 0x53e4e431e4537397,
  0x48e3e338e3484ba8, 0x15a3a3f8a31571d2, 0x135656fa56138adc, 0xbf81819e81bf7cfd, 0x947d7d877d94cfb2, 0x12f1f10ef112db2a, 0xab85859285ab5cd9, 0xdc9e9ebf9edc841a,
  0x9c2c2c742c9c7d51, 0x8c8e8e8f8e8c048a, 0x857878887885e79f, 0xc5caca43cac51ed4, 0x4b171739174bb8af, 0x37a9a9e6a9372188, 0xf86161a361f82f4e, 0xa6d5d562d5a6e633,
  0x345d5de75d34d28f, 0x270b0b1d0b275853, 0x868c8c898c861498, 0xcc3c3c443cccfdc1, 0xb677779977b69fe8, 0x085151f35108b2e3, 0xaa22226622aa0d2f, 0x574242c642572a68,
  0xc33f3f413fc3e5da, 0x195454fc54199ace, 0x584141c341583273, 0xba80809d80ba74f4, 0xdbcccc49ccdb2ee2, 0xa486869786a444c2, 0x45b3b3c8b345f142, 0x781818281878c0d8,
  0x962e2e722e966d43, 0x165757f9571682d5, 0x1e06060a061e3036, 0xf76262a662f73755, 0x03f4f401f403f307, 0xee36365a36eead9b, 0xb2d1d16ed1b2c617, 0xda6b6bbd6bda7f14,
  0x771b1b2d1b77d8c3, 0xec6565af65ec0f6a, 0xbc75759f75bc8ffa, 0x5010103010508090, 0x95dada73da959e44, 0x704949db4970723b, 0xbe26266a26be2d0b, 0x3af9f916f93a9b62,
  0xc0cbcb40cbc016dd, 0xe36666aa66e31771, 0x5ce7e734e75c6b8c, 0x68babad3ba68b903, 0x2caeaeefae2c19b7, 0x0d5050f0500dbaea, 0x075252f65207aaf8, 0x3dababe0ab3d319a,
  0x1105050f0511282d, 0x17f0f00df017d323, 0x390d0d170d396865, 0xa273739573a2bfcc, 0xd73b3b4d3bd7c5fe, 0x1404040c04142024, 0xa020206020a01d3d, 0x21fefe1ffe21a35d,
  0x8edddd7add8ea67b, 0x06f5f502f506fb0e, 0x5eb4b4c1b45ec97d, 0x3e5f5fe15f3ec29d, 0x220a0a1e0a22505a, 0x5bb5b5c2b55bc174, 0xe7c0c05dc0e74e8e, 0x1aa0a0fda01a69c9,
  0xa871719371a8afde, 0x0ba5a5f2a50b41e4, 0x992d2d772d997558, 0xfd6060a060fd2747, 0xa772729672a7b7c5, 0xe59393a893e5ec7f, 0xdd39394b39ddd5ec, 0x2808081808284048,
  0xb583839883b56cef, 0xa521216321a51534, 0x315c5ce45c31da86, 0xa187879487a14ccb, 0x4fb1b1ceb14fe150, 0x47e0e03de04753b3, 0x0000000000000000, 0xe8c3c358c3e85695,
  0x5a121236125a9082, 0xef9191ae91effc6d, 0x988a8a838a9824ae, 0x0a020206020a1012, 0x6c1c1c241c6ce0fc, 0x59e6e637e6596385, 0x4c4545cf454c1257, 0xedc2c25bc2ed5e9c,
  0xf3c4c451c4f36eaa, 0x2efdfd1afd2ebb46, 0x79bfbfdcbf79912e, 0x494444cc44491a5e, 0x1fa1a1fea11f61c0, 0x614c4cd44c615a16, 0xff33335533ff85b6, 0xf6c5c552c5f666a3,
  0xae84849184ae54d0, 0xaf23236523af0526, 0x917c7c847c91c7bb, 0x4ab0b0cdb04ae959, 0xb125256f25b13510, 0x4115153f1541a8bd, 0xe135355f35e1b580, 0xd06969bb69d06f06,
  0x24ffff1cff24ab54, 0xfe9494a194fed440, 0x644d4dd74d64521f, 0xad70709070ada7d7, 0x10a2a2fba21079db, 0x29afafecaf2911be, 0xdecdcd4acdde26eb, 0xa9d6d667d6a9fe28,
  0xc16c6cb46cc1472b, 0x51b7b7c4b751d166, 0x3ff8f815f83f936b, 0x2d09091b092d4841, 0x18f3f308f318cb38, 0xe66767a967e61f78, 0x0ea4a4f1a40e49ed, 0x65eaea23ea6503e9,
  0x7becec29ec7b33df, 0x54b6b6c7b654d96f, 0xa3d4d461d4a3ee3a, 0xbdd2d26bd2bdde0c, 0x4414143c1444a0b4, 0x661e1e221e66f0ee, 0x42e1e13ee1425bba, 0xb424246c24b43d19,
  0xd838384838d8dde5, 0xf9c6c657c6f97eb8, 0x90dbdb70db90964d, 0x7a4b4bdd4b7a6229, 0x8f7a7a8e7a8ff78d, 0xd23a3a4e3ad2cdf7, 0x81dede7fde81be60, 0x3b5e5ee25e3bca94,
  0x84dfdf7cdf84b669, 0xfb9595a295fbdc49, 0x2bfcfc19fc2bb34f, 0x38aaaae3aa383993, 0xacd7d764d7acf621, 0xd1cece4fced13ef0, 0x1b070709071b383f, 0x330f0f110f337877,
  0xc93d3d473dc9f5c8, 0x255858e85825faa2, 0xc89a9ab39ac8a43e, 0xc29898b598c2b42c, 0xd69c9cb99cd69408, 0x1df2f20bf21dc331, 0x01a7a7f4a70151f6, 0x5511113311558899,
  0x9b7e7e827e9bd7a9, 0x9d8b8b808b9d2ca7, 0x524343c543522261, 0x0f030305030f181b, 0x4de2e23be24d43a1, 0x8bdcdc79dc8bae72, 0x56e5e532e5567b9e, 0x40b2b2cbb240f94b,
  0x6b4e4ed24e6b4a04, 0xfcc7c754c7fc76b1, 0xc46d6db76dc44f22, 0x6ae9e926e96a1bf2, 0xbb27276927bb2502, 0x5d4040c0405d3a7a, 0x9fd8d875d89f8e56, 0xeb37375937eba592,
  0xe09292ab92e0e476, 0x898f8f8c8f890c83, 0x0501010301050809, 0x691d1d271d69e8f5, 0x025353f55302a2f1, 0xc63e3e423ec6edd3, 0x205959eb5920f2ab, 0xe2c1c15ec1e24687,
  0x6e4f4fd14f6e420d, 0xfa32325632fa8dbf, 0x4e16163a164eb0a6, 0x35fafa13fa358379, 0xb974749c74b987f3, 0x30fbfb10fb308b70, 0xf26363a563f23f5c, 0xd99f9fbc9fd98c13,
  0xe434345c34e4bd89, 0x721a1a2e1a72d0ca, 0x822a2a7e2a824d67, 0x2f5a5aee5a2feab0, 0x838d8d8a8d831c91, 0xcac9c946c9ca06cf, 0xd4cfcf4ccfd436f9, 0x09f6f607f609e315,
  0xea9090ad90eaf464, 0x8828287828885d75, 0x92888885889234bc, 0xcd9b9bb09bcdac37, 0xf531315331f595a4, 0x360e0e120e36707e, 0x73bdbddabd73813c, 0x7f4a4ade4a7f6a20,
  0x6fe8e825e86f13fb, 0xf49696a796f4c452, 0x04a6a6f7a60459ff, 0x3c0c0c140c3c606c, 0xcfc8c845c8cf0ec6, 0x8079798b7980ef96, 0x76bcbcd9bc768935, 0x7cbebedfbe7c9927,
  0x74efef2cef742bc4, 0xcb6e6eb26ecb5739, 0x434646ca46430a4c, 0xf19797a497f1cc5b, 0x2a5b5bed5b2ae2b9, 0x7eeded2aed7e3bd6, 0x7d19192b197dc8d1, 0x9ad9d976d99a865f,
  0x26acace9ac2609a5, 0xc79999b699c7bc25, 0x32a8a8e5a8322981, 0x8d29297b298d557c, 0xe96464ac64e90763, 0x631f1f211f63f8e7, 0x23adadeaad2301ac, 0x1c5555ff551c92c7,
  0x5f131335135f988b, 0x6dbbbbd0bb6db10a, 0x0cf7f704f70ceb1c, 0xce6f6fb16fce5f30, 0x67b9b9d6b967a118, 0x464747c947460245, 0x932f2f712f93654a, 0x71eeee2fee7123cd,
  0x62b8b8d5b862a911, 0x8a7b7b8d7b8aff84, 0x9789898689973cb5, 0xf030305030f09dad, 0xb8d3d368d3b8d605, 0x9e7f7f817f9edfa0, 0xb376769a76b397e1, 0xb082829b82b064e6]
/-- sbox.go:822-952 -/
def T2 : List U64 := [
  0x0fd56868b868d567, 0x1eb7d0d06dd0b7ce, 0xe060ebeb20eb600b, 0x6e872b2b7d2b8745, 0x32754848d848757a, 0x01d39d9dba9dd39c, 0x1ddf6a6abe6adf77, 0x9753e4e431e45373,
  0xa848e3e338e3484b, 0xd215a3a3f8a31571, 0xdc135656fa56138a, 0xfdbf81819e81bf7c, 0xb2947d7d877d94cf, 0x2a12f1f10ef112db, 0xd9ab85859285ab5c, 0x1adc9e9ebf9edc84,
  0x519c2c2c742c9c7d, 0x8a8c8e8e8f8e8c04, 0x9f857878887885e7, 0xd4c5caca43cac51e, 0xaf4b171739174bb8, 0x8837a9a9e6a93721, 0x4ef86161a361f82f, 0x33a6d5d562d5a6e6,
  0x8f345d5de75d34d2, 0x53270b0b1d0b2758, 0x98868c8c898c8614, 0xc1cc3c3c443cccfd, 0xe8b677779977b69f, 0xe3085151f35108b2, 0x2faa22226622aa0d, 0x68574242c642572a,
  0xdac33f3f413fc3e5, 0xce195454fc54199a, 0x73584141c3415832, 0xf4ba80809d80ba74, 0xe2dbcccc49ccdb2e, 0xc2a486869786a444, 0x4245b3b3c8b345f1, 0xd8781818281878c0,
  0x43962e2e722e966d, 0xd5165757f9571682, 0x361e06060a061e30, 0x55f76262a662f737, 0x0703f4f401f403f3, 0x9bee36365a36eead, 0x17b2d1d16ed1b2c6, 0x14da6b6bbd6bda7f,
  0xc3771b1b2d1b77d8, 0x6aec6565af65ec0f, 0xfabc75759f75bc8f, 0x9050101030105080, 0x4495dada73da959e, 0x3b704949db497072, 0x0bbe26266a26be2d, 0x623af9f916f93a9b,
  0xddc0cbcb40cbc016, 0x71e36666aa66e317, 0x8c5ce7e734e75c6b, 0x0368babad3ba68b9, 0xb72caeaeefae2c19, 0xea0d5050f0500dba, 0xf8075252f65207aa, 0x9a3dababe0ab3d31,
  0x2d1105050f051128, 0x2317f0f00df017d3, 0x65390d0d170d3968, 0xcca273739573a2bf, 0xfed73b3b4d3bd7c5, 0x241404040c041420, 0x3da020206020a01d, 0x5d21fefe1ffe21a3,
  0x7b8edddd7add8ea6, 0x0e06f5f502f506fb, 0x7d5eb4b4c1b45ec9, 0x9d3e5f5fe15f3ec2, 0x5a220a0a1e0a2250, 0x745bb5b5c2b55bc1, 0x8ee7c0c05dc0e74e, 0xc91aa0a0fda01a69,
  0xdea871719371a8af, 0xe40ba5a5f2a50b41, 0x58992d2d772d9975, 0x47fd6060a060fd27, 0xc5a772729672a7b7, 0x7fe59393a893e5ec, 0xecdd39394b39ddd5, 0x4828080818082840,
  0xefb583839883b56c, 0x34a521216321a515, 0x86315c5ce45c31da, 0xcba187879487a14c, 0x504fb1b1ceb14fe1, 0xb347e0e03de04753, 0x0000000000000000, 0x95e8c3c358c3e856,
  0x825a121236125a90, 0x6def9191ae91effc, 0xae988a8a838a9824, 0x120a020206020a10, 0xfc6c1c1c241c6ce0, 0x8559e6e637e65963, 0x574c4545cf454c12, 0x9cedc2c25bc2ed5e,
  0xaaf3c4c451c4f36e, 0x462efdfd1afd2ebb, 0x2e79bfbfdcbf7991, 0x5e494444cc44491a, 0xc01fa1a1fea11f61, 0x16614c4cd44c615a, 0xb6ff33335533ff85, 0xa3f6c5c552c5f666,
  0xd0ae84849184ae54, 0x26af23236523af05, 0xbb917c7c847c91c7, 0x594ab0b0cdb04ae9, 0x10b125256f25b135, 0xbd4115153f1541a8, 0x80e135355f35e1b5, 0x06d06969bb69d06f,
  0x5424ffff1cff24ab, 0x40fe9494a194fed4, 0x1f644d4dd74d6452, 0xd7ad70709070ada7, 0xdb10a2a2fba21079, 0xbe29afafecaf2911, 0xebdecdcd4acdde26, 0x28a9d6d667d6a9fe,
  0x2bc16c6cb46cc147, 0x6651b7b7c4b751d1, 0x6b3ff8f815f83f93, 0x412d09091b092d48, 0x3818f3f308f318cb, 0x78e66767a967e61f, 0xed0ea4a4f1a40e49, 0xe965eaea23ea6503,
  0xdf7becec29ec7b33, 0x6f54b6b6c7b654d9, 0x3aa3d4d461d4a3ee, 0x0cbdd2d26bd2bdde, 0xb44414143c1444a0, 0xee661e1e221e66f0, 0xba42e1e13ee1425b, 0x19b424246c24b43d,
  0xe5d838384838d8dd, 0xb8f9c6c657c6f97e, 0x4d90dbdb70db9096, 0x297a4b4bdd4b7a62, 0x8d8f7a7a8e7a8ff7, 0xf7d23a3a4e3ad2cd, 0x6081dede7fde81be, 0x943b5e5ee25e3bca,
  0x6984dfdf7cdf84b6, 0x49fb9595a295fbdc, 0x4f2bfcfc19fc2bb3, 0x9338aaaae3aa3839, 0x21acd7d764d7acf6, 0xf0d1cece4fced13e, 0x3f1b070709071b38, 0x77330f0f110f3378,
  0xc8c93d3d473dc9f5, 0xa2255858e85825fa, 0x3ec89a9ab39ac8a4, 0x2cc29898b598c2b4, 0x08d69c9cb99cd694, 0x311df2f20bf21dc3, 0xf601a7a7f4a70151, 0x9955111133115588,
  0xa99b7e7e827e9bd7, 0xa79d8b8b808b9d2c, 0x61524343c5435222, 0x1b0f030305030f18, 0xa14de2e23be24d43, 0x728bdcdc79dc8bae, 0x9e56e5e532e5567b, 0x4b40b2b2cbb240f9,
  0x046b4e4ed24e6b4a, 0xb1fcc7c754c7fc76, 0x22c46d6db76dc44f, 0xf26ae9e926e96a1b, 0x02bb27276927bb25, 0x7a5d4040c0405d3a, 0x569fd8d875d89f8e, 0x92eb37375937eba5,
  0x76e09292ab92e0e4, 0x83898f8f8c8f890c, 0x0905010103010508, 0xf5691d1d271d69e8, 0xf1025353f55302a2, 0xd3c63e3e423ec6ed, 0xab205959eb5920f2, 0x87e2c1c15ec1e246,
  0x0d6e4f4fd14f6e42, 0xbffa32325632fa8d, 0xa64e16163a164eb0, 0x7935fafa13fa3583, 0xf3b974749c74b987, 0x7030fbfb10fb308b, 0x5cf26363a563f23f, 0x13d99f9fbc9fd98c,
  0x89e434345c34e4bd, 0xca721a1a2e1a72d0, 0x67822a2a7e2a824d, 0xb02f5a5aee5a2fea, 0x91838d8d8a8d831c, 0xcfcac9c946c9ca06, 0xf9d4cfcf4ccfd436, 0x1509f6f607f609e3,
  0x64ea9090ad90eaf4, 0x758828287828885d, 0xbc92888885889234, 0x37cd9b9bb09bcdac, 0xa4f531315331f595, 0x7e360e0e120e3670, 0x3c73bdbddabd7381, 0x207f4a4ade4a7f6a,
  0xfb6fe8e825e86f13, 0x52f49696a796f4c4, 0xff04a6a6f7a60459, 0x6c3c0c0c140c3c60, 0xc6cfc8c845c8cf0e, 0x968079798b7980ef, 0x3576bcbcd9bc7689, 0x277cbebedfbe7c99,
  0xc474efef2cef742b, 0x39cb6e6eb26ecb57, 0x4c434646ca46430a, 0x5bf19797a497f1cc, 0xb92a5b5bed5b2ae2, 0xd67eeded2aed7e3b, 0xd17d19192b197dc8, 0x5f9ad9d976d99a86,
  0xa526acace9ac2609, 0x25c79999b699c7bc, 0x8132a8a8e5a83229, 0x7c8d29297b298d55, 0x63e96464ac64e907, 0xe7631f1f211f63f8, 0xac23adadeaad2301, 0xc71c5555ff551c92,
  0x8b5f131335135f98, 0x0a6dbbbbd0bb6db1, 0x1c0cf7f704f70ceb, 0x30ce6f6fb16fce5f, 0x1867b9b9d6b967a1, 0x45464747c9474602, 0x4a932f2f712f9365, 0xcd71eeee2fee7123,
  0x1162b8b8d5b862a9, 0x848a7b7b8d7b8aff, 0xb59789898689973c, 0xadf030305030f09d, 0x05b8d3d368d3b8d6, 0xa09e7f7f817f9edf, 0xe1b376769a76b397, 0xe6b082829b82b064]
/-- sbox.go:954-1084 -/
def T3 : List U64 := [
  0x670fd56868b868d5, 0xce1eb7d0d06dd0b7, 0x0be060ebeb20eb60, 0x456e872b2b7d2b87, 0x7a32754848d84875, 0x9c01d39d9dba9dd3, 0x771ddf6a6abe6adf, 0x739753e4e431e453,
  0x4ba848e3e338e348, 0x71d215a3a3f8a315, 0x8adc135656fa5613, 0x7cfdbf81819e81bf, 0xcfb2947d7d877d94, 0xdb2a12f1f10ef112, 0x5cd9ab85859285ab, 0x841adc9e9ebf9edc,
  0x7d519c2c2c742c9c, 0x048a8c8e8e8f8e8c, 0xe79f857878887885, 0x1ed4c5caca43cac5, 0xb8af4b171739174b, 0x218837a9a9e6a937, 0x2f4ef86161a361f8, 0xe633a6d5d562d5a6,
  0xd28f345d5de75d34, 0x5853270b0b1d0b27, 0x1498868c8c898c86, 0xfdc1cc3c3c443ccc, 0x9fe8b677779977b6, 0xb2e3085151f35108, 0x0d2faa22226622aa, 0x2a68574242c64257,
  0xe5dac33f3f413fc3, 0x9ace195454fc5419, 0x3273584141c34158, 0x74f4ba80809d80ba, 0x2ee2dbcccc49ccdb, 0x44c2a486869786a4, 0xf14245b3b3c8b345, 0xc0d8781818281878,
  0x6d43962e2e722e96, 0x82d5165757f95716, 0x30361e06060a061e, 0x3755f76262a662f7, 0xf30703f4f401f403, 0xad9bee36365a36ee, 0xc617b2d1d16ed1b2, 0x7f14da6b6bbd6bda,
  0xd8c3771b1b2d1b77, 0x0f6aec6565af65ec, 0x8ffabc75759f75bc, 0x8090501010301050, 0x9e4495dada73da95, 0x723b704949db4970, 0x2d0bbe26266a26be, 0x9b623af9f916f93a,
  0x16ddc0cbcb40cbc0, 0x1771e36666aa66e3, 0x6b8c5ce7e734e75c, 0xb90368babad3ba68, 0x19b72caeaeefae2c, 0xbaea0d5050f0500d, 0xaaf8075252f65207, 0x319a3dababe0ab3d,
  0x282d1105050f0511, 0xd32317f0f00df017, 0x6865390d0d170d39, 0xbfcca273739573a2, 0xc5fed73b3b4d3bd7, 0x20241404040c0414, 0x1d3da020206020a0, 0xa35d21fefe1ffe21,
  0xa67b8edddd7add8e, 0xfb0e06f5f502f506, 0xc97d5eb4b4c1b45e, 0xc29d3e5f5fe15f3e, 0x505a220a0a1e0a22, 0xc1745bb5b5c2b55b, 0x4e8ee7c0c05dc0e7, 0x69c91aa0a0fda01a,
  0xafdea871719371a8, 0x41e40ba5a5f2a50b, 0x7558992d2d772d99, 0x2747fd6060a060fd, 0xb7c5a772729672a7, 0xec7fe59393a893e5, 0xd5ecdd39394b39dd, 0x4048280808180828,
  0x6cefb583839883b5, 0x1534a521216321a5, 0xda86315c5ce45c31, 0x4ccba187879487a1, 0xe1504fb1b1ceb14f, 0x53b347e0e03de047, 0x0000000000000000, 0x5695e8c3c358c3e8,
  0x90825a121236125a, 0xfc6def9191ae91ef, 0x24ae988a8a838a98, 0x10120a020206020a, 0xe0fc6c1c1c241c6c, 0x638559e6e637e659, 0x12574c4545cf454c, 0x5e9cedc2c25bc2ed,
  0x6eaaf3c4c451c4f3, 0xbb462efdfd1afd2e, 0x912e79bfbfdcbf79, 0x1a5e494444cc4449, 0x61c01fa1a1fea11f, 0x5a16614c4cd44c61, 0x85b6ff33335533ff, 0x66a3f6c5c552c5f6,
  0x54d0ae84849184ae, 0x0526af23236523af, 0xc7bb917c7c847c91, 0xe9594ab0b0cdb04a, 0x3510b125256f25b1, 0xa8bd4115153f1541, 0xb580e135355f35e1, 0x6f06d06969bb69d0,
  0xab5424ffff1cff24, 0xd440fe9494a194fe, 0x521f644d4dd74d64, 0xa7d7ad70709070ad, 0x79db10a2a2fba210, 0x11be29afafecaf29, 0x26ebdecdcd4acdde, 0xfe28a9d6d667d6a9,
  0x472bc16c6cb46cc1, 0xd16651b7b7c4b751, 0x936b3ff8f815f83f, 0x48412d09091b092d, 0xcb3818f3f308f318, 0x1f78e66767a967e6, 0x49ed0ea4a4f1a40e, 0x03e965eaea23ea65,
  0x33df7becec29ec7b, 0xd96f54b6b6c7b654, 0xee3aa3d4d461d4a3, 0xde0cbdd2d26bd2bd, 0xa0b44414143c1444, 0xf0ee661e1e221e66, 0x5bba42e1e13ee142, 0x3d19b424246c24b4,
  0xdde5d838384838d8, 0x7eb8f9c6c657c6f9, 0x964d90dbdb70db90, 0x62297a4b4bdd4b7a, 0xf78d8f7a7a8e7a8f, 0xcdf7d23a3a4e3ad2, 0xbe6081dede7fde81, 0xca943b5e5ee25e3b,
  0xb66984dfdf7cdf84, 0xdc49fb9595a295fb, 0xb34f2bfcfc19fc2b, 0x399338aaaae3aa38, 0xf621acd7d764d7ac, 0x3ef0d1cece4fced1, 0x383f1b070709071b, 0x7877330f0f110f33,
  0xf5c8c93d3d473dc9, 0xfaa2255858e85825, 0xa43ec89a9ab39ac8, 0xb42cc29898b598c2, 0x9408d69c9cb99cd6, 0xc3311df2f20bf21d, 0x51f601a7a7f4a701, 0x8899551111331155,
  0xd7a99b7e7e827e9b, 0x2ca79d8b8b808b9d, 0x2261524343c54352, 0x181b0f030305030f, 0x43a14de2e23be24d, 0xae728bdcdc79dc8b, 0x7b9e56e5e532e556, 0xf94b40b2b2cbb240,
  0x4a046b4e4ed24e6b, 0x76b1fcc7c754c7fc, 0x4f22c46d6db76dc4, 0x1bf26ae9e926e96a, 0x2502bb27276927bb, 0x3a7a5d4040c0405d, 0x8e569fd8d875d89f, 0xa592eb37375937eb,
  0xe476e09292ab92e0, 0x0c83898f8f8c8f89, 0x0809050101030105, 0xe8f5691d1d271d69, 0xa2f1025353f55302, 0xedd3c63e3e423ec6, 0xf2ab205959eb5920, 0x4687e2c1c15ec1e2,
  0x420d6e4f4fd14f6e, 0x8dbffa32325632fa, 0xb0a64e16163a164e, 0x837935fafa13fa35, 0x87f3b974749c74b9, 0x8b7030fbfb10fb30, 0x3f5cf26363a563f2, 0x8c13d99f9fbc9fd9,
  0xbd89e434345c34e4, 0xd0ca721a1a2e1a72, 0x4d67822a2a7e2a82, 0xeab02f5a5aee5a2f, 0x1c91838d8d8a8d83, 0x06cfcac9c946c9ca, 0x36f9d4cfcf4ccfd4, 0xe31509f6f607f609,
  0xf464ea9090ad90ea, 0x5d75882828782888, 0x34bc928888858892, 0xac37cd9b9bb09bcd, 0x95a4f531315331f5, 0x707e360e0e120e36, 0x813c73bdbddabd73, 0x6a207f4a4ade4a7f,
  0x13fb6fe8e825e86f, 0xc452f49696a796f4, 0x59ff04a6a6f7a604, 0x606c3c0c0c140c3c, 0x0ec6cfc8c845c8cf, 0xef968079798b7980, 0x893576bcbcd9bc76, 0x99277cbebedfbe7c,
  0x2bc474efef2cef74, 0x5739cb6e6eb26ecb, 0x0a4c434646ca4643, 0xcc5bf19797a497f1, 0xe2b92a5b5bed5b2a, 0x3bd67eeded2aed7e, 0xc8d17d19192b197d, 0x865f9ad9d976d99a,
  0x09a526acace9ac26, 0xbc25c79999b699c7, 0x298132a8a8e5a832, 0x557c8d29297b298d, 0x0763e96464ac64e9, 0xf8e7631f1f211f63, 0x01ac23adadeaad23, 0x92c71c5555ff551c,
  0x988b5f131335135f, 0xb10a6dbbbbd0bb6d, 0xeb1c0cf7f704f70c, 0x5f30ce6f6fb16fce, 0xa11867b9b9d6b967, 0x0245464747c94746, 0x654a932f2f712f93, 0x23cd71eeee2fee71,
  0xa91162b8b8d5b862, 0xff848a7b7b8d7b8a, 0x3cb5978989868997, 0x9dadf030305030f0, 0xd605b8d3d368d3b8, 0xdfa09e7f7f817f9e, 0x97e1b376769a76b3, 0x64e6b082829b82b0]
/-- sbox.go:1086-1216 -/
def T4 : List U64 := [
  0xd5670fd56868b868, 0xb7ce1eb7d0d06dd0, 0x600be060ebeb20eb, 0x87456e872b2b7d2b, 0x757a32754848d848, 0xd39c01d39d9dba9d, 0xdf771ddf6a6abe6a, 0x53739753e4e431e4,
  0x484ba848e3e338e3, 0x1571d215a3a3f8a3, 0x138adc135656fa56, 0xbf7cfdbf81819e81, 0x94cfb2947d7d877d, 0x12db2a12f1f10ef1, 0xab5cd9ab85859285, 0xdc841adc9e9ebf9e,
  0x9c7d519c2c2c742c, 0x8c048a8c8e8e8f8e, 0x85e79f8578788878, 0xc51ed4c5caca43ca, 0x4bb8af4b17173917, 0x37218837a9a9e6a9, 0xf82f4ef86161a361, 0xa6e633a6d5d562d5,
  0x34d28f345d5de75d, 0x275853270b0b1d0b, 0x861498868c8c898c, 0xccfdc1cc3c3c443c, 0xb69fe8b677779977, 0x08b2e3085151f351, 0xaa0d2faa22226622, 0x572a68574242c642,
  0xc3e5dac33f3f413f, 0x199ace195454fc54, 0x583273584141c341, 0xba74f4ba80809d80, 0xdb2ee2dbcccc49cc, 0xa444c2a486869786, 0x45f14245b3b3c8b3, 0x78c0d87818182818,
  0x966d43962e2e722e, 0x1682d5165757f957, 0x1e30361e06060a06, 0xf73755f76262a662, 0x03f30703f4f401f4, 0xeead9bee36365a36, 0xb2c617b2d1d16ed1, 0xda7f14da6b6bbd6b,
  0x77d8c3771b1b2d1b, 0xec0f6aec6565af65, 0xbc8ffabc75759f75, 0x5080905010103010, 0x959e4495dada73da, 0x70723b704949db49, 0xbe2d0bbe26266a26, 0x3a9b623af9f916f9,
  0xc016ddc0cbcb40cb, 0xe31771e36666aa66, 0x5c6b8c5ce7e734e7, 0x68b90368babad3ba, 0x2c19b72caeaeefae, 0x0dbaea0d5050f050, 0x07aaf8075252f652, 0x3d319a3dababe0ab,
  0x11282d1105050f05, 0x17d32317f0f00df0, 0x396865390d0d170d, 0xa2bfcca273739573, 0xd7c5fed73b3b4d3b, 0x1420241404040c04, 0xa01d3da020206020, 0x21a35d21fefe1ffe,
  0x8ea67b8edddd7add, 0x06fb0e06f5f502f5, 0x5ec97d5eb4b4c1b4, 0x3ec29d3e5f5fe15f, 0x22505a220a0a1e0a, 0x5bc1745bb5b5c2b5, 0xe74e8ee7c0c05dc0, 0x1a69c91aa0a0fda0,
  0xa8afdea871719371, 0x0b41e40ba5a5f2a5, 0x997558992d2d772d, 0xfd2747fd6060a060, 0xa7b7c5a772729672, 0xe5ec7fe59393a893, 0xddd5ecdd39394b39, 0x2840482808081808,
  0xb56cefb583839883, 0xa51534a521216321, 0x31da86315c5ce45c, 0xa14ccba187879487, 0x4fe1504fb1b1ceb1, 0x4753b347e0e03de0, 0x0000000000000000, 0xe85695e8c3c358c3,
  0x5a90825a12123612, 0xeffc6def9191ae91, 0x9824ae988a8a838a, 0x0a10120a02020602, 0x6ce0fc6c1c1c241c, 0x59638559e6e637e6, 0x4c12574c4545cf45, 0xed5e9cedc2c25bc2,
  0xf36eaaf3c4c451c4, 0x2ebb462efdfd1afd, 0x79912e79bfbfdcbf, 0x491a5e494444cc44, 0x1f61c01fa1a1fea1, 0x615a16614c4cd44c, 0xff85b6ff33335533, 0xf666a3f6c5c552c5,
  0xae54d0ae84849184, 0xaf0526af23236523, 0x91c7bb917c7c847c, 0x4ae9594ab0b0cdb0, 0xb13510b125256f25, 0x41a8bd4115153f15, 0xe1b580e135355f35, 0xd06f06d06969bb69,
  0x24ab5424ffff1cff, 0xfed440fe9494a194, 0x64521f644d4dd74d, 0xada7d7ad70709070, 0x1079db10a2a2fba2, 0x2911be29afafecaf, 0xde26ebdecdcd4acd, 0xa9fe28a9d6d667d6,
  0xc1472bc16c6cb46c, 0x51d16651b7b7c4b7, 0x3f936b3ff8f815f8, 0x2d48412d09091b09, 0x18cb3818f3f308f3, 0xe61f78e66767a967, 0x0e49ed0ea4a4f1a4, 0x6503e965eaea23ea,
  0x7b33df7becec29ec, 0x54d96f54b6b6c7b6, 0xa3ee3aa3d4d461d4, 0xbdde0cbdd2d26bd2, 0x44a0b44414143c14, 0x66f0ee661e1e221e, 0x425bba42e1e13ee1, 0xb43d19b424246c24,
  0xd8dde5d838384838, 0xf97eb8f9c6c657c6, 0x90964d90dbdb70db, 0x7a62297a4b4bdd4b, 0x8ff78d8f7a7a8e7a, 0xd2cdf7d23a3a4e3a, 0x81be6081dede7fde, 0x3bca943b5e5ee25e,
  0x84b66984dfdf7cdf, 0xfbdc49fb9595a295, 0x2bb34f2bfcfc19fc, 0x38399338aaaae3aa, 0xacf621acd7d764d7, 0xd13ef0d1cece4fce, 0x1b383f1b07070907, 0x337877330f0f110f,
  0xc9f5c8c93d3d473d, 0x25faa2255858e858, 0xc8a43ec89a9ab39a, 0xc2b42cc29898b598, 0xd69408d69c9cb99c, 0x1dc3311df2f20bf2, 0x0151f601a7a7f4a7, 0x5588995511113311,
  0x9bd7a99b7e7e827e, 0x9d2ca79d8b8b808b, 0x522261524343c543, 0x0f181b0f03030503, 0x4d43a14de2e23be2, 0x8bae728bdcdc79dc, 0x567b9e56e5e532e5, 0x40f94b40b2b2cbb2,
  0x6b4a046b4e4ed24e, 0xfc76b1fcc7c754c7, 0xc44f22c46d6db76d, 0x6a1bf26ae9e926e9, 0xbb2502bb27276927, 0x5d3a7a5d4040c040, 0x9f8e569fd8d875d8, 0xeba592eb37375937,
  0xe0e476e09292ab92, 0x890c83898f8f8c8f, 0x0508090501010301, 0x69e8f5691d1d271d, 0x02a2f1025353f553, 0xc6edd3c63e3e423e, 0x20f2ab205959eb59, 0xe24687e2c1c15ec1,
  0x6e420d6e4f4fd14f, 0xfa8dbffa32325632, 0x4eb0a64e16163a16, 0x35837935fafa13fa, 0xb987f3b974749c74, 0x308b7030fbfb10fb, 0xf23f5cf26363a563, 0xd98c13d99f9fbc9f,
  0xe4bd89e434345c34, 0x72d0ca721a1a2e1a, 0x824d67822a2a7e2a, 0x2feab02f5a5aee5a, 0x831c91838d8d8a8d, 0xca06cfcac9c946c9, 0xd436f9d4cfcf4ccf, 0x09e31509f6f607f6,
  0xeaf464ea9090ad90, 0x885d758828287828, 0x9234bc9288888588, 0xcdac37cd9b9bb09b, 0xf595a4f531315331, 0x36707e360e0e120e, 0x73813c73bdbddabd, 0x7f6a207f4a4ade4a,
  0x6f13fb6fe8e825e8, 0xf4c452f49696a796, 0x0459ff04a6a6f7a6, 0x3c606c3c0c0c140c, 0xcf0ec6cfc8c845c8, 0x80ef968079798b79, 0x76893576bcbcd9bc, 0x7c99277cbebedfbe,
  0x742bc474efef2cef, 0xcb5739cb6e6eb26e, 0x430a4c434646ca46, 0xf1cc5bf19797a497, 0x2ae2b92a5b5bed5b, 0x7e3bd67eeded2aed, 0x7dc8d17d19192b19, 0x9a865f9ad9d976d9,
  0x2609a526acace9ac, 0xc7bc25c79999b699, 0x32298132a8a8e5a8, 0x8d557c8d29297b29, 0xe90763e96464ac64, 0x63f8e7631f1f211f, 0x2301ac23adadeaad, 0x1c92c71c5555ff55,
  0x5f988b5f13133513, 0x6db10a6dbbbbd0bb, 0x0ceb1c0cf7f704f7, 0xce5f30ce6f6fb16f, 0x67a11867b9b9d6b9, 0x460245464747c947, 0x93654a932f2f712f, 0x7123cd71eeee2fee,
  0x62a91162b8b8d5b8, 0x8aff848a7b7b8d7b, 0x973cb59789898689, 0xf09dadf030305030, 0xb8d605b8d3d368d3, 0x9edfa09e7f7f817f, 0xb397e1b376769a76, 0xb064e6b082829b82]
/-- sbox.go:1218-1348 -/
def T5 : List U64 := [
  0x68d5670fd56868b8, 0xd0b7ce1eb7d0d06d, 0xeb600be060ebeb20, 0x2b87456e872b2b7d, 0x48757a32754848d8, 0x9dd39c01d39d9dba, 0x6adf771ddf6a6abe, 0xe453739753e4e431,
  0xe3484ba848e3e338, 0xa31571d215a3a3f8, 0x56138adc135656fa, 0x81bf7cfdbf81819e, 0x7d94cfb2947d7d87, 0xf112db2a12f1f10e, 0x85ab5cd9ab858592, 0x9edc841adc9e9ebf,
  0x2c9c7d519c2c2c74, 0x8e8c048a8c8e8e8f, 0x7885e79f85787888, 0xcac51ed4c5caca43, 0x174bb8af4b171739, 0xa937218837a9a9e6, 0x61f82f4ef86161a3, 0xd5a6e633a6d5d562,
  0x5d34d28f345d5de7, 0x0b275853270b0b1d, 0x8c861498868c8c89, 0x3cccfdc1cc3c3c44, 0x77b69fe8b6777799, 0x5108b2e3085151f3, 0x22aa0d2faa222266, 0x42572a68574242c6,
  0x3fc3e5dac33f3f41, 0x54199ace195454fc, 0x41583273584141c3, 0x80ba74f4ba80809d, 0xccdb2ee2dbcccc49, 0x86a444c2a4868697, 0xb345f14245b3b3c8, 0x1878c0d878181828,
  0x2e966d43962e2e72, 0x571682d5165757f9, 0x061e30361e06060a, 0x62f73755f76262a6, 0xf403f30703f4f401, 0x36eead9bee36365a, 0xd1b2c617b2d1d16e, 0x6bda7f14da6b6bbd,
  0x1b77d8c3771b1b2d, 0x65ec0f6aec6565af, 0x75bc8ffabc75759f, 0x1050809050101030, 0xda959e4495dada73, 0x4970723b704949db, 0x26be2d0bbe26266a, 0xf93a9b623af9f916,
  0xcbc016ddc0cbcb40, 0x66e31771e36666aa, 0xe75c6b8c5ce7e734, 0xba68b90368babad3, 0xae2c19b72caeaeef, 0x500dbaea0d5050f0, 0x5207aaf8075252f6, 0xab3d319a3dababe0,
  0x0511282d1105050f, 0xf017d32317f0f00d, 0x0d396865390d0d17, 0x73a2bfcca2737395, 0x3bd7c5fed73b3b4d, 0x041420241404040c, 0x20a01d3da0202060, 0xfe21a35d21fefe1f,
  0xdd8ea67b8edddd7a, 0xf506fb0e06f5f502, 0xb45ec97d5eb4b4c1, 0x5f3ec29d3e5f5fe1, 0x0a22505a220a0a1e, 0xb55bc1745bb5b5c2, 0xc0e74e8ee7c0c05d, 0xa01a69c91aa0a0fd,
  0x71a8afdea8717193, 0xa50b41e40ba5a5f2, 0x2d997558992d2d77, 0x60fd2747fd6060a0, 0x72a7b7c5a7727296, 0x93e5ec7fe59393a8, 0x39ddd5ecdd39394b, 0x0828404828080818,
  0x83b56cefb5838398, 0x21a51534a5212163, 0x5c31da86315c5ce4, 0x87a14ccba1878794, 0xb14fe1504fb1b1ce, 0xe04753b347e0e03d, 0x0000000000000000, 0xc3e85695e8c3c358,
  0x125a90825a121236, 0x91effc6def9191ae, 0x8a9824ae988a8a83, 0x020a10120a020206, 0x1c6ce0fc6c1c1c24, 0xe659638559e6e637, 0x454c12574c4545cf, 0xc2ed5e9cedc2c25b,
  0xc4f36eaaf3c4c451, 0xfd2ebb462efdfd1a, 0xbf79912e79bfbfdc, 0x44491a5e494444cc, 0xa11f61c01fa1a1fe, 0x4c615a16614c4cd4, 0x33ff85b6ff333355, 0xc5f666a3f6c5c552,
  0x84ae54d0ae848491, 0x23af0526af232365, 0x7c91c7bb917c7c84, 0xb04ae9594ab0b0cd, 0x25b13510b125256f, 0x1541a8bd4115153f, 0x35e1b580e135355f, 0x69d06f06d06969bb,
  0xff24ab5424ffff1c, 0x94fed440fe9494a1, 0x4d64521f644d4dd7, 0x70ada7d7ad707090, 0xa21079db10a2a2fb, 0xaf2911be29afafec, 0xcdde26ebdecdcd4a, 0xd6a9fe28a9d6d667,
  0x6cc1472bc16c6cb4, 0xb751d16651b7b7c4, 0xf83f936b3ff8f815, 0x092d48412d09091b, 0xf318cb3818f3f308, 0x67e61f78e66767a9, 0xa40e49ed0ea4a4f1, 0xea6503e965eaea23,
  0xec7b33df7becec29, 0xb654d96f54b6b6c7, 0xd4a3ee3aa3d4d461, 0xd2bdde0cbdd2d26b, 0x1444a0b44414143c, 0x1e66f0ee661e1e22, 0xe1425bba42e1e13e, 0x24b43d19b424246c,
  0x38d8dde5d8383848, 0xc6f97eb8f9c6c657, 0xdb90964d90dbdb70, 0x4b7a62297a4b4bdd, 0x7a8ff78d8f7a7a8e, 0x3ad2cdf7d23a3a4e, 0xde81be6081dede7f, 0x5e3bca943b5e5ee2,
  0xdf84b66984dfdf7c, 0x95fbdc49fb9595a2, 0xfc2bb34f2bfcfc19, 0xaa38399338aaaae3, 0xd7acf621acd7d764, 0xced13ef0d1cece4f, 0x071b383f1b070709, 0x0f337877330f0f11,
  0x3dc9f5c8c93d3d47, 0x5825faa2255858e8, 0x9ac8a43ec89a9ab3, 0x98c2b42cc29898b5, 0x9cd69408d69c9cb9, 0xf21dc3311df2f20b, 0xa70151f601a7a7f4, 0x1155889955111133,
  0x7e9bd7a99b7e7e82, 0x8b9d2ca79d8b8b80, 0x43522261524343c5, 0x030f181b0f030305, 0xe24d43a14de2e23b, 0xdc8bae728bdcdc79, 0xe5567b9e56e5e532, 0xb240f94b40b2b2cb,
  0x4e6b4a046b4e4ed2, 0xc7fc76b1fcc7c754, 0x6dc44f22c46d6db7, 0xe96a1bf26ae9e926, 0x27bb2502bb272769, 0x405d3a7a5d4040c0, 0xd89f8e569fd8d875, 0x37eba592eb373759,
  0x92e0e476e09292ab, 0x8f890c83898f8f8c, 0x0105080905010103, 0x1d69e8f5691d1d27, 0x5302a2f1025353f5, 0x3ec6edd3c63e3e42, 0x5920f2ab205959eb, 0xc1e24687e2c1c15e,
  0x4f6e420d6e4f4fd1, 0x32fa8dbffa323256, 0x164eb0a64e16163a, 0xfa35837935fafa13, 0x74b987f3b974749c, 0xfb308b7030fbfb10, 0x63f23f5cf26363a5, 0x9fd98c13d99f9fbc,
  0x34e4bd89e434345c, 0x1a72d0ca721a1a2e, 0x2a824d67822a2a7e, 0x5a2feab02f5a5aee, 0x8d831c91838d8d8a, 0xc9ca06cfcac9c946, 0xcfd436f9d4cfcf4c, 0xf609e31509f6f607,
  0x90eaf464ea9090ad, 0x28885d7588282878, 0x889234bc92888885, 0x9bcdac37cd9b9bb0, 0x31f595a4f5313153, 0x0e36707e360e0e12, 0xbd73813c73bdbdda, 0x4a7f6a207f4a4ade,
  0xe86f13fb6fe8e825, 0x96f4c452f49696a7, 0xa60459ff04a6a6f7, 0x0c3c606c3c0c0c14, 0xc8cf0ec6cfc8c845, 0x7980ef968079798b, 0xbc76893576bcbcd9, 0xbe7c99277cbebedf,
  0xef742bc474efef2c, 0x6ecb5739cb6e6eb2, 0x46430a4c434646ca, 0x97f1cc5bf19797a4, 0x5b2ae2b92a5b5bed, 0xed7e3bd67eeded2a, 0x197dc8d17d19192b, 0xd99a865f9ad9d976,
  0xac2609a526acace9, 0x99c7bc25c79999b6, 0xa832298132a8a8e5, 0x298d557c8d29297b, 0x64e90763e96464ac, 0x1f63f8e7631f1f21, 0xad2301ac23adadea, 0x551c92c71c5555ff,
  0x135f988b5f131335, 0xbb6db10a6dbbbbd0, 0xf70ceb1c0cf7f704, 0x6fce5f30ce6f6fb1, 0xb967a11867b9b9d6, 0x47460245464747c9, 0x2f93654a932f2f71, 0xee7123cd71eeee2f,
  0xb862a91162b8b8d5, 0x7b8aff848a7b7b8d, 0x89973cb597898986, 0x30f09dadf0303050, 0xd3b8d605b8d3d368, 0x7f9edfa09e7f7f81, 0x76b397e1b376769a, 0x82b064e6b082829b]
/-- sbox.go:1350-1480 -/
def T6 : List U64 := [
  0xb868d5670fd56868, 0x6dd0b7ce1eb7d0d0, 0x20eb600be060ebeb, 0x7d2b87456e872b2b, 0xd848757a32754848, 0xba9dd39c01d39d9d, 0xbe6adf771ddf6a6a, 0x31e453739753e4e4,
  0x38e3484ba848e3e3, 0xf8a31571d215a3a3, 0xfa56138adc135656, 0x9e81bf7cfdbf8181, 0x877d94cfb2947d7d, 0x0ef112db2a12f1f1, 0x9285ab5cd9ab8585, 0xbf9edc841adc9e9e,
  0x742c9c7d519c2c2c, 0x8f8e8c048a8c8e8e, 0x887885e79f857878, 0x43cac51ed4c5caca, 0x39174bb8af4b1717, 0xe6a937218837a9a9, 0xa361f82f4ef86161, 0x62d5a6e633a6d5d5,
  0xe75d34d28f345d5d, 0x1d0b275853270b0b, 0x898c861498868c8c, 0x443cccfdc1cc3c3c, 0x9977b69fe8b67777, 0xf35108b2e3085151, 0x6622aa0d2faa2222, 0xc642572a68574242,
  0x413fc3e5dac33f3f, 0xfc54199ace195454, 0xc341583273584141, 0x9d80ba74f4ba8080, 0x49ccdb2ee2dbcccc, 0x9786a444c2a48686, 0xc8b345f14245b3b3, 0x281878c0d8781818,
  0x722e966d43962e2e, 0xf9571682d5165757, 0x0a061e30361e0606, 0xa662f73755f76262, 0x01f403f30703f4f4, 0x5a36eead9bee3636, 0x6ed1b2c617b2d1d1, 0xbd6bda7f14da6b6b,
  0x2d1b77d8c3771b1b, 0xaf65ec0f6aec6565, 0x9f75bc8ffabc7575, 0x3010508090501010, 0x73da959e4495dada, 0xdb4970723b704949, 0x6a26be2d0bbe2626, 0x16f93a9b623af9f9,
  0x40cbc016ddc0cbcb, 0xaa66e31771e36666, 0x34e75c6b8c5ce7e7, 0xd3ba68b90368baba, 0xefae2c19b72caeae, 0xf0500dbaea0d5050, 0xf65207aaf8075252, 0xe0ab3d319a3dabab,
  0x0f0511282d110505, 0x0df017d32317f0f0, 0x170d396865390d0d, 0x9573a2bfcca27373, 0x4d3bd7c5fed73b3b, 0x0c04142024140404, 0x6020a01d3da02020, 0x1ffe21a35d21fefe,
  0x7add8ea67b8edddd, 0x02f506fb0e06f5f5, 0xc1b45ec97d5eb4b4, 0xe15f3ec29d3e5f5f, 0x1e0a22505a220a0a, 0xc2b55bc1745bb5b5, 0x5dc0e74e8ee7c0c0, 0xfda01a69c91aa0a0,
  0x9371a8afdea87171, 0xf2a50b41e40ba5a5, 0x772d997558992d2d, 0xa060fd2747fd6060, 0x9672a7b7c5a77272, 0xa893e5ec7fe59393, 0x4b39ddd5ecdd3939, 0x1808284048280808,
  0x9883b56cefb58383, 0x6321a51534a52121, 0xe45c31da86315c5c, 0x9487a14ccba18787, 0xceb14fe1504fb1b1, 0x3de04753b347e0e0, 0x0000000000000000, 0x58c3e85695e8c3c3,
  0x36125a90825a1212, 0xae91effc6def9191, 0x838a9824ae988a8a, 0x06020a10120a0202, 0x241c6ce0fc6c1c1c, 0x37e659638559e6e6, 0xcf454c12574c4545, 0x5bc2ed5e9cedc2c2,
  0x51c4f36eaaf3c4c4, 0x1afd2ebb462efdfd, 0xdcbf79912e79bfbf, 0xcc44491a5e494444, 0xfea11f61c01fa1a1, 0xd44c615a16614c4c, 0x5533ff85b6ff3333, 0x52c5f666a3f6c5c5,
  0x9184ae54d0ae8484, 0x6523af0526af2323, 0x847c91c7bb917c7c, 0xcdb04ae9594ab0b0, 0x6f25b13510b12525, 0x3f1541a8bd411515, 0x5f35e1b580e13535, 0xbb69d06f06d06969,
  0x1cff24ab5424ffff, 0xa194fed440fe9494, 0xd74d64521f644d4d, 0x9070ada7d7ad7070, 0xfba21079db10a2a2, 0xecaf2911be29afaf, 0x4acdde26ebdecdcd, 0x67d6a9fe28a9d6d6,
  0xb46cc1472bc16c6c, 0xc4b751d16651b7b7, 0x15f83f936b3ff8f8, 0x1b092d48412d0909, 0x08f318cb3818f3f3, 0xa967e61f78e66767, 0xf1a40e49ed0ea4a4, 0x23ea6503e965eaea,
  0x29ec7b33df7becec, 0xc7b654d96f54b6b6, 0x61d4a3ee3aa3d4d4, 0x6bd2bdde0cbdd2d2, 0x3c1444a0b4441414, 0x221e66f0ee661e1e, 0x3ee1425bba42e1e1, 0x6c24b43d19b42424,
  0x4838d8dde5d83838, 0x57c6f97eb8f9c6c6, 0x70db90964d90dbdb, 0xdd4b7a62297a4b4b, 0x8e7a8ff78d8f7a7a, 0x4e3ad2cdf7d23a3a, 0x7fde81be6081dede, 0xe25e3bca943b5e5e,
  0x7cdf84b66984dfdf, 0xa295fbdc49fb9595, 0x19fc2bb34f2bfcfc, 0xe3aa38399338aaaa, 0x64d7acf621acd7d7, 0x4fced13ef0d1cece, 0x09071b383f1b0707, 0x110f337877330f0f,
  0x473dc9f5c8c93d3d, 0xe85825faa2255858, 0xb39ac8a43ec89a9a, 0xb598c2b42cc29898, 0xb99cd69408d69c9c, 0x0bf21dc3311df2f2, 0xf4a70151f601a7a7, 0x3311558899551111,
  0x827e9bd7a99b7e7e, 0x808b9d2ca79d8b8b, 0xc543522261524343, 0x05030f181b0f0303, 0x3be24d43a14de2e2, 0x79dc8bae728bdcdc, 0x32e5567b9e56e5e5, 0xcbb240f94b40b2b2,
  0xd24e6b4a046b4e4e, 0x54c7fc76b1fcc7c7, 0xb76dc44f22c46d6d, 0x26e96a1bf26ae9e9, 0x6927bb2502bb2727, 0xc0405d3a7a5d4040, 0x75d89f8e569fd8d8, 0x5937eba592eb3737,
  0xab92e0e476e09292, 0x8c8f890c83898f8f, 0x0301050809050101, 0x271d69e8f5691d1d, 0xf55302a2f1025353, 0x423ec6edd3c63e3e, 0xeb5920f2ab205959, 0x5ec1e24687e2c1c1,
  0xd14f6e420d6e4f4f, 0x5632fa8dbffa3232, 0x3a164eb0a64e1616, 0x13fa35837935fafa, 0x9c74b987f3b97474, 0x10fb308b7030fbfb, 0xa563f23f5cf26363, 0xbc9fd98c13d99f9f,
  0x5c34e4bd89e43434, 0x2e1a72d0ca721a1a, 0x7e2a824d67822a2a, 0xee5a2feab02f5a5a, 0x8a8d831c91838d8d, 0x46c9ca06cfcac9c9, 0x4ccfd436f9d4cfcf, 0x07f609e31509f6f6,
  0xad90eaf464ea9090, 0x7828885d75882828, 0x85889234bc928888, 0xb09bcdac37cd9b9b, 0x5331f595a4f53131, 0x120e36707e360e0e, 0xdabd73813c73bdbd, 0xde4a7f6a207f4a4a,
  0x25e86f13fb6fe8e8, 0xa796f4c452f49696, 0xf7a60459ff04a6a6, 0x140c3c606c3c0c0c, 0x45c8cf0ec6cfc8c8, 0x8b7980ef96807979, 0xd9bc76893576bcbc, 0xdfbe7c99277cbebe,
  0x2cef742bc474efef, 0xb26ecb5739cb6e6e, 0xca46430a4c434646, 0xa497f1cc5bf19797, 0xed5b2ae2b92a5b5b, 0x2aed7e3bd67eeded, 0x2b197dc8d17d1919, 0x76d99a865f9ad9d9,
  0xe9ac2609a526acac, 0xb699c7bc25c79999, 0xe5a832298132a8a8, 0x7b298d557c8d2929, 0xac64e90763e96464, 0x211f63f8e7631f1f, 0xeaad2301ac23adad, 0xff551c92c71c5555,
  0x35135f988b5f1313, 0xd0bb6db10a6dbbbb, 0x04f70ceb1c0cf7f7, 0xb16fce5f30ce6f6f, 0xd6b967a11867b9b9, 0xc947460245464747, 0x712f93654a932f2f, 0x2fee7123cd71eeee,
  0xd5b862a91162b8b8, 0x8d7b8aff848a7b7b, 0x8689973cb5978989, 0x5030f09dadf03030, 0x68d3b8d605b8d3d3, 0x817f9edfa09e7f7f, 0x9a76b397e1b37676, 0x9b82b064e6b08282]
/-- sbox.go:1482-1612 -/
def T7 : List U64 := [
  0x68b868d5670fd568, 0xd06dd0b7ce1eb7d0, 0xeb20eb600be060eb, 0x2b7d2b87456e872b, 0x48d848757a327548, 0x9dba9dd39c01d39d, 0x6abe6adf771ddf6a, 0xe431e453739753e4,
  0xe338e3484ba848e3, 0xa3f8a31571d215a3, 0x56fa56138adc1356, 0x819e81bf7cfdbf81, 0x7d877d94cfb2947d, 0xf10ef112db2a12f1, 0x859285ab5cd9ab85, 0x9ebf9edc841adc9e,
  0x2c742c9c7d519c2c, 0x8e8f8e8c048a8c8e, 0x78887885e79f8578, 0xca43cac51ed4c5ca, 0x1739174bb8af4b17, 0xa9e6a937218837a9, 0x61a361f82f4ef861, 0xd562d5a6e633a6d5,
  0x5de75d34d28f345d, 0x0b1d0b275853270b, 0x8c898c861498868c, 0x3c443cccfdc1cc3c, 0x779977b69fe8b677, 0x51f35108b2e30851, 0x226622aa0d2faa22, 0x42c642572a685742,
  0x3f413fc3e5dac33f, 0x54fc54199ace1954, 0x41c3415832735841, 0x809d80ba74f4ba80, 0xcc49ccdb2ee2dbcc, 0x869786a444c2a486, 0xb3c8b345f14245b3, 0x18281878c0d87818,
  0x2e722e966d43962e, 0x57f9571682d51657, 0x060a061e30361e06, 0x62a662f73755f762, 0xf401f403f30703f4, 0x365a36eead9bee36, 0xd16ed1b2c617b2d1, 0x6bbd6bda7f14da6b,
  0x1b2d1b77d8c3771b, 0x65af65ec0f6aec65, 0x759f75bc8ffabc75, 0x1030105080905010, 0xda73da959e4495da, 0x49db4970723b7049, 0x266a26be2d0bbe26, 0xf916f93a9b623af9,
  0xcb40cbc016ddc0cb, 0x66aa66e31771e366, 0xe734e75c6b8c5ce7, 0xbad3ba68b90368ba, 0xaeefae2c19b72cae, 0x50f0500dbaea0d50, 0x52f65207aaf80752, 0xabe0ab3d319a3dab,
  0x050f0511282d1105, 0xf00df017d32317f0, 0x0d170d396865390d, 0x739573a2bfcca273, 0x3b4d3bd7c5fed73b, 0x040c041420241404, 0x206020a01d3da020, 0xfe1ffe21a35d21fe,
  0xdd7add8ea67b8edd, 0xf502f506fb0e06f5, 0xb4c1b45ec97d5eb4, 0x5fe15f3ec29d3e5f, 0x0a1e0a22505a220a, 0xb5c2b55bc1745bb5, 0xc05dc0e74e8ee7c0, 0xa0fda01a69c91aa0,
  0x719371a8afdea871, 0xa5f2a50b41e40ba5, 0x2d772d997558992d, 0x60a060fd2747fd60, 0x729672a7b7c5a772, 0x93a893e5ec7fe593, 0x394b39ddd5ecdd39, 0x0818082840482808,
  0x839883b56cefb583, 0x216321a51534a521, 0x5ce45c31da86315c, 0x879487a14ccba187, 0xb1ceb14fe1504fb1, 0xe03de04753b347e0, 0x0000000000000000, 0xc358c3e85695e8c3,
  0x1236125a90825a12, 0x91ae91effc6def91, 0x8a838a9824ae988a, 0x0206020a10120a02, 0x1c241c6ce0fc6c1c, 0xe637e659638559e6, 0x45cf454c12574c45, 0xc25bc2ed5e9cedc2,
  0xc451c4f36eaaf3c4, 0xfd1afd2ebb462efd, 0xbfdcbf79912e79bf, 0x44cc44491a5e4944, 0xa1fea11f61c01fa1, 0x4cd44c615a16614c, 0x335533ff85b6ff33, 0xc552c5f666a3f6c5,
  0x849184ae54d0ae84, 0x236523af0526af23, 0x7c847c91c7bb917c, 0xb0cdb04ae9594ab0, 0x256f25b13510b125, 0x153f1541a8bd4115, 0x355f35e1b580e135, 0x69bb69d06f06d069,
  0xff1cff24ab5424ff, 0x94a194fed440fe94, 0x4dd74d64521f644d, 0x709070ada7d7ad70, 0xa2fba21079db10a2, 0xafecaf2911be29af, 0xcd4acdde26ebdecd, 0xd667d6a9fe28a9d6,
  0x6cb46cc1472bc16c, 0xb7c4b751d16651b7, 0xf815f83f936b3ff8, 0x091b092d48412d09, 0xf308f318cb3818f3, 0x67a967e61f78e667, 0xa4f1a40e49ed0ea4, 0xea23ea6503e965ea,
  0xec29ec7b33df7bec, 0xb6c7b654d96f54b6, 0xd461d4a3ee3aa3d4, 0xd26bd2bdde0cbdd2, 0x143c1444a0b44414, 0x1e221e66f0ee661e, 0xe13ee1425bba42e1, 0x246c24b43d19b424,
  0x384838d8dde5d838, 0xc657c6f97eb8f9c6, 0xdb70db90964d90db, 0x4bdd4b7a62297a4b, 0x7a8e7a8ff78d8f7a, 0x3a4e3ad2cdf7d23a, 0xde7fde81be6081de, 0x5ee25e3bca943b5e,
  0xdf7cdf84b66984df, 0x95a295fbdc49fb95, 0xfc19fc2bb34f2bfc, 0xaae3aa38399338aa, 0xd764d7acf621acd7, 0xce4fced13ef0d1ce, 0x0709071b383f1b07, 0x0f110f337877330f,
  0x3d473dc9f5c8c93d, 0x58e85825faa22558, 0x9ab39ac8a43ec89a, 0x98b598c2b42cc298, 0x9cb99cd69408d69c, 0xf20bf21dc3311df2, 0xa7f4a70151f601a7, 0x1133115588995511,
  0x7e827e9bd7a99b7e, 0x8b808b9d2ca79d8b, 0x43c5435222615243, 0x0305030f181b0f03, 0xe23be24d43a14de2, 0xdc79dc8bae728bdc, 0xe532e5567b9e56e5, 0xb2cbb240f94b40b2,
  0x4ed24e6b4a046b4e, 0xc754c7fc76b1fcc7, 0x6db76dc44f22c46d, 0xe926e96a1bf26ae9, 0x276927bb2502bb27, 0x40c0405d3a7a5d40, 0xd875d89f8e569fd8, 0x375937eba592eb37,
  0x92ab92e0e476e092, 0x8f8c8f890c83898f, 0x0103010508090501, 0x1d271d69e8f5691d, 0x53f55302a2f10253, 0x3e423ec6edd3c63e, 0x59eb5920f2ab2059, 0xc15ec1e24687e2c1,
  0x4fd14f6e420d6e4f, 0x325632fa8dbffa32, 0x163a164eb0a64e16, 0xfa13fa35837935fa, 0x749c74b987f3b974, 0xfb10fb308b7030fb, 0x63a563f23f5cf263, 0x9fbc9fd98c13d99f,
  0x345c34e4bd89e434, 0x1a2e1a72d0ca721a, 0x2a7e2a824d67822a, 0x5aee5a2feab02f5a, 0x8d8a8d831c91838d, 0xc946c9ca06cfcac9, 0xcf4ccfd436f9d4cf, 0xf607f609e31509f6,
  0x90ad90eaf464ea90, 0x287828885d758828, 0x8885889234bc9288, 0x9bb09bcdac37cd9b, 0x315331f595a4f531, 0x0e120e36707e360e, 0xbddabd73813c73bd, 0x4ade4a7f6a207f4a,
  0xe825e86f13fb6fe8, 0x96a796f4c452f496, 0xa6f7a60459ff04a6, 0x0c140c3c606c3c0c, 0xc845c8cf0ec6cfc8, 0x798b7980ef968079, 0xbcd9bc76893576bc, 0xbedfbe7c99277cbe,
  0xef2cef742bc474ef, 0x6eb26ecb5739cb6e, 0x46ca46430a4c4346, 0x97a497f1cc5bf197, 0x5bed5b2ae2b92a5b, 0xed2aed7e3bd67eed, 0x192b197dc8d17d19, 0xd976d99a865f9ad9,
  0xace9ac2609a526ac, 0x99b699c7bc25c799, 0xa8e5a832298132a8, 0x297b298d557c8d29, 0x64ac64e90763e964, 0x1f211f63f8e7631f, 0xadeaad2301ac23ad, 0x55ff551c92c71c55,
  0x1335135f988b5f13, 0xbbd0bb6db10a6dbb, 0xf704f70ceb1c0cf7, 0x6fb16fce5f30ce6f, 0xb9d6b967a11867b9, 0x47c9474602454647, 0x2f712f93654a932f, 0xee2fee7123cd71ee,
  0xb8d5b862a91162b8, 0x7b8d7b8aff848a7b, 0x898689973cb59789, 0x305030f09dadf030, 0xd368d3b8d605b8d3, 0x7f817f9edfa09e7f, 0x769a76b397e1b376, 0x829b82b064e6b082]
/-- sbox.go:1630-1760 -/
def A0 : List U64 := [
  0x1818281878c0d878, 0x23236523af0526af, 0xc6c657c6f97eb8f9, 0xe8e825e86f13fb6f, 0x87879487a14ccba1, 0xb8b8d5b862a91162, 0x0101030105080905, 0x4f4fd14f6e420d6e,
  0x36365a36eead9bee, 0xa6a6f7a60459ff04, 0xd2d26bd2bdde0cbd, 0xf5f502f506fb0e06, 0x79798b7980ef9680, 0x6f6fb16fce5f30ce, 0x9191ae91effc6def, 0x5252f65207aaf807,
  0x6060a060fd2747fd, 0xbcbcd9bc76893576, 0x9b9bb09bcdac37cd, 0x8e8e8f8e8c048a8c, 0xa3a3f8a31571d215, 0x0c0c140c3c606c3c, 0x7b7b8d7b8aff848a, 0x35355f35e1b580e1,
  0x1d1d271d69e8f569, 0xe0e03de04753b347, 0xd7d764d7acf621ac, 0xc2c25bc2ed5e9ced, 0x2e2e722e966d4396, 0x4b4bdd4b7a62297a, 0xfefe1ffe21a35d21, 0x5757f9571682d516,
  0x15153f1541a8bd41, 0x77779977b69fe8b6, 0x37375937eba592eb, 0xe5e532e5567b9e56, 0x9f9fbc9fd98c13d9, 0xf0f00df017d32317, 0x4a4ade4a7f6a207f, 0xdada73da959e4495,
  0x5858e85825faa225, 0xc9c946c9ca06cfca, 0x29297b298d557c8d, 0x0a0a1e0a22505a22, 0xb1b1ceb14fe1504f, 0xa0a0fda01a69c91a, 0x6b6bbd6bda7f14da, 0x85859285ab5cd9ab,
  0xbdbddabd73813c73, 0x5d5de75d34d28f34, 0x1010301050809050, 0xf4f401f403f30703, 0xcbcb40cbc016ddc0, 0x3e3e423ec6edd3c6, 0x05050f0511282d11, 0x6767a967e61f78e6,
  0xe4e431e453739753, 0x27276927bb2502bb, 0x4141c34158327358, 0x8b8b808b9d2ca79d, 0xa7a7f4a70151f601, 0x7d7d877d94cfb294, 0x9595a295fbdc49fb, 0xd8d875d89f8e569f,
  0xfbfb10fb308b7030, 0xeeee2fee7123cd71, 0x7c7c847c91c7bb91, 0x6666aa66e31771e3, 0xdddd7add8ea67b8e, 0x171739174bb8af4b, 0x4747c94746024546, 0x9e9ebf9edc841adc,
  0xcaca43cac51ed4c5, 0x2d2d772d99755899, 0xbfbfdcbf79912e79, 0x070709071b383f1b, 0xadadeaad2301ac23, 0x5a5aee5a2feab02f, 0x83839883b56cefb5, 0x33335533ff85b6ff,
  0x6363a563f23f5cf2, 0x020206020a10120a, 0xaaaae3aa38399338, 0x71719371a8afdea8, 0xc8c845c8cf0ec6cf, 0x19192b197dc8d17d, 0x4949db4970723b70, 0xd9d976d99a865f9a,
  0xf2f20bf21dc3311d, 0xe3e338e3484ba848, 0x5b5bed5b2ae2b92a, 0x888885889234bc92, 0x9a9ab39ac8a43ec8, 0x26266a26be2d0bbe, 0x32325632fa8dbffa, 0xb0b0cdb04ae9594a,
  0xe9e926e96a1bf26a, 0x0f0f110f33787733, 0xd5d562d5a6e633a6, 0x80809d80ba74f4ba, 0xbebedfbe7c99277c, 0xcdcd4acdde26ebde, 0x34345c34e4bd89e4, 0x4848d848757a3275,
  0xffff1cff24ab5424, 0x7a7a8e7a8ff78d8f, 0x9090ad90eaf464ea, 0x5f5fe15f3ec29d3e, 0x20206020a01d3da0, 0x6868b868d5670fd5, 0x1a1a2e1a72d0ca72, 0xaeaeefae2c19b72c,
  0xb4b4c1b45ec97d5e, 0x5454fc54199ace19, 0x9393a893e5ec7fe5, 0x22226622aa0d2faa, 0x6464ac64e90763e9, 0xf1f10ef112db2a12, 0x73739573a2bfcca2, 0x121236125a90825a,
  0x4040c0405d3a7a5d, 0x0808180828404828, 0xc3c358c3e85695e8, 0xecec29ec7b33df7b, 0xdbdb70db90964d90, 0xa1a1fea11f61c01f, 0x8d8d8a8d831c9183, 0x3d3d473dc9f5c8c9,
  0x9797a497f1cc5bf1, 0x0000000000000000, 0xcfcf4ccfd436f9d4, 0x2b2b7d2b87456e87, 0x76769a76b397e1b3, 0x82829b82b064e6b0, 0xd6d667d6a9fe28a9, 0x1b1b2d1b77d8c377,
  0xb5b5c2b55bc1745b, 0xafafecaf2911be29, 0x6a6abe6adf771ddf, 0x5050f0500dbaea0d, 0x4545cf454c12574c, 0xf3f308f318cb3818, 0x30305030f09dadf0, 0xefef2cef742bc474,
  0x3f3f413fc3e5dac3, 0x5555ff551c92c71c, 0xa2a2fba21079db10, 0xeaea23ea6503e965, 0x6565af65ec0f6aec, 0xbabad3ba68b90368, 0x2f2f712f93654a93, 0xc0c05dc0e74e8ee7,
  0xdede7fde81be6081, 0x1c1c241c6ce0fc6c, 0xfdfd1afd2ebb462e, 0x4d4dd74d64521f64, 0x9292ab92e0e476e0, 0x75759f75bc8ffabc, 0x06060a061e30361e, 0x8a8a838a9824ae98,
  0xb2b2cbb240f94b40, 0xe6e637e659638559, 0x0e0e120e36707e36, 0x1f1f211f63f8e763, 0x6262a662f73755f7, 0xd4d461d4a3ee3aa3, 0xa8a8e5a832298132, 0x9696a796f4c452f4,
  0xf9f916f93a9b623a, 0xc5c552c5f666a3f6, 0x25256f25b13510b1, 0x5959eb5920f2ab20, 0x84849184ae54d0ae, 0x72729672a7b7c5a7, 0x39394b39ddd5ecdd, 0x4c4cd44c615a1661,
  0x5e5ee25e3bca943b, 0x7878887885e79f85, 0x38384838d8dde5d8, 0x8c8c898c86149886, 0xd1d16ed1b2c617b2, 0xa5a5f2a50b41e40b, 0xe2e23be24d43a14d, 0x6161a361f82f4ef8,
  0xb3b3c8b345f14245, 0x21216321a51534a5, 0x9c9cb99cd69408d6, 0x1e1e221e66f0ee66, 0x4343c54352226152, 0xc7c754c7fc76b1fc, 0xfcfc19fc2bb34f2b, 0x04040c0414202414,
  0x5151f35108b2e308, 0x9999b699c7bc25c7, 0x6d6db76dc44f22c4, 0x0d0d170d39686539, 0xfafa13fa35837935, 0xdfdf7cdf84b66984, 0x7e7e827e9bd7a99b, 0x24246c24b43d19b4,
  0x3b3b4d3bd7c5fed7, 0xababe0ab3d319a3d, 0xcece4fced13ef0d1, 0x1111331155889955, 0x8f8f8c8f890c8389, 0x4e4ed24e6b4a046b, 0xb7b7c4b751d16651, 0xebeb20eb600be060,
  0x3c3c443cccfdc1cc, 0x81819e81bf7cfdbf, 0x9494a194fed440fe, 0xf7f704f70ceb1c0c, 0xb9b9d6b967a11867, 0x131335135f988b5f, 0x2c2c742c9c7d519c, 0xd3d368d3b8d605b8,
  0xe7e734e75c6b8c5c, 0x6e6eb26ecb5739cb, 0xc4c451c4f36eaaf3, 0x030305030f181b0f, 0x5656fa56138adc13, 0x4444cc44491a5e49, 0x7f7f817f9edfa09e, 0xa9a9e6a937218837,
  0x2a2a7e2a824d6782, 0xbbbbd0bb6db10a6d, 0xc1c15ec1e24687e2, 0x5353f55302a2f102, 0xdcdc79dc8bae728b, 0x0b0b1d0b27585327, 0x9d9dba9dd39c01d3, 0x6c6cb46cc1472bc1,
  0x31315331f595a4f5, 0x74749c74b987f3b9, 0xf6f607f609e31509, 0x4646ca46430a4c43, 0xacace9ac2609a526, 0x89898689973cb597, 0x14143c1444a0b444, 0xe1e13ee1425bba42,
  0x16163a164eb0a64e, 0x3a3a4e3ad2cdf7d2, 0x6969bb69d06f06d0, 0x09091b092d48412d, 0x70709070ada7d7ad, 0xb6b6c7b654d96f54, 0xd0d06dd0b7ce1eb7, 0xeded2aed7e3bd67e,
  0xcccc49ccdb2ee2db, 0x4242c642572a6857, 0x9898b598c2b42cc2, 0xa4a4f1a40e49ed0e, 0x28287828885d7588, 0x5c5ce45c31da8631, 0xf8f815f83f936b3f, 0x86869786a444c2a4]
/-- sbox.go:1762-1892 -/
def A1 : List U64 := [
  0x781818281878c0d8, 0xaf23236523af0526, 0xf9c6c657c6f97eb8, 0x6fe8e825e86f13fb, 0xa187879487a14ccb, 0x62b8b8d5b862a911, 0x0501010301050809, 0x6e4f4fd14f6e420d,
  0xee36365a36eead9b, 0x04a6a6f7a60459ff, 0xbdd2d26bd2bdde0c, 0x06f5f502f506fb0e, 0x8079798b7980ef96, 0xce6f6fb16fce5f30, 0xef9191ae91effc6d, 0x075252f65207aaf8,
  0xfd6060a060fd2747, 0x76bcbcd9bc768935, 0xcd9b9bb09bcdac37, 0x8c8e8e8f8e8c048a, 0x15a3a3f8a31571d2, 0x3c0c0c140c3c606c, 0x8a7b7b8d7b8aff84, 0xe135355f35e1b580,
  0x691d1d271d69e8f5, 0x47e0e03de04753b3, 0xacd7d764d7acf621, 0xedc2c25bc2ed5e9c, 0x962e2e722e966d43, 0x7a4b4bdd4b7a6229, 0x21fefe1ffe21a35d, 0x165757f9571682d5,
  0x4115153f1541a8bd, 0xb677779977b69fe8, 0xeb37375937eba592, 0x56e5e532e5567b9e, 0xd99f9fbc9fd98c13, 0x17f0f00df017d323, 0x7f4a4ade4a7f6a20, 0x95dada73da959e44,
  0x255858e85825faa2, 0xcac9c946c9ca06cf, 0x8d29297b298d557c, 0x220a0a1e0a22505a, 0x4fb1b1ceb14fe150, 0x1aa0a0fda01a69c9, 0xda6b6bbd6bda7f14, 0xab85859285ab5cd9,
  0x73bdbddabd73813c, 0x345d5de75d34d28f, 0x5010103010508090, 0x03f4f401f403f307, 0xc0cbcb40cbc016dd, 0xc63e3e423ec6edd3, 0x1105050f0511282d, 0xe66767a967e61f78,
  0x53e4e431e4537397, 0xbb27276927bb2502, 0x584141c341583273, 0x9d8b8b808b9d2ca7, 0x01a7a7f4a70151f6, 0x947d7d877d94cfb2, 0xfb9595a295fbdc49, 0x9fd8d875d89f8e56,
  0x30fbfb10fb308b70, 0x71eeee2fee7123cd, 0x917c7c847c91c7bb, 0xe36666aa66e31771, 0x8edddd7add8ea67b, 0x4b171739174bb8af, 0x464747c947460245, 0xdc9e9ebf9edc841a,
  0xc5caca43cac51ed4, 0x992d2d772d997558, 0x79bfbfdcbf79912e, 0x1b070709071b383f, 0x23adadeaad2301ac, 0x2f5a5aee5a2feab0, 0xb583839883b56cef, 0xff33335533ff85b6,
  0xf26363a563f23f5c, 0x0a020206020a1012, 0x38aaaae3aa383993, 0xa871719371a8afde, 0xcfc8c845c8cf0ec6, 0x7d19192b197dc8d1, 0x704949db4970723b, 0x9ad9d976d99a865f,
  0x1df2f20bf21dc331, 0x48e3e338e3484ba8, 0x2a5b5bed5b2ae2b9, 0x92888885889234bc, 0xc89a9ab39ac8a43e, 0xbe26266a26be2d0b, 0xfa32325632fa8dbf, 0x4ab0b0cdb04ae959,
  0x6ae9e926e96a1bf2, 0x330f0f110f337877, 0xa6d5d562d5a6e633, 0xba80809d80ba74f4, 0x7cbebedfbe7c9927, 0xdecdcd4acdde26eb, 0xe434345c34e4bd89, 0x754848d848757a32,
  0x24ffff1cff24ab54, 0x8f7a7a8e7a8ff78d, 0xea9090ad90eaf464, 0x3e5f5fe15f3ec29d, 0xa020206020a01d3d, 0xd56868b868d5670f, 0x721a1a2e1a72d0ca, 0x2caeaeefae2c19b7,
  0x5eb4b4c1b45ec97d, 0x195454fc54199ace, 0xe59393a893e5ec7f, 0xaa22226622aa0d2f, 0xe96464ac64e90763, 0x12f1f10ef112db2a, 0xa273739573a2bfcc, 0x5a121236125a9082,
  0x5d4040c0405d3a7a, 0x2808081808284048, 0xe8c3c358c3e85695, 0x7becec29ec7b33df, 0x90dbdb70db90964d, 0x1fa1a1fea11f61c0, 0x838d8d8a8d831c91, 0xc93d3d473dc9f5c8,
  0xf19797a497f1cc5b, 0x0000000000000000, 0xd4cfcf4ccfd436f9, 0x872b2b7d2b87456e, 0xb376769a76b397e1, 0xb082829b82b064e6, 0xa9d6d667d6a9fe28, 0x771b1b2d1b77d8c3,
  0x5bb5b5c2b55bc174, 0x29afafecaf2911be, 0xdf6a6abe6adf771d, 0x0d5050f0500dbaea, 0x4c4545cf454c1257, 0x18f3f308f318cb38, 0xf030305030f09dad, 0x74efef2cef742bc4,
  0xc33f3f413fc3e5da, 0x1c5555ff551c92c7, 0x10a2a2fba21079db, 0x65eaea23ea6503e9, 0xec6565af65ec0f6a, 0x68babad3ba68b903, 0x932f2f712f93654a, 0xe7c0c05dc0e74e8e,
  0x81dede7fde81be60, 0x6c1c1c241c6ce0fc, 0x2efdfd1afd2ebb46, 0x644d4dd74d64521f, 0xe09292ab92e0e476, 0xbc75759f75bc8ffa, 0x1e06060a061e3036, 0x988a8a838a9824ae,
  0x40b2b2cbb240f94b, 0x59e6e637e6596385, 0x360e0e120e36707e, 0x631f1f211f63f8e7, 0xf76262a662f73755, 0xa3d4d461d4a3ee3a, 0x32a8a8e5a8322981, 0xf49696a796f4c452,
  0x3af9f916f93a9b62, 0xf6c5c552c5f666a3, 0xb125256f25b13510, 0x205959eb5920f2ab, 0xae84849184ae54d0, 0xa772729672a7b7c5, 0xdd39394b39ddd5ec, 0x614c4cd44c615a16,
  0x3b5e5ee25e3bca94, 0x857878887885e79f, 0xd838384838d8dde5, 0x868c8c898c861498, 0xb2d1d16ed1b2c617, 0x0ba5a5f2a50b41e4, 0x4de2e23be24d43a1, 0xf86161a361f82f4e,
  0x45b3b3c8b345f142, 0xa521216321a51534, 0xd69c9cb99cd69408, 0x661e1e221e66f0ee, 0x524343c543522261, 0xfcc7c754c7fc76b1, 0x2bfcfc19fc2bb34f, 0x1404040c04142024,
  0x085151f35108b2e3, 0xc79999b699c7bc25, 0xc46d6db76dc44f22, 0x390d0d170d396865, 0x35fafa13fa358379, 0x84dfdf7cdf84b669, 0x9b7e7e827e9bd7a9, 0xb424246c24b43d19,
  0xd73b3b4d3bd7c5fe, 0x3dababe0ab3d319a, 0xd1cece4fced13ef0, 0x5511113311558899, 0x898f8f8c8f890c83, 0x6b4e4ed24e6b4a04, 0x51b7b7c4b751d166, 0x60ebeb20eb600be0,
  0xcc3c3c443cccfdc1, 0xbf81819e81bf7cfd, 0xfe9494a194fed440, 0x0cf7f704f70ceb1c, 0x67b9b9d6b967a118, 0x5f131335135f988b, 0x9c2c2c742c9c7d51, 0xb8d3d368d3b8d605,
  0x5ce7e734e75c6b8c, 0xcb6e6eb26ecb5739, 0xf3c4c451c4f36eaa, 0x0f030305030f181b, 0x135656fa56138adc, 0x494444cc44491a5e, 0x9e7f7f817f9edfa0, 0x37a9a9e6a9372188,
  0x822a2a7e2a824d67, 0x6dbbbbd0bb6db10a, 0xe2c1c15ec1e24687, 0x025353f55302a2f1, 0x8bdcdc79dc8bae72, 0x270b0b1d0b275853, 0xd39d9dba9dd39c01, 0xc16c6cb46cc1472b,
  0xf531315331f595a4, 0xb974749c74b987f3, 0x09f6f607f609e315, 0x434646ca46430a4c, 0x26acace9ac2609a5, 0x9789898689973cb5, 0x4414143c1444a0b4, 0x42e1e13ee1425bba,
  0x4e16163a164eb0a6, 0xd23a3a4e3ad2cdf7, 0xd06969bb69d06f06, 0x2d09091b092d4841, 0xad70709070ada7d7, 0x54b6b6c7b654d96f, 0xb7d0d06dd0b7ce1e, 0x7eeded2aed7e3bd6,
  0xdbcccc49ccdb2ee2, 0x574242c642572a68, 0xc29898b598c2b42c, 0x0ea4a4f1a40e49ed, 0x8828287828885d75, 0x315c5ce45c31da86, 0x3ff8f815f83f936b, 0xa486869786a444c2]
/-- sbox.go:1894-2024 -/
def A2 : List U64 := [
  0xd8781818281878c0, 0x26af23236523af05, 0xb8f9c6c657c6f97e, 0xfb6fe8e825e86f13, 0xcba187879487a14c, 0x1162b8b8d5b862a9, 0x0905010103010508, 0x0d6e4f4fd14f6e42,
  0x9bee36365a36eead, 0xff04a6a6f7a60459, 0x0cbdd2d26bd2bdde, 0x0e06f5f502f506fb, 0x968079798b7980ef, 0x30ce6f6fb16fce5f, 0x6def9191ae91effc, 0xf8075252f65207aa,
  0x47fd6060a060fd27, 0x3576bcbcd9bc7689, 0x37cd9b9bb09bcdac, 0x8a8c8e8e8f8e8c04, 0xd215a3a3f8a31571, 0x6c3c0c0c140c3c60, 0x848a7b7b8d7b8aff, 0x80e135355f35e1b5,
  0xf5691d1d271d69e8, 0xb347e0e03de04753, 0x21acd7d764d7acf6, 0x9cedc2c25bc2ed5e, 0x43962e2e722e966d, 0x297a4b4bdd4b7a62, 0x5d21fefe1ffe21a3, 0xd5165757f9571682,
  0xbd4115153f1541a8, 0xe8b677779977b69f, 0x92eb37375937eba5, 0x9e56e5e532e5567b, 0x13d99f9fbc9fd98c, 0x2317f0f00df017d3, 0x207f4a4ade4a7f6a, 0x4495dada73da959e,
  0xa2255858e85825fa, 0xcfcac9c946c9ca06, 0x7c8d29297b298d55, 0x5a220a0a1e0a2250, 0x504fb1b1ceb14fe1, 0xc91aa0a0fda01a69, 0x14da6b6bbd6bda7f, 0xd9ab85859285ab5c,
  0x3c73bdbddabd7381, 0x8f345d5de75d34d2, 0x9050101030105080, 0x0703f4f401f403f3, 0xddc0cbcb40cbc016, 0xd3c63e3e423ec6ed, 0x2d1105050f051128, 0x78e66767a967e61f,
  0x9753e4e431e45373, 0x02bb27276927bb25, 0x73584141c3415832, 0xa79d8b8b808b9d2c, 0xf601a7a7f4a70151, 0xb2947d7d877d94cf, 0x49fb9595a295fbdc, 0x569fd8d875d89f8e,
  0x7030fbfb10fb308b, 0xcd71eeee2fee7123, 0xbb917c7c847c91c7, 0x71e36666aa66e317, 0x7b8edddd7add8ea6, 0xaf4b171739174bb8, 0x45464747c9474602, 0x1adc9e9ebf9edc84,
  0xd4c5caca43cac51e, 0x58992d2d772d9975, 0x2e79bfbfdcbf7991, 0x3f1b070709071b38, 0xac23adadeaad2301, 0xb02f5a5aee5a2fea, 0xefb583839883b56c, 0xb6ff33335533ff85,
  0x5cf26363a563f23f, 0x120a020206020a10, 0x9338aaaae3aa3839, 0xdea871719371a8af, 0xc6cfc8c845c8cf0e, 0xd17d19192b197dc8, 0x3b704949db497072, 0x5f9ad9d976d99a86,
  0x311df2f20bf21dc3, 0xa848e3e338e3484b, 0xb92a5b5bed5b2ae2, 0xbc92888885889234, 0x3ec89a9ab39ac8a4, 0x0bbe26266a26be2d, 0xbffa32325632fa8d, 0x594ab0b0cdb04ae9,
  0xf26ae9e926e96a1b, 0x77330f0f110f3378, 0x33a6d5d562d5a6e6, 0xf4ba80809d80ba74, 0x277cbebedfbe7c99, 0xebdecdcd4acdde26, 0x89e434345c34e4bd, 0x32754848d848757a,
  0x5424ffff1cff24ab, 0x8d8f7a7a8e7a8ff7, 0x64ea9090ad90eaf4, 0x9d3e5f5fe15f3ec2, 0x3da020206020a01d, 0x0fd56868b868d567, 0xca721a1a2e1a72d0, 0xb72caeaeefae2c19,
  0x7d5eb4b4c1b45ec9, 0xce195454fc54199a, 0x7fe59393a893e5ec, 0x2faa22226622aa0d, 0x63e96464ac64e907, 0x2a12f1f10ef112db, 0xcca273739573a2bf, 0x825a121236125a90,
  0x7a5d4040c0405d3a, 0x4828080818082840, 0x95e8c3c358c3e856, 0xdf7becec29ec7b33, 0x4d90dbdb70db9096, 0xc01fa1a1fea11f61, 0x91838d8d8a8d831c, 0xc8c93d3d473dc9f5,
  0x5bf19797a497f1cc, 0x0000000000000000, 0xf9d4cfcf4ccfd436, 0x6e872b2b7d2b8745, 0xe1b376769a76b397, 0xe6b082829b82b064, 0x28a9d6d667d6a9fe, 0xc3771b1b2d1b77d8,
  0x745bb5b5c2b55bc1, 0xbe29afafecaf2911, 0x1ddf6a6abe6adf77, 0xea0d5050f0500dba, 0x574c4545cf454c12, 0x3818f3f308f318cb, 0xadf030305030f09d, 0xc474efef2cef742b,
  0xdac33f3f413fc3e5, 0xc71c5555ff551c92, 0xdb10a2a2fba21079, 0xe965eaea23ea6503, 0x6aec6565af65ec0f, 0x0368babad3ba68b9, 0x4a932f2f712f9365, 0x8ee7c0c05dc0e74e,
  0x6081dede7fde81be, 0xfc6c1c1c241c6ce0, 0x462efdfd1afd2ebb, 0x1f644d4dd74d6452, 0x76e09292ab92e0e4, 0xfabc75759f75bc8f, 0x361e06060a061e30, 0xae988a8a838a9824,
  0x4b40b2b2cbb240f9, 0x8559e6e637e65963, 0x7e360e0e120e3670, 0xe7631f1f211f63f8, 0x55f76262a662f737, 0x3aa3d4d461d4a3ee, 0x8132a8a8e5a83229, 0x52f49696a796f4c4,
  0x623af9f916f93a9b, 0xa3f6c5c552c5f666, 0x10b125256f25b135, 0xab205959eb5920f2, 0xd0ae84849184ae54, 0xc5a772729672a7b7, 0xecdd39394b39ddd5, 0x16614c4cd44c615a,
  0x943b5e5ee25e3bca, 0x9f857878887885e7, 0xe5d838384838d8dd, 0x98868c8c898c8614, 0x17b2d1d16ed1b2c6, 0xe40ba5a5f2a50b41, 0xa14de2e23be24d43, 0x4ef86161a361f82f,
  0x4245b3b3c8b345f1, 0x34a521216321a515, 0x08d69c9cb99cd694, 0xee661e1e221e66f0, 0x61524343c5435222, 0xb1fcc7c754c7fc76, 0x4f2bfcfc19fc2bb3, 0x241404040c041420,
  0xe3085151f35108b2, 0x25c79999b699c7bc, 0x22c46d6db76dc44f, 0x65390d0d170d3968, 0x7935fafa13fa3583, 0x6984dfdf7cdf84b6, 0xa99b7e7e827e9bd7, 0x19b424246c24b43d,
  0xfed73b3b4d3bd7c5, 0x9a3dababe0ab3d31, 0xf0d1cece4fced13e, 0x9955111133115588, 0x83898f8f8c8f890c, 0x046b4e4ed24e6b4a, 0x6651b7b7c4b751d1, 0xe060ebeb20eb600b,
  0xc1cc3c3c443cccfd, 0xfdbf81819e81bf7c, 0x40fe9494a194fed4, 0x1c0cf7f704f70ceb, 0x1867b9b9d6b967a1, 0x8b5f131335135f98, 0x519c2c2c742c9c7d, 0x05b8d3d368d3b8d6,
  0x8c5ce7e734e75c6b, 0x39cb6e6eb26ecb57, 0xaaf3c4c451c4f36e, 0x1b0f030305030f18, 0xdc135656fa56138a, 0x5e494444cc44491a, 0xa09e7f7f817f9edf, 0x8837a9a9e6a93721,
  0x67822a2a7e2a824d, 0x0a6dbbbbd0bb6db1, 0x87e2c1c15ec1e246, 0xf1025353f55302a2, 0x728bdcdc79dc8bae, 0x53270b0b1d0b2758, 0x01d39d9dba9dd39c, 0x2bc16c6cb46cc147,
  0xa4f531315331f595, 0xf3b974749c74b987, 0x1509f6f607f609e3, 0x4c434646ca46430a, 0xa526acace9ac2609, 0xb59789898689973c, 0xb44414143c1444a0, 0xba42e1e13ee1425b,
  0xa64e16163a164eb0, 0xf7d23a3a4e3ad2cd, 0x06d06969bb69d06f, 0x412d09091b092d48, 0xd7ad70709070ada7, 0x6f54b6b6c7b654d9, 0x1eb7d0d06dd0b7ce, 0xd67eeded2aed7e3b,
  0xe2dbcccc49ccdb2e, 0x68574242c642572a, 0x2cc29898b598c2b4, 0xed0ea4a4f1a40e49, 0x758828287828885d, 0x86315c5ce45c31da, 0x6b3ff8f815f83f93, 0xc2a486869786a444]
/-- sbox.go:2026-2156 -/
def A3 : List U64 := [
  0xc0d8781818281878, 0x0526af23236523af, 0x7eb8f9c6c657c6f9, 0x13fb6fe8e825e86f, 0x4ccba187879487a1, 0xa91162b8b8d5b862, 0x0809050101030105, 0x420d6e4f4fd14f6e,
  0xad9bee36365a36ee, 0x59ff04a6a6f7a604, 0xde0cbdd2d26bd2bd, 0xfb0e06f5f502f506, 0xef968079798b7980, 0x5f30ce6f6fb16fce, 0xfc6def9191ae91ef, 0xaaf8075252f65207,
  0x2747fd6060a060fd, 0x893576bcbcd9bc76, 0xac37cd9b9bb09bcd, 0x048a8c8e8e8f8e8c, 0x71d215a3a3f8a315, 0x606c3c0c0c140c3c, 0xff848a7b7b8d7b8a, 0xb580e135355f35e1,
  0xe8f5691d1d271d69, 0x53b347e0e03de047, 0xf621acd7d764d7ac, 0x5e9cedc2c25bc2ed, 0x6d43962e2e722e96, 0x62297a4b4bdd4b7a, 0xa35d21fefe1ffe21, 0x82d5165757f95716,
  0xa8bd4115153f1541, 0x9fe8b677779977b6, 0xa592eb37375937eb, 0x7b9e56e5e532e556, 0x8c13d99f9fbc9fd9, 0xd32317f0f00df017, 0x6a207f4a4ade4a7f, 0x9e4495dada73da95,
  0xfaa2255858e85825, 0x06cfcac9c946c9ca, 0x557c8d29297b298d, 0x505a220a0a1e0a22, 0xe1504fb1b1ceb14f, 0x69c91aa0a0fda01a, 0x7f14da6b6bbd6bda, 0x5cd9ab85859285ab,
  0x813c73bdbddabd73, 0xd28f345d5de75d34, 0x8090501010301050, 0xf30703f4f401f403, 0x16ddc0cbcb40cbc0, 0xedd3c63e3e423ec6, 0x282d1105050f0511, 0x1f78e66767a967e6,
  0x739753e4e431e453, 0x2502bb27276927bb, 0x3273584141c34158, 0x2ca79d8b8b808b9d, 0x51f601a7a7f4a701, 0xcfb2947d7d877d94, 0xdc49fb9595a295fb, 0x8e569fd8d875d89f,
  0x8b7030fbfb10fb30, 0x23cd71eeee2fee71, 0xc7bb917c7c847c91, 0x1771e36666aa66e3, 0xa67b8edddd7add8e, 0xb8af4b171739174b, 0x0245464747c94746, 0x841adc9e9ebf9edc,
  0x1ed4c5caca43cac5, 0x7558992d2d772d99, 0x912e79bfbfdcbf79, 0x383f1b070709071b, 0x01ac23adadeaad23, 0xeab02f5a5aee5a2f, 0x6cefb583839883b5, 0x85b6ff33335533ff,
  0x3f5cf26363a563f2, 0x10120a020206020a, 0x399338aaaae3aa38, 0xafdea871719371a8, 0x0ec6cfc8c845c8cf, 0xc8d17d19192b197d, 0x723b704949db4970, 0x865f9ad9d976d99a,
  0xc3311df2f20bf21d, 0x4ba848e3e338e348, 0xe2b92a5b5bed5b2a, 0x34bc928888858892, 0xa43ec89a9ab39ac8, 0x2d0bbe26266a26be, 0x8dbffa32325632fa, 0xe9594ab0b0cdb04a,
  0x1bf26ae9e926e96a, 0x7877330f0f110f33, 0xe633a6d5d562d5a6, 0x74f4ba80809d80ba, 0x99277cbebedfbe7c, 0x26ebdecdcd4acdde, 0xbd89e434345c34e4, 0x7a32754848d84875,
  0xab5424ffff1cff24, 0xf78d8f7a7a8e7a8f, 0xf464ea9090ad90ea, 0xc29d3e5f5fe15f3e, 0x1d3da020206020a0, 0x670fd56868b868d5, 0xd0ca721a1a2e1a72, 0x19b72caeaeefae2c,
  0xc97d5eb4b4c1b45e, 0x9ace195454fc5419, 0xec7fe59393a893e5, 0x0d2faa22226622aa, 0x0763e96464ac64e9, 0xdb2a12f1f10ef112, 0xbfcca273739573a2, 0x90825a121236125a,
  0x3a7a5d4040c0405d, 0x4048280808180828, 0x5695e8c3c358c3e8, 0x33df7becec29ec7b, 0x964d90dbdb70db90, 0x61c01fa1a1fea11f, 0x1c91838d8d8a8d83, 0xf5c8c93d3d473dc9,
  0xcc5bf19797a497f1, 0x0000000000000000, 0x36f9d4cfcf4ccfd4, 0x456e872b2b7d2b87, 0x97e1b376769a76b3, 0x64e6b082829b82b0, 0xfe28a9d6d667d6a9, 0xd8c3771b1b2d1b77,
  0xc1745bb5b5c2b55b, 0x11be29afafecaf29, 0x771ddf6a6abe6adf, 0xbaea0d5050f0500d, 0x12574c4545cf454c, 0xcb3818f3f308f318, 0x9dadf030305030f0, 0x2bc474efef2cef74,
  0xe5dac33f3f413fc3, 0x92c71c5555ff551c, 0x79db10a2a2fba210, 0x03e965eaea23ea65, 0x0f6aec6565af65ec, 0xb90368babad3ba68, 0x654a932f2f712f93, 0x4e8ee7c0c05dc0e7,
  0xbe6081dede7fde81, 0xe0fc6c1c1c241c6c, 0xbb462efdfd1afd2e, 0x521f644d4dd74d64, 0xe476e09292ab92e0, 0x8ffabc75759f75bc, 0x30361e06060a061e, 0x24ae988a8a838a98,
  0xf94b40b2b2cbb240, 0x638559e6e637e659, 0x707e360e0e120e36, 0xf8e7631f1f211f63, 0x3755f76262a662f7, 0xee3aa3d4d461d4a3, 0x298132a8a8e5a832, 0xc452f49696a796f4,
  0x9b623af9f916f93a, 0x66a3f6c5c552c5f6, 0x3510b125256f25b1, 0xf2ab205959eb5920, 0x54d0ae84849184ae, 0xb7c5a772729672a7, 0xd5ecdd39394b39dd, 0x5a16614c4cd44c61,
  0xca943b5e5ee25e3b, 0xe79f857878887885, 0xdde5d838384838d8, 0x1498868c8c898c86, 0xc617b2d1d16ed1b2, 0x41e40ba5a5f2a50b, 0x43a14de2e23be24d, 0x2f4ef86161a361f8,
  0xf14245b3b3c8b345, 0x1534a521216321a5, 0x9408d69c9cb99cd6, 0xf0ee661e1e221e66, 0x2261524343c54352, 0x76b1fcc7c754c7fc, 0xb34f2bfcfc19fc2b, 0x20241404040c0414,
  0xb2e3085151f35108, 0xbc25c79999b699c7, 0x4f22c46d6db76dc4, 0x6865390d0d170d39, 0x837935fafa13fa35, 0xb66984dfdf7cdf84, 0xd7a99b7e7e827e9b, 0x3d19b424246c24b4,
  0xc5fed73b3b4d3bd7, 0x319a3dababe0ab3d, 0x3ef0d1cece4fced1, 0x8899551111331155, 0x0c83898f8f8c8f89, 0x4a046b4e4ed24e6b, 0xd16651b7b7c4b751, 0x0be060ebeb20eb60,
  0xfdc1cc3c3c443ccc, 0x7cfdbf81819e81bf, 0xd440fe9494a194fe, 0xeb1c0cf7f704f70c, 0xa11867b9b9d6b967, 0x988b5f131335135f, 0x7d519c2c2c742c9c, 0xd605b8d3d368d3b8,
  0x6b8c5ce7e734e75c, 0x5739cb6e6eb26ecb, 0x6eaaf3c4c451c4f3, 0x181b0f030305030f, 0x8adc135656fa5613, 0x1a5e494444cc4449, 0xdfa09e7f7f817f9e, 0x218837a9a9e6a937,
  0x4d67822a2a7e2a82, 0xb10a6dbbbbd0bb6d, 0x4687e2c1c15ec1e2, 0xa2f1025353f55302, 0xae728bdcdc79dc8b, 0x5853270b0b1d0b27, 0x9c01d39d9dba9dd3, 0x472bc16c6cb46cc1,
  0x95a4f531315331f5, 0x87f3b974749c74b9, 0xe31509f6f607f609, 0x0a4c434646ca4643, 0x09a526acace9ac26, 0x3cb5978989868997, 0xa0b44414143c1444, 0x5bba42e1e13ee142,
  0xb0a64e16163a164e, 0xcdf7d23a3a4e3ad2, 0x6f06d06969bb69d0, 0x48412d09091b092d, 0xa7d7ad70709070ad, 0xd96f54b6b6c7b654, 0xce1eb7d0d06dd0b7, 0x3bd67eeded2aed7e,
  0x2ee2dbcccc49ccdb, 0x2a68574242c64257, 0xb42cc29898b598c2, 0x49ed0ea4a4f1a40e, 0x5d75882828782888, 0xda86315c5ce45c31, 0x936b3ff8f815f83f, 0x44c2a486869786a4]
/-- sbox.go:2158-2288 -/
def A4 : List U64 := [
  0x78c0d87818182818, 0xaf0526af23236523, 0xf97eb8f9c6c657c6, 0x6f13fb6fe8e825e8, 0xa14ccba187879487, 0x62a91162b8b8d5b8, 0x0508090501010301, 0x6e420d6e4f4fd14f,
  0xeead9bee36365a36, 0x0459ff04a6a6f7a6, 0xbdde0cbdd2d26bd2, 0x06fb0e06f5f502f5, 0x80ef968079798b79, 0xce5f30ce6f6fb16f, 0xeffc6def9191ae91, 0x07aaf8075252f652,
  0xfd2747fd6060a060, 0x76893576bcbcd9bc, 0xcdac37cd9b9bb09b, 0x8c048a8c8e8e8f8e, 0x1571d215a3a3f8a3, 0x3c606c3c0c0c140c, 0x8aff848a7b7b8d7b, 0xe1b580e135355f35,
  0x69e8f5691d1d271d, 0x4753b347e0e03de0, 0xacf621acd7d764d7, 0xed5e9cedc2c25bc2, 0x966d43962e2e722e, 0x7a62297a4b4bdd4b, 0x21a35d21fefe1ffe, 0x1682d5165757f957,
  0x41a8bd4115153f15, 0xb69fe8b677779977, 0xeba592eb37375937, 0x567b9e56e5e532e5, 0xd98c13d99f9fbc9f, 0x17d32317f0f00df0, 0x7f6a207f4a4ade4a, 0x959e4495dada73da,
  0x25faa2255858e858, 0xca06cfcac9c946c9, 0x8d557c8d29297b29, 0x22505a220a0a1e0a, 0x4fe1504fb1b1ceb1, 0x1a69c91aa0a0fda0, 0xda7f14da6b6bbd6b, 0xab5cd9ab85859285,
  0x73813c73bdbddabd, 0x34d28f345d5de75d, 0x5080905010103010, 0x03f30703f4f401f4, 0xc016ddc0cbcb40cb, 0xc6edd3c63e3e423e, 0x11282d1105050f05, 0xe61f78e66767a967,
  0x53739753e4e431e4, 0xbb2502bb27276927, 0x583273584141c341, 0x9d2ca79d8b8b808b, 0x0151f601a7a7f4a7, 0x94cfb2947d7d877d, 0xfbdc49fb9595a295, 0x9f8e569fd8d875d8,
  0x308b7030fbfb10fb, 0x7123cd71eeee2fee, 0x91c7bb917c7c847c, 0xe31771e36666aa66, 0x8ea67b8edddd7add, 0x4bb8af4b17173917, 0x460245464747c947, 0xdc841adc9e9ebf9e,
  0xc51ed4c5caca43ca, 0x997558992d2d772d, 0x79912e79bfbfdcbf, 0x1b383f1b07070907, 0x2301ac23adadeaad, 0x2feab02f5a5aee5a, 0xb56cefb583839883, 0xff85b6ff33335533,
  0xf23f5cf26363a563, 0x0a10120a02020602, 0x38399338aaaae3aa, 0xa8afdea871719371, 0xcf0ec6cfc8c845c8, 0x7dc8d17d19192b19, 0x70723b704949db49, 0x9a865f9ad9d976d9,
  0x1dc3311df2f20bf2, 0x484ba848e3e338e3, 0x2ae2b92a5b5bed5b, 0x9234bc9288888588, 0xc8a43ec89a9ab39a, 0xbe2d0bbe26266a26, 0xfa8dbffa32325632, 0x4ae9594ab0b0cdb0,
  0x6a1bf26ae9e926e9, 0x337877330f0f110f, 0xa6e633a6d5d562d5, 0xba74f4ba80809d80, 0x7c99277cbebedfbe, 0xde26ebdecdcd4acd, 0xe4bd89e434345c34, 0x757a32754848d848,
  0x24ab5424ffff1cff, 0x8ff78d8f7a7a8e7a, 0xeaf464ea9090ad90, 0x3ec29d3e5f5fe15f, 0xa01d3da020206020, 0xd5670fd56868b868, 0x72d0ca721a1a2e1a, 0x2c19b72caeaeefae,
  0x5ec97d5eb4b4c1b4, 0x199ace195454fc54, 0xe5ec7fe59393a893, 0xaa0d2faa22226622, 0xe90763e96464ac64, 0x12db2a12f1f10ef1, 0xa2bfcca273739573, 0x5a90825a12123612,
  0x5d3a7a5d4040c040, 0x2840482808081808, 0xe85695e8c3c358c3, 0x7b33df7becec29ec, 0x90964d90dbdb70db, 0x1f61c01fa1a1fea1, 0x831c91838d8d8a8d, 0xc9f5c8c93d3d473d,
  0xf1cc5bf19797a497, 0x0000000000000000, 0xd436f9d4cfcf4ccf, 0x87456e872b2b7d2b, 0xb397e1b376769a76, 0xb064e6b082829b82, 0xa9fe28a9d6d667d6, 0x77d8c3771b1b2d1b,
  0x5bc1745bb5b5c2b5, 0x2911be29afafecaf, 0xdf771ddf6a6abe6a, 0x0dbaea0d5050f050, 0x4c12574c4545cf45, 0x18cb3818f3f308f3, 0xf09dadf030305030, 0x742bc474efef2cef,
  0xc3e5dac33f3f413f, 0x1c92c71c5555ff55, 0x1079db10a2a2fba2, 0x6503e965eaea23ea, 0xec0f6aec6565af65, 0x68b90368babad3ba, 0x93654a932f2f712f, 0xe74e8ee7c0c05dc0,
  0x81be6081dede7fde, 0x6ce0fc6c1c1c241c, 0x2ebb462efdfd1afd, 0x64521f644d4dd74d, 0xe0e476e09292ab92, 0xbc8ffabc75759f75, 0x1e30361e06060a06, 0x9824ae988a8a838a,
  0x40f94b40b2b2cbb2, 0x59638559e6e637e6, 0x36707e360e0e120e, 0x63f8e7631f1f211f, 0xf73755f76262a662, 0xa3ee3aa3d4d461d4, 0x32298132a8a8e5a8, 0xf4c452f49696a796,
  0x3a9b623af9f916f9, 0xf666a3f6c5c552c5, 0xb13510b125256f25, 0x20f2ab205959eb59, 0xae54d0ae84849184, 0xa7b7c5a772729672, 0xddd5ecdd39394b39, 0x615a16614c4cd44c,
  0x3bca943b5e5ee25e, 0x85e79f8578788878, 0xd8dde5d838384838, 0x861498868c8c898c, 0xb2c617b2d1d16ed1, 0x0b41e40ba5a5f2a5, 0x4d43a14de2e23be2, 0xf82f4ef86161a361,
  0x45f14245b3b3c8b3, 0xa51534a521216321, 0xd69408d69c9cb99c, 0x66f0ee661e1e221e, 0x522261524343c543, 0xfc76b1fcc7c754c7, 0x2bb34f2bfcfc19fc, 0x1420241404040c04,
  0x08b2e3085151f351, 0xc7bc25c79999b699, 0xc44f22c46d6db76d, 0x396865390d0d170d, 0x35837935fafa13fa, 0x84b66984dfdf7cdf, 0x9bd7a99b7e7e827e, 0xb43d19b424246c24,
  0xd7c5fed73b3b4d3b, 0x3d319a3dababe0ab, 0xd13ef0d1cece4fce, 0x5588995511113311, 0x890c83898f8f8c8f, 0x6b4a046b4e4ed24e, 0x51d16651b7b7c4b7, 0x600be060ebeb20eb,
  0xccfdc1cc3c3c443c, 0xbf7cfdbf81819e81, 0xfed440fe9494a194, 0x0ceb1c0cf7f704f7, 0x67a11867b9b9d6b9, 0x5f988b5f13133513, 0x9c7d519c2c2c742c, 0xb8d605b8d3d368d3,
  0x5c6b8c5ce7e734e7, 0xcb5739cb6e6eb26e, 0xf36eaaf3c4c451c4, 0x0f181b0f03030503, 0x138adc135656fa56, 0x491a5e494444cc44, 0x9edfa09e7f7f817f, 0x37218837a9a9e6a9,
  0x824d67822a2a7e2a, 0x6db10a6dbbbbd0bb, 0xe24687e2c1c15ec1, 0x02a2f1025353f553, 0x8bae728bdcdc79dc, 0x275853270b0b1d0b, 0xd39c01d39d9dba9d, 0xc1472bc16c6cb46c,
  0xf595a4f531315331, 0xb987f3b974749c74, 0x09e31509f6f607f6, 0x430a4c434646ca46, 0x2609a526acace9ac, 0x973cb59789898689, 0x44a0b44414143c14, 0x425bba42e1e13ee1,
  0x4eb0a64e16163a16, 0xd2cdf7d23a3a4e3a, 0xd06f06d06969bb69, 0x2d48412d09091b09, 0xada7d7ad70709070, 0x54d96f54b6b6c7b6, 0xb7ce1eb7d0d06dd0, 0x7e3bd67eeded2aed,
  0xdb2ee2dbcccc49cc, 0x572a68574242c642, 0xc2b42cc29898b598, 0x0e49ed0ea4a4f1a4, 0x885d758828287828, 0x31da86315c5ce45c, 0x3f936b3ff8f815f8, 0xa444c2a486869786]
/-- sbox.go:2290-2420 -/
def A5 : List U64 := [
  0x1878c0d878181828, 0x23af0526af232365, 0xc6f97eb8f9c6c657, 0xe86f13fb6fe8e825, 0x87a14ccba1878794, 0xb862a91162b8b8d5, 0x0105080905010103, 0x4f6e420d6e4f4fd1,
  0x36eead9bee36365a, 0xa60459ff04a6a6f7, 0xd2bdde0cbdd2d26b, 0xf506fb0e06f5f502, 0x7980ef968079798b, 0x6fce5f30ce6f6fb1, 0x91effc6def9191ae, 0x5207aaf8075252f6,
  0x60fd2747fd6060a0, 0xbc76893576bcbcd9, 0x9bcdac37cd9b9bb0, 0x8e8c048a8c8e8e8f, 0xa31571d215a3a3f8, 0x0c3c606c3c0c0c14, 0x7b8aff848a7b7b8d, 0x35e1b580e135355f,
  0x1d69e8f5691d1d27, 0xe04753b347e0e03d, 0xd7acf621acd7d764, 0xc2ed5e9cedc2c25b, 0x2e966d43962e2e72, 0x4b7a62297a4b4bdd, 0xfe21a35d21fefe1f, 0x571682d5165757f9,
  0x1541a8bd4115153f, 0x77b69fe8b6777799, 0x37eba592eb373759, 0xe5567b9e56e5e532, 0x9fd98c13d99f9fbc, 0xf017d32317f0f00d, 0x4a7f6a207f4a4ade, 0xda959e4495dada73,
  0x5825faa2255858e8, 0xc9ca06cfcac9c946, 0x298d557c8d29297b, 0x0a22505a220a0a1e, 0xb14fe1504fb1b1ce, 0xa01a69c91aa0a0fd, 0x6bda7f14da6b6bbd, 0x85ab5cd9ab858592,
  0xbd73813c73bdbdda, 0x5d34d28f345d5de7, 0x1050809050101030, 0xf403f30703f4f401, 0xcbc016ddc0cbcb40, 0x3ec6edd3c63e3e42, 0x0511282d1105050f, 0x67e61f78e66767a9,
  0xe453739753e4e431, 0x27bb2502bb272769, 0x41583273584141c3, 0x8b9d2ca79d8b8b80, 0xa70151f601a7a7f4, 0x7d94cfb2947d7d87, 0x95fbdc49fb9595a2, 0xd89f8e569fd8d875,
  0xfb308b7030fbfb10, 0xee7123cd71eeee2f, 0x7c91c7bb917c7c84, 0x66e31771e36666aa, 0xdd8ea67b8edddd7a, 0x174bb8af4b171739, 0x47460245464747c9, 0x9edc841adc9e9ebf,
  0xcac51ed4c5caca43, 0x2d997558992d2d77, 0xbf79912e79bfbfdc, 0x071b383f1b070709, 0xad2301ac23adadea, 0x5a2feab02f5a5aee, 0x83b56cefb5838398, 0x33ff85b6ff333355,
  0x63f23f5cf26363a5, 0x020a10120a020206, 0xaa38399338aaaae3, 0x71a8afdea8717193, 0xc8cf0ec6cfc8c845, 0x197dc8d17d19192b, 0x4970723b704949db, 0xd99a865f9ad9d976,
  0xf21dc3311df2f20b, 0xe3484ba848e3e338, 0x5b2ae2b92a5b5bed, 0x889234bc92888885, 0x9ac8a43ec89a9ab3, 0x26be2d0bbe26266a, 0x32fa8dbffa323256, 0xb04ae9594ab0b0cd,
  0xe96a1bf26ae9e926, 0x0f337877330f0f11, 0xd5a6e633a6d5d562, 0x80ba74f4ba80809d, 0xbe7c99277cbebedf, 0xcdde26ebdecdcd4a, 0x34e4bd89e434345c, 0x48757a32754848d8,
  0xff24ab5424ffff1c, 0x7a8ff78d8f7a7a8e, 0x90eaf464ea9090ad, 0x5f3ec29d3e5f5fe1, 0x20a01d3da0202060, 0x68d5670fd56868b8, 0x1a72d0ca721a1a2e, 0xae2c19b72caeaeef,
  0xb45ec97d5eb4b4c1, 0x54199ace195454fc, 0x93e5ec7fe59393a8, 0x22aa0d2faa222266, 0x64e90763e96464ac, 0xf112db2a12f1f10e, 0x73a2bfcca2737395, 0x125a90825a121236,
  0x405d3a7a5d4040c0, 0x0828404828080818, 0xc3e85695e8c3c358, 0xec7b33df7becec29, 0xdb90964d90dbdb70, 0xa11f61c01fa1a1fe, 0x8d831c91838d8d8a, 0x3dc9f5c8c93d3d47,
  0x97f1cc5bf19797a4, 0x0000000000000000, 0xcfd436f9d4cfcf4c, 0x2b87456e872b2b7d, 0x76b397e1b376769a, 0x82b064e6b082829b, 0xd6a9fe28a9d6d667, 0x1b77d8c3771b1b2d,
  0xb55bc1745bb5b5c2, 0xaf2911be29afafec, 0x6adf771ddf6a6abe, 0x500dbaea0d5050f0, 0x454c12574c4545cf, 0xf318cb3818f3f308, 0x30f09dadf0303050, 0xef742bc474efef2c,
  0x3fc3e5dac33f3f41, 0x551c92c71c5555ff, 0xa21079db10a2a2fb, 0xea6503e965eaea23, 0x65ec0f6aec6565af, 0xba68b90368babad3, 0x2f93654a932f2f71, 0xc0e74e8ee7c0c05d,
  0xde81be6081dede7f, 0x1c6ce0fc6c1c1c24, 0xfd2ebb462efdfd1a, 0x4d64521f644d4dd7, 0x92e0e476e09292ab, 0x75bc8ffabc75759f, 0x061e30361e06060a, 0x8a9824ae988a8a83,
  0xb240f94b40b2b2cb, 0xe659638559e6e637, 0x0e36707e360e0e12, 0x1f63f8e7631f1f21, 0x62f73755f76262a6, 0xd4a3ee3aa3d4d461, 0xa832298132a8a8e5, 0x96f4c452f49696a7,
  0xf93a9b623af9f916, 0xc5f666a3f6c5c552, 0x25b13510b125256f, 0x5920f2ab205959eb, 0x84ae54d0ae848491, 0x72a7b7c5a7727296, 0x39ddd5ecdd39394b, 0x4c615a16614c4cd4,
  0x5e3bca943b5e5ee2, 0x7885e79f85787888, 0x38d8dde5d8383848, 0x8c861498868c8c89, 0xd1b2c617b2d1d16e, 0xa50b41e40ba5a5f2, 0xe24d43a14de2e23b, 0x61f82f4ef86161a3,
  0xb345f14245b3b3c8, 0x21a51534a5212163, 0x9cd69408d69c9cb9, 0x1e66f0ee661e1e22, 0x43522261524343c5, 0xc7fc76b1fcc7c754, 0xfc2bb34f2bfcfc19, 0x041420241404040c,
  0x5108b2e3085151f3, 0x99c7bc25c79999b6, 0x6dc44f22c46d6db7, 0x0d396865390d0d17, 0xfa35837935fafa13, 0xdf84b66984dfdf7c, 0x7e9bd7a99b7e7e82, 0x24b43d19b424246c,
  0x3bd7c5fed73b3b4d, 0xab3d319a3dababe0, 0xced13ef0d1cece4f, 0x1155889955111133, 0x8f890c83898f8f8c, 0x4e6b4a046b4e4ed2, 0xb751d16651b7b7c4, 0xeb600be060ebeb20,
  0x3cccfdc1cc3c3c44, 0x81bf7cfdbf81819e, 0x94fed440fe9494a1, 0xf70ceb1c0cf7f704, 0xb967a11867b9b9d6, 0x135f988b5f131335, 0x2c9c7d519c2c2c74, 0xd3b8d605b8d3d368,
  0xe75c6b8c5ce7e734, 0x6ecb5739cb6e6eb2, 0xc4f36eaaf3c4c451, 0x030f181b0f030305, 0x56138adc135656fa, 0x44491a5e494444cc, 0x7f9edfa09e7f7f81, 0xa937218837a9a9e6,
  0x2a824d67822a2a7e, 0xbb6db10a6dbbbbd0, 0xc1e24687e2c1c15e, 0x5302a2f1025353f5, 0xdc8bae728bdcdc79, 0x0b275853270b0b1d, 0x9dd39c01d39d9dba, 0x6cc1472bc16c6cb4,
  0x31f595a4f5313153, 0x74b987f3b974749c, 0xf609e31509f6f607, 0x46430a4c434646ca, 0xac2609a526acace9, 0x89973cb597898986, 0x1444a0b44414143c, 0xe1425bba42e1e13e,
  0x164eb0a64e16163a, 0x3ad2cdf7d23a3a4e, 0x69d06f06d06969bb, 0x092d48412d09091b, 0x70ada7d7ad707090, 0xb654d96f54b6b6c7, 0xd0b7ce1eb7d0d06d, 0xed7e3bd67eeded2a,
  0xccdb2ee2dbcccc49, 0x42572a68574242c6, 0x98c2b42cc29898b5, 0xa40e49ed0ea4a4f1, 0x28885d7588282878, 0x5c31da86315c5ce4, 0xf83f936b3ff8f815, 0x86a444c2a4868697]
/-- sbox.go:2422-2552 -/
def A6 : List U64 := [
  0x281878c0d8781818, 0x6523af0526af2323, 0x57c6f97eb8f9c6c6, 0x25e86f13fb6fe8e8, 0x9487a14ccba18787, 0xd5b862a91162b8b8, 0x0301050809050101, 0xd14f6e420d6e4f4f,
  0x5a36eead9bee3636, 0xf7a60459ff04a6a6, 0x6bd2bdde0cbdd2d2, 0x02f506fb0e06f5f5, 0x8b7980ef96807979, 0xb16fce5f30ce6f6f, 0xae91effc6def9191, 0xf65207aaf8075252,
  0xa060fd2747fd6060, 0xd9bc76893576bcbc, 0xb09bcdac37cd9b9b, 0x8f8e8c048a8c8e8e, 0xf8a31571d215a3a3, 0x140c3c606c3c0c0c, 0x8d7b8aff848a7b7b, 0x5f35e1b580e13535,
  0x271d69e8f5691d1d, 0x3de04753b347e0e0, 0x64d7acf621acd7d7, 0x5bc2ed5e9cedc2c2, 0x722e966d43962e2e, 0xdd4b7a62297a4b4b, 0x1ffe21a35d21fefe, 0xf9571682d5165757,
  0x3f1541a8bd411515, 0x9977b69fe8b67777, 0x5937eba592eb3737, 0x32e5567b9e56e5e5, 0xbc9fd98c13d99f9f, 0x0df017d32317f0f0, 0xde4a7f6a207f4a4a, 0x73da959e4495dada,
  0xe85825faa2255858, 0x46c9ca06cfcac9c9, 0x7b298d557c8d2929, 0x1e0a22505a220a0a, 0xceb14fe1504fb1b1, 0xfda01a69c91aa0a0, 0xbd6bda7f14da6b6b, 0x9285ab5cd9ab8585,
  0xdabd73813c73bdbd, 0xe75d34d28f345d5d, 0x3010508090501010, 0x01f403f30703f4f4, 0x40cbc016ddc0cbcb, 0x423ec6edd3c63e3e, 0x0f0511282d110505, 0xa967e61f78e66767,
  0x31e453739753e4e4, 0x6927bb2502bb2727, 0xc341583273584141, 0x808b9d2ca79d8b8b, 0xf4a70151f601a7a7, 0x877d94cfb2947d7d, 0xa295fbdc49fb9595, 0x75d89f8e569fd8d8,
  0x10fb308b7030fbfb, 0x2fee7123cd71eeee, 0x847c91c7bb917c7c, 0xaa66e31771e36666, 0x7add8ea67b8edddd, 0x39174bb8af4b1717, 0xc947460245464747, 0xbf9edc841adc9e9e,
  0x43cac51ed4c5caca, 0x772d997558992d2d, 0xdcbf79912e79bfbf, 0x09071b383f1b0707, 0xeaad2301ac23adad, 0xee5a2feab02f5a5a, 0x9883b56cefb58383, 0x5533ff85b6ff3333,
  0xa563f23f5cf26363, 0x06020a10120a0202, 0xe3aa38399338aaaa, 0x9371a8afdea87171, 0x45c8cf0ec6cfc8c8, 0x2b197dc8d17d1919, 0xdb4970723b704949, 0x76d99a865f9ad9d9,
  0x0bf21dc3311df2f2, 0x38e3484ba848e3e3, 0xed5b2ae2b92a5b5b, 0x85889234bc928888, 0xb39ac8a43ec89a9a, 0x6a26be2d0bbe2626, 0x5632fa8dbffa3232, 0xcdb04ae9594ab0b0,
  0x26e96a1bf26ae9e9, 0x110f337877330f0f, 0x62d5a6e633a6d5d5, 0x9d80ba74f4ba8080, 0xdfbe7c99277cbebe, 0x4acdde26ebdecdcd, 0x5c34e4bd89e43434, 0xd848757a32754848,
  0x1cff24ab5424ffff, 0x8e7a8ff78d8f7a7a, 0xad90eaf464ea9090, 0xe15f3ec29d3e5f5f, 0x6020a01d3da02020, 0xb868d5670fd56868, 0x2e1a72d0ca721a1a, 0xefae2c19b72caeae,
  0xc1b45ec97d5eb4b4, 0xfc54199ace195454, 0xa893e5ec7fe59393, 0x6622aa0d2faa2222, 0xac64e90763e96464, 0x0ef112db2a12f1f1, 0x9573a2bfcca27373, 0x36125a90825a1212,
  0xc0405d3a7a5d4040, 0x1808284048280808, 0x58c3e85695e8c3c3, 0x29ec7b33df7becec, 0x70db90964d90dbdb, 0xfea11f61c01fa1a1, 0x8a8d831c91838d8d, 0x473dc9f5c8c93d3d,
  0xa497f1cc5bf19797, 0x0000000000000000, 0x4ccfd436f9d4cfcf, 0x7d2b87456e872b2b, 0x9a76b397e1b37676, 0x9b82b064e6b08282, 0x67d6a9fe28a9d6d6, 0x2d1b77d8c3771b1b,
  0xc2b55bc1745bb5b5, 0xecaf2911be29afaf, 0xbe6adf771ddf6a6a, 0xf0500dbaea0d5050, 0xcf454c12574c4545, 0x08f318cb3818f3f3, 0x5030f09dadf03030, 0x2cef742bc474efef,
  0x413fc3e5dac33f3f, 0xff551c92c71c5555, 0xfba21079db10a2a2, 0x23ea6503e965eaea, 0xaf65ec0f6aec6565, 0xd3ba68b90368baba, 0x712f93654a932f2f, 0x5dc0e74e8ee7c0c0,
  0x7fde81be6081dede, 0x241c6ce0fc6c1c1c, 0x1afd2ebb462efdfd, 0xd74d64521f644d4d, 0xab92e0e476e09292, 0x9f75bc8ffabc7575, 0x0a061e30361e0606, 0x838a9824ae988a8a,
  0xcbb240f94b40b2b2, 0x37e659638559e6e6, 0x120e36707e360e0e, 0x211f63f8e7631f1f, 0xa662f73755f76262, 0x61d4a3ee3aa3d4d4, 0xe5a832298132a8a8, 0xa796f4c452f49696,
  0x16f93a9b623af9f9, 0x52c5f666a3f6c5c5, 0x6f25b13510b12525, 0xeb5920f2ab205959, 0x9184ae54d0ae8484, 0x9672a7b7c5a77272, 0x4b39ddd5ecdd3939, 0xd44c615a16614c4c,
  0xe25e3bca943b5e5e, 0x887885e79f857878, 0x4838d8dde5d83838, 0x898c861498868c8c, 0x6ed1b2c617b2d1d1, 0xf2a50b41e40ba5a5, 0x3be24d43a14de2e2, 0xa361f82f4ef86161,
  0xc8b345f14245b3b3, 0x6321a51534a52121, 0xb99cd69408d69c9c, 0x221e66f0ee661e1e, 0xc543522261524343, 0x54c7fc76b1fcc7c7, 0x19fc2bb34f2bfcfc, 0x0c04142024140404,
  0xf35108b2e3085151, 0xb699c7bc25c79999, 0xb76dc44f22c46d6d, 0x170d396865390d0d, 0x13fa35837935fafa, 0x7cdf84b66984dfdf, 0x827e9bd7a99b7e7e, 0x6c24b43d19b42424,
  0x4d3bd7c5fed73b3b, 0xe0ab3d319a3dabab, 0x4fced13ef0d1cece, 0x3311558899551111, 0x8c8f890c83898f8f, 0xd24e6b4a046b4e4e, 0xc4b751d16651b7b7, 0x20eb600be060ebeb,
  0x443cccfdc1cc3c3c, 0x9e81bf7cfdbf8181, 0xa194fed440fe9494, 0x04f70ceb1c0cf7f7, 0xd6b967a11867b9b9, 0x35135f988b5f1313, 0x742c9c7d519c2c2c, 0x68d3b8d605b8d3d3,
  0x34e75c6b8c5ce7e7, 0xb26ecb5739cb6e6e, 0x51c4f36eaaf3c4c4, 0x05030f181b0f0303, 0xfa56138adc135656, 0xcc44491a5e494444, 0x817f9edfa09e7f7f, 0xe6a937218837a9a9,
  0x7e2a824d67822a2a, 0xd0bb6db10a6dbbbb, 0x5ec1e24687e2c1c1, 0xf55302a2f1025353, 0x79dc8bae728bdcdc, 0x1d0b275853270b0b, 0xba9dd39c01d39d9d, 0xb46cc1472bc16c6c,
  0x5331f595a4f53131, 0x9c74b987f3b97474, 0x07f609e31509f6f6, 0xca46430a4c434646, 0xe9ac2609a526acac, 0x8689973cb5978989, 0x3c1444a0b4441414, 0x3ee1425bba42e1e1,
  0x3a164eb0a64e1616, 0x4e3ad2cdf7d23a3a, 0xbb69d06f06d06969, 0x1b092d48412d0909, 0x9070ada7d7ad7070, 0xc7b654d96f54b6b6, 0x6dd0b7ce1eb7d0d0, 0x2aed7e3bd67eeded,
  0x49ccdb2ee2dbcccc, 0xc642572a68574242, 0xb598c2b42cc29898, 0xf1a40e49ed0ea4a4, 0x7828885d75882828, 0xe45c31da86315c5c, 0x15f83f936b3ff8f8, 0x9786a444c2a48686]
/-- sbox.go:2554-2684 -/
def A7 : List U64 := [
  0x18281878c0d87818, 0x236523af0526af23, 0xc657c6f97eb8f9c6, 0xe825e86f13fb6fe8, 0x879487a14ccba187, 0xb8d5b862a91162b8, 0x0103010508090501, 0x4fd14f6e420d6e4f,
  0x365a36eead9bee36, 0xa6f7a60459ff04a6, 0xd26bd2bdde0cbdd2, 0xf502f506fb0e06f5, 0x798b7980ef968079, 0x6fb16fce5f30ce6f, 0x91ae91effc6def91, 0x52f65207aaf80752,
  0x60a060fd2747fd60, 0xbcd9bc76893576bc, 0x9bb09bcdac37cd9b, 0x8e8f8e8c048a8c8e, 0xa3f8a31571d215a3, 0x0c140c3c606c3c0c, 0x7b8d7b8aff848a7b, 0x355f35e1b580e135,
  0x1d271d69e8f5691d, 0xe03de04753b347e0, 0xd764d7acf621acd7, 0xc25bc2ed5e9cedc2, 0x2e722e966d43962e, 0x4bdd4b7a62297a4b, 0xfe1ffe21a35d21fe, 0x57f9571682d51657,
  0x153f1541a8bd4115, 0x779977b69fe8b677, 0x375937eba592eb37, 0xe532e5567b9e56e5, 0x9fbc9fd98c13d99f, 0xf00df017d32317f0, 0x4ade4a7f6a207f4a, 0xda73da959e4495da,
  0x58e85825faa22558, 0xc946c9ca06cfcac9, 0x297b298d557c8d29, 0x0a1e0a22505a220a, 0xb1ceb14fe1504fb1, 0xa0fda01a69c91aa0, 0x6bbd6bda7f14da6b, 0x859285ab5cd9ab85,
  0xbddabd73813c73bd, 0x5de75d34d28f345d, 0x1030105080905010, 0xf401f403f30703f4, 0xcb40cbc016ddc0cb, 0x3e423ec6edd3c63e, 0x050f0511282d1105, 0x67a967e61f78e667,
  0xe431e453739753e4, 0x276927bb2502bb27, 0x41c3415832735841, 0x8b808b9d2ca79d8b, 0xa7f4a70151f601a7, 0x7d877d94cfb2947d, 0x95a295fbdc49fb95, 0xd875d89f8e569fd8,
  0xfb10fb308b7030fb, 0xee2fee7123cd71ee, 0x7c847c91c7bb917c, 0x66aa66e31771e366, 0xdd7add8ea67b8edd, 0x1739174bb8af4b17, 0x47c9474602454647, 0x9ebf9edc841adc9e,
  0xca43cac51ed4c5ca, 0x2d772d997558992d, 0xbfdcbf79912e79bf, 0x0709071b383f1b07, 0xadeaad2301ac23ad, 0x5aee5a2feab02f5a, 0x839883b56cefb583, 0x335533ff85b6ff33,
  0x63a563f23f5cf263, 0x0206020a10120a02, 0xaae3aa38399338aa, 0x719371a8afdea871, 0xc845c8cf0ec6cfc8, 0x192b197dc8d17d19, 0x49db4970723b7049, 0xd976d99a865f9ad9,
  0xf20bf21dc3311df2, 0xe338e3484ba848e3, 0x5bed5b2ae2b92a5b, 0x8885889234bc9288, 0x9ab39ac8a43ec89a, 0x266a26be2d0bbe26, 0x325632fa8dbffa32, 0xb0cdb04ae9594ab0,
  0xe926e96a1bf26ae9, 0x0f110f337877330f, 0xd562d5a6e633a6d5, 0x809d80ba74f4ba80, 0xbedfbe7c99277cbe, 0xcd4acdde26ebdecd, 0x345c34e4bd89e434, 0x48d848757a327548,
  0xff1cff24ab5424ff, 0x7a8e7a8ff78d8f7a, 0x90ad90eaf464ea90, 0x5fe15f3ec29d3e5f, 0x206020a01d3da020, 0x68b868d5670fd568, 0x1a2e1a72d0ca721a, 0xaeefae2c19b72cae,
  0xb4c1b45ec97d5eb4, 0x54fc54199ace1954, 0x93a893e5ec7fe593, 0x226622aa0d2faa22, 0x64ac64e90763e964, 0xf10ef112db2a12f1, 0x739573a2bfcca273, 0x1236125a90825a12,
  0x40c0405d3a7a5d40, 0x0818082840482808, 0xc358c3e85695e8c3, 0xec29ec7b33df7bec, 0xdb70db90964d90db, 0xa1fea11f61c01fa1, 0x8d8a8d831c91838d, 0x3d473dc9f5c8c93d,
  0x97a497f1cc5bf197, 0x0000000000000000, 0xcf4ccfd436f9d4cf, 0x2b7d2b87456e872b, 0x769a76b397e1b376, 0x829b82b064e6b082, 0xd667d6a9fe28a9d6, 0x1b2d1b77d8c3771b,
  0xb5c2b55bc1745bb5, 0xafecaf2911be29af, 0x6abe6adf771ddf6a, 0x50f0500dbaea0d50, 0x45cf454c12574c45, 0xf308f318cb3818f3, 0x305030f09dadf030, 0xef2cef742bc474ef,
  0x3f413fc3e5dac33f, 0x55ff551c92c71c55, 0xa2fba21079db10a2, 0xea23ea6503e965ea, 0x65af65ec0f6aec65, 0xbad3ba68b90368ba, 0x2f712f93654a932f, 0xc05dc0e74e8ee7c0,
  0xde7fde81be6081de, 0x1c241c6ce0fc6c1c, 0xfd1afd2ebb462efd, 0x4dd74d64521f644d, 0x92ab92e0e476e092, 0x759f75bc8ffabc75, 0x060a061e30361e06, 0x8a838a9824ae988a,
  0xb2cbb240f94b40b2, 0xe637e659638559e6, 0x0e120e36707e360e, 0x1f211f63f8e7631f, 0x62a662f73755f762, 0xd461d4a3ee3aa3d4, 0xa8e5a832298132a8, 0x96a796f4c452f496,
  0xf916f93a9b623af9, 0xc552c5f666a3f6c5, 0x256f25b13510b125, 0x59eb5920f2ab2059, 0x849184ae54d0ae84, 0x729672a7b7c5a772, 0x394b39ddd5ecdd39, 0x4cd44c615a16614c,
  0x5ee25e3bca943b5e, 0x78887885e79f8578, 0x384838d8dde5d838, 0x8c898c861498868c, 0xd16ed1b2c617b2d1, 0xa5f2a50b41e40ba5, 0xe23be24d43a14de2, 0x61a361f82f4ef861,
  0xb3c8b345f14245b3, 0x216321a51534a521, 0x9cb99cd69408d69c, 0x1e221e66f0ee661e, 0x43c5435222615243, 0xc754c7fc76b1fcc7, 0xfc19fc2bb34f2bfc, 0x040c041420241404,
  0x51f35108b2e30851, 0x99b699c7bc25c799, 0x6db76dc44f22c46d, 0x0d170d396865390d, 0xfa13fa35837935fa, 0xdf7cdf84b66984df, 0x7e827e9bd7a99b7e, 0x246c24b43d19b424,
  0x3b4d3bd7c5fed73b, 0xabe0ab3d319a3dab, 0xce4fced13ef0d1ce, 0x1133115588995511, 0x8f8c8f890c83898f, 0x4ed24e6b4a046b4e, 0xb7c4b751d16651b7, 0xeb20eb600be060eb,
  0x3c443cccfdc1cc3c, 0x819e81bf7cfdbf81, 0x94a194fed440fe94, 0xf704f70ceb1c0cf7, 0xb9d6b967a11867b9, 0x1335135f988b5f13, 0x2c742c9c7d519c2c, 0xd368d3b8d605b8d3,
  0xe734e75c6b8c5ce7, 0x6eb26ecb5739cb6e, 0xc451c4f36eaaf3c4, 0x0305030f181b0f03, 0x56fa56138adc1356, 0x44cc44491a5e4944, 0x7f817f9edfa09e7f, 0xa9e6a937218837a9,
  0x2a7e2a824d67822a, 0xbbd0bb6db10a6dbb, 0xc15ec1e24687e2c1, 0x53f55302a2f10253, 0xdc79dc8bae728bdc, 0x0b1d0b275853270b, 0x9dba9dd39c01d39d, 0x6cb46cc1472bc16c,
  0x315331f595a4f531, 0x749c74b987f3b974, 0xf607f609e31509f6, 0x46ca46430a4c4346, 0xace9ac2609a526ac, 0x898689973cb59789, 0x143c1444a0b44414, 0xe13ee1425bba42e1,
  0x163a164eb0a64e16, 0x3a4e3ad2cdf7d23a, 0x69bb69d06f06d069, 0x091b092d48412d09, 0x709070ada7d7ad70, 0xb6c7b654d96f54b6, 0xd06dd0b7ce1eb7d0, 0xed2aed7e3bd67eed,
  0xcc49ccdb2ee2dbcc, 0x42c642572a685742, 0x98b598c2b42cc298, 0xa4f1a40e49ed0ea4, 0x287828885d758828, 0x5ce45c31da86315c, 0xf815f83f936b3ff8, 0x869786a444c2a486]
/-- sbox.go:544-556 -/
def rc : List U64 := [0x0000000000000000, 0x1823c6e887b8014f, 0x36a6d2f5796f9152, 0x60bc9b8ea30c7b35, 0x1de0d7c22e4bfe57, 0x157737e59ff04ada, 0x58c9290ab1a06b85, 0xbd5d10f4cb3e0567, 0xe427418ba77d95d8, 0xfbee7c66dd17479e, 0xca2dbf07ad5a8333]
/-- sbox.go:1619-1626 -/
def rc0 : List U64 := [0x0000000000000000, 0x68d0eb2b489d6ae4, 0xe3a356817df1859e, 0x2c8e78ca17a961d5, 0x5d0b8c3c77512242, 0x3f544180cc86b318, 0x2e570662f436d16b, 0x1b657510da4926f9, 0xcb66e7baae5052ab, 0x05f00d733b0420fe, 0xddf5b45f0ab5c0a0]
/-- sbox.go:2691-2698 -/
def rc1 : List U64 := [0x0000000000000000, 0x1823c6e887b8014f, 0x36a6d2f5796f9152, 0x60bc9b8ea30c7b35, 0x1de0d7c22e4bfe57, 0x157737e59ff04ada, 0x58c9290ab1a06b85, 0xbd5d10f4cb3e0567, 0xe427418ba77d95d8, 0xfbee7c66dd17479e, 0xca2dbf07ad5a8333]

end Verif.Whirlpool
