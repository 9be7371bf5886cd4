import Verif.HashAPI
import Verif.LoopBuf
/-
Package groestl, function by function.  The digests are sequences of words; the working arrays AP2/AQ2 of the rounds are the results of the rounds here.
-/
namespace Verif.Groestl

/-- sbox.go:4-69 -/
def T0 : List U64 := [0xc6a597f4a5f432c6#64, 0xf884eb9784976ff8#64, 0xee99c7b099b05eee#64, 0xf68df78c8d8c7af6#64, 0xff0de5170d17e8ff#64, 0xd6bdb7dcbddc0ad6#64,
  0xdeb1a7c8b1c816de#64, 0x915439fc54fc6d91#64, 0x6050c0f050f09060#64, 0x0203040503050702#64, 0xcea987e0a9e02ece#64, 0x567dac877d87d156#64,
  0xe719d52b192bcce7#64, 0xb56271a662a613b5#64, 0x4de69a31e6317c4d#64, 0xec9ac3b59ab559ec#64, 0x8f4505cf45cf408f#64, 0x1f9d3ebc9dbca31f#64,
  0x894009c040c04989#64, 0xfa87ef92879268fa#64, 0xef15c53f153fd0ef#64, 0xb2eb7f26eb2694b2#64, 0x8ec90740c940ce8e#64, 0xfb0bed1d0b1de6fb#64,
  0x41ec822fec2f6e41#64, 0xb3677da967a91ab3#64, 0x5ffdbe1cfd1c435f#64, 0x45ea8a25ea256045#64, 0x23bf46dabfdaf923#64, 0x53f7a602f7025153#64,
  0xe496d3a196a145e4#64, 0x9b5b2ded5bed769b#64, 0x75c2ea5dc25d2875#64, 0xe11cd9241c24c5e1#64, 0x3dae7ae9aee9d43d#64, 0x4c6a98be6abef24c#64,
  0x6c5ad8ee5aee826c#64, 0x7e41fcc341c3bd7e#64, 0xf502f1060206f3f5#64, 0x834f1dd14fd15283#64, 0x685cd0e45ce48c68#64, 0x51f4a207f4075651#64,
  0xd134b95c345c8dd1#64, 0xf908e9180818e1f9#64, 0xe293dfae93ae4ce2#64, 0xab734d9573953eab#64, 0x6253c4f553f59762#64, 0x2a3f54413f416b2a#64,
  0x080c10140c141c08#64, 0x955231f652f66395#64, 0x46658caf65afe946#64, 0x9d5e21e25ee27f9d#64, 0x3028607828784830#64, 0x37a16ef8a1f8cf37#64,
  0x0a0f14110f111b0a#64, 0x2fb55ec4b5c4eb2f#64, 0x0e091c1b091b150e#64, 0x2436485a365a7e24#64, 0x1b9b36b69bb6ad1b#64, 0xdf3da5473d4798df#64,
  0xcd26816a266aa7cd#64, 0x4e699cbb69bbf54e#64, 0x7fcdfe4ccd4c337f#64, 0xea9fcfba9fba50ea#64, 0x121b242d1b2d3f12#64, 0x1d9e3ab99eb9a41d#64,
  0x5874b09c749cc458#64, 0x342e68722e724634#64, 0x362d6c772d774136#64, 0xdcb2a3cdb2cd11dc#64, 0xb4ee7329ee299db4#64, 0x5bfbb616fb164d5b#64,
  0xa4f65301f601a5a4#64, 0x764decd74dd7a176#64, 0xb76175a361a314b7#64, 0x7dcefa49ce49347d#64, 0x527ba48d7b8ddf52#64, 0xdd3ea1423e429fdd#64,
  0x5e71bc937193cd5e#64, 0x139726a297a2b113#64, 0xa6f55704f504a2a6#64, 0xb96869b868b801b9#64, 0x0000000000000000#64, 0xc12c99742c74b5c1#64,
  0x406080a060a0e040#64, 0xe31fdd211f21c2e3#64, 0x79c8f243c8433a79#64, 0xb6ed772ced2c9ab6#64, 0xd4beb3d9bed90dd4#64, 0x8d4601ca46ca478d#64,
  0x67d9ce70d9701767#64, 0x724be4dd4bddaf72#64, 0x94de3379de79ed94#64, 0x98d42b67d467ff98#64, 0xb0e87b23e82393b0#64, 0x854a11de4ade5b85#64,
  0xbb6b6dbd6bbd06bb#64, 0xc52a917e2a7ebbc5#64, 0x4fe59e34e5347b4f#64, 0xed16c13a163ad7ed#64, 0x86c51754c554d286#64, 0x9ad72f62d762f89a#64,
  0x6655ccff55ff9966#64, 0x119422a794a7b611#64, 0x8acf0f4acf4ac08a#64, 0xe910c9301030d9e9#64, 0x0406080a060a0e04#64, 0xfe81e798819866fe#64,
  0xa0f05b0bf00baba0#64, 0x7844f0cc44ccb478#64, 0x25ba4ad5bad5f025#64, 0x4be3963ee33e754b#64, 0xa2f35f0ef30eaca2#64, 0x5dfeba19fe19445d#64,
  0x80c01b5bc05bdb80#64, 0x058a0a858a858005#64, 0x3fad7eecadecd33f#64, 0x21bc42dfbcdffe21#64, 0x7048e0d848d8a870#64, 0xf104f90c040cfdf1#64,
  0x63dfc67adf7a1963#64, 0x77c1ee58c1582f77#64, 0xaf75459f759f30af#64, 0x426384a563a5e742#64, 0x2030405030507020#64, 0xe51ad12e1a2ecbe5#64,
  0xfd0ee1120e12effd#64, 0xbf6d65b76db708bf#64, 0x814c19d44cd45581#64, 0x1814303c143c2418#64, 0x26354c5f355f7926#64, 0xc32f9d712f71b2c3#64,
  0xbee16738e13886be#64, 0x35a26afda2fdc835#64, 0x88cc0b4fcc4fc788#64, 0x2e395c4b394b652e#64, 0x93573df957f96a93#64, 0x55f2aa0df20d5855#64,
  0xfc82e39d829d61fc#64, 0x7a47f4c947c9b37a#64, 0xc8ac8befacef27c8#64, 0xbae76f32e73288ba#64, 0x322b647d2b7d4f32#64, 0xe695d7a495a442e6#64,
  0xc0a09bfba0fb3bc0#64, 0x199832b398b3aa19#64, 0x9ed12768d168f69e#64, 0xa37f5d817f8122a3#64, 0x446688aa66aaee44#64, 0x547ea8827e82d654#64,
  0x3bab76e6abe6dd3b#64, 0x0b83169e839e950b#64, 0x8cca0345ca45c98c#64, 0xc729957b297bbcc7#64, 0x6bd3d66ed36e056b#64, 0x283c50443c446c28#64,
  0xa779558b798b2ca7#64, 0xbce2633de23d81bc#64, 0x161d2c271d273116#64, 0xad76419a769a37ad#64, 0xdb3bad4d3b4d96db#64, 0x6456c8fa56fa9e64#64,
  0x744ee8d24ed2a674#64, 0x141e28221e223614#64, 0x92db3f76db76e492#64, 0x0c0a181e0a1e120c#64, 0x486c90b46cb4fc48#64, 0xb8e46b37e4378fb8#64,
  0x9f5d25e75de7789f#64, 0xbd6e61b26eb20fbd#64, 0x43ef862aef2a6943#64, 0xc4a693f1a6f135c4#64, 0x39a872e3a8e3da39#64, 0x31a462f7a4f7c631#64,
  0xd337bd5937598ad3#64, 0xf28bff868b8674f2#64, 0xd532b156325683d5#64, 0x8b430dc543c54e8b#64, 0x6e59dceb59eb856e#64, 0xdab7afc2b7c218da#64,
  0x018c028f8c8f8e01#64, 0xb16479ac64ac1db1#64, 0x9cd2236dd26df19c#64, 0x49e0923be03b7249#64, 0xd8b4abc7b4c71fd8#64, 0xacfa4315fa15b9ac#64,
  0xf307fd090709faf3#64, 0xcf25856f256fa0cf#64, 0xcaaf8feaafea20ca#64, 0xf48ef3898e897df4#64, 0x47e98e20e9206747#64, 0x1018202818283810#64,
  0x6fd5de64d5640b6f#64, 0xf088fb83888373f0#64, 0x4a6f94b16fb1fb4a#64, 0x5c72b8967296ca5c#64, 0x3824706c246c5438#64, 0x57f1ae08f1085f57#64,
  0x73c7e652c7522173#64, 0x975135f351f36497#64, 0xcb238d652365aecb#64, 0xa17c59847c8425a1#64, 0xe89ccbbf9cbf57e8#64, 0x3e217c6321635d3e#64,
  0x96dd377cdd7cea96#64, 0x61dcc27fdc7f1e61#64, 0x0d861a9186919c0d#64, 0x0f851e9485949b0f#64, 0xe090dbab90ab4be0#64, 0x7c42f8c642c6ba7c#64,
  0x71c4e257c4572671#64, 0xccaa83e5aae529cc#64, 0x90d83b73d873e390#64, 0x06050c0f050f0906#64, 0xf701f5030103f4f7#64, 0x1c12383612362a1c#64,
  0xc2a39ffea3fe3cc2#64, 0x6a5fd4e15fe18b6a#64, 0xaef94710f910beae#64, 0x69d0d26bd06b0269#64, 0x17912ea891a8bf17#64, 0x995829e858e87199#64,
  0x3a2774692769533a#64, 0x27b94ed0b9d0f727#64, 0xd938a948384891d9#64, 0xeb13cd351335deeb#64, 0x2bb356ceb3cee52b#64, 0x2233445533557722#64,
  0xd2bbbfd6bbd604d2#64, 0xa9704990709039a9#64, 0x07890e8089808707#64, 0x33a766f2a7f2c133#64, 0x2db65ac1b6c1ec2d#64, 0x3c22786622665a3c#64,
  0x15922aad92adb815#64, 0xc92089602060a9c9#64, 0x874915db49db5c87#64, 0xaaff4f1aff1ab0aa#64, 0x5078a0887888d850#64, 0xa57a518e7a8e2ba5#64,
  0x038f068a8f8a8903#64, 0x59f8b213f8134a59#64, 0x0980129b809b9209#64, 0x1a1734391739231a#64, 0x65daca75da751065#64, 0xd731b553315384d7#64,
  0x84c61351c651d584#64, 0xd0b8bbd3b8d303d0#64, 0x82c31f5ec35edc82#64, 0x29b052cbb0cbe229#64, 0x5a77b4997799c35a#64, 0x1e113c3311332d1e#64,
  0x7bcbf646cb463d7b#64, 0xa8fc4b1ffc1fb7a8#64, 0x6dd6da61d6610c6d#64, 0x2c3a584e3a4e622c#64]

/-- sbox.go:70-135 -/
def T1 : List U64 := [0xa597f4a5f432c6c6#64, 0x84eb9784976ff8f8#64, 0x99c7b099b05eeeee#64, 0x8df78c8d8c7af6f6#64, 0x0de5170d17e8ffff#64, 0xbdb7dcbddc0ad6d6#64,
  0xb1a7c8b1c816dede#64, 0x5439fc54fc6d9191#64, 0x50c0f050f0906060#64, 0x0304050305070202#64, 0xa987e0a9e02ecece#64, 0x7dac877d87d15656#64,
  0x19d52b192bcce7e7#64, 0x6271a662a613b5b5#64, 0xe69a31e6317c4d4d#64, 0x9ac3b59ab559ecec#64, 0x4505cf45cf408f8f#64, 0x9d3ebc9dbca31f1f#64,
  0x4009c040c0498989#64, 0x87ef92879268fafa#64, 0x15c53f153fd0efef#64, 0xeb7f26eb2694b2b2#64, 0xc90740c940ce8e8e#64, 0x0bed1d0b1de6fbfb#64,
  0xec822fec2f6e4141#64, 0x677da967a91ab3b3#64, 0xfdbe1cfd1c435f5f#64, 0xea8a25ea25604545#64, 0xbf46dabfdaf92323#64, 0xf7a602f702515353#64,
  0x96d3a196a145e4e4#64, 0x5b2ded5bed769b9b#64, 0xc2ea5dc25d287575#64, 0x1cd9241c24c5e1e1#64, 0xae7ae9aee9d43d3d#64, 0x6a98be6abef24c4c#64,
  0x5ad8ee5aee826c6c#64, 0x41fcc341c3bd7e7e#64, 0x02f1060206f3f5f5#64, 0x4f1dd14fd1528383#64, 0x5cd0e45ce48c6868#64, 0xf4a207f407565151#64,
  0x34b95c345c8dd1d1#64, 0x08e9180818e1f9f9#64, 0x93dfae93ae4ce2e2#64, 0x734d9573953eabab#64, 0x53c4f553f5976262#64, 0x3f54413f416b2a2a#64,
  0x0c10140c141c0808#64, 0x5231f652f6639595#64, 0x658caf65afe94646#64, 0x5e21e25ee27f9d9d#64, 0x2860782878483030#64, 0xa16ef8a1f8cf3737#64,
  0x0f14110f111b0a0a#64, 0xb55ec4b5c4eb2f2f#64, 0x091c1b091b150e0e#64, 0x36485a365a7e2424#64, 0x9b36b69bb6ad1b1b#64, 0x3da5473d4798dfdf#64,
  0x26816a266aa7cdcd#64, 0x699cbb69bbf54e4e#64, 0xcdfe4ccd4c337f7f#64, 0x9fcfba9fba50eaea#64, 0x1b242d1b2d3f1212#64, 0x9e3ab99eb9a41d1d#64,
  0x74b09c749cc45858#64, 0x2e68722e72463434#64, 0x2d6c772d77413636#64, 0xb2a3cdb2cd11dcdc#64, 0xee7329ee299db4b4#64, 0xfbb616fb164d5b5b#64,
  0xf65301f601a5a4a4#64, 0x4decd74dd7a17676#64, 0x6175a361a314b7b7#64, 0xcefa49ce49347d7d#64, 0x7ba48d7b8ddf5252#64, 0x3ea1423e429fdddd#64,
  0x71bc937193cd5e5e#64, 0x9726a297a2b11313#64, 0xf55704f504a2a6a6#64, 0x6869b868b801b9b9#64, 0x0000000000000000#64, 0x2c99742c74b5c1c1#64,
  0x6080a060a0e04040#64, 0x1fdd211f21c2e3e3#64, 0xc8f243c8433a7979#64, 0xed772ced2c9ab6b6#64, 0xbeb3d9bed90dd4d4#64, 0x4601ca46ca478d8d#64,
  0xd9ce70d970176767#64, 0x4be4dd4bddaf7272#64, 0xde3379de79ed9494#64, 0xd42b67d467ff9898#64, 0xe87b23e82393b0b0#64, 0x4a11de4ade5b8585#64,
  0x6b6dbd6bbd06bbbb#64, 0x2a917e2a7ebbc5c5#64, 0xe59e34e5347b4f4f#64, 0x16c13a163ad7eded#64, 0xc51754c554d28686#64, 0xd72f62d762f89a9a#64,
  0x55ccff55ff996666#64, 0x9422a794a7b61111#64, 0xcf0f4acf4ac08a8a#64, 0x10c9301030d9e9e9#64, 0x06080a060a0e0404#64, 0x81e798819866fefe#64,
  0xf05b0bf00baba0a0#64, 0x44f0cc44ccb47878#64, 0xba4ad5bad5f02525#64, 0xe3963ee33e754b4b#64, 0xf35f0ef30eaca2a2#64, 0xfeba19fe19445d5d#64,
  0xc01b5bc05bdb8080#64, 0x8a0a858a85800505#64, 0xad7eecadecd33f3f#64, 0xbc42dfbcdffe2121#64, 0x48e0d848d8a87070#64, 0x04f90c040cfdf1f1#64,
  0xdfc67adf7a196363#64, 0xc1ee58c1582f7777#64, 0x75459f759f30afaf#64, 0x6384a563a5e74242#64, 0x3040503050702020#64, 0x1ad12e1a2ecbe5e5#64,
  0x0ee1120e12effdfd#64, 0x6d65b76db708bfbf#64, 0x4c19d44cd4558181#64, 0x14303c143c241818#64, 0x354c5f355f792626#64, 0x2f9d712f71b2c3c3#64,
  0xe16738e13886bebe#64, 0xa26afda2fdc83535#64, 0xcc0b4fcc4fc78888#64, 0x395c4b394b652e2e#64, 0x573df957f96a9393#64, 0xf2aa0df20d585555#64,
  0x82e39d829d61fcfc#64, 0x47f4c947c9b37a7a#64, 0xac8befacef27c8c8#64, 0xe76f32e73288baba#64, 0x2b647d2b7d4f3232#64, 0x95d7a495a442e6e6#64,
  0xa09bfba0fb3bc0c0#64, 0x9832b398b3aa1919#64, 0xd12768d168f69e9e#64, 0x7f5d817f8122a3a3#64, 0x6688aa66aaee4444#64, 0x7ea8827e82d65454#64,
  0xab76e6abe6dd3b3b#64, 0x83169e839e950b0b#64, 0xca0345ca45c98c8c#64, 0x29957b297bbcc7c7#64, 0xd3d66ed36e056b6b#64, 0x3c50443c446c2828#64,
  0x79558b798b2ca7a7#64, 0xe2633de23d81bcbc#64, 0x1d2c271d27311616#64, 0x76419a769a37adad#64, 0x3bad4d3b4d96dbdb#64, 0x56c8fa56fa9e6464#64,
  0x4ee8d24ed2a67474#64, 0x1e28221e22361414#64, 0xdb3f76db76e49292#64, 0x0a181e0a1e120c0c#64, 0x6c90b46cb4fc4848#64, 0xe46b37e4378fb8b8#64,
  0x5d25e75de7789f9f#64, 0x6e61b26eb20fbdbd#64, 0xef862aef2a694343#64, 0xa693f1a6f135c4c4#64, 0xa872e3a8e3da3939#64, 0xa462f7a4f7c63131#64,
  0x37bd5937598ad3d3#64, 0x8bff868b8674f2f2#64, 0x32b156325683d5d5#64, 0x430dc543c54e8b8b#64, 0x59dceb59eb856e6e#64, 0xb7afc2b7c218dada#64,
  0x8c028f8c8f8e0101#64, 0x6479ac64ac1db1b1#64, 0xd2236dd26df19c9c#64, 0xe0923be03b724949#64, 0xb4abc7b4c71fd8d8#64, 0xfa4315fa15b9acac#64,
  0x07fd090709faf3f3#64, 0x25856f256fa0cfcf#64, 0xaf8feaafea20caca#64, 0x8ef3898e897df4f4#64, 0xe98e20e920674747#64, 0x1820281828381010#64,
  0xd5de64d5640b6f6f#64, 0x88fb83888373f0f0#64, 0x6f94b16fb1fb4a4a#64, 0x72b8967296ca5c5c#64, 0x24706c246c543838#64, 0xf1ae08f1085f5757#64,
  0xc7e652c752217373#64, 0x5135f351f3649797#64, 0x238d652365aecbcb#64, 0x7c59847c8425a1a1#64, 0x9ccbbf9cbf57e8e8#64, 0x217c6321635d3e3e#64,
  0xdd377cdd7cea9696#64, 0xdcc27fdc7f1e6161#64, 0x861a9186919c0d0d#64, 0x851e9485949b0f0f#64, 0x90dbab90ab4be0e0#64, 0x42f8c642c6ba7c7c#64,
  0xc4e257c457267171#64, 0xaa83e5aae529cccc#64, 0xd83b73d873e39090#64, 0x050c0f050f090606#64, 0x01f5030103f4f7f7#64, 0x12383612362a1c1c#64,
  0xa39ffea3fe3cc2c2#64, 0x5fd4e15fe18b6a6a#64, 0xf94710f910beaeae#64, 0xd0d26bd06b026969#64, 0x912ea891a8bf1717#64, 0x5829e858e8719999#64,
  0x2774692769533a3a#64, 0xb94ed0b9d0f72727#64, 0x38a948384891d9d9#64, 0x13cd351335deebeb#64, 0xb356ceb3cee52b2b#64, 0x3344553355772222#64,
  0xbbbfd6bbd604d2d2#64, 0x704990709039a9a9#64, 0x890e808980870707#64, 0xa766f2a7f2c13333#64, 0xb65ac1b6c1ec2d2d#64, 0x22786622665a3c3c#64,
  0x922aad92adb81515#64, 0x2089602060a9c9c9#64, 0x4915db49db5c8787#64, 0xff4f1aff1ab0aaaa#64, 0x78a0887888d85050#64, 0x7a518e7a8e2ba5a5#64,
  0x8f068a8f8a890303#64, 0xf8b213f8134a5959#64, 0x80129b809b920909#64, 0x1734391739231a1a#64, 0xdaca75da75106565#64, 0x31b553315384d7d7#64,
  0xc61351c651d58484#64, 0xb8bbd3b8d303d0d0#64, 0xc31f5ec35edc8282#64, 0xb052cbb0cbe22929#64, 0x77b4997799c35a5a#64, 0x113c3311332d1e1e#64,
  0xcbf646cb463d7b7b#64, 0xfc4b1ffc1fb7a8a8#64, 0xd6da61d6610c6d6d#64, 0x3a584e3a4e622c2c#64]

/-- sbox.go:136-201 -/
def T2 : List U64 := [0x97f4a5f432c6c6a5#64, 0xeb9784976ff8f884#64, 0xc7b099b05eeeee99#64, 0xf78c8d8c7af6f68d#64, 0xe5170d17e8ffff0d#64, 0xb7dcbddc0ad6d6bd#64,
  0xa7c8b1c816dedeb1#64, 0x39fc54fc6d919154#64, 0xc0f050f090606050#64, 0x0405030507020203#64, 0x87e0a9e02ececea9#64, 0xac877d87d156567d#64,
  0xd52b192bcce7e719#64, 0x71a662a613b5b562#64, 0x9a31e6317c4d4de6#64, 0xc3b59ab559ecec9a#64, 0x05cf45cf408f8f45#64, 0x3ebc9dbca31f1f9d#64,
  0x09c040c049898940#64, 0xef92879268fafa87#64, 0xc53f153fd0efef15#64, 0x7f26eb2694b2b2eb#64, 0x0740c940ce8e8ec9#64, 0xed1d0b1de6fbfb0b#64,
  0x822fec2f6e4141ec#64, 0x7da967a91ab3b367#64, 0xbe1cfd1c435f5ffd#64, 0x8a25ea25604545ea#64, 0x46dabfdaf92323bf#64, 0xa602f702515353f7#64,
  0xd3a196a145e4e496#64, 0x2ded5bed769b9b5b#64, 0xea5dc25d287575c2#64, 0xd9241c24c5e1e11c#64, 0x7ae9aee9d43d3dae#64, 0x98be6abef24c4c6a#64,
  0xd8ee5aee826c6c5a#64, 0xfcc341c3bd7e7e41#64, 0xf1060206f3f5f502#64, 0x1dd14fd15283834f#64, 0xd0e45ce48c68685c#64, 0xa207f407565151f4#64,
  0xb95c345c8dd1d134#64, 0xe9180818e1f9f908#64, 0xdfae93ae4ce2e293#64, 0x4d9573953eabab73#64, 0xc4f553f597626253#64, 0x54413f416b2a2a3f#64,
  0x10140c141c08080c#64, 0x31f652f663959552#64, 0x8caf65afe9464665#64, 0x21e25ee27f9d9d5e#64, 0x6078287848303028#64, 0x6ef8a1f8cf3737a1#64,
  0x14110f111b0a0a0f#64, 0x5ec4b5c4eb2f2fb5#64, 0x1c1b091b150e0e09#64, 0x485a365a7e242436#64, 0x36b69bb6ad1b1b9b#64, 0xa5473d4798dfdf3d#64,
  0x816a266aa7cdcd26#64, 0x9cbb69bbf54e4e69#64, 0xfe4ccd4c337f7fcd#64, 0xcfba9fba50eaea9f#64, 0x242d1b2d3f12121b#64, 0x3ab99eb9a41d1d9e#64,
  0xb09c749cc4585874#64, 0x68722e724634342e#64, 0x6c772d774136362d#64, 0xa3cdb2cd11dcdcb2#64, 0x7329ee299db4b4ee#64, 0xb616fb164d5b5bfb#64,
  0x5301f601a5a4a4f6#64, 0xecd74dd7a176764d#64, 0x75a361a314b7b761#64, 0xfa49ce49347d7dce#64, 0xa48d7b8ddf52527b#64, 0xa1423e429fdddd3e#64,
  0xbc937193cd5e5e71#64, 0x26a297a2b1131397#64, 0x5704f504a2a6a6f5#64, 0x69b868b801b9b968#64, 0x0000000000000000#64, 0x99742c74b5c1c12c#64,
  0x80a060a0e0404060#64, 0xdd211f21c2e3e31f#64, 0xf243c8433a7979c8#64, 0x772ced2c9ab6b6ed#64, 0xb3d9bed90dd4d4be#64, 0x01ca46ca478d8d46#64,
  0xce70d970176767d9#64, 0xe4dd4bddaf72724b#64, 0x3379de79ed9494de#64, 0x2b67d467ff9898d4#64, 0x7b23e82393b0b0e8#64, 0x11de4ade5b85854a#64,
  0x6dbd6bbd06bbbb6b#64, 0x917e2a7ebbc5c52a#64, 0x9e34e5347b4f4fe5#64, 0xc13a163ad7eded16#64, 0x1754c554d28686c5#64, 0x2f62d762f89a9ad7#64,
  0xccff55ff99666655#64, 0x22a794a7b6111194#64, 0x0f4acf4ac08a8acf#64, 0xc9301030d9e9e910#64, 0x080a060a0e040406#64, 0xe798819866fefe81#64,
  0x5b0bf00baba0a0f0#64, 0xf0cc44ccb4787844#64, 0x4ad5bad5f02525ba#64, 0x963ee33e754b4be3#64, 0x5f0ef30eaca2a2f3#64, 0xba19fe19445d5dfe#64,
  0x1b5bc05bdb8080c0#64, 0x0a858a858005058a#64, 0x7eecadecd33f3fad#64, 0x42dfbcdffe2121bc#64, 0xe0d848d8a8707048#64, 0xf90c040cfdf1f104#64,
  0xc67adf7a196363df#64, 0xee58c1582f7777c1#64, 0x459f759f30afaf75#64, 0x84a563a5e7424263#64, 0x4050305070202030#64, 0xd12e1a2ecbe5e51a#64,
  0xe1120e12effdfd0e#64, 0x65b76db708bfbf6d#64, 0x19d44cd45581814c#64, 0x303c143c24181814#64, 0x4c5f355f79262635#64, 0x9d712f71b2c3c32f#64,
  0x6738e13886bebee1#64, 0x6afda2fdc83535a2#64, 0x0b4fcc4fc78888cc#64, 0x5c4b394b652e2e39#64, 0x3df957f96a939357#64, 0xaa0df20d585555f2#64,
  0xe39d829d61fcfc82#64, 0xf4c947c9b37a7a47#64, 0x8befacef27c8c8ac#64, 0x6f32e73288babae7#64, 0x647d2b7d4f32322b#64, 0xd7a495a442e6e695#64,
  0x9bfba0fb3bc0c0a0#64, 0x32b398b3aa191998#64, 0x2768d168f69e9ed1#64, 0x5d817f8122a3a37f#64, 0x88aa66aaee444466#64, 0xa8827e82d654547e#64,
  0x76e6abe6dd3b3bab#64, 0x169e839e950b0b83#64, 0x0345ca45c98c8cca#64, 0x957b297bbcc7c729#64, 0xd66ed36e056b6bd3#64, 0x50443c446c28283c#64,
  0x558b798b2ca7a779#64, 0x633de23d81bcbce2#64, 0x2c271d273116161d#64, 0x419a769a37adad76#64, 0xad4d3b4d96dbdb3b#64, 0xc8fa56fa9e646456#64,
  0xe8d24ed2a674744e#64, 0x28221e223614141e#64, 0x3f76db76e49292db#64, 0x181e0a1e120c0c0a#64, 0x90b46cb4fc48486c#64, 0x6b37e4378fb8b8e4#64,
  0x25e75de7789f9f5d#64, 0x61b26eb20fbdbd6e#64, 0x862aef2a694343ef#64, 0x93f1a6f135c4c4a6#64, 0x72e3a8e3da3939a8#64, 0x62f7a4f7c63131a4#64,
  0xbd5937598ad3d337#64, 0xff868b8674f2f28b#64, 0xb156325683d5d532#64, 0x0dc543c54e8b8b43#64, 0xdceb59eb856e6e59#64, 0xafc2b7c218dadab7#64,
  0x028f8c8f8e01018c#64, 0x79ac64ac1db1b164#64, 0x236dd26df19c9cd2#64, 0x923be03b724949e0#64, 0xabc7b4c71fd8d8b4#64, 0x4315fa15b9acacfa#64,
  0xfd090709faf3f307#64, 0x856f256fa0cfcf25#64, 0x8feaafea20cacaaf#64, 0xf3898e897df4f48e#64, 0x8e20e920674747e9#64, 0x2028182838101018#64,
  0xde64d5640b6f6fd5#64, 0xfb83888373f0f088#64, 0x94b16fb1fb4a4a6f#64, 0xb8967296ca5c5c72#64, 0x706c246c54383824#64, 0xae08f1085f5757f1#64,
  0xe652c752217373c7#64, 0x35f351f364979751#64, 0x8d652365aecbcb23#64, 0x59847c8425a1a17c#64, 0xcbbf9cbf57e8e89c#64, 0x7c6321635d3e3e21#64,
  0x377cdd7cea9696dd#64, 0xc27fdc7f1e6161dc#64, 0x1a9186919c0d0d86#64, 0x1e9485949b0f0f85#64, 0xdbab90ab4be0e090#64, 0xf8c642c6ba7c7c42#64,
  0xe257c457267171c4#64, 0x83e5aae529ccccaa#64, 0x3b73d873e39090d8#64, 0x0c0f050f09060605#64, 0xf5030103f4f7f701#64, 0x383612362a1c1c12#64,
  0x9ffea3fe3cc2c2a3#64, 0xd4e15fe18b6a6a5f#64, 0x4710f910beaeaef9#64, 0xd26bd06b026969d0#64, 0x2ea891a8bf171791#64, 0x29e858e871999958#64,
  0x74692769533a3a27#64, 0x4ed0b9d0f72727b9#64, 0xa948384891d9d938#64, 0xcd351335deebeb13#64, 0x56ceb3cee52b2bb3#64, 0x4455335577222233#64,
  0xbfd6bbd604d2d2bb#64, 0x4990709039a9a970#64, 0x0e80898087070789#64, 0x66f2a7f2c13333a7#64, 0x5ac1b6c1ec2d2db6#64, 0x786622665a3c3c22#64,
  0x2aad92adb8151592#64, 0x89602060a9c9c920#64, 0x15db49db5c878749#64, 0x4f1aff1ab0aaaaff#64, 0xa0887888d8505078#64, 0x518e7a8e2ba5a57a#64,
  0x068a8f8a8903038f#64, 0xb213f8134a5959f8#64, 0x129b809b92090980#64, 0x34391739231a1a17#64, 0xca75da75106565da#64, 0xb553315384d7d731#64,
  0x1351c651d58484c6#64, 0xbbd3b8d303d0d0b8#64, 0x1f5ec35edc8282c3#64, 0x52cbb0cbe22929b0#64, 0xb4997799c35a5a77#64, 0x3c3311332d1e1e11#64,
  0xf646cb463d7b7bcb#64, 0x4b1ffc1fb7a8a8fc#64, 0xda61d6610c6d6dd6#64, 0x584e3a4e622c2c3a#64]

/-- sbox.go:202-267 -/
def T3 : List U64 := [0xf4a5f432c6c6a597#64, 0x9784976ff8f884eb#64, 0xb099b05eeeee99c7#64, 0x8c8d8c7af6f68df7#64, 0x170d17e8ffff0de5#64, 0xdcbddc0ad6d6bdb7#64,
  0xc8b1c816dedeb1a7#64, 0xfc54fc6d91915439#64, 0xf050f090606050c0#64, 0x0503050702020304#64, 0xe0a9e02ececea987#64, 0x877d87d156567dac#64,
  0x2b192bcce7e719d5#64, 0xa662a613b5b56271#64, 0x31e6317c4d4de69a#64, 0xb59ab559ecec9ac3#64, 0xcf45cf408f8f4505#64, 0xbc9dbca31f1f9d3e#64,
  0xc040c04989894009#64, 0x92879268fafa87ef#64, 0x3f153fd0efef15c5#64, 0x26eb2694b2b2eb7f#64, 0x40c940ce8e8ec907#64, 0x1d0b1de6fbfb0bed#64,
  0x2fec2f6e4141ec82#64, 0xa967a91ab3b3677d#64, 0x1cfd1c435f5ffdbe#64, 0x25ea25604545ea8a#64, 0xdabfdaf92323bf46#64, 0x02f702515353f7a6#64,
  0xa196a145e4e496d3#64, 0xed5bed769b9b5b2d#64, 0x5dc25d287575c2ea#64, 0x241c24c5e1e11cd9#64, 0xe9aee9d43d3dae7a#64, 0xbe6abef24c4c6a98#64,
  0xee5aee826c6c5ad8#64, 0xc341c3bd7e7e41fc#64, 0x060206f3f5f502f1#64, 0xd14fd15283834f1d#64, 0xe45ce48c68685cd0#64, 0x07f407565151f4a2#64,
  0x5c345c8dd1d134b9#64, 0x180818e1f9f908e9#64, 0xae93ae4ce2e293df#64, 0x9573953eabab734d#64, 0xf553f597626253c4#64, 0x413f416b2a2a3f54#64,
  0x140c141c08080c10#64, 0xf652f66395955231#64, 0xaf65afe94646658c#64, 0xe25ee27f9d9d5e21#64, 0x7828784830302860#64, 0xf8a1f8cf3737a16e#64,
  0x110f111b0a0a0f14#64, 0xc4b5c4eb2f2fb55e#64, 0x1b091b150e0e091c#64, 0x5a365a7e24243648#64, 0xb69bb6ad1b1b9b36#64, 0x473d4798dfdf3da5#64,
  0x6a266aa7cdcd2681#64, 0xbb69bbf54e4e699c#64, 0x4ccd4c337f7fcdfe#64, 0xba9fba50eaea9fcf#64, 0x2d1b2d3f12121b24#64, 0xb99eb9a41d1d9e3a#64,
  0x9c749cc4585874b0#64, 0x722e724634342e68#64, 0x772d774136362d6c#64, 0xcdb2cd11dcdcb2a3#64, 0x29ee299db4b4ee73#64, 0x16fb164d5b5bfbb6#64,
  0x01f601a5a4a4f653#64, 0xd74dd7a176764dec#64, 0xa361a314b7b76175#64, 0x49ce49347d7dcefa#64, 0x8d7b8ddf52527ba4#64, 0x423e429fdddd3ea1#64,
  0x937193cd5e5e71bc#64, 0xa297a2b113139726#64, 0x04f504a2a6a6f557#64, 0xb868b801b9b96869#64, 0x0000000000000000#64, 0x742c74b5c1c12c99#64,
  0xa060a0e040406080#64, 0x211f21c2e3e31fdd#64, 0x43c8433a7979c8f2#64, 0x2ced2c9ab6b6ed77#64, 0xd9bed90dd4d4beb3#64, 0xca46ca478d8d4601#64,
  0x70d970176767d9ce#64, 0xdd4bddaf72724be4#64, 0x79de79ed9494de33#64, 0x67d467ff9898d42b#64, 0x23e82393b0b0e87b#64, 0xde4ade5b85854a11#64,
  0xbd6bbd06bbbb6b6d#64, 0x7e2a7ebbc5c52a91#64, 0x34e5347b4f4fe59e#64, 0x3a163ad7eded16c1#64, 0x54c554d28686c517#64, 0x62d762f89a9ad72f#64,
  0xff55ff99666655cc#64, 0xa794a7b611119422#64, 0x4acf4ac08a8acf0f#64, 0x301030d9e9e910c9#64, 0x0a060a0e04040608#64, 0x98819866fefe81e7#64,
  0x0bf00baba0a0f05b#64, 0xcc44ccb4787844f0#64, 0xd5bad5f02525ba4a#64, 0x3ee33e754b4be396#64, 0x0ef30eaca2a2f35f#64, 0x19fe19445d5dfeba#64,
  0x5bc05bdb8080c01b#64, 0x858a858005058a0a#64, 0xecadecd33f3fad7e#64, 0xdfbcdffe2121bc42#64, 0xd848d8a8707048e0#64, 0x0c040cfdf1f104f9#64,
  0x7adf7a196363dfc6#64, 0x58c1582f7777c1ee#64, 0x9f759f30afaf7545#64, 0xa563a5e742426384#64, 0x5030507020203040#64, 0x2e1a2ecbe5e51ad1#64,
  0x120e12effdfd0ee1#64, 0xb76db708bfbf6d65#64, 0xd44cd45581814c19#64, 0x3c143c2418181430#64, 0x5f355f792626354c#64, 0x712f71b2c3c32f9d#64,
  0x38e13886bebee167#64, 0xfda2fdc83535a26a#64, 0x4fcc4fc78888cc0b#64, 0x4b394b652e2e395c#64, 0xf957f96a9393573d#64, 0x0df20d585555f2aa#64,
  0x9d829d61fcfc82e3#64, 0xc947c9b37a7a47f4#64, 0xefacef27c8c8ac8b#64, 0x32e73288babae76f#64, 0x7d2b7d4f32322b64#64, 0xa495a442e6e695d7#64,
  0xfba0fb3bc0c0a09b#64, 0xb398b3aa19199832#64, 0x68d168f69e9ed127#64, 0x817f8122a3a37f5d#64, 0xaa66aaee44446688#64, 0x827e82d654547ea8#64,
  0xe6abe6dd3b3bab76#64, 0x9e839e950b0b8316#64, 0x45ca45c98c8cca03#64, 0x7b297bbcc7c72995#64, 0x6ed36e056b6bd3d6#64, 0x443c446c28283c50#64,
  0x8b798b2ca7a77955#64, 0x3de23d81bcbce263#64, 0x271d273116161d2c#64, 0x9a769a37adad7641#64, 0x4d3b4d96dbdb3bad#64, 0xfa56fa9e646456c8#64,
  0xd24ed2a674744ee8#64, 0x221e223614141e28#64, 0x76db76e49292db3f#64, 0x1e0a1e120c0c0a18#64, 0xb46cb4fc48486c90#64, 0x37e4378fb8b8e46b#64,
  0xe75de7789f9f5d25#64, 0xb26eb20fbdbd6e61#64, 0x2aef2a694343ef86#64, 0xf1a6f135c4c4a693#64, 0xe3a8e3da3939a872#64, 0xf7a4f7c63131a462#64,
  0x5937598ad3d337bd#64, 0x868b8674f2f28bff#64, 0x56325683d5d532b1#64, 0xc543c54e8b8b430d#64, 0xeb59eb856e6e59dc#64, 0xc2b7c218dadab7af#64,
  0x8f8c8f8e01018c02#64, 0xac64ac1db1b16479#64, 0x6dd26df19c9cd223#64, 0x3be03b724949e092#64, 0xc7b4c71fd8d8b4ab#64, 0x15fa15b9acacfa43#64,
  0x090709faf3f307fd#64, 0x6f256fa0cfcf2585#64, 0xeaafea20cacaaf8f#64, 0x898e897df4f48ef3#64, 0x20e920674747e98e#64, 0x2818283810101820#64,
  0x64d5640b6f6fd5de#64, 0x83888373f0f088fb#64, 0xb16fb1fb4a4a6f94#64, 0x967296ca5c5c72b8#64, 0x6c246c5438382470#64, 0x08f1085f5757f1ae#64,
  0x52c752217373c7e6#64, 0xf351f36497975135#64, 0x652365aecbcb238d#64, 0x847c8425a1a17c59#64, 0xbf9cbf57e8e89ccb#64, 0x6321635d3e3e217c#64,
  0x7cdd7cea9696dd37#64, 0x7fdc7f1e6161dcc2#64, 0x9186919c0d0d861a#64, 0x9485949b0f0f851e#64, 0xab90ab4be0e090db#64, 0xc642c6ba7c7c42f8#64,
  0x57c457267171c4e2#64, 0xe5aae529ccccaa83#64, 0x73d873e39090d83b#64, 0x0f050f090606050c#64, 0x030103f4f7f701f5#64, 0x3612362a1c1c1238#64,
  0xfea3fe3cc2c2a39f#64, 0xe15fe18b6a6a5fd4#64, 0x10f910beaeaef947#64, 0x6bd06b026969d0d2#64, 0xa891a8bf1717912e#64, 0xe858e87199995829#64,
  0x692769533a3a2774#64, 0xd0b9d0f72727b94e#64, 0x48384891d9d938a9#64, 0x351335deebeb13cd#64, 0xceb3cee52b2bb356#64, 0x5533557722223344#64,
  0xd6bbd604d2d2bbbf#64, 0x90709039a9a97049#64, 0x808980870707890e#64, 0xf2a7f2c13333a766#64, 0xc1b6c1ec2d2db65a#64, 0x6622665a3c3c2278#64,
  0xad92adb81515922a#64, 0x602060a9c9c92089#64, 0xdb49db5c87874915#64, 0x1aff1ab0aaaaff4f#64, 0x887888d8505078a0#64, 0x8e7a8e2ba5a57a51#64,
  0x8a8f8a8903038f06#64, 0x13f8134a5959f8b2#64, 0x9b809b9209098012#64, 0x391739231a1a1734#64, 0x75da75106565daca#64, 0x53315384d7d731b5#64,
  0x51c651d58484c613#64, 0xd3b8d303d0d0b8bb#64, 0x5ec35edc8282c31f#64, 0xcbb0cbe22929b052#64, 0x997799c35a5a77b4#64, 0x3311332d1e1e113c#64,
  0x46cb463d7b7bcbf6#64, 0x1ffc1fb7a8a8fc4b#64, 0x61d6610c6d6dd6da#64, 0x4e3a4e622c2c3a58#64]

/-- sbox.go:268-333 -/
def T4 : List U64 := [0xa5f432c6c6a597f4#64, 0x84976ff8f884eb97#64, 0x99b05eeeee99c7b0#64, 0x8d8c7af6f68df78c#64, 0x0d17e8ffff0de517#64, 0xbddc0ad6d6bdb7dc#64,
  0xb1c816dedeb1a7c8#64, 0x54fc6d91915439fc#64, 0x50f090606050c0f0#64, 0x0305070202030405#64, 0xa9e02ececea987e0#64, 0x7d87d156567dac87#64,
  0x192bcce7e719d52b#64, 0x62a613b5b56271a6#64, 0xe6317c4d4de69a31#64, 0x9ab559ecec9ac3b5#64, 0x45cf408f8f4505cf#64, 0x9dbca31f1f9d3ebc#64,
  0x40c04989894009c0#64, 0x879268fafa87ef92#64, 0x153fd0efef15c53f#64, 0xeb2694b2b2eb7f26#64, 0xc940ce8e8ec90740#64, 0x0b1de6fbfb0bed1d#64,
  0xec2f6e4141ec822f#64, 0x67a91ab3b3677da9#64, 0xfd1c435f5ffdbe1c#64, 0xea25604545ea8a25#64, 0xbfdaf92323bf46da#64, 0xf702515353f7a602#64,
  0x96a145e4e496d3a1#64, 0x5bed769b9b5b2ded#64, 0xc25d287575c2ea5d#64, 0x1c24c5e1e11cd924#64, 0xaee9d43d3dae7ae9#64, 0x6abef24c4c6a98be#64,
  0x5aee826c6c5ad8ee#64, 0x41c3bd7e7e41fcc3#64, 0x0206f3f5f502f106#64, 0x4fd15283834f1dd1#64, 0x5ce48c68685cd0e4#64, 0xf407565151f4a207#64,
  0x345c8dd1d134b95c#64, 0x0818e1f9f908e918#64, 0x93ae4ce2e293dfae#64, 0x73953eabab734d95#64, 0x53f597626253c4f5#64, 0x3f416b2a2a3f5441#64,
  0x0c141c08080c1014#64, 0x52f66395955231f6#64, 0x65afe94646658caf#64, 0x5ee27f9d9d5e21e2#64, 0x2878483030286078#64, 0xa1f8cf3737a16ef8#64,
  0x0f111b0a0a0f1411#64, 0xb5c4eb2f2fb55ec4#64, 0x091b150e0e091c1b#64, 0x365a7e242436485a#64, 0x9bb6ad1b1b9b36b6#64, 0x3d4798dfdf3da547#64,
  0x266aa7cdcd26816a#64, 0x69bbf54e4e699cbb#64, 0xcd4c337f7fcdfe4c#64, 0x9fba50eaea9fcfba#64, 0x1b2d3f12121b242d#64, 0x9eb9a41d1d9e3ab9#64,
  0x749cc4585874b09c#64, 0x2e724634342e6872#64, 0x2d774136362d6c77#64, 0xb2cd11dcdcb2a3cd#64, 0xee299db4b4ee7329#64, 0xfb164d5b5bfbb616#64,
  0xf601a5a4a4f65301#64, 0x4dd7a176764decd7#64, 0x61a314b7b76175a3#64, 0xce49347d7dcefa49#64, 0x7b8ddf52527ba48d#64, 0x3e429fdddd3ea142#64,
  0x7193cd5e5e71bc93#64, 0x97a2b113139726a2#64, 0xf504a2a6a6f55704#64, 0x68b801b9b96869b8#64, 0x0000000000000000#64, 0x2c74b5c1c12c9974#64,
  0x60a0e040406080a0#64, 0x1f21c2e3e31fdd21#64, 0xc8433a7979c8f243#64, 0xed2c9ab6b6ed772c#64, 0xbed90dd4d4beb3d9#64, 0x46ca478d8d4601ca#64,
  0xd970176767d9ce70#64, 0x4bddaf72724be4dd#64, 0xde79ed9494de3379#64, 0xd467ff9898d42b67#64, 0xe82393b0b0e87b23#64, 0x4ade5b85854a11de#64,
  0x6bbd06bbbb6b6dbd#64, 0x2a7ebbc5c52a917e#64, 0xe5347b4f4fe59e34#64, 0x163ad7eded16c13a#64, 0xc554d28686c51754#64, 0xd762f89a9ad72f62#64,
  0x55ff99666655ccff#64, 0x94a7b611119422a7#64, 0xcf4ac08a8acf0f4a#64, 0x1030d9e9e910c930#64, 0x060a0e040406080a#64, 0x819866fefe81e798#64,
  0xf00baba0a0f05b0b#64, 0x44ccb4787844f0cc#64, 0xbad5f02525ba4ad5#64, 0xe33e754b4be3963e#64, 0xf30eaca2a2f35f0e#64, 0xfe19445d5dfeba19#64,
  0xc05bdb8080c01b5b#64, 0x8a858005058a0a85#64, 0xadecd33f3fad7eec#64, 0xbcdffe2121bc42df#64, 0x48d8a8707048e0d8#64, 0x040cfdf1f104f90c#64,
  0xdf7a196363dfc67a#64, 0xc1582f7777c1ee58#64, 0x759f30afaf75459f#64, 0x63a5e742426384a5#64, 0x3050702020304050#64, 0x1a2ecbe5e51ad12e#64,
  0x0e12effdfd0ee112#64, 0x6db708bfbf6d65b7#64, 0x4cd45581814c19d4#64, 0x143c24181814303c#64, 0x355f792626354c5f#64, 0x2f71b2c3c32f9d71#64,
  0xe13886bebee16738#64, 0xa2fdc83535a26afd#64, 0xcc4fc78888cc0b4f#64, 0x394b652e2e395c4b#64, 0x57f96a9393573df9#64, 0xf20d585555f2aa0d#64,
  0x829d61fcfc82e39d#64, 0x47c9b37a7a47f4c9#64, 0xacef27c8c8ac8bef#64, 0xe73288babae76f32#64, 0x2b7d4f32322b647d#64, 0x95a442e6e695d7a4#64,
  0xa0fb3bc0c0a09bfb#64, 0x98b3aa19199832b3#64, 0xd168f69e9ed12768#64, 0x7f8122a3a37f5d81#64, 0x66aaee44446688aa#64, 0x7e82d654547ea882#64,
  0xabe6dd3b3bab76e6#64, 0x839e950b0b83169e#64, 0xca45c98c8cca0345#64, 0x297bbcc7c729957b#64, 0xd36e056b6bd3d66e#64, 0x3c446c28283c5044#64,
  0x798b2ca7a779558b#64, 0xe23d81bcbce2633d#64, 0x1d273116161d2c27#64, 0x769a37adad76419a#64, 0x3b4d96dbdb3bad4d#64, 0x56fa9e646456c8fa#64,
  0x4ed2a674744ee8d2#64, 0x1e223614141e2822#64, 0xdb76e49292db3f76#64, 0x0a1e120c0c0a181e#64, 0x6cb4fc48486c90b4#64, 0xe4378fb8b8e46b37#64,
  0x5de7789f9f5d25e7#64, 0x6eb20fbdbd6e61b2#64, 0xef2a694343ef862a#64, 0xa6f135c4c4a693f1#64, 0xa8e3da3939a872e3#64, 0xa4f7c63131a462f7#64,
  0x37598ad3d337bd59#64, 0x8b8674f2f28bff86#64, 0x325683d5d532b156#64, 0x43c54e8b8b430dc5#64, 0x59eb856e6e59dceb#64, 0xb7c218dadab7afc2#64,
  0x8c8f8e01018c028f#64, 0x64ac1db1b16479ac#64, 0xd26df19c9cd2236d#64, 0xe03b724949e0923b#64, 0xb4c71fd8d8b4abc7#64, 0xfa15b9acacfa4315#64,
  0x0709faf3f307fd09#64, 0x256fa0cfcf25856f#64, 0xafea20cacaaf8fea#64, 0x8e897df4f48ef389#64, 0xe920674747e98e20#64, 0x1828381010182028#64,
  0xd5640b6f6fd5de64#64, 0x888373f0f088fb83#64, 0x6fb1fb4a4a6f94b1#64, 0x7296ca5c5c72b896#64, 0x246c54383824706c#64, 0xf1085f5757f1ae08#64,
  0xc752217373c7e652#64, 0x51f36497975135f3#64, 0x2365aecbcb238d65#64, 0x7c8425a1a17c5984#64, 0x9cbf57e8e89ccbbf#64, 0x21635d3e3e217c63#64,
  0xdd7cea9696dd377c#64, 0xdc7f1e6161dcc27f#64, 0x86919c0d0d861a91#64, 0x85949b0f0f851e94#64, 0x90ab4be0e090dbab#64, 0x42c6ba7c7c42f8c6#64,
  0xc457267171c4e257#64, 0xaae529ccccaa83e5#64, 0xd873e39090d83b73#64, 0x050f090606050c0f#64, 0x0103f4f7f701f503#64, 0x12362a1c1c123836#64,
  0xa3fe3cc2c2a39ffe#64, 0x5fe18b6a6a5fd4e1#64, 0xf910beaeaef94710#64, 0xd06b026969d0d26b#64, 0x91a8bf1717912ea8#64, 0x58e87199995829e8#64,
  0x2769533a3a277469#64, 0xb9d0f72727b94ed0#64, 0x384891d9d938a948#64, 0x1335deebeb13cd35#64, 0xb3cee52b2bb356ce#64, 0x3355772222334455#64,
  0xbbd604d2d2bbbfd6#64, 0x709039a9a9704990#64, 0x8980870707890e80#64, 0xa7f2c13333a766f2#64, 0xb6c1ec2d2db65ac1#64, 0x22665a3c3c227866#64,
  0x92adb81515922aad#64, 0x2060a9c9c9208960#64, 0x49db5c87874915db#64, 0xff1ab0aaaaff4f1a#64, 0x7888d8505078a088#64, 0x7a8e2ba5a57a518e#64,
  0x8f8a8903038f068a#64, 0xf8134a5959f8b213#64, 0x809b92090980129b#64, 0x1739231a1a173439#64, 0xda75106565daca75#64, 0x315384d7d731b553#64,
  0xc651d58484c61351#64, 0xb8d303d0d0b8bbd3#64, 0xc35edc8282c31f5e#64, 0xb0cbe22929b052cb#64, 0x7799c35a5a77b499#64, 0x11332d1e1e113c33#64,
  0xcb463d7b7bcbf646#64, 0xfc1fb7a8a8fc4b1f#64, 0xd6610c6d6dd6da61#64, 0x3a4e622c2c3a584e#64]

/-- sbox.go:334-399 -/
def T5 : List U64 := [0xf432c6c6a597f4a5#64, 0x976ff8f884eb9784#64, 0xb05eeeee99c7b099#64, 0x8c7af6f68df78c8d#64, 0x17e8ffff0de5170d#64, 0xdc0ad6d6bdb7dcbd#64,
  0xc816dedeb1a7c8b1#64, 0xfc6d91915439fc54#64, 0xf090606050c0f050#64, 0x0507020203040503#64, 0xe02ececea987e0a9#64, 0x87d156567dac877d#64,
  0x2bcce7e719d52b19#64, 0xa613b5b56271a662#64, 0x317c4d4de69a31e6#64, 0xb559ecec9ac3b59a#64, 0xcf408f8f4505cf45#64, 0xbca31f1f9d3ebc9d#64,
  0xc04989894009c040#64, 0x9268fafa87ef9287#64, 0x3fd0efef15c53f15#64, 0x2694b2b2eb7f26eb#64, 0x40ce8e8ec90740c9#64, 0x1de6fbfb0bed1d0b#64,
  0x2f6e4141ec822fec#64, 0xa91ab3b3677da967#64, 0x1c435f5ffdbe1cfd#64, 0x25604545ea8a25ea#64, 0xdaf92323bf46dabf#64, 0x02515353f7a602f7#64,
  0xa145e4e496d3a196#64, 0xed769b9b5b2ded5b#64, 0x5d287575c2ea5dc2#64, 0x24c5e1e11cd9241c#64, 0xe9d43d3dae7ae9ae#64, 0xbef24c4c6a98be6a#64,
  0xee826c6c5ad8ee5a#64, 0xc3bd7e7e41fcc341#64, 0x06f3f5f502f10602#64, 0xd15283834f1dd14f#64, 0xe48c68685cd0e45c#64, 0x07565151f4a207f4#64,
  0x5c8dd1d134b95c34#64, 0x18e1f9f908e91808#64, 0xae4ce2e293dfae93#64, 0x953eabab734d9573#64, 0xf597626253c4f553#64, 0x416b2a2a3f54413f#64,
  0x141c08080c10140c#64, 0xf66395955231f652#64, 0xafe94646658caf65#64, 0xe27f9d9d5e21e25e#64, 0x7848303028607828#64, 0xf8cf3737a16ef8a1#64,
  0x111b0a0a0f14110f#64, 0xc4eb2f2fb55ec4b5#64, 0x1b150e0e091c1b09#64, 0x5a7e242436485a36#64, 0xb6ad1b1b9b36b69b#64, 0x4798dfdf3da5473d#64,
  0x6aa7cdcd26816a26#64, 0xbbf54e4e699cbb69#64, 0x4c337f7fcdfe4ccd#64, 0xba50eaea9fcfba9f#64, 0x2d3f12121b242d1b#64, 0xb9a41d1d9e3ab99e#64,
  0x9cc4585874b09c74#64, 0x724634342e68722e#64, 0x774136362d6c772d#64, 0xcd11dcdcb2a3cdb2#64, 0x299db4b4ee7329ee#64, 0x164d5b5bfbb616fb#64,
  0x01a5a4a4f65301f6#64, 0xd7a176764decd74d#64, 0xa314b7b76175a361#64, 0x49347d7dcefa49ce#64, 0x8ddf52527ba48d7b#64, 0x429fdddd3ea1423e#64,
  0x93cd5e5e71bc9371#64, 0xa2b113139726a297#64, 0x04a2a6a6f55704f5#64, 0xb801b9b96869b868#64, 0x0000000000000000#64, 0x74b5c1c12c99742c#64,
  0xa0e040406080a060#64, 0x21c2e3e31fdd211f#64, 0x433a7979c8f243c8#64, 0x2c9ab6b6ed772ced#64, 0xd90dd4d4beb3d9be#64, 0xca478d8d4601ca46#64,
  0x70176767d9ce70d9#64, 0xddaf72724be4dd4b#64, 0x79ed9494de3379de#64, 0x67ff9898d42b67d4#64, 0x2393b0b0e87b23e8#64, 0xde5b85854a11de4a#64,
  0xbd06bbbb6b6dbd6b#64, 0x7ebbc5c52a917e2a#64, 0x347b4f4fe59e34e5#64, 0x3ad7eded16c13a16#64, 0x54d28686c51754c5#64, 0x62f89a9ad72f62d7#64,
  0xff99666655ccff55#64, 0xa7b611119422a794#64, 0x4ac08a8acf0f4acf#64, 0x30d9e9e910c93010#64, 0x0a0e040406080a06#64, 0x9866fefe81e79881#64,
  0x0baba0a0f05b0bf0#64, 0xccb4787844f0cc44#64, 0xd5f02525ba4ad5ba#64, 0x3e754b4be3963ee3#64, 0x0eaca2a2f35f0ef3#64, 0x19445d5dfeba19fe#64,
  0x5bdb8080c01b5bc0#64, 0x858005058a0a858a#64, 0xecd33f3fad7eecad#64, 0xdffe2121bc42dfbc#64, 0xd8a8707048e0d848#64, 0x0cfdf1f104f90c04#64,
  0x7a196363dfc67adf#64, 0x582f7777c1ee58c1#64, 0x9f30afaf75459f75#64, 0xa5e742426384a563#64, 0x5070202030405030#64, 0x2ecbe5e51ad12e1a#64,
  0x12effdfd0ee1120e#64, 0xb708bfbf6d65b76d#64, 0xd45581814c19d44c#64, 0x3c24181814303c14#64, 0x5f792626354c5f35#64, 0x71b2c3c32f9d712f#64,
  0x3886bebee16738e1#64, 0xfdc83535a26afda2#64, 0x4fc78888cc0b4fcc#64, 0x4b652e2e395c4b39#64, 0xf96a9393573df957#64, 0x0d585555f2aa0df2#64,
  0x9d61fcfc82e39d82#64, 0xc9b37a7a47f4c947#64, 0xef27c8c8ac8befac#64, 0x3288babae76f32e7#64, 0x7d4f32322b647d2b#64, 0xa442e6e695d7a495#64,
  0xfb3bc0c0a09bfba0#64, 0xb3aa19199832b398#64, 0x68f69e9ed12768d1#64, 0x8122a3a37f5d817f#64, 0xaaee44446688aa66#64, 0x82d654547ea8827e#64,
  0xe6dd3b3bab76e6ab#64, 0x9e950b0b83169e83#64, 0x45c98c8cca0345ca#64, 0x7bbcc7c729957b29#64, 0x6e056b6bd3d66ed3#64, 0x446c28283c50443c#64,
  0x8b2ca7a779558b79#64, 0x3d81bcbce2633de2#64, 0x273116161d2c271d#64, 0x9a37adad76419a76#64, 0x4d96dbdb3bad4d3b#64, 0xfa9e646456c8fa56#64,
  0xd2a674744ee8d24e#64, 0x223614141e28221e#64, 0x76e49292db3f76db#64, 0x1e120c0c0a181e0a#64, 0xb4fc48486c90b46c#64, 0x378fb8b8e46b37e4#64,
  0xe7789f9f5d25e75d#64, 0xb20fbdbd6e61b26e#64, 0x2a694343ef862aef#64, 0xf135c4c4a693f1a6#64, 0xe3da3939a872e3a8#64, 0xf7c63131a462f7a4#64,
  0x598ad3d337bd5937#64, 0x8674f2f28bff868b#64, 0x5683d5d532b15632#64, 0xc54e8b8b430dc543#64, 0xeb856e6e59dceb59#64, 0xc218dadab7afc2b7#64,
  0x8f8e01018c028f8c#64, 0xac1db1b16479ac64#64, 0x6df19c9cd2236dd2#64, 0x3b724949e0923be0#64, 0xc71fd8d8b4abc7b4#64, 0x15b9acacfa4315fa#64,
  0x09faf3f307fd0907#64, 0x6fa0cfcf25856f25#64, 0xea20cacaaf8feaaf#64, 0x897df4f48ef3898e#64, 0x20674747e98e20e9#64, 0x2838101018202818#64,
  0x640b6f6fd5de64d5#64, 0x8373f0f088fb8388#64, 0xb1fb4a4a6f94b16f#64, 0x96ca5c5c72b89672#64, 0x6c54383824706c24#64, 0x085f5757f1ae08f1#64,
  0x52217373c7e652c7#64, 0xf36497975135f351#64, 0x65aecbcb238d6523#64, 0x8425a1a17c59847c#64, 0xbf57e8e89ccbbf9c#64, 0x635d3e3e217c6321#64,
  0x7cea9696dd377cdd#64, 0x7f1e6161dcc27fdc#64, 0x919c0d0d861a9186#64, 0x949b0f0f851e9485#64, 0xab4be0e090dbab90#64, 0xc6ba7c7c42f8c642#64,
  0x57267171c4e257c4#64, 0xe529ccccaa83e5aa#64, 0x73e39090d83b73d8#64, 0x0f090606050c0f05#64, 0x03f4f7f701f50301#64, 0x362a1c1c12383612#64,
  0xfe3cc2c2a39ffea3#64, 0xe18b6a6a5fd4e15f#64, 0x10beaeaef94710f9#64, 0x6b026969d0d26bd0#64, 0xa8bf1717912ea891#64, 0xe87199995829e858#64,
  0x69533a3a27746927#64, 0xd0f72727b94ed0b9#64, 0x4891d9d938a94838#64, 0x35deebeb13cd3513#64, 0xcee52b2bb356ceb3#64, 0x5577222233445533#64,
  0xd604d2d2bbbfd6bb#64, 0x9039a9a970499070#64, 0x80870707890e8089#64, 0xf2c13333a766f2a7#64, 0xc1ec2d2db65ac1b6#64, 0x665a3c3c22786622#64,
  0xadb81515922aad92#64, 0x60a9c9c920896020#64, 0xdb5c87874915db49#64, 0x1ab0aaaaff4f1aff#64, 0x88d8505078a08878#64, 0x8e2ba5a57a518e7a#64,
  0x8a8903038f068a8f#64, 0x134a5959f8b213f8#64, 0x9b92090980129b80#64, 0x39231a1a17343917#64, 0x75106565daca75da#64, 0x5384d7d731b55331#64,
  0x51d58484c61351c6#64, 0xd303d0d0b8bbd3b8#64, 0x5edc8282c31f5ec3#64, 0xcbe22929b052cbb0#64, 0x99c35a5a77b49977#64, 0x332d1e1e113c3311#64,
  0x463d7b7bcbf646cb#64, 0x1fb7a8a8fc4b1ffc#64, 0x610c6d6dd6da61d6#64, 0x4e622c2c3a584e3a#64]

/-- sbox.go:400-465 -/
def T6 : List U64 := [0x32c6c6a597f4a5f4#64, 0x6ff8f884eb978497#64, 0x5eeeee99c7b099b0#64, 0x7af6f68df78c8d8c#64, 0xe8ffff0de5170d17#64, 0x0ad6d6bdb7dcbddc#64,
  0x16dedeb1a7c8b1c8#64, 0x6d91915439fc54fc#64, 0x90606050c0f050f0#64, 0x0702020304050305#64, 0x2ececea987e0a9e0#64, 0xd156567dac877d87#64,
  0xcce7e719d52b192b#64, 0x13b5b56271a662a6#64, 0x7c4d4de69a31e631#64, 0x59ecec9ac3b59ab5#64, 0x408f8f4505cf45cf#64, 0xa31f1f9d3ebc9dbc#64,
  0x4989894009c040c0#64, 0x68fafa87ef928792#64, 0xd0efef15c53f153f#64, 0x94b2b2eb7f26eb26#64, 0xce8e8ec90740c940#64, 0xe6fbfb0bed1d0b1d#64,
  0x6e4141ec822fec2f#64, 0x1ab3b3677da967a9#64, 0x435f5ffdbe1cfd1c#64, 0x604545ea8a25ea25#64, 0xf92323bf46dabfda#64, 0x515353f7a602f702#64,
  0x45e4e496d3a196a1#64, 0x769b9b5b2ded5bed#64, 0x287575c2ea5dc25d#64, 0xc5e1e11cd9241c24#64, 0xd43d3dae7ae9aee9#64, 0xf24c4c6a98be6abe#64,
  0x826c6c5ad8ee5aee#64, 0xbd7e7e41fcc341c3#64, 0xf3f5f502f1060206#64, 0x5283834f1dd14fd1#64, 0x8c68685cd0e45ce4#64, 0x565151f4a207f407#64,
  0x8dd1d134b95c345c#64, 0xe1f9f908e9180818#64, 0x4ce2e293dfae93ae#64, 0x3eabab734d957395#64, 0x97626253c4f553f5#64, 0x6b2a2a3f54413f41#64,
  0x1c08080c10140c14#64, 0x6395955231f652f6#64, 0xe94646658caf65af#64, 0x7f9d9d5e21e25ee2#64, 0x4830302860782878#64, 0xcf3737a16ef8a1f8#64,
  0x1b0a0a0f14110f11#64, 0xeb2f2fb55ec4b5c4#64, 0x150e0e091c1b091b#64, 0x7e242436485a365a#64, 0xad1b1b9b36b69bb6#64, 0x98dfdf3da5473d47#64,
  0xa7cdcd26816a266a#64, 0xf54e4e699cbb69bb#64, 0x337f7fcdfe4ccd4c#64, 0x50eaea9fcfba9fba#64, 0x3f12121b242d1b2d#64, 0xa41d1d9e3ab99eb9#64,
  0xc4585874b09c749c#64, 0x4634342e68722e72#64, 0x4136362d6c772d77#64, 0x11dcdcb2a3cdb2cd#64, 0x9db4b4ee7329ee29#64, 0x4d5b5bfbb616fb16#64,
  0xa5a4a4f65301f601#64, 0xa176764decd74dd7#64, 0x14b7b76175a361a3#64, 0x347d7dcefa49ce49#64, 0xdf52527ba48d7b8d#64, 0x9fdddd3ea1423e42#64,
  0xcd5e5e71bc937193#64, 0xb113139726a297a2#64, 0xa2a6a6f55704f504#64, 0x01b9b96869b868b8#64, 0x0000000000000000#64, 0xb5c1c12c99742c74#64,
  0xe040406080a060a0#64, 0xc2e3e31fdd211f21#64, 0x3a7979c8f243c843#64, 0x9ab6b6ed772ced2c#64, 0x0dd4d4beb3d9bed9#64, 0x478d8d4601ca46ca#64,
  0x176767d9ce70d970#64, 0xaf72724be4dd4bdd#64, 0xed9494de3379de79#64, 0xff9898d42b67d467#64, 0x93b0b0e87b23e823#64, 0x5b85854a11de4ade#64,
  0x06bbbb6b6dbd6bbd#64, 0xbbc5c52a917e2a7e#64, 0x7b4f4fe59e34e534#64, 0xd7eded16c13a163a#64, 0xd28686c51754c554#64, 0xf89a9ad72f62d762#64,
  0x99666655ccff55ff#64, 0xb611119422a794a7#64, 0xc08a8acf0f4acf4a#64, 0xd9e9e910c9301030#64, 0x0e040406080a060a#64, 0x66fefe81e7988198#64,
  0xaba0a0f05b0bf00b#64, 0xb4787844f0cc44cc#64, 0xf02525ba4ad5bad5#64, 0x754b4be3963ee33e#64, 0xaca2a2f35f0ef30e#64, 0x445d5dfeba19fe19#64,
  0xdb8080c01b5bc05b#64, 0x8005058a0a858a85#64, 0xd33f3fad7eecadec#64, 0xfe2121bc42dfbcdf#64, 0xa8707048e0d848d8#64, 0xfdf1f104f90c040c#64,
  0x196363dfc67adf7a#64, 0x2f7777c1ee58c158#64, 0x30afaf75459f759f#64, 0xe742426384a563a5#64, 0x7020203040503050#64, 0xcbe5e51ad12e1a2e#64,
  0xeffdfd0ee1120e12#64, 0x08bfbf6d65b76db7#64, 0x5581814c19d44cd4#64, 0x24181814303c143c#64, 0x792626354c5f355f#64, 0xb2c3c32f9d712f71#64,
  0x86bebee16738e138#64, 0xc83535a26afda2fd#64, 0xc78888cc0b4fcc4f#64, 0x652e2e395c4b394b#64, 0x6a9393573df957f9#64, 0x585555f2aa0df20d#64,
  0x61fcfc82e39d829d#64, 0xb37a7a47f4c947c9#64, 0x27c8c8ac8befacef#64, 0x88babae76f32e732#64, 0x4f32322b647d2b7d#64, 0x42e6e695d7a495a4#64,
  0x3bc0c0a09bfba0fb#64, 0xaa19199832b398b3#64, 0xf69e9ed12768d168#64, 0x22a3a37f5d817f81#64, 0xee44446688aa66aa#64, 0xd654547ea8827e82#64,
  0xdd3b3bab76e6abe6#64, 0x950b0b83169e839e#64, 0xc98c8cca0345ca45#64, 0xbcc7c729957b297b#64, 0x056b6bd3d66ed36e#64, 0x6c28283c50443c44#64,
  0x2ca7a779558b798b#64, 0x81bcbce2633de23d#64, 0x3116161d2c271d27#64, 0x37adad76419a769a#64, 0x96dbdb3bad4d3b4d#64, 0x9e646456c8fa56fa#64,
  0xa674744ee8d24ed2#64, 0x3614141e28221e22#64, 0xe49292db3f76db76#64, 0x120c0c0a181e0a1e#64, 0xfc48486c90b46cb4#64, 0x8fb8b8e46b37e437#64,
  0x789f9f5d25e75de7#64, 0x0fbdbd6e61b26eb2#64, 0x694343ef862aef2a#64, 0x35c4c4a693f1a6f1#64, 0xda3939a872e3a8e3#64, 0xc63131a462f7a4f7#64,
  0x8ad3d337bd593759#64, 0x74f2f28bff868b86#64, 0x83d5d532b1563256#64, 0x4e8b8b430dc543c5#64, 0x856e6e59dceb59eb#64, 0x18dadab7afc2b7c2#64,
  0x8e01018c028f8c8f#64, 0x1db1b16479ac64ac#64, 0xf19c9cd2236dd26d#64, 0x724949e0923be03b#64, 0x1fd8d8b4abc7b4c7#64, 0xb9acacfa4315fa15#64,
  0xfaf3f307fd090709#64, 0xa0cfcf25856f256f#64, 0x20cacaaf8feaafea#64, 0x7df4f48ef3898e89#64, 0x674747e98e20e920#64, 0x3810101820281828#64,
  0x0b6f6fd5de64d564#64, 0x73f0f088fb838883#64, 0xfb4a4a6f94b16fb1#64, 0xca5c5c72b8967296#64, 0x54383824706c246c#64, 0x5f5757f1ae08f108#64,
  0x217373c7e652c752#64, 0x6497975135f351f3#64, 0xaecbcb238d652365#64, 0x25a1a17c59847c84#64, 0x57e8e89ccbbf9cbf#64, 0x5d3e3e217c632163#64,
  0xea9696dd377cdd7c#64, 0x1e6161dcc27fdc7f#64, 0x9c0d0d861a918691#64, 0x9b0f0f851e948594#64, 0x4be0e090dbab90ab#64, 0xba7c7c42f8c642c6#64,
  0x267171c4e257c457#64, 0x29ccccaa83e5aae5#64, 0xe39090d83b73d873#64, 0x090606050c0f050f#64, 0xf4f7f701f5030103#64, 0x2a1c1c1238361236#64,
  0x3cc2c2a39ffea3fe#64, 0x8b6a6a5fd4e15fe1#64, 0xbeaeaef94710f910#64, 0x026969d0d26bd06b#64, 0xbf1717912ea891a8#64, 0x7199995829e858e8#64,
  0x533a3a2774692769#64, 0xf72727b94ed0b9d0#64, 0x91d9d938a9483848#64, 0xdeebeb13cd351335#64, 0xe52b2bb356ceb3ce#64, 0x7722223344553355#64,
  0x04d2d2bbbfd6bbd6#64, 0x39a9a97049907090#64, 0x870707890e808980#64, 0xc13333a766f2a7f2#64, 0xec2d2db65ac1b6c1#64, 0x5a3c3c2278662266#64,
  0xb81515922aad92ad#64, 0xa9c9c92089602060#64, 0x5c87874915db49db#64, 0xb0aaaaff4f1aff1a#64, 0xd8505078a0887888#64, 0x2ba5a57a518e7a8e#64,
  0x8903038f068a8f8a#64, 0x4a5959f8b213f813#64, 0x92090980129b809b#64, 0x231a1a1734391739#64, 0x106565daca75da75#64, 0x84d7d731b5533153#64,
  0xd58484c61351c651#64, 0x03d0d0b8bbd3b8d3#64, 0xdc8282c31f5ec35e#64, 0xe22929b052cbb0cb#64, 0xc35a5a77b4997799#64, 0x2d1e1e113c331133#64,
  0x3d7b7bcbf646cb46#64, 0xb7a8a8fc4b1ffc1f#64, 0x0c6d6dd6da61d661#64, 0x622c2c3a584e3a4e#64]

/-- sbox.go:466-531 -/
def T7 : List U64 := [0xc6c6a597f4a5f432#64, 0xf8f884eb9784976f#64, 0xeeee99c7b099b05e#64, 0xf6f68df78c8d8c7a#64, 0xffff0de5170d17e8#64, 0xd6d6bdb7dcbddc0a#64,
  0xdedeb1a7c8b1c816#64, 0x91915439fc54fc6d#64, 0x606050c0f050f090#64, 0x0202030405030507#64, 0xcecea987e0a9e02e#64, 0x56567dac877d87d1#64,
  0xe7e719d52b192bcc#64, 0xb5b56271a662a613#64, 0x4d4de69a31e6317c#64, 0xecec9ac3b59ab559#64, 0x8f8f4505cf45cf40#64, 0x1f1f9d3ebc9dbca3#64,
  0x89894009c040c049#64, 0xfafa87ef92879268#64, 0xefef15c53f153fd0#64, 0xb2b2eb7f26eb2694#64, 0x8e8ec90740c940ce#64, 0xfbfb0bed1d0b1de6#64,
  0x4141ec822fec2f6e#64, 0xb3b3677da967a91a#64, 0x5f5ffdbe1cfd1c43#64, 0x4545ea8a25ea2560#64, 0x2323bf46dabfdaf9#64, 0x5353f7a602f70251#64,
  0xe4e496d3a196a145#64, 0x9b9b5b2ded5bed76#64, 0x7575c2ea5dc25d28#64, 0xe1e11cd9241c24c5#64, 0x3d3dae7ae9aee9d4#64, 0x4c4c6a98be6abef2#64,
  0x6c6c5ad8ee5aee82#64, 0x7e7e41fcc341c3bd#64, 0xf5f502f1060206f3#64, 0x83834f1dd14fd152#64, 0x68685cd0e45ce48c#64, 0x5151f4a207f40756#64,
  0xd1d134b95c345c8d#64, 0xf9f908e9180818e1#64, 0xe2e293dfae93ae4c#64, 0xabab734d9573953e#64, 0x626253c4f553f597#64, 0x2a2a3f54413f416b#64,
  0x08080c10140c141c#64, 0x95955231f652f663#64, 0x4646658caf65afe9#64, 0x9d9d5e21e25ee27f#64, 0x3030286078287848#64, 0x3737a16ef8a1f8cf#64,
  0x0a0a0f14110f111b#64, 0x2f2fb55ec4b5c4eb#64, 0x0e0e091c1b091b15#64, 0x242436485a365a7e#64, 0x1b1b9b36b69bb6ad#64, 0xdfdf3da5473d4798#64,
  0xcdcd26816a266aa7#64, 0x4e4e699cbb69bbf5#64, 0x7f7fcdfe4ccd4c33#64, 0xeaea9fcfba9fba50#64, 0x12121b242d1b2d3f#64, 0x1d1d9e3ab99eb9a4#64,
  0x585874b09c749cc4#64, 0x34342e68722e7246#64, 0x36362d6c772d7741#64, 0xdcdcb2a3cdb2cd11#64, 0xb4b4ee7329ee299d#64, 0x5b5bfbb616fb164d#64,
  0xa4a4f65301f601a5#64, 0x76764decd74dd7a1#64, 0xb7b76175a361a314#64, 0x7d7dcefa49ce4934#64, 0x52527ba48d7b8ddf#64, 0xdddd3ea1423e429f#64,
  0x5e5e71bc937193cd#64, 0x13139726a297a2b1#64, 0xa6a6f55704f504a2#64, 0xb9b96869b868b801#64, 0x0000000000000000#64, 0xc1c12c99742c74b5#64,
  0x40406080a060a0e0#64, 0xe3e31fdd211f21c2#64, 0x7979c8f243c8433a#64, 0xb6b6ed772ced2c9a#64, 0xd4d4beb3d9bed90d#64, 0x8d8d4601ca46ca47#64,
  0x6767d9ce70d97017#64, 0x72724be4dd4bddaf#64, 0x9494de3379de79ed#64, 0x9898d42b67d467ff#64, 0xb0b0e87b23e82393#64, 0x85854a11de4ade5b#64,
  0xbbbb6b6dbd6bbd06#64, 0xc5c52a917e2a7ebb#64, 0x4f4fe59e34e5347b#64, 0xeded16c13a163ad7#64, 0x8686c51754c554d2#64, 0x9a9ad72f62d762f8#64,
  0x666655ccff55ff99#64, 0x11119422a794a7b6#64, 0x8a8acf0f4acf4ac0#64, 0xe9e910c9301030d9#64, 0x040406080a060a0e#64, 0xfefe81e798819866#64,
  0xa0a0f05b0bf00bab#64, 0x787844f0cc44ccb4#64, 0x2525ba4ad5bad5f0#64, 0x4b4be3963ee33e75#64, 0xa2a2f35f0ef30eac#64, 0x5d5dfeba19fe1944#64,
  0x8080c01b5bc05bdb#64, 0x05058a0a858a8580#64, 0x3f3fad7eecadecd3#64, 0x2121bc42dfbcdffe#64, 0x707048e0d848d8a8#64, 0xf1f104f90c040cfd#64,
  0x6363dfc67adf7a19#64, 0x7777c1ee58c1582f#64, 0xafaf75459f759f30#64, 0x42426384a563a5e7#64, 0x2020304050305070#64, 0xe5e51ad12e1a2ecb#64,
  0xfdfd0ee1120e12ef#64, 0xbfbf6d65b76db708#64, 0x81814c19d44cd455#64, 0x181814303c143c24#64, 0x2626354c5f355f79#64, 0xc3c32f9d712f71b2#64,
  0xbebee16738e13886#64, 0x3535a26afda2fdc8#64, 0x8888cc0b4fcc4fc7#64, 0x2e2e395c4b394b65#64, 0x9393573df957f96a#64, 0x5555f2aa0df20d58#64,
  0xfcfc82e39d829d61#64, 0x7a7a47f4c947c9b3#64, 0xc8c8ac8befacef27#64, 0xbabae76f32e73288#64, 0x32322b647d2b7d4f#64, 0xe6e695d7a495a442#64,
  0xc0c0a09bfba0fb3b#64, 0x19199832b398b3aa#64, 0x9e9ed12768d168f6#64, 0xa3a37f5d817f8122#64, 0x44446688aa66aaee#64, 0x54547ea8827e82d6#64,
  0x3b3bab76e6abe6dd#64, 0x0b0b83169e839e95#64, 0x8c8cca0345ca45c9#64, 0xc7c729957b297bbc#64, 0x6b6bd3d66ed36e05#64, 0x28283c50443c446c#64,
  0xa7a779558b798b2c#64, 0xbcbce2633de23d81#64, 0x16161d2c271d2731#64, 0xadad76419a769a37#64, 0xdbdb3bad4d3b4d96#64, 0x646456c8fa56fa9e#64,
  0x74744ee8d24ed2a6#64, 0x14141e28221e2236#64, 0x9292db3f76db76e4#64, 0x0c0c0a181e0a1e12#64, 0x48486c90b46cb4fc#64, 0xb8b8e46b37e4378f#64,
  0x9f9f5d25e75de778#64, 0xbdbd6e61b26eb20f#64, 0x4343ef862aef2a69#64, 0xc4c4a693f1a6f135#64, 0x3939a872e3a8e3da#64, 0x3131a462f7a4f7c6#64,
  0xd3d337bd5937598a#64, 0xf2f28bff868b8674#64, 0xd5d532b156325683#64, 0x8b8b430dc543c54e#64, 0x6e6e59dceb59eb85#64, 0xdadab7afc2b7c218#64,
  0x01018c028f8c8f8e#64, 0xb1b16479ac64ac1d#64, 0x9c9cd2236dd26df1#64, 0x4949e0923be03b72#64, 0xd8d8b4abc7b4c71f#64, 0xacacfa4315fa15b9#64,
  0xf3f307fd090709fa#64, 0xcfcf25856f256fa0#64, 0xcacaaf8feaafea20#64, 0xf4f48ef3898e897d#64, 0x4747e98e20e92067#64, 0x1010182028182838#64,
  0x6f6fd5de64d5640b#64, 0xf0f088fb83888373#64, 0x4a4a6f94b16fb1fb#64, 0x5c5c72b8967296ca#64, 0x383824706c246c54#64, 0x5757f1ae08f1085f#64,
  0x7373c7e652c75221#64, 0x97975135f351f364#64, 0xcbcb238d652365ae#64, 0xa1a17c59847c8425#64, 0xe8e89ccbbf9cbf57#64, 0x3e3e217c6321635d#64,
  0x9696dd377cdd7cea#64, 0x6161dcc27fdc7f1e#64, 0x0d0d861a9186919c#64, 0x0f0f851e9485949b#64, 0xe0e090dbab90ab4b#64, 0x7c7c42f8c642c6ba#64,
  0x7171c4e257c45726#64, 0xccccaa83e5aae529#64, 0x9090d83b73d873e3#64, 0x0606050c0f050f09#64, 0xf7f701f5030103f4#64, 0x1c1c12383612362a#64,
  0xc2c2a39ffea3fe3c#64, 0x6a6a5fd4e15fe18b#64, 0xaeaef94710f910be#64, 0x6969d0d26bd06b02#64, 0x1717912ea891a8bf#64, 0x99995829e858e871#64,
  0x3a3a277469276953#64, 0x2727b94ed0b9d0f7#64, 0xd9d938a948384891#64, 0xebeb13cd351335de#64, 0x2b2bb356ceb3cee5#64, 0x2222334455335577#64,
  0xd2d2bbbfd6bbd604#64, 0xa9a9704990709039#64, 0x0707890e80898087#64, 0x3333a766f2a7f2c1#64, 0x2d2db65ac1b6c1ec#64, 0x3c3c22786622665a#64,
  0x1515922aad92adb8#64, 0xc9c92089602060a9#64, 0x87874915db49db5c#64, 0xaaaaff4f1aff1ab0#64, 0x505078a0887888d8#64, 0xa5a57a518e7a8e2b#64,
  0x03038f068a8f8a89#64, 0x5959f8b213f8134a#64, 0x090980129b809b92#64, 0x1a1a173439173923#64, 0x6565daca75da7510#64, 0xd7d731b553315384#64,
  0x8484c61351c651d5#64, 0xd0d0b8bbd3b8d303#64, 0x8282c31f5ec35edc#64, 0x2929b052cbb0cbe2#64, 0x5a5a77b4997799c3#64, 0x1e1e113c3311332d#64,
  0x7b7bcbf646cb463d#64, 0xa8a8fc4b1ffc1fb7#64, 0x6d6dd6da61d6610c#64, 0x2c2c3a584e3a4e62#64]


/-- T[k][v], sbox.go:3-532. -/
def t (k : Nat) (v : Byte) : U64 :=
  (match k with | 0 => T0 | 1 => T1 | 2 => T2 | 3 => T3 | 4 => T4 | 5 => T5 | 6 => T6 | _ => T7).getD v.toNat 0

/-- `byte(w >> (8k))`. -/
def byteAt (w : U64) (k : Nat) : Byte := (w >>> (8 * k)).setWidth 8

/-- utils.go:15-26 -/
def bytesToUint64s (b : Bytes) : List U64 := (List.range (b.length / 8)).map fun i => getLE64 b (8 * i)
/-- utils.go:28-39 -/
def uint64sToBytes (w : List U64) : Bytes := (w.map le64).flatten
/-- utils.go:41-50 -/
def swap_uint64 (val : U64) : U64 :=
  ((val &&& 0xff00000000000000) >>> 56) ||| ((val &&& 0x00ff000000000000) >>> 40) ||| ((val &&& 0x0000ff0000000000) >>> 24) |||
  ((val &&& 0x000000ff00000000) >>> 8) ||| ((val &&& 0x00000000ff000000) <<< 8) ||| ((val &&& 0x0000000000ff0000) <<< 24) |||
  ((val &&& 0x000000000000ff00) <<< 40) ||| ((val &&& 0x00000000000000ff) <<< 56)

/-- The first loop of the rounds: `x[idx] ^= k idx`. -/
def addK (n : Nat) (k : Nat → U64) (x : List U64) : List U64 := (List.range n).map fun idx => x.getD idx 0 ^^^ k idx

/-- utils.go:52-69 -/
def roundP_256 (x : List U64) (i : U64) : List U64 :=
  let n := 8
  let x := addK n (fun idx => (BitVec.ofNat 64 idx <<< 4) ^^^ i) x
  (List.range n).map fun c => t 0 (byteAt (x.getD ((c + 0) % n) 0) 0) ^^^
    t 1 (byteAt (x.getD ((c + 1) % n) 0) 1) ^^^
    t 2 (byteAt (x.getD ((c + 2) % n) 0) 2) ^^^
    t 3 (byteAt (x.getD ((c + 3) % n) 0) 3) ^^^
    t 4 (byteAt (x.getD ((c + 4) % n) 0) 4) ^^^
    t 5 (byteAt (x.getD ((c + 5) % n) 0) 5) ^^^
    t 6 (byteAt (x.getD ((c + 6) % n) 0) 6) ^^^
    t 7 (byteAt (x.getD ((c + 7) % n) 0) 7)
/-- utils.go:71-88 -/
def roundQ_256 (x : List U64) (i : U64) : List U64 :=
  let n := 8
  let x := addK n (fun idx => (0xffffffffffffffff - (BitVec.ofNat 64 idx <<< 60)) ^^^ i) x
  (List.range n).map fun c => t 0 (byteAt (x.getD ((c + 1) % n) 0) 0) ^^^
    t 1 (byteAt (x.getD ((c + 3) % n) 0) 1) ^^^
    t 2 (byteAt (x.getD ((c + 5) % n) 0) 2) ^^^
    t 3 (byteAt (x.getD ((c + 7) % n) 0) 3) ^^^
    t 4 (byteAt (x.getD ((c + 0) % n) 0) 4) ^^^
    t 5 (byteAt (x.getD ((c + 2) % n) 0) 5) ^^^
    t 6 (byteAt (x.getD ((c + 4) % n) 0) 6) ^^^
    t 7 (byteAt (x.getD ((c + 6) % n) 0) 7)
/-- utils.go:90-107 -/
def roundP_512 (x : List U64) (i : U64) : List U64 :=
  let n := 16
  let x := addK n (fun idx => (BitVec.ofNat 64 idx <<< 4) ^^^ i) x
  (List.range n).map fun c => t 0 (byteAt (x.getD ((c + 0) % n) 0) 0) ^^^
    t 1 (byteAt (x.getD ((c + 1) % n) 0) 1) ^^^
    t 2 (byteAt (x.getD ((c + 2) % n) 0) 2) ^^^
    t 3 (byteAt (x.getD ((c + 3) % n) 0) 3) ^^^
    t 4 (byteAt (x.getD ((c + 4) % n) 0) 4) ^^^
    t 5 (byteAt (x.getD ((c + 5) % n) 0) 5) ^^^
    t 6 (byteAt (x.getD ((c + 6) % n) 0) 6) ^^^
    t 7 (byteAt (x.getD ((c + 11) % n) 0) 7)
/-- utils.go:109-126 -/
def roundQ_512 (x : List U64) (i : U64) : List U64 :=
  let n := 16
  let x := addK n (fun idx => (0xffffffffffffffff - (BitVec.ofNat 64 idx <<< 60)) ^^^ i) x
  (List.range n).map fun c => t 0 (byteAt (x.getD ((c + 1) % n) 0) 0) ^^^
    t 1 (byteAt (x.getD ((c + 3) % n) 0) 1) ^^^
    t 2 (byteAt (x.getD ((c + 5) % n) 0) 2) ^^^
    t 3 (byteAt (x.getD ((c + 11) % n) 0) 3) ^^^
    t 4 (byteAt (x.getD ((c + 0) % n) 0) 4) ^^^
    t 5 (byteAt (x.getD ((c + 2) % n) 0) 5) ^^^
    t 6 (byteAt (x.getD ((c + 4) % n) 0) 6) ^^^
    t 7 (byteAt (x.getD ((c + 6) % n) 0) 7)

def xorW (a b : List U64) : List U64 := List.zipWith (· ^^^ ·) a b

/-- utils.go:128-150: the first eight words of h change. -/
def transform256 (h m : List U64) : List U64 :=
  let AP := xorW (h.take 8) (m.take 8)
  let AQ := m.take 8
  let (AP, AQ) := (List.range 5).foldl (fun (s : List U64 × List U64) k =>
    let r := BitVec.ofNat 64 (2 * k)
    (roundP_256 (roundP_256 s.1 r) (r + 1), roundQ_256 (roundQ_256 s.2 (r <<< 56)) ((r + 1) <<< 56))) (AP, AQ)
  xorW (xorW AP AQ) (h.take 8) ++ h.drop 8
/-- utils.go:152-174 -/
def transform512 (h m : List U64) : List U64 :=
  let AP := xorW h m
  let AQ := m
  let (AP, AQ) := (List.range 7).foldl (fun (s : List U64 × List U64) k =>
    let r := BitVec.ofNat 64 (2 * k)
    (roundP_512 (roundP_512 s.1 r) (r + 1), roundQ_512 (roundQ_512 s.2 (r <<< 56)) ((r + 1) <<< 56))) (AP, AQ)
  xorW (xorW AP AQ) h
/-- utils.go:176-194 -/
def outputTransform256 (h : List U64) : List U64 :=
  let t1 := (List.range 5).foldl (fun s k => let r := BitVec.ofNat 64 (2 * k); roundP_256 (roundP_256 s r) (r + 1)) (h.take 8)
  xorW (h.take 8) t1 ++ h.drop 8
/-- utils.go:196-214 -/
def outputTransform512 (h : List U64) : List U64 :=
  let t1 := (List.range 7).foldl (fun s k => let r := BitVec.ofNat 64 (2 * k); roundP_512 (roundP_512 s r) (r + 1)) h
  xorW h t1

/-- digest.go:17-24; hs is Go's int. -/
structure Digest where
  s : List U64
  x : Bytes
  nx : Nat
  len : U64
  hs : Int
  bs : Nat
  deriving DecidableEq

/-- digest.go:45-66 -/
def Digest.reset (d : Digest) : Digest :=
  { d with
    bs := if d.hs > 256 then 1024 else 512
    nx := 0
    len := 0
    x := zeros 128
    s := if d.hs > 256 then (List.replicate 16 0).set 15 (swap_uint64 (BitVec.ofInt 64 d.hs)) else (List.replicate 16 0).set 7 (swap_uint64 (BitVec.ofInt 64 d.hs)) }

/-- digest.go:27-43: `none` is an error; Go's % truncates. -/
def new (hashsize : Int) : Option Digest :=
  if hashsize = 0 then none
  else if hashsize.tmod 8 > 0 then none
  else if hashsize > 512 then none
  else some (Digest.reset { s := [], x := [], nx := 0, len := 0, hs := hashsize, bs := 0 })

/-- digest.go:142-150 -/
def transform (bs : Nat) (s : List U64) (x : Bytes) : List U64 :=
  let xx := bytesToUint64s x
  if bs = 512 then transform256 s xx else transform512 s xx
/-- digest.go:152-158 -/
def outputTransform (bs : Nat) (s : List U64) : List U64 := if bs = 512 then outputTransform256 s else outputTransform512 s

/-- digest.go:76-101 -/
def Digest.write (d : Digest) (p : Bytes) : Digest × Nat :=
  let limit := d.bs / 8
  let r := loopWrite limit (fun (s : List U64 × U64) x xx => (transform d.bs s.1 x, s.2 + BitVec.ofNat 64 xx * 8))
    (fun s plen => (s.1, s.2 + BitVec.ofNat 64 plen * 8)) (p.length + 1) (d.s, d.len) d.x d.nx p
  ({ d with s := r.1.1, len := r.1.2, x := r.2.1, nx := r.2.2 }, p.length)

/-- digest.go:110-140: `none` is the panic of the slice expression. -/
def Digest.checkSum (d : Digest) : Option Bytes :=
  let x := d.x.set d.nx 0x80
  let nx := d.nx + 1
  let len := d.len + 8
  let limit := d.bs / 8
  let zs := zeros limit
  let (s, x, len, nx) := if nx > limit - 8 then
      let x := goCopy x nx zs
      (transform d.bs d.s x, x, len + (BitVec.ofNat 64 d.bs - BitVec.ofNat 64 nx * 8), 0)
    else (d.s, x, len, nx)
  let x := goCopy x nx zs
  let len := len + (BitVec.ofNat 64 d.bs - BitVec.ofNat 64 nx * 8)
  let mlen := swap_uint64 (len / BitVec.ofNat 64 d.bs)
  let x := goCopy x (limit - 8) (le64 mlen)
  let s := transform d.bs s x
  let s := outputTransform d.bs s
  let ss := uint64sToBytes s
  let lo : Int := limit - d.hs.tdiv 8
  if lo < 0 ∨ lo > limit then none else some ((ss.take limit).drop lo.toNat)

/-- digest.go:103-108 for Sum (a copy of the digest), 68-74 for the sizes. -/
def impl : HashImpl Digest where
  write d p := some (d.write p)
  sum d b := d.checkSum.map fun r => (d, b ++ r)
  reset := Digest.reset
  size d := (d.hs.tdiv 8).toNat
  blockSize d := d.bs / 8

end Verif.Groestl
