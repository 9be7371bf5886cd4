import Verif.HashAPI
import Verif.LoopBuf
/-
Package shavite.  The tables are generated from the Go text (sbox.go).
The round key array rk is filled in increasing order and read only below the fill mark `u`; it is modelled by the list of the words filled so far.
-/
namespace Verif.Shavite

abbrev Q := U32 × U32 × U32 × U32

/-- shavite/sbox.go:29-94 -/
def AES0 : List U32 :=
  [0xa56363c6#32, 0x847c7cf8#32, 0x997777ee#32, 0x8d7b7bf6#32, 0x0df2f2ff#32, 0xbd6b6bd6#32, 0xb16f6fde#32, 0x54c5c591#32,
  0x50303060#32, 0x03010102#32, 0xa96767ce#32, 0x7d2b2b56#32, 0x19fefee7#32, 0x62d7d7b5#32, 0xe6abab4d#32, 0x9a7676ec#32,
  0x45caca8f#32, 0x9d82821f#32, 0x40c9c989#32, 0x877d7dfa#32, 0x15fafaef#32, 0xeb5959b2#32, 0xc947478e#32, 0x0bf0f0fb#32,
  0xecadad41#32, 0x67d4d4b3#32, 0xfda2a25f#32, 0xeaafaf45#32, 0xbf9c9c23#32, 0xf7a4a453#32, 0x967272e4#32, 0x5bc0c09b#32,
  0xc2b7b775#32, 0x1cfdfde1#32, 0xae93933d#32, 0x6a26264c#32, 0x5a36366c#32, 0x413f3f7e#32, 0x02f7f7f5#32, 0x4fcccc83#32,
  0x5c343468#32, 0xf4a5a551#32, 0x34e5e5d1#32, 0x08f1f1f9#32, 0x937171e2#32, 0x73d8d8ab#32, 0x53313162#32, 0x3f15152a#32,
  0x0c040408#32, 0x52c7c795#32, 0x65232346#32, 0x5ec3c39d#32, 0x28181830#32, 0xa1969637#32, 0x0f05050a#32, 0xb59a9a2f#32,
  0x0907070e#32, 0x36121224#32, 0x9b80801b#32, 0x3de2e2df#32, 0x26ebebcd#32, 0x6927274e#32, 0xcdb2b27f#32, 0x9f7575ea#32,
  0x1b090912#32, 0x9e83831d#32, 0x742c2c58#32, 0x2e1a1a34#32, 0x2d1b1b36#32, 0xb26e6edc#32, 0xee5a5ab4#32, 0xfba0a05b#32,
  0xf65252a4#32, 0x4d3b3b76#32, 0x61d6d6b7#32, 0xceb3b37d#32, 0x7b292952#32, 0x3ee3e3dd#32, 0x712f2f5e#32, 0x97848413#32,
  0xf55353a6#32, 0x68d1d1b9#32, 0x00000000#32, 0x2cededc1#32, 0x60202040#32, 0x1ffcfce3#32, 0xc8b1b179#32, 0xed5b5bb6#32,
  0xbe6a6ad4#32, 0x46cbcb8d#32, 0xd9bebe67#32, 0x4b393972#32, 0xde4a4a94#32, 0xd44c4c98#32, 0xe85858b0#32, 0x4acfcf85#32,
  0x6bd0d0bb#32, 0x2aefefc5#32, 0xe5aaaa4f#32, 0x16fbfbed#32, 0xc5434386#32, 0xd74d4d9a#32, 0x55333366#32, 0x94858511#32,
  0xcf45458a#32, 0x10f9f9e9#32, 0x06020204#32, 0x817f7ffe#32, 0xf05050a0#32, 0x443c3c78#32, 0xba9f9f25#32, 0xe3a8a84b#32,
  0xf35151a2#32, 0xfea3a35d#32, 0xc0404080#32, 0x8a8f8f05#32, 0xad92923f#32, 0xbc9d9d21#32, 0x48383870#32, 0x04f5f5f1#32,
  0xdfbcbc63#32, 0xc1b6b677#32, 0x75dadaaf#32, 0x63212142#32, 0x30101020#32, 0x1affffe5#32, 0x0ef3f3fd#32, 0x6dd2d2bf#32,
  0x4ccdcd81#32, 0x140c0c18#32, 0x35131326#32, 0x2fececc3#32, 0xe15f5fbe#32, 0xa2979735#32, 0xcc444488#32, 0x3917172e#32,
  0x57c4c493#32, 0xf2a7a755#32, 0x827e7efc#32, 0x473d3d7a#32, 0xac6464c8#32, 0xe75d5dba#32, 0x2b191932#32, 0x957373e6#32,
  0xa06060c0#32, 0x98818119#32, 0xd14f4f9e#32, 0x7fdcdca3#32, 0x66222244#32, 0x7e2a2a54#32, 0xab90903b#32, 0x8388880b#32,
  0xca46468c#32, 0x29eeeec7#32, 0xd3b8b86b#32, 0x3c141428#32, 0x79dedea7#32, 0xe25e5ebc#32, 0x1d0b0b16#32, 0x76dbdbad#32,
  0x3be0e0db#32, 0x56323264#32, 0x4e3a3a74#32, 0x1e0a0a14#32, 0xdb494992#32, 0x0a06060c#32, 0x6c242448#32, 0xe45c5cb8#32,
  0x5dc2c29f#32, 0x6ed3d3bd#32, 0xefacac43#32, 0xa66262c4#32, 0xa8919139#32, 0xa4959531#32, 0x37e4e4d3#32, 0x8b7979f2#32,
  0x32e7e7d5#32, 0x43c8c88b#32, 0x5937376e#32, 0xb76d6dda#32, 0x8c8d8d01#32, 0x64d5d5b1#32, 0xd24e4e9c#32, 0xe0a9a949#32,
  0xb46c6cd8#32, 0xfa5656ac#32, 0x07f4f4f3#32, 0x25eaeacf#32, 0xaf6565ca#32, 0x8e7a7af4#32, 0xe9aeae47#32, 0x18080810#32,
  0xd5baba6f#32, 0x887878f0#32, 0x6f25254a#32, 0x722e2e5c#32, 0x241c1c38#32, 0xf1a6a657#32, 0xc7b4b473#32, 0x51c6c697#32,
  0x23e8e8cb#32, 0x7cdddda1#32, 0x9c7474e8#32, 0x211f1f3e#32, 0xdd4b4b96#32, 0xdcbdbd61#32, 0x868b8b0d#32, 0x858a8a0f#32,
  0x907070e0#32, 0x423e3e7c#32, 0xc4b5b571#32, 0xaa6666cc#32, 0xd8484890#32, 0x05030306#32, 0x01f6f6f7#32, 0x120e0e1c#32,
  0xa36161c2#32, 0x5f35356a#32, 0xf95757ae#32, 0xd0b9b969#32, 0x91868617#32, 0x58c1c199#32, 0x271d1d3a#32, 0xb99e9e27#32,
  0x38e1e1d9#32, 0x13f8f8eb#32, 0xb398982b#32, 0x33111122#32, 0xbb6969d2#32, 0x70d9d9a9#32, 0x898e8e07#32, 0xa7949433#32,
  0xb69b9b2d#32, 0x221e1e3c#32, 0x92878715#32, 0x20e9e9c9#32, 0x49cece87#32, 0xff5555aa#32, 0x78282850#32, 0x7adfdfa5#32,
  0x8f8c8c03#32, 0xf8a1a159#32, 0x80898909#32, 0x170d0d1a#32, 0xdabfbf65#32, 0x31e6e6d7#32, 0xc6424284#32, 0xb86868d0#32,
  0xc3414182#32, 0xb0999929#32, 0x772d2d5a#32, 0x110f0f1e#32, 0xcbb0b07b#32, 0xfc5454a8#32, 0xd6bbbb6d#32, 0x3a16162c#32]
/-- shavite/sbox.go:96-161 -/
def AES1 : List U32 :=
  [0x6363c6a5#32, 0x7c7cf884#32, 0x7777ee99#32, 0x7b7bf68d#32, 0xf2f2ff0d#32, 0x6b6bd6bd#32, 0x6f6fdeb1#32, 0xc5c59154#32,
  0x30306050#32, 0x01010203#32, 0x6767cea9#32, 0x2b2b567d#32, 0xfefee719#32, 0xd7d7b562#32, 0xabab4de6#32, 0x7676ec9a#32,
  0xcaca8f45#32, 0x82821f9d#32, 0xc9c98940#32, 0x7d7dfa87#32, 0xfafaef15#32, 0x5959b2eb#32, 0x47478ec9#32, 0xf0f0fb0b#32,
  0xadad41ec#32, 0xd4d4b367#32, 0xa2a25ffd#32, 0xafaf45ea#32, 0x9c9c23bf#32, 0xa4a453f7#32, 0x7272e496#32, 0xc0c09b5b#32,
  0xb7b775c2#32, 0xfdfde11c#32, 0x93933dae#32, 0x26264c6a#32, 0x36366c5a#32, 0x3f3f7e41#32, 0xf7f7f502#32, 0xcccc834f#32,
  0x3434685c#32, 0xa5a551f4#32, 0xe5e5d134#32, 0xf1f1f908#32, 0x7171e293#32, 0xd8d8ab73#32, 0x31316253#32, 0x15152a3f#32,
  0x0404080c#32, 0xc7c79552#32, 0x23234665#32, 0xc3c39d5e#32, 0x18183028#32, 0x969637a1#32, 0x05050a0f#32, 0x9a9a2fb5#32,
  0x07070e09#32, 0x12122436#32, 0x80801b9b#32, 0xe2e2df3d#32, 0xebebcd26#32, 0x27274e69#32, 0xb2b27fcd#32, 0x7575ea9f#32,
  0x0909121b#32, 0x83831d9e#32, 0x2c2c5874#32, 0x1a1a342e#32, 0x1b1b362d#32, 0x6e6edcb2#32, 0x5a5ab4ee#32, 0xa0a05bfb#32,
  0x5252a4f6#32, 0x3b3b764d#32, 0xd6d6b761#32, 0xb3b37dce#32, 0x2929527b#32, 0xe3e3dd3e#32, 0x2f2f5e71#32, 0x84841397#32,
  0x5353a6f5#32, 0xd1d1b968#32, 0x00000000#32, 0xededc12c#32, 0x20204060#32, 0xfcfce31f#32, 0xb1b179c8#32, 0x5b5bb6ed#32,
  0x6a6ad4be#32, 0xcbcb8d46#32, 0xbebe67d9#32, 0x3939724b#32, 0x4a4a94de#32, 0x4c4c98d4#32, 0x5858b0e8#32, 0xcfcf854a#32,
  0xd0d0bb6b#32, 0xefefc52a#32, 0xaaaa4fe5#32, 0xfbfbed16#32, 0x434386c5#32, 0x4d4d9ad7#32, 0x33336655#32, 0x85851194#32,
  0x45458acf#32, 0xf9f9e910#32, 0x02020406#32, 0x7f7ffe81#32, 0x5050a0f0#32, 0x3c3c7844#32, 0x9f9f25ba#32, 0xa8a84be3#32,
  0x5151a2f3#32, 0xa3a35dfe#32, 0x404080c0#32, 0x8f8f058a#32, 0x92923fad#32, 0x9d9d21bc#32, 0x38387048#32, 0xf5f5f104#32,
  0xbcbc63df#32, 0xb6b677c1#32, 0xdadaaf75#32, 0x21214263#32, 0x10102030#32, 0xffffe51a#32, 0xf3f3fd0e#32, 0xd2d2bf6d#32,
  0xcdcd814c#32, 0x0c0c1814#32, 0x13132635#32, 0xececc32f#32, 0x5f5fbee1#32, 0x979735a2#32, 0x444488cc#32, 0x17172e39#32,
  0xc4c49357#32, 0xa7a755f2#32, 0x7e7efc82#32, 0x3d3d7a47#32, 0x6464c8ac#32, 0x5d5dbae7#32, 0x1919322b#32, 0x7373e695#32,
  0x6060c0a0#32, 0x81811998#32, 0x4f4f9ed1#32, 0xdcdca37f#32, 0x22224466#32, 0x2a2a547e#32, 0x90903bab#32, 0x88880b83#32,
  0x46468cca#32, 0xeeeec729#32, 0xb8b86bd3#32, 0x1414283c#32, 0xdedea779#32, 0x5e5ebce2#32, 0x0b0b161d#32, 0xdbdbad76#32,
  0xe0e0db3b#32, 0x32326456#32, 0x3a3a744e#32, 0x0a0a141e#32, 0x494992db#32, 0x06060c0a#32, 0x2424486c#32, 0x5c5cb8e4#32,
  0xc2c29f5d#32, 0xd3d3bd6e#32, 0xacac43ef#32, 0x6262c4a6#32, 0x919139a8#32, 0x959531a4#32, 0xe4e4d337#32, 0x7979f28b#32,
  0xe7e7d532#32, 0xc8c88b43#32, 0x37376e59#32, 0x6d6ddab7#32, 0x8d8d018c#32, 0xd5d5b164#32, 0x4e4e9cd2#32, 0xa9a949e0#32,
  0x6c6cd8b4#32, 0x5656acfa#32, 0xf4f4f307#32, 0xeaeacf25#32, 0x6565caaf#32, 0x7a7af48e#32, 0xaeae47e9#32, 0x08081018#32,
  0xbaba6fd5#32, 0x7878f088#32, 0x25254a6f#32, 0x2e2e5c72#32, 0x1c1c3824#32, 0xa6a657f1#32, 0xb4b473c7#32, 0xc6c69751#32,
  0xe8e8cb23#32, 0xdddda17c#32, 0x7474e89c#32, 0x1f1f3e21#32, 0x4b4b96dd#32, 0xbdbd61dc#32, 0x8b8b0d86#32, 0x8a8a0f85#32,
  0x7070e090#32, 0x3e3e7c42#32, 0xb5b571c4#32, 0x6666ccaa#32, 0x484890d8#32, 0x03030605#32, 0xf6f6f701#32, 0x0e0e1c12#32,
  0x6161c2a3#32, 0x35356a5f#32, 0x5757aef9#32, 0xb9b969d0#32, 0x86861791#32, 0xc1c19958#32, 0x1d1d3a27#32, 0x9e9e27b9#32,
  0xe1e1d938#32, 0xf8f8eb13#32, 0x98982bb3#32, 0x11112233#32, 0x6969d2bb#32, 0xd9d9a970#32, 0x8e8e0789#32, 0x949433a7#32,
  0x9b9b2db6#32, 0x1e1e3c22#32, 0x87871592#32, 0xe9e9c920#32, 0xcece8749#32, 0x5555aaff#32, 0x28285078#32, 0xdfdfa57a#32,
  0x8c8c038f#32, 0xa1a159f8#32, 0x89890980#32, 0x0d0d1a17#32, 0xbfbf65da#32, 0xe6e6d731#32, 0x424284c6#32, 0x6868d0b8#32,
  0x414182c3#32, 0x999929b0#32, 0x2d2d5a77#32, 0x0f0f1e11#32, 0xb0b07bcb#32, 0x5454a8fc#32, 0xbbbb6dd6#32, 0x16162c3a#32]
/-- shavite/sbox.go:163-228 -/
def AES2 : List U32 :=
  [0x63c6a563#32, 0x7cf8847c#32, 0x77ee9977#32, 0x7bf68d7b#32, 0xf2ff0df2#32, 0x6bd6bd6b#32, 0x6fdeb16f#32, 0xc59154c5#32,
  0x30605030#32, 0x01020301#32, 0x67cea967#32, 0x2b567d2b#32, 0xfee719fe#32, 0xd7b562d7#32, 0xab4de6ab#32, 0x76ec9a76#32,
  0xca8f45ca#32, 0x821f9d82#32, 0xc98940c9#32, 0x7dfa877d#32, 0xfaef15fa#32, 0x59b2eb59#32, 0x478ec947#32, 0xf0fb0bf0#32,
  0xad41ecad#32, 0xd4b367d4#32, 0xa25ffda2#32, 0xaf45eaaf#32, 0x9c23bf9c#32, 0xa453f7a4#32, 0x72e49672#32, 0xc09b5bc0#32,
  0xb775c2b7#32, 0xfde11cfd#32, 0x933dae93#32, 0x264c6a26#32, 0x366c5a36#32, 0x3f7e413f#32, 0xf7f502f7#32, 0xcc834fcc#32,
  0x34685c34#32, 0xa551f4a5#32, 0xe5d134e5#32, 0xf1f908f1#32, 0x71e29371#32, 0xd8ab73d8#32, 0x31625331#32, 0x152a3f15#32,
  0x04080c04#32, 0xc79552c7#32, 0x23466523#32, 0xc39d5ec3#32, 0x18302818#32, 0x9637a196#32, 0x050a0f05#32, 0x9a2fb59a#32,
  0x070e0907#32, 0x12243612#32, 0x801b9b80#32, 0xe2df3de2#32, 0xebcd26eb#32, 0x274e6927#32, 0xb27fcdb2#32, 0x75ea9f75#32,
  0x09121b09#32, 0x831d9e83#32, 0x2c58742c#32, 0x1a342e1a#32, 0x1b362d1b#32, 0x6edcb26e#32, 0x5ab4ee5a#32, 0xa05bfba0#32,
  0x52a4f652#32, 0x3b764d3b#32, 0xd6b761d6#32, 0xb37dceb3#32, 0x29527b29#32, 0xe3dd3ee3#32, 0x2f5e712f#32, 0x84139784#32,
  0x53a6f553#32, 0xd1b968d1#32, 0x00000000#32, 0xedc12ced#32, 0x20406020#32, 0xfce31ffc#32, 0xb179c8b1#32, 0x5bb6ed5b#32,
  0x6ad4be6a#32, 0xcb8d46cb#32, 0xbe67d9be#32, 0x39724b39#32, 0x4a94de4a#32, 0x4c98d44c#32, 0x58b0e858#32, 0xcf854acf#32,
  0xd0bb6bd0#32, 0xefc52aef#32, 0xaa4fe5aa#32, 0xfbed16fb#32, 0x4386c543#32, 0x4d9ad74d#32, 0x33665533#32, 0x85119485#32,
  0x458acf45#32, 0xf9e910f9#32, 0x02040602#32, 0x7ffe817f#32, 0x50a0f050#32, 0x3c78443c#32, 0x9f25ba9f#32, 0xa84be3a8#32,
  0x51a2f351#32, 0xa35dfea3#32, 0x4080c040#32, 0x8f058a8f#32, 0x923fad92#32, 0x9d21bc9d#32, 0x38704838#32, 0xf5f104f5#32,
  0xbc63dfbc#32, 0xb677c1b6#32, 0xdaaf75da#32, 0x21426321#32, 0x10203010#32, 0xffe51aff#32, 0xf3fd0ef3#32, 0xd2bf6dd2#32,
  0xcd814ccd#32, 0x0c18140c#32, 0x13263513#32, 0xecc32fec#32, 0x5fbee15f#32, 0x9735a297#32, 0x4488cc44#32, 0x172e3917#32,
  0xc49357c4#32, 0xa755f2a7#32, 0x7efc827e#32, 0x3d7a473d#32, 0x64c8ac64#32, 0x5dbae75d#32, 0x19322b19#32, 0x73e69573#32,
  0x60c0a060#32, 0x81199881#32, 0x4f9ed14f#32, 0xdca37fdc#32, 0x22446622#32, 0x2a547e2a#32, 0x903bab90#32, 0x880b8388#32,
  0x468cca46#32, 0xeec729ee#32, 0xb86bd3b8#32, 0x14283c14#32, 0xdea779de#32, 0x5ebce25e#32, 0x0b161d0b#32, 0xdbad76db#32,
  0xe0db3be0#32, 0x32645632#32, 0x3a744e3a#32, 0x0a141e0a#32, 0x4992db49#32, 0x060c0a06#32, 0x24486c24#32, 0x5cb8e45c#32,
  0xc29f5dc2#32, 0xd3bd6ed3#32, 0xac43efac#32, 0x62c4a662#32, 0x9139a891#32, 0x9531a495#32, 0xe4d337e4#32, 0x79f28b79#32,
  0xe7d532e7#32, 0xc88b43c8#32, 0x376e5937#32, 0x6ddab76d#32, 0x8d018c8d#32, 0xd5b164d5#32, 0x4e9cd24e#32, 0xa949e0a9#32,
  0x6cd8b46c#32, 0x56acfa56#32, 0xf4f307f4#32, 0xeacf25ea#32, 0x65caaf65#32, 0x7af48e7a#32, 0xae47e9ae#32, 0x08101808#32,
  0xba6fd5ba#32, 0x78f08878#32, 0x254a6f25#32, 0x2e5c722e#32, 0x1c38241c#32, 0xa657f1a6#32, 0xb473c7b4#32, 0xc69751c6#32,
  0xe8cb23e8#32, 0xdda17cdd#32, 0x74e89c74#32, 0x1f3e211f#32, 0x4b96dd4b#32, 0xbd61dcbd#32, 0x8b0d868b#32, 0x8a0f858a#32,
  0x70e09070#32, 0x3e7c423e#32, 0xb571c4b5#32, 0x66ccaa66#32, 0x4890d848#32, 0x03060503#32, 0xf6f701f6#32, 0x0e1c120e#32,
  0x61c2a361#32, 0x356a5f35#32, 0x57aef957#32, 0xb969d0b9#32, 0x86179186#32, 0xc19958c1#32, 0x1d3a271d#32, 0x9e27b99e#32,
  0xe1d938e1#32, 0xf8eb13f8#32, 0x982bb398#32, 0x11223311#32, 0x69d2bb69#32, 0xd9a970d9#32, 0x8e07898e#32, 0x9433a794#32,
  0x9b2db69b#32, 0x1e3c221e#32, 0x87159287#32, 0xe9c920e9#32, 0xce8749ce#32, 0x55aaff55#32, 0x28507828#32, 0xdfa57adf#32,
  0x8c038f8c#32, 0xa159f8a1#32, 0x89098089#32, 0x0d1a170d#32, 0xbf65dabf#32, 0xe6d731e6#32, 0x4284c642#32, 0x68d0b868#32,
  0x4182c341#32, 0x9929b099#32, 0x2d5a772d#32, 0x0f1e110f#32, 0xb07bcbb0#32, 0x54a8fc54#32, 0xbb6dd6bb#32, 0x162c3a16#32]
/-- shavite/sbox.go:230-295 -/
def AES3 : List U32 :=
  [0xc6a56363#32, 0xf8847c7c#32, 0xee997777#32, 0xf68d7b7b#32, 0xff0df2f2#32, 0xd6bd6b6b#32, 0xdeb16f6f#32, 0x9154c5c5#32,
  0x60503030#32, 0x02030101#32, 0xcea96767#32, 0x567d2b2b#32, 0xe719fefe#32, 0xb562d7d7#32, 0x4de6abab#32, 0xec9a7676#32,
  0x8f45caca#32, 0x1f9d8282#32, 0x8940c9c9#32, 0xfa877d7d#32, 0xef15fafa#32, 0xb2eb5959#32, 0x8ec94747#32, 0xfb0bf0f0#32,
  0x41ecadad#32, 0xb367d4d4#32, 0x5ffda2a2#32, 0x45eaafaf#32, 0x23bf9c9c#32, 0x53f7a4a4#32, 0xe4967272#32, 0x9b5bc0c0#32,
  0x75c2b7b7#32, 0xe11cfdfd#32, 0x3dae9393#32, 0x4c6a2626#32, 0x6c5a3636#32, 0x7e413f3f#32, 0xf502f7f7#32, 0x834fcccc#32,
  0x685c3434#32, 0x51f4a5a5#32, 0xd134e5e5#32, 0xf908f1f1#32, 0xe2937171#32, 0xab73d8d8#32, 0x62533131#32, 0x2a3f1515#32,
  0x080c0404#32, 0x9552c7c7#32, 0x46652323#32, 0x9d5ec3c3#32, 0x30281818#32, 0x37a19696#32, 0x0a0f0505#32, 0x2fb59a9a#32,
  0x0e090707#32, 0x24361212#32, 0x1b9b8080#32, 0xdf3de2e2#32, 0xcd26ebeb#32, 0x4e692727#32, 0x7fcdb2b2#32, 0xea9f7575#32,
  0x121b0909#32, 0x1d9e8383#32, 0x58742c2c#32, 0x342e1a1a#32, 0x362d1b1b#32, 0xdcb26e6e#32, 0xb4ee5a5a#32, 0x5bfba0a0#32,
  0xa4f65252#32, 0x764d3b3b#32, 0xb761d6d6#32, 0x7dceb3b3#32, 0x527b2929#32, 0xdd3ee3e3#32, 0x5e712f2f#32, 0x13978484#32,
  0xa6f55353#32, 0xb968d1d1#32, 0x00000000#32, 0xc12ceded#32, 0x40602020#32, 0xe31ffcfc#32, 0x79c8b1b1#32, 0xb6ed5b5b#32,
  0xd4be6a6a#32, 0x8d46cbcb#32, 0x67d9bebe#32, 0x724b3939#32, 0x94de4a4a#32, 0x98d44c4c#32, 0xb0e85858#32, 0x854acfcf#32,
  0xbb6bd0d0#32, 0xc52aefef#32, 0x4fe5aaaa#32, 0xed16fbfb#32, 0x86c54343#32, 0x9ad74d4d#32, 0x66553333#32, 0x11948585#32,
  0x8acf4545#32, 0xe910f9f9#32, 0x04060202#32, 0xfe817f7f#32, 0xa0f05050#32, 0x78443c3c#32, 0x25ba9f9f#32, 0x4be3a8a8#32,
  0xa2f35151#32, 0x5dfea3a3#32, 0x80c04040#32, 0x058a8f8f#32, 0x3fad9292#32, 0x21bc9d9d#32, 0x70483838#32, 0xf104f5f5#32,
  0x63dfbcbc#32, 0x77c1b6b6#32, 0xaf75dada#32, 0x42632121#32, 0x20301010#32, 0xe51affff#32, 0xfd0ef3f3#32, 0xbf6dd2d2#32,
  0x814ccdcd#32, 0x18140c0c#32, 0x26351313#32, 0xc32fecec#32, 0xbee15f5f#32, 0x35a29797#32, 0x88cc4444#32, 0x2e391717#32,
  0x9357c4c4#32, 0x55f2a7a7#32, 0xfc827e7e#32, 0x7a473d3d#32, 0xc8ac6464#32, 0xbae75d5d#32, 0x322b1919#32, 0xe6957373#32,
  0xc0a06060#32, 0x19988181#32, 0x9ed14f4f#32, 0xa37fdcdc#32, 0x44662222#32, 0x547e2a2a#32, 0x3bab9090#32, 0x0b838888#32,
  0x8cca4646#32, 0xc729eeee#32, 0x6bd3b8b8#32, 0x283c1414#32, 0xa779dede#32, 0xbce25e5e#32, 0x161d0b0b#32, 0xad76dbdb#32,
  0xdb3be0e0#32, 0x64563232#32, 0x744e3a3a#32, 0x141e0a0a#32, 0x92db4949#32, 0x0c0a0606#32, 0x486c2424#32, 0xb8e45c5c#32,
  0x9f5dc2c2#32, 0xbd6ed3d3#32, 0x43efacac#32, 0xc4a66262#32, 0x39a89191#32, 0x31a49595#32, 0xd337e4e4#32, 0xf28b7979#32,
  0xd532e7e7#32, 0x8b43c8c8#32, 0x6e593737#32, 0xdab76d6d#32, 0x018c8d8d#32, 0xb164d5d5#32, 0x9cd24e4e#32, 0x49e0a9a9#32,
  0xd8b46c6c#32, 0xacfa5656#32, 0xf307f4f4#32, 0xcf25eaea#32, 0xcaaf6565#32, 0xf48e7a7a#32, 0x47e9aeae#32, 0x10180808#32,
  0x6fd5baba#32, 0xf0887878#32, 0x4a6f2525#32, 0x5c722e2e#32, 0x38241c1c#32, 0x57f1a6a6#32, 0x73c7b4b4#32, 0x9751c6c6#32,
  0xcb23e8e8#32, 0xa17cdddd#32, 0xe89c7474#32, 0x3e211f1f#32, 0x96dd4b4b#32, 0x61dcbdbd#32, 0x0d868b8b#32, 0x0f858a8a#32,
  0xe0907070#32, 0x7c423e3e#32, 0x71c4b5b5#32, 0xccaa6666#32, 0x90d84848#32, 0x06050303#32, 0xf701f6f6#32, 0x1c120e0e#32,
  0xc2a36161#32, 0x6a5f3535#32, 0xaef95757#32, 0x69d0b9b9#32, 0x17918686#32, 0x9958c1c1#32, 0x3a271d1d#32, 0x27b99e9e#32,
  0xd938e1e1#32, 0xeb13f8f8#32, 0x2bb39898#32, 0x22331111#32, 0xd2bb6969#32, 0xa970d9d9#32, 0x07898e8e#32, 0x33a79494#32,
  0x2db69b9b#32, 0x3c221e1e#32, 0x15928787#32, 0xc920e9e9#32, 0x8749cece#32, 0xaaff5555#32, 0x50782828#32, 0xa57adfdf#32,
  0x038f8c8c#32, 0x59f8a1a1#32, 0x09808989#32, 0x1a170d0d#32, 0x65dabfbf#32, 0xd731e6e6#32, 0x84c64242#32, 0xd0b86868#32,
  0x82c34141#32, 0x29b09999#32, 0x5a772d2d#32, 0x1e110f0f#32, 0x7bcbb0b0#32, 0xa8fc5454#32, 0x6dd6bbbb#32, 0x2c3a1616#32]
/-- shavite/sbox.go:3-6 -/
def initVal224 : List U32 :=
  [0x6774f31c#32, 0x990ae210#32, 0xc87d4274#32, 0xc9546371#32, 0x62b2aea8#32, 0x4b5801d8#32, 0x1b702860#32, 0x842f3017#32]
/-- shavite/sbox.go:8-11 -/
def initVal256 : List U32 :=
  [0x49bb3e47#32, 0x2674860d#32, 0xa8b392ac#32, 0x021ac4e6#32, 0x409283cf#32, 0x620e5d86#32, 0x6d929dcb#32, 0x96cc2a8b#32]
/-- shavite/sbox.go:13-18 -/
def initVal384 : List U32 :=
  [0x83df1545#32, 0xf9aaec13#32, 0xf4803cb0#32, 0x11fe1f47#32, 0xda6cd269#32, 0x4f53fcd7#32, 0x950529a2#32, 0x97908147#32,
  0xb0a4d7af#32, 0x2b9132bf#32, 0x226e607d#32, 0x3c0f8d7c#32, 0x487b3f0f#32, 0x04363e22#32, 0x0155c99c#32, 0xec2e20d3#32]
/-- shavite/sbox.go:20-25 -/
def initVal512 : List U32 :=
  [0x72fccdd8#32, 0x79ca4727#32, 0x128a077b#32, 0x40d55aec#32, 0xd1901a06#32, 0x430ae307#32, 0xb29f5cd1#32, 0xdf07fbfc#32,
  0x8e45d73d#32, 0x681ab538#32, 0xbde86578#32, 0xdd577e47#32, 0xe275eade#32, 0x502d9fcd#32, 0xb9357178#32, 0x022a4b9a#32]

/-- The four table lines t0 … t3 (for instance shavite/digest256.go:173-188), the same at each of their occurrences in both files. -/
def aes (x : Q) : Q :=
  let (x0, x1, x2, x3) := x
  let l (a b c d : U32) : U32 := AES0.getD (a &&& 0xFF).toNat 0 ^^^ AES1.getD ((b >>> 8) &&& 0xFF).toNat 0 ^^^ AES2.getD ((c >>> 16) &&& 0xFF).toNat 0 ^^^ AES3.getD (d >>> 24).toNat 0
  (l x0 x1 x2 x3, l x1 x2 x3 x0, l x2 x3 x0 x1, l x3 x0 x1 x2)

/-- x0 = p ^ rk[u]; u++ … x3 (for instance digest256.go:245-248), then the table lines. -/
def keyed (rk : List U32) (u : Nat) (p : Q) : Q := aes (p.1 ^^^ rk.getD u 0, p.2.1 ^^^ rk.getD (u + 1) 0, p.2.2.1 ^^^ rk.getD (u + 2) 0, p.2.2.2 ^^^ rk.getD (u + 3) 0)

def xorQ (a b : Q) : Q := (a.1 ^^^ b.1, a.2.1 ^^^ b.2.1, a.2.2.1 ^^^ b.2.2.1, a.2.2.2 ^^^ b.2.2.2)

/-- Words `i … i+3` of the state. -/
def quad (h : List U32) (i : Nat) : Q := (h.getD i 0, h.getD (i + 1) 0, h.getD (i + 2) 0, h.getD (i + 3) 0)

/-- rk[i] ^= v -/
def xorAt (rk : List U32) (i : Nat) (v : U32) : List U32 := rk.set i (rk.getD i 0 ^^^ v)

namespace D256

/-- digest256.go:168-192 and 203-215: one step of the nonlinear expansion, u words are there. -/
def nl (rk : List U32) (u : Nat) : List U32 :=
  let t := aes (rk.getD (u - 15) 0, rk.getD (u - 14) 0, rk.getD (u - 13) 0, rk.getD (u - 16) 0)
  rk ++ [t.1 ^^^ rk.getD (u - 4) 0, t.2.1 ^^^ rk.getD (u - 3) 0, t.2.2.1 ^^^ rk.getD (u - 2) 0, t.2.2.2 ^^^ rk.getD (u - 1) 0]
/-- digest256.go:165-225: the body of the loop over s. -/
def two (cnt0 cnt1 : U32) (st : List U32 × Nat) : List U32 × Nat :=
  let (rk, u) := st
  let rk := nl rk u
  let rk := if u = 16 then xorAt (xorAt rk 16 cnt0) 17 (~~~cnt1) else if u = 56 then xorAt (xorAt rk 57 cnt1) 58 (~~~cnt0) else rk
  let u := u + 4
  let rk := nl rk u
  let rk := if u = 84 then xorAt (xorAt rk 86 cnt1) 87 (~~~cnt0) else if u = 124 then xorAt (xorAt rk 124 cnt0) 127 (~~~cnt1) else rk
  (rk, u + 4)
/-- digest256.go:227-233: the body of the linear loop; rk[u - 0] in its last line is the word written in its first. -/
def lin (st : List U32 × Nat) : List U32 × Nat :=
  let (rk, u) := st
  let rk := rk ++ [rk.getD (u - 16) 0 ^^^ rk.getD (u - 3) 0]
  let rk := rk ++ [rk.getD (u - 15) 0 ^^^ rk.getD (u - 2) 0]
  let rk := rk ++ [rk.getD (u - 14) 0 ^^^ rk.getD (u - 1) 0]
  let rk := rk ++ [rk.getD (u - 13) 0 ^^^ rk.getD (u - 0) 0]
  (rk, u + 4)
/-- digest256.go:157-234 -/
def expand (data : Bytes) (cnt0 cnt1 : U32) : List U32 :=
  let rk := forLoop 0 4 (fun (rk : List U32) i =>
    let u := 4 * i
    rk ++ [getLE32 data (4 * u), getLE32 data (4 * u + 4), getLE32 data (4 * u + 8), getLE32 data (4 * u + 12)]) []
  (forLoop 0 4 (fun st _ =>
    let st := forLoop 0 2 (fun st _ => two cnt0 cnt1 st) st
    forLoop 0 4 (fun st _ => lin st) st) (rk, 16)).1
/-- digest256.go:249-270 and 275-296: three keyed rounds. -/
def F (rk : List U32) (u : Nat) (p : Q) : Q := keyed rk (u + 8) (keyed rk (u + 4) (keyed rk u p))
/-- digest256.go:150-316; the value of u in turn r of the loop is 24 r. -/
def process (h : List U32) (data : Bytes) (cnt0 cnt1 : U32) : List U32 :=
  let rk := expand data cnt0 cnt1
  let st := forLoop 0 6 (fun (st : Q × Q) r =>
    let u := 24 * r
    let p := xorQ st.1 (F rk u st.2)
    let q := xorQ st.2 (F rk (u + 12) p)
    (p, q)) (quad h 0, quad h 4)
  let (p0, p1, p2, p3) := st.1
  let (p4, p5, p6, p7) := st.2
  [h.getD 0 0 ^^^ p0, h.getD 1 0 ^^^ p1, h.getD 2 0 ^^^ p2, h.getD 3 0 ^^^ p3, h.getD 4 0 ^^^ p4, h.getD 5 0 ^^^ p5, h.getD 6 0 ^^^ p6, h.getD 7 0 ^^^ p7]

/-- digest256.go:12-23 without rk, which is overwritten before it is read. -/
structure Digest where
  s : List U32
  x : Bytes
  nx : Nat
  len : U64
  hs : Nat
  initVal : List U32

/-- digest256.go:35-43 -/
def Digest.reset (d : Digest) : Digest := { d with s := d.initVal, x := zeros 64, nx := 0, len := 0 }
/-- digest256.go:26-33 -/
def newDigest (hs : Nat) (initVal : List U32) : Digest := Digest.reset { s := [], x := [], nx := 0, len := 0, hs := hs, initVal := initVal }
/-- digest256.go:144-148 -/
def processBlock (s : List U32) (len : U64) (data : Bytes) : List U32 :=
  let bitLen : U64 := ((len / 64) + 1) <<< 9
  process s data (bitLen.setWidth 32) ((bitLen >>> 32).setWidth 32)
/-- digest256.go:53-77 -/
def Digest.write (d : Digest) (p : Bytes) : Digest × Nat :=
  let w := loopWrite 64 (fun (s : List U32 × U64) x _ => (processBlock s.1 s.2 x, s.2 + 64)) (fun s n => (s.1, s.2 + BitVec.ofNat 64 n)) (p.length + 1) (d.s, d.len) d.x d.nx p
  ({ d with s := w.1.1, len := w.1.2, x := w.2.1, nx := w.2.2 }, p.length)
/-- digest256.go:86-142.  The loops that clear bytes one by one are written as a copy of zeros. -/
def Digest.checkSum (d : Digest) : Bytes :=
  let bitLen : U64 := ((d.len / 64) <<< 9) + (BitVec.ofNat 64 d.nx <<< 3)
  let cnt0 : U32 := bitLen.setWidth 32
  let cnt1 : U32 := (bitLen >>> 32).setWidth 32
  let fin (s : List U32) (buf : Bytes) (cnt0 cnt1 : U32) : Bytes :=
    let buf := goCopy buf 54 (le32 (bitLen.setWidth 32))
    let buf := goCopy buf 58 (le32 ((bitLen >>> 32).setWidth 32))
    let buf := buf.set 62 (BitVec.ofNat 8 (d.hs <<< 3))
    let buf := buf.set 63 (BitVec.ofNat 8 (d.hs >>> 5))
    let s := process s buf cnt0 cnt1
    (s.take (d.hs / 4)).flatMap le32
  if d.nx = 0 then fin d.s (goCopy (d.x.set 0 0x80) 1 (zeros 53)) 0 0
  else if d.nx < 54 then fin d.s (goCopy (d.x.set d.nx 0x80) (d.nx + 1) (zeros (54 - (d.nx + 1)))) cnt0 cnt1
  else
    let buf := goCopy (d.x.set d.nx 0x80) (d.nx + 1) (zeros (64 - (d.nx + 1)))
    fin (process d.s buf cnt0 cnt1) (goCopy buf 0 (zeros 54)) 0 0

/-- digest256.go:45-51, 79-84 -/
def impl : HashImpl Digest where
  write d p := some (d.write p)
  sum d b := some (d, b ++ d.checkSum)
  reset := Digest.reset
  size d := d.hs
  blockSize _ := 64

/-- shavite/shavite.go:8-10 -/
def New224 : Digest := newDigest 28 initVal224
/-- shavite/shavite.go:13-15 -/
def New256 : Digest := newDigest 32 initVal256

end D256

namespace D512

/-- digest512.go:172-187 and 207-218: one step of the nonlinear expansion, u words are there. -/
def nl (rk : List U32) (u : Nat) : List U32 :=
  let t := aes (rk.getD (u - 31) 0, rk.getD (u - 30) 0, rk.getD (u - 29) 0, rk.getD (u - 32) 0)
  rk ++ [t.1 ^^^ rk.getD (u - 4) 0, t.2.1 ^^^ rk.getD (u - 3) 0, t.2.2.1 ^^^ rk.getD (u - 2) 0, t.2.2.2 ^^^ rk.getD (u - 1) 0]
/-- digest512.go:169-231: the body of the loop over s. -/
def two (cnt0 cnt1 cnt2 : U32) (st : List U32 × Nat) : List U32 × Nat :=
  let (rk, u) := st
  let rk := nl rk u
  let rk := if u = 32 then xorAt (xorAt (xorAt (xorAt rk 32 cnt0) 33 cnt1) 34 cnt2) 35 0xffffffff
    else if u = 440 then xorAt (xorAt (xorAt rk 440 cnt1) 441 cnt0) 443 (~~~cnt2) else rk
  let u := u + 4
  let rk := nl rk u
  let rk := if u = 164 then xorAt (xorAt (xorAt rk 165 cnt2) 166 cnt1) 167 (~~~cnt0)
    else if u = 316 then xorAt (xorAt (xorAt rk 316 cnt2) 318 cnt0) 319 (~~~cnt1) else rk
  (rk, u + 4)
/-- digest512.go:237-243: the body of the linear loop. -/
def lin (st : List U32 × Nat) : List U32 × Nat :=
  let (rk, u) := st
  let rk := rk ++ [rk.getD (u - 32) 0 ^^^ rk.getD (u - 7) 0]
  let rk := rk ++ [rk.getD (u - 31) 0 ^^^ rk.getD (u - 6) 0]
  let rk := rk ++ [rk.getD (u - 30) 0 ^^^ rk.getD (u - 5) 0]
  let rk := rk ++ [rk.getD (u - 29) 0 ^^^ rk.getD (u - 4) 0]
  (rk, u + 4)
/-- digest512.go:161-244.  The endless loop with the exit at u = 448 makes seven turns, the last without the linear part. -/
def expand (data : Bytes) (cnt0 cnt1 cnt2 : U32) : List U32 :=
  let rk := forLoop 0 8 (fun (rk : List U32) i =>
    let u := 4 * i
    rk ++ [getLE32 data (4 * u), getLE32 data (4 * u + 4), getLE32 data (4 * u + 8), getLE32 data (4 * u + 12)]) []
  let st := forLoop 0 6 (fun st _ =>
    let st := forLoop 0 4 (fun st _ => two cnt0 cnt1 cnt2 st) st
    forLoop 0 8 (fun st _ => lin st) st) (rk, 32)
  (forLoop 0 4 (fun st _ => two cnt0 cnt1 cnt2 st) st).1
/-- digest512.go:269-300 and 305-336: four keyed rounds. -/
def F (rk : List U32) (u : Nat) (p : Q) : Q := keyed rk (u + 12) (keyed rk (u + 8) (keyed rk (u + 4) (keyed rk u p)))
/-- digest512.go:153-382; the value of u in turn r of the loop is 32 r. -/
def process (h : List U32) (data : Bytes) (cnt0 cnt1 cnt2 : U32) : List U32 :=
  let rk := expand data cnt0 cnt1 cnt2
  let st := forLoop 0 14 (fun (st : Q × Q × Q × Q) r =>
    let u := 32 * r
    let p0 := xorQ st.1 (F rk u st.2.1)
    let p8 := xorQ st.2.2.1 (F rk (u + 16) st.2.2.2)
    (st.2.2.2, p0, st.2.1, p8)) (quad h 0, quad h 4, quad h 8, quad h 12)
  let (p0, p1, p2, p3) := st.1
  let (p4, p5, p6, p7) := st.2.1
  let (p8, p9, pA, pB) := st.2.2.1
  let (pC, pD, pE, pF) := st.2.2.2
  [h.getD 0 0 ^^^ p0, h.getD 1 0 ^^^ p1, h.getD 2 0 ^^^ p2, h.getD 3 0 ^^^ p3, h.getD 4 0 ^^^ p4, h.getD 5 0 ^^^ p5, h.getD 6 0 ^^^ p6, h.getD 7 0 ^^^ p7,
   h.getD 8 0 ^^^ p8, h.getD 9 0 ^^^ p9, h.getD 10 0 ^^^ pA, h.getD 11 0 ^^^ pB, h.getD 12 0 ^^^ pC, h.getD 13 0 ^^^ pD, h.getD 14 0 ^^^ pE, h.getD 15 0 ^^^ pF]

/-- digest512.go:12-23 without rk, which is overwritten before it is read. -/
structure Digest where
  s : List U32
  x : Bytes
  nx : Nat
  len : U64
  hs : Nat
  initVal : List U32

/-- digest512.go:35-43 -/
def Digest.reset (d : Digest) : Digest := { d with s := d.initVal, x := zeros 128, nx := 0, len := 0 }
/-- digest512.go:26-33 -/
def newDigest (hs : Nat) (initVal : List U32) : Digest := Digest.reset { s := [], x := [], nx := 0, len := 0, hs := hs, initVal := initVal }
/-- digest512.go:146-151 -/
def processBlock (s : List U32) (len : U64) (data : Bytes) : List U32 :=
  let bc : U64 := (len / 128) + 1
  let bitLen := bc <<< 10
  process s data (bitLen.setWidth 32) ((bitLen >>> 32).setWidth 32) ((bc >>> 54).setWidth 32)
/-- digest512.go:53-77 -/
def Digest.write (d : Digest) (p : Bytes) : Digest × Nat :=
  let w := loopWrite 128 (fun (s : List U32 × U64) x _ => (processBlock s.1 s.2 x, s.2 + 128)) (fun s n => (s.1, s.2 + BitVec.ofNat 64 n)) (p.length + 1) (d.s, d.len) d.x d.nx p
  ({ d with s := w.1.1, len := w.1.2, x := w.2.1, nx := w.2.2 }, p.length)
/-- digest512.go:86-144.  The loops that clear bytes one by one are written as a copy of zeros. -/
def Digest.checkSum (d : Digest) : Bytes :=
  let bc : U64 := d.len / 128
  let bitLen : U64 := (bc <<< 10) + (BitVec.ofNat 64 d.nx <<< 3)
  let cnt0 : U32 := bitLen.setWidth 32
  let cnt1 : U32 := (bitLen >>> 32).setWidth 32
  let cnt2 : U32 := (bc >>> 54).setWidth 32
  let fin (s : List U32) (buf : Bytes) (cnt0 cnt1 cnt2 : U32) : Bytes :=
    let buf := goCopy buf 110 (le32 (bitLen.setWidth 32))
    let buf := goCopy buf 114 (le32 ((bitLen >>> 32).setWidth 32))
    let buf := goCopy buf 118 (le32 ((bc >>> 54).setWidth 32))
    let buf := (((buf.set 122 0).set 123 0).set 124 0).set 125 0
    let buf := buf.set 126 (BitVec.ofNat 8 (d.hs <<< 3))
    let buf := buf.set 127 (BitVec.ofNat 8 (d.hs >>> 5))
    let s := process s buf cnt0 cnt1 cnt2
    (s.take (d.hs / 4)).flatMap le32
  if d.nx = 0 then fin d.s (goCopy (d.x.set 0 0x80) 1 (zeros 109)) 0 0 0
  else if d.nx < 110 then fin d.s (goCopy (d.x.set d.nx 0x80) (d.nx + 1) (zeros (110 - (d.nx + 1)))) cnt0 cnt1 cnt2
  else
    let buf := goCopy (d.x.set d.nx 0x80) (d.nx + 1) (zeros (128 - (d.nx + 1)))
    fin (process d.s buf cnt0 cnt1 cnt2) (goCopy buf 0 (zeros 110)) 0 0 0

/-- digest512.go:45-51, 79-84 -/
def impl : HashImpl Digest where
  write d p := some (d.write p)
  sum d b := some (d, b ++ d.checkSum)
  reset := Digest.reset
  size d := d.hs
  blockSize _ := 128

/-- shavite/shavite.go:18-20 -/
def New384 : Digest := newDigest 48 initVal384
/-- shavite/shavite.go:23-25 -/
def New512 : Digest := newDigest 64 initVal512

end D512

end Verif.Shavite
