import Verif.Words
/-
Generated by tools/gen_haraka.py: the tables of haraka/aes.go and haraka/const.go.
-/
namespace Verif.Haraka

/-- haraka/aes.go:16-49 -/
def t0 : List U32 := [
  0xa56363c6#32, 0x847c7cf8#32, 0x997777ee#32, 0x8d7b7bf6#32, 0x0df2f2ff#32, 0xbd6b6bd6#32, 0xb16f6fde#32, 0x54c5c591#32, 0x50303060#32, 0x03010102#32, 0xa96767ce#32, 0x7d2b2b56#32, 0x19fefee7#32, 0x62d7d7b5#32, 0xe6abab4d#32, 0x9a7676ec#32,
  0x45caca8f#32, 0x9d82821f#32, 0x40c9c989#32, 0x877d7dfa#32, 0x15fafaef#32, 0xeb5959b2#32, 0xc947478e#32, 0x0bf0f0fb#32, 0xecadad41#32, 0x67d4d4b3#32, 0xfda2a25f#32, 0xeaafaf45#32, 0xbf9c9c23#32, 0xf7a4a453#32, 0x967272e4#32, 0x5bc0c09b#32,
  0xc2b7b775#32, 0x1cfdfde1#32, 0xae93933d#32, 0x6a26264c#32, 0x5a36366c#32, 0x413f3f7e#32, 0x02f7f7f5#32, 0x4fcccc83#32, 0x5c343468#32, 0xf4a5a551#32, 0x34e5e5d1#32, 0x08f1f1f9#32, 0x937171e2#32, 0x73d8d8ab#32, 0x53313162#32, 0x3f15152a#32,
  0x0c040408#32, 0x52c7c795#32, 0x65232346#32, 0x5ec3c39d#32, 0x28181830#32, 0xa1969637#32, 0x0f05050a#32, 0xb59a9a2f#32, 0x0907070e#32, 0x36121224#32, 0x9b80801b#32, 0x3de2e2df#32, 0x26ebebcd#32, 0x6927274e#32, 0xcdb2b27f#32, 0x9f7575ea#32,
  0x1b090912#32, 0x9e83831d#32, 0x742c2c58#32, 0x2e1a1a34#32, 0x2d1b1b36#32, 0xb26e6edc#32, 0xee5a5ab4#32, 0xfba0a05b#32, 0xf65252a4#32, 0x4d3b3b76#32, 0x61d6d6b7#32, 0xceb3b37d#32, 0x7b292952#32, 0x3ee3e3dd#32, 0x712f2f5e#32, 0x97848413#32,
  0xf55353a6#32, 0x68d1d1b9#32, 0x00000000#32, 0x2cededc1#32, 0x60202040#32, 0x1ffcfce3#32, 0xc8b1b179#32, 0xed5b5bb6#32, 0xbe6a6ad4#32, 0x46cbcb8d#32, 0xd9bebe67#32, 0x4b393972#32, 0xde4a4a94#32, 0xd44c4c98#32, 0xe85858b0#32, 0x4acfcf85#32,
  0x6bd0d0bb#32, 0x2aefefc5#32, 0xe5aaaa4f#32, 0x16fbfbed#32, 0xc5434386#32, 0xd74d4d9a#32, 0x55333366#32, 0x94858511#32, 0xcf45458a#32, 0x10f9f9e9#32, 0x06020204#32, 0x817f7ffe#32, 0xf05050a0#32, 0x443c3c78#32, 0xba9f9f25#32, 0xe3a8a84b#32,
  0xf35151a2#32, 0xfea3a35d#32, 0xc0404080#32, 0x8a8f8f05#32, 0xad92923f#32, 0xbc9d9d21#32, 0x48383870#32, 0x04f5f5f1#32, 0xdfbcbc63#32, 0xc1b6b677#32, 0x75dadaaf#32, 0x63212142#32, 0x30101020#32, 0x1affffe5#32, 0x0ef3f3fd#32, 0x6dd2d2bf#32,
  0x4ccdcd81#32, 0x140c0c18#32, 0x35131326#32, 0x2fececc3#32, 0xe15f5fbe#32, 0xa2979735#32, 0xcc444488#32, 0x3917172e#32, 0x57c4c493#32, 0xf2a7a755#32, 0x827e7efc#32, 0x473d3d7a#32, 0xac6464c8#32, 0xe75d5dba#32, 0x2b191932#32, 0x957373e6#32,
  0xa06060c0#32, 0x98818119#32, 0xd14f4f9e#32, 0x7fdcdca3#32, 0x66222244#32, 0x7e2a2a54#32, 0xab90903b#32, 0x8388880b#32, 0xca46468c#32, 0x29eeeec7#32, 0xd3b8b86b#32, 0x3c141428#32, 0x79dedea7#32, 0xe25e5ebc#32, 0x1d0b0b16#32, 0x76dbdbad#32,
  0x3be0e0db#32, 0x56323264#32, 0x4e3a3a74#32, 0x1e0a0a14#32, 0xdb494992#32, 0x0a06060c#32, 0x6c242448#32, 0xe45c5cb8#32, 0x5dc2c29f#32, 0x6ed3d3bd#32, 0xefacac43#32, 0xa66262c4#32, 0xa8919139#32, 0xa4959531#32, 0x37e4e4d3#32, 0x8b7979f2#32,
  0x32e7e7d5#32, 0x43c8c88b#32, 0x5937376e#32, 0xb76d6dda#32, 0x8c8d8d01#32, 0x64d5d5b1#32, 0xd24e4e9c#32, 0xe0a9a949#32, 0xb46c6cd8#32, 0xfa5656ac#32, 0x07f4f4f3#32, 0x25eaeacf#32, 0xaf6565ca#32, 0x8e7a7af4#32, 0xe9aeae47#32, 0x18080810#32,
  0xd5baba6f#32, 0x887878f0#32, 0x6f25254a#32, 0x722e2e5c#32, 0x241c1c38#32, 0xf1a6a657#32, 0xc7b4b473#32, 0x51c6c697#32, 0x23e8e8cb#32, 0x7cdddda1#32, 0x9c7474e8#32, 0x211f1f3e#32, 0xdd4b4b96#32, 0xdcbdbd61#32, 0x868b8b0d#32, 0x858a8a0f#32,
  0x907070e0#32, 0x423e3e7c#32, 0xc4b5b571#32, 0xaa6666cc#32, 0xd8484890#32, 0x05030306#32, 0x01f6f6f7#32, 0x120e0e1c#32, 0xa36161c2#32, 0x5f35356a#32, 0xf95757ae#32, 0xd0b9b969#32, 0x91868617#32, 0x58c1c199#32, 0x271d1d3a#32, 0xb99e9e27#32,
  0x38e1e1d9#32, 0x13f8f8eb#32, 0xb398982b#32, 0x33111122#32, 0xbb6969d2#32, 0x70d9d9a9#32, 0x898e8e07#32, 0xa7949433#32, 0xb69b9b2d#32, 0x221e1e3c#32, 0x92878715#32, 0x20e9e9c9#32, 0x49cece87#32, 0xff5555aa#32, 0x78282850#32, 0x7adfdfa5#32,
  0x8f8c8c03#32, 0xf8a1a159#32, 0x80898909#32, 0x170d0d1a#32, 0xdabfbf65#32, 0x31e6e6d7#32, 0xc6424284#32, 0xb86868d0#32, 0xc3414182#32, 0xb0999929#32, 0x772d2d5a#32, 0x110f0f1e#32, 0xcbb0b07b#32, 0xfc5454a8#32, 0xd6bbbb6d#32, 0x3a16162c#32]
/-- haraka/aes.go:52-85 -/
def t1 : List U32 := [
  0x6363c6a5#32, 0x7c7cf884#32, 0x7777ee99#32, 0x7b7bf68d#32, 0xf2f2ff0d#32, 0x6b6bd6bd#32, 0x6f6fdeb1#32, 0xc5c59154#32, 0x30306050#32, 0x01010203#32, 0x6767cea9#32, 0x2b2b567d#32, 0xfefee719#32, 0xd7d7b562#32, 0xabab4de6#32, 0x7676ec9a#32,
  0xcaca8f45#32, 0x82821f9d#32, 0xc9c98940#32, 0x7d7dfa87#32, 0xfafaef15#32, 0x5959b2eb#32, 0x47478ec9#32, 0xf0f0fb0b#32, 0xadad41ec#32, 0xd4d4b367#32, 0xa2a25ffd#32, 0xafaf45ea#32, 0x9c9c23bf#32, 0xa4a453f7#32, 0x7272e496#32, 0xc0c09b5b#32,
  0xb7b775c2#32, 0xfdfde11c#32, 0x93933dae#32, 0x26264c6a#32, 0x36366c5a#32, 0x3f3f7e41#32, 0xf7f7f502#32, 0xcccc834f#32, 0x3434685c#32, 0xa5a551f4#32, 0xe5e5d134#32, 0xf1f1f908#32, 0x7171e293#32, 0xd8d8ab73#32, 0x31316253#32, 0x15152a3f#32,
  0x0404080c#32, 0xc7c79552#32, 0x23234665#32, 0xc3c39d5e#32, 0x18183028#32, 0x969637a1#32, 0x05050a0f#32, 0x9a9a2fb5#32, 0x07070e09#32, 0x12122436#32, 0x80801b9b#32, 0xe2e2df3d#32, 0xebebcd26#32, 0x27274e69#32, 0xb2b27fcd#32, 0x7575ea9f#32,
  0x0909121b#32, 0x83831d9e#32, 0x2c2c5874#32, 0x1a1a342e#32, 0x1b1b362d#32, 0x6e6edcb2#32, 0x5a5ab4ee#32, 0xa0a05bfb#32, 0x5252a4f6#32, 0x3b3b764d#32, 0xd6d6b761#32, 0xb3b37dce#32, 0x2929527b#32, 0xe3e3dd3e#32, 0x2f2f5e71#32, 0x84841397#32,
  0x5353a6f5#32, 0xd1d1b968#32, 0x00000000#32, 0xededc12c#32, 0x20204060#32, 0xfcfce31f#32, 0xb1b179c8#32, 0x5b5bb6ed#32, 0x6a6ad4be#32, 0xcbcb8d46#32, 0xbebe67d9#32, 0x3939724b#32, 0x4a4a94de#32, 0x4c4c98d4#32, 0x5858b0e8#32, 0xcfcf854a#32,
  0xd0d0bb6b#32, 0xefefc52a#32, 0xaaaa4fe5#32, 0xfbfbed16#32, 0x434386c5#32, 0x4d4d9ad7#32, 0x33336655#32, 0x85851194#32, 0x45458acf#32, 0xf9f9e910#32, 0x02020406#32, 0x7f7ffe81#32, 0x5050a0f0#32, 0x3c3c7844#32, 0x9f9f25ba#32, 0xa8a84be3#32,
  0x5151a2f3#32, 0xa3a35dfe#32, 0x404080c0#32, 0x8f8f058a#32, 0x92923fad#32, 0x9d9d21bc#32, 0x38387048#32, 0xf5f5f104#32, 0xbcbc63df#32, 0xb6b677c1#32, 0xdadaaf75#32, 0x21214263#32, 0x10102030#32, 0xffffe51a#32, 0xf3f3fd0e#32, 0xd2d2bf6d#32,
  0xcdcd814c#32, 0x0c0c1814#32, 0x13132635#32, 0xececc32f#32, 0x5f5fbee1#32, 0x979735a2#32, 0x444488cc#32, 0x17172e39#32, 0xc4c49357#32, 0xa7a755f2#32, 0x7e7efc82#32, 0x3d3d7a47#32, 0x6464c8ac#32, 0x5d5dbae7#32, 0x1919322b#32, 0x7373e695#32,
  0x6060c0a0#32, 0x81811998#32, 0x4f4f9ed1#32, 0xdcdca37f#32, 0x22224466#32, 0x2a2a547e#32, 0x90903bab#32, 0x88880b83#32, 0x46468cca#32, 0xeeeec729#32, 0xb8b86bd3#32, 0x1414283c#32, 0xdedea779#32, 0x5e5ebce2#32, 0x0b0b161d#32, 0xdbdbad76#32,
  0xe0e0db3b#32, 0x32326456#32, 0x3a3a744e#32, 0x0a0a141e#32, 0x494992db#32, 0x06060c0a#32, 0x2424486c#32, 0x5c5cb8e4#32, 0xc2c29f5d#32, 0xd3d3bd6e#32, 0xacac43ef#32, 0x6262c4a6#32, 0x919139a8#32, 0x959531a4#32, 0xe4e4d337#32, 0x7979f28b#32,
  0xe7e7d532#32, 0xc8c88b43#32, 0x37376e59#32, 0x6d6ddab7#32, 0x8d8d018c#32, 0xd5d5b164#32, 0x4e4e9cd2#32, 0xa9a949e0#32, 0x6c6cd8b4#32, 0x5656acfa#32, 0xf4f4f307#32, 0xeaeacf25#32, 0x6565caaf#32, 0x7a7af48e#32, 0xaeae47e9#32, 0x08081018#32,
  0xbaba6fd5#32, 0x7878f088#32, 0x25254a6f#32, 0x2e2e5c72#32, 0x1c1c3824#32, 0xa6a657f1#32, 0xb4b473c7#32, 0xc6c69751#32, 0xe8e8cb23#32, 0xdddda17c#32, 0x7474e89c#32, 0x1f1f3e21#32, 0x4b4b96dd#32, 0xbdbd61dc#32, 0x8b8b0d86#32, 0x8a8a0f85#32,
  0x7070e090#32, 0x3e3e7c42#32, 0xb5b571c4#32, 0x6666ccaa#32, 0x484890d8#32, 0x03030605#32, 0xf6f6f701#32, 0x0e0e1c12#32, 0x6161c2a3#32, 0x35356a5f#32, 0x5757aef9#32, 0xb9b969d0#32, 0x86861791#32, 0xc1c19958#32, 0x1d1d3a27#32, 0x9e9e27b9#32,
  0xe1e1d938#32, 0xf8f8eb13#32, 0x98982bb3#32, 0x11112233#32, 0x6969d2bb#32, 0xd9d9a970#32, 0x8e8e0789#32, 0x949433a7#32, 0x9b9b2db6#32, 0x1e1e3c22#32, 0x87871592#32, 0xe9e9c920#32, 0xcece8749#32, 0x5555aaff#32, 0x28285078#32, 0xdfdfa57a#32,
  0x8c8c038f#32, 0xa1a159f8#32, 0x89890980#32, 0x0d0d1a17#32, 0xbfbf65da#32, 0xe6e6d731#32, 0x424284c6#32, 0x6868d0b8#32, 0x414182c3#32, 0x999929b0#32, 0x2d2d5a77#32, 0x0f0f1e11#32, 0xb0b07bcb#32, 0x5454a8fc#32, 0xbbbb6dd6#32, 0x16162c3a#32]
/-- haraka/aes.go:88-121 -/
def t2 : List U32 := [
  0x63c6a563#32, 0x7cf8847c#32, 0x77ee9977#32, 0x7bf68d7b#32, 0xf2ff0df2#32, 0x6bd6bd6b#32, 0x6fdeb16f#32, 0xc59154c5#32, 0x30605030#32, 0x01020301#32, 0x67cea967#32, 0x2b567d2b#32, 0xfee719fe#32, 0xd7b562d7#32, 0xab4de6ab#32, 0x76ec9a76#32,
  0xca8f45ca#32, 0x821f9d82#32, 0xc98940c9#32, 0x7dfa877d#32, 0xfaef15fa#32, 0x59b2eb59#32, 0x478ec947#32, 0xf0fb0bf0#32, 0xad41ecad#32, 0xd4b367d4#32, 0xa25ffda2#32, 0xaf45eaaf#32, 0x9c23bf9c#32, 0xa453f7a4#32, 0x72e49672#32, 0xc09b5bc0#32,
  0xb775c2b7#32, 0xfde11cfd#32, 0x933dae93#32, 0x264c6a26#32, 0x366c5a36#32, 0x3f7e413f#32, 0xf7f502f7#32, 0xcc834fcc#32, 0x34685c34#32, 0xa551f4a5#32, 0xe5d134e5#32, 0xf1f908f1#32, 0x71e29371#32, 0xd8ab73d8#32, 0x31625331#32, 0x152a3f15#32,
  0x04080c04#32, 0xc79552c7#32, 0x23466523#32, 0xc39d5ec3#32, 0x18302818#32, 0x9637a196#32, 0x050a0f05#32, 0x9a2fb59a#32, 0x070e0907#32, 0x12243612#32, 0x801b9b80#32, 0xe2df3de2#32, 0xebcd26eb#32, 0x274e6927#32, 0xb27fcdb2#32, 0x75ea9f75#32,
  0x09121b09#32, 0x831d9e83#32, 0x2c58742c#32, 0x1a342e1a#32, 0x1b362d1b#32, 0x6edcb26e#32, 0x5ab4ee5a#32, 0xa05bfba0#32, 0x52a4f652#32, 0x3b764d3b#32, 0xd6b761d6#32, 0xb37dceb3#32, 0x29527b29#32, 0xe3dd3ee3#32, 0x2f5e712f#32, 0x84139784#32,
  0x53a6f553#32, 0xd1b968d1#32, 0x00000000#32, 0xedc12ced#32, 0x20406020#32, 0xfce31ffc#32, 0xb179c8b1#32, 0x5bb6ed5b#32, 0x6ad4be6a#32, 0xcb8d46cb#32, 0xbe67d9be#32, 0x39724b39#32, 0x4a94de4a#32, 0x4c98d44c#32, 0x58b0e858#32, 0xcf854acf#32,
  0xd0bb6bd0#32, 0xefc52aef#32, 0xaa4fe5aa#32, 0xfbed16fb#32, 0x4386c543#32, 0x4d9ad74d#32, 0x33665533#32, 0x85119485#32, 0x458acf45#32, 0xf9e910f9#32, 0x02040602#32, 0x7ffe817f#32, 0x50a0f050#32, 0x3c78443c#32, 0x9f25ba9f#32, 0xa84be3a8#32,
  0x51a2f351#32, 0xa35dfea3#32, 0x4080c040#32, 0x8f058a8f#32, 0x923fad92#32, 0x9d21bc9d#32, 0x38704838#32, 0xf5f104f5#32, 0xbc63dfbc#32, 0xb677c1b6#32, 0xdaaf75da#32, 0x21426321#32, 0x10203010#32, 0xffe51aff#32, 0xf3fd0ef3#32, 0xd2bf6dd2#32,
  0xcd814ccd#32, 0x0c18140c#32, 0x13263513#32, 0xecc32fec#32, 0x5fbee15f#32, 0x9735a297#32, 0x4488cc44#32, 0x172e3917#32, 0xc49357c4#32, 0xa755f2a7#32, 0x7efc827e#32, 0x3d7a473d#32, 0x64c8ac64#32, 0x5dbae75d#32, 0x19322b19#32, 0x73e69573#32,
  0x60c0a060#32, 0x81199881#32, 0x4f9ed14f#32, 0xdca37fdc#32, 0x22446622#32, 0x2a547e2a#32, 0x903bab90#32, 0x880b8388#32, 0x468cca46#32, 0xeec729ee#32, 0xb86bd3b8#32, 0x14283c14#32, 0xdea779de#32, 0x5ebce25e#32, 0x0b161d0b#32, 0xdbad76db#32,
  0xe0db3be0#32, 0x32645632#32, 0x3a744e3a#32, 0x0a141e0a#32, 0x4992db49#32, 0x060c0a06#32, 0x24486c24#32, 0x5cb8e45c#32, 0xc29f5dc2#32, 0xd3bd6ed3#32, 0xac43efac#32, 0x62c4a662#32, 0x9139a891#32, 0x9531a495#32, 0xe4d337e4#32, 0x79f28b79#32,
  0xe7d532e7#32, 0xc88b43c8#32, 0x376e5937#32, 0x6ddab76d#32, 0x8d018c8d#32, 0xd5b164d5#32, 0x4e9cd24e#32, 0xa949e0a9#32, 0x6cd8b46c#32, 0x56acfa56#32, 0xf4f307f4#32, 0xeacf25ea#32, 0x65caaf65#32, 0x7af48e7a#32, 0xae47e9ae#32, 0x08101808#32,
  0xba6fd5ba#32, 0x78f08878#32, 0x254a6f25#32, 0x2e5c722e#32, 0x1c38241c#32, 0xa657f1a6#32, 0xb473c7b4#32, 0xc69751c6#32, 0xe8cb23e8#32, 0xdda17cdd#32, 0x74e89c74#32, 0x1f3e211f#32, 0x4b96dd4b#32, 0xbd61dcbd#32, 0x8b0d868b#32, 0x8a0f858a#32,
  0x70e09070#32, 0x3e7c423e#32, 0xb571c4b5#32, 0x66ccaa66#32, 0x4890d848#32, 0x03060503#32, 0xf6f701f6#32, 0x0e1c120e#32, 0x61c2a361#32, 0x356a5f35#32, 0x57aef957#32, 0xb969d0b9#32, 0x86179186#32, 0xc19958c1#32, 0x1d3a271d#32, 0x9e27b99e#32,
  0xe1d938e1#32, 0xf8eb13f8#32, 0x982bb398#32, 0x11223311#32, 0x69d2bb69#32, 0xd9a970d9#32, 0x8e07898e#32, 0x9433a794#32, 0x9b2db69b#32, 0x1e3c221e#32, 0x87159287#32, 0xe9c920e9#32, 0xce8749ce#32, 0x55aaff55#32, 0x28507828#32, 0xdfa57adf#32,
  0x8c038f8c#32, 0xa159f8a1#32, 0x89098089#32, 0x0d1a170d#32, 0xbf65dabf#32, 0xe6d731e6#32, 0x4284c642#32, 0x68d0b868#32, 0x4182c341#32, 0x9929b099#32, 0x2d5a772d#32, 0x0f1e110f#32, 0xb07bcbb0#32, 0x54a8fc54#32, 0xbb6dd6bb#32, 0x162c3a16#32]
/-- haraka/aes.go:124-157 -/
def t3 : List U32 := [
  0xc6a56363#32, 0xf8847c7c#32, 0xee997777#32, 0xf68d7b7b#32, 0xff0df2f2#32, 0xd6bd6b6b#32, 0xdeb16f6f#32, 0x9154c5c5#32, 0x60503030#32, 0x02030101#32, 0xcea96767#32, 0x567d2b2b#32, 0xe719fefe#32, 0xb562d7d7#32, 0x4de6abab#32, 0xec9a7676#32,
  0x8f45caca#32, 0x1f9d8282#32, 0x8940c9c9#32, 0xfa877d7d#32, 0xef15fafa#32, 0xb2eb5959#32, 0x8ec94747#32, 0xfb0bf0f0#32, 0x41ecadad#32, 0xb367d4d4#32, 0x5ffda2a2#32, 0x45eaafaf#32, 0x23bf9c9c#32, 0x53f7a4a4#32, 0xe4967272#32, 0x9b5bc0c0#32,
  0x75c2b7b7#32, 0xe11cfdfd#32, 0x3dae9393#32, 0x4c6a2626#32, 0x6c5a3636#32, 0x7e413f3f#32, 0xf502f7f7#32, 0x834fcccc#32, 0x685c3434#32, 0x51f4a5a5#32, 0xd134e5e5#32, 0xf908f1f1#32, 0xe2937171#32, 0xab73d8d8#32, 0x62533131#32, 0x2a3f1515#32,
  0x080c0404#32, 0x9552c7c7#32, 0x46652323#32, 0x9d5ec3c3#32, 0x30281818#32, 0x37a19696#32, 0x0a0f0505#32, 0x2fb59a9a#32, 0x0e090707#32, 0x24361212#32, 0x1b9b8080#32, 0xdf3de2e2#32, 0xcd26ebeb#32, 0x4e692727#32, 0x7fcdb2b2#32, 0xea9f7575#32,
  0x121b0909#32, 0x1d9e8383#32, 0x58742c2c#32, 0x342e1a1a#32, 0x362d1b1b#32, 0xdcb26e6e#32, 0xb4ee5a5a#32, 0x5bfba0a0#32, 0xa4f65252#32, 0x764d3b3b#32, 0xb761d6d6#32, 0x7dceb3b3#32, 0x527b2929#32, 0xdd3ee3e3#32, 0x5e712f2f#32, 0x13978484#32,
  0xa6f55353#32, 0xb968d1d1#32, 0x00000000#32, 0xc12ceded#32, 0x40602020#32, 0xe31ffcfc#32, 0x79c8b1b1#32, 0xb6ed5b5b#32, 0xd4be6a6a#32, 0x8d46cbcb#32, 0x67d9bebe#32, 0x724b3939#32, 0x94de4a4a#32, 0x98d44c4c#32, 0xb0e85858#32, 0x854acfcf#32,
  0xbb6bd0d0#32, 0xc52aefef#32, 0x4fe5aaaa#32, 0xed16fbfb#32, 0x86c54343#32, 0x9ad74d4d#32, 0x66553333#32, 0x11948585#32, 0x8acf4545#32, 0xe910f9f9#32, 0x04060202#32, 0xfe817f7f#32, 0xa0f05050#32, 0x78443c3c#32, 0x25ba9f9f#32, 0x4be3a8a8#32,
  0xa2f35151#32, 0x5dfea3a3#32, 0x80c04040#32, 0x058a8f8f#32, 0x3fad9292#32, 0x21bc9d9d#32, 0x70483838#32, 0xf104f5f5#32, 0x63dfbcbc#32, 0x77c1b6b6#32, 0xaf75dada#32, 0x42632121#32, 0x20301010#32, 0xe51affff#32, 0xfd0ef3f3#32, 0xbf6dd2d2#32,
  0x814ccdcd#32, 0x18140c0c#32, 0x26351313#32, 0xc32fecec#32, 0xbee15f5f#32, 0x35a29797#32, 0x88cc4444#32, 0x2e391717#32, 0x9357c4c4#32, 0x55f2a7a7#32, 0xfc827e7e#32, 0x7a473d3d#32, 0xc8ac6464#32, 0xbae75d5d#32, 0x322b1919#32, 0xe6957373#32,
  0xc0a06060#32, 0x19988181#32, 0x9ed14f4f#32, 0xa37fdcdc#32, 0x44662222#32, 0x547e2a2a#32, 0x3bab9090#32, 0x0b838888#32, 0x8cca4646#32, 0xc729eeee#32, 0x6bd3b8b8#32, 0x283c1414#32, 0xa779dede#32, 0xbce25e5e#32, 0x161d0b0b#32, 0xad76dbdb#32,
  0xdb3be0e0#32, 0x64563232#32, 0x744e3a3a#32, 0x141e0a0a#32, 0x92db4949#32, 0x0c0a0606#32, 0x486c2424#32, 0xb8e45c5c#32, 0x9f5dc2c2#32, 0xbd6ed3d3#32, 0x43efacac#32, 0xc4a66262#32, 0x39a89191#32, 0x31a49595#32, 0xd337e4e4#32, 0xf28b7979#32,
  0xd532e7e7#32, 0x8b43c8c8#32, 0x6e593737#32, 0xdab76d6d#32, 0x018c8d8d#32, 0xb164d5d5#32, 0x9cd24e4e#32, 0x49e0a9a9#32, 0xd8b46c6c#32, 0xacfa5656#32, 0xf307f4f4#32, 0xcf25eaea#32, 0xcaaf6565#32, 0xf48e7a7a#32, 0x47e9aeae#32, 0x10180808#32,
  0x6fd5baba#32, 0xf0887878#32, 0x4a6f2525#32, 0x5c722e2e#32, 0x38241c1c#32, 0x57f1a6a6#32, 0x73c7b4b4#32, 0x9751c6c6#32, 0xcb23e8e8#32, 0xa17cdddd#32, 0xe89c7474#32, 0x3e211f1f#32, 0x96dd4b4b#32, 0x61dcbdbd#32, 0x0d868b8b#32, 0x0f858a8a#32,
  0xe0907070#32, 0x7c423e3e#32, 0x71c4b5b5#32, 0xccaa6666#32, 0x90d84848#32, 0x06050303#32, 0xf701f6f6#32, 0x1c120e0e#32, 0xc2a36161#32, 0x6a5f3535#32, 0xaef95757#32, 0x69d0b9b9#32, 0x17918686#32, 0x9958c1c1#32, 0x3a271d1d#32, 0x27b99e9e#32,
  0xd938e1e1#32, 0xeb13f8f8#32, 0x2bb39898#32, 0x22331111#32, 0xd2bb6969#32, 0xa970d9d9#32, 0x07898e8e#32, 0x33a79494#32, 0x2db69b9b#32, 0x3c221e1e#32, 0x15928787#32, 0xc920e9e9#32, 0x8749cece#32, 0xaaff5555#32, 0x50782828#32, 0xa57adfdf#32,
  0x038f8c8c#32, 0x59f8a1a1#32, 0x09808989#32, 0x1a170d0d#32, 0x65dabfbf#32, 0xd731e6e6#32, 0x84c64242#32, 0xd0b86868#32, 0x82c34141#32, 0x29b09999#32, 0x5a772d2d#32, 0x1e110f0f#32, 0x7bcbb0b0#32, 0xa8fc5454#32, 0x6dd6bbbb#32, 0x2c3a1616#32]
/-- haraka/const.go:5-46 -/
def rc : List U32 := [
  0x75817b9d#32, 0xb2c5fef0#32, 0xe620c00a#32, 0x0684704c#32, 0x2f08f717#32, 0x640f6ba4#32, 0x88f3a06b#32, 0x8b66b4e1#32, 0x9f029114#32, 0xcf029d60#32, 0x53f28498#32, 0x3402de2d#32, 0xfd5b4f79#32, 0xbbf3bcaf#32, 0x2e7b4f08#32, 0x0ed6eae6#32,
  0xbe397044#32, 0x79eecd1c#32, 0x4872448b#32, 0xcbcfb0cb#32, 0x2b8a057b#32, 0x8d5335ed#32, 0x6e9032b7#32, 0x7eeacdee#32, 0xda4fef1b#32, 0xe2412761#32, 0x5e2e7cd0#32, 0x67c28f43#32, 0x1fc70b3b#32, 0x675ffde2#32, 0xafcacc07#32, 0x2924d9b0#32,
  0xb9d465ee#32, 0xecdb8fca#32, 0xe6867fe9#32, 0xab4d63f1#32, 0xad037e33#32, 0x5b2a404f#32, 0xd4b7cd64#32, 0x1c30bf84#32, 0x8df69800#32, 0x69028b2e#32, 0x941723bf#32, 0xb2cc0bb9#32, 0x5c9d2d8a#32, 0x4aaa9ec8#32, 0xde6f5572#32, 0xfa0478a6#32,
  0x29129fd4#32, 0x0efa4f2e#32, 0x6b772a12#32, 0xdfb49f2b#32, 0xbb6a12ee#32, 0x32d611ae#32, 0xf449a236#32, 0x1ea10344#32, 0x9ca8eca6#32, 0x5f9600c9#32, 0x4b050084#32, 0xaf044988#32, 0x27e593ec#32, 0x78a2c7e3#32, 0x9d199c4f#32, 0x21025ed8#32,
  0x82d40173#32, 0xb9282ecd#32, 0xa759c9b7#32, 0xbf3aaaf8#32, 0x10307d6b#32, 0x37f2efd9#32, 0x6186b017#32, 0x6260700d#32, 0xf6fc9ac6#32, 0x81c29153#32, 0x21300443#32, 0x5aca45c2#32, 0x36d1943a#32, 0x2caf92e8#32, 0x226b68bb#32, 0x9223973c#32,
  0xe51071b4#32, 0x6cbab958#32, 0x225886eb#32, 0xd3bf9238#32, 0x24e1128d#32, 0x933dfddd#32, 0xaef0c677#32, 0xdb863ce5#32, 0xcb2212b1#32, 0x83e48de3#32, 0xffeba09c#32, 0xbb606268#32, 0xc72bf77d#32, 0x2db91a4e#32, 0xe2e4d19c#32, 0x734bd3dc#32,
  0x2cb3924e#32, 0x4b1415c4#32, 0x61301b43#32, 0x43bb47c3#32, 0x16eb6899#32, 0x03b231dd#32, 0xe707eff6#32, 0xdba775a8#32, 0x7eca472c#32, 0x8e5e2302#32, 0x3c755977#32, 0x6df3614b#32, 0xb88617f9#32, 0x6d1be5b9#32, 0xd6de7d77#32, 0xcda75a17#32,
  0xa946ee5d#32, 0x9d6c069d#32, 0x6ba8e9aa#32, 0xec6b43f0#32, 0x3bf327c1#32, 0xa2531159#32, 0xf957332b#32, 0xcb1e6950#32, 0x600ed0d9#32, 0xe4ed0353#32, 0x00da619c#32, 0x2cee0c75#32, 0x63a4a350#32, 0x80bbbabc#32, 0x96e90cab#32, 0xf0b1a5a1#32,
  0x938dca39#32, 0xab0dde30#32, 0x5e962988#32, 0xae3db102#32, 0x2e75b442#32, 0x8814f3a8#32, 0xd554a40b#32, 0x17bb8f38#32, 0x360a16f6#32, 0xaeb6b779#32, 0x5f427fd7#32, 0x34bb8a5b#32, 0xffbaafde#32, 0x43ce5918#32, 0xcbe55438#32, 0x26f65241#32,
  0x839ec978#32, 0xa2ca9cf7#32, 0xb9f3026a#32, 0x4ce99a54#32, 0x22901235#32, 0x40c06e28#32, 0x1bdff7be#32, 0xae51a51a#32, 0x48a659cf#32, 0xc173bc0f#32, 0xba7ed22b#32, 0xa0c1613c#32, 0xe9c59da1#32, 0x4ad6bdfd#32, 0x02288288#32, 0x756acc03#32]

end Verif.Haraka
