import Verif.Words
/-
Generated by tools/gen_fugue.py: tables of fugue/sbox.go and the straight-line parts of fugue/digest.go.
-/
namespace Verif.Fugue

/-- fugue/sbox.go:3-68 -/
def mixtab0 : List U32 := [
  0x63633297#32, 0x7c7c6feb#32, 0x77775ec7#32, 0x7b7b7af7#32, 0xf2f2e8e5#32, 0x6b6b0ab7#32, 0x6f6f16a7#32, 0xc5c56d39#32,
  0x303090c0#32, 0x01010704#32, 0x67672e87#32, 0x2b2bd1ac#32, 0xfefeccd5#32, 0xd7d71371#32, 0xabab7c9a#32, 0x767659c3#32,
  0xcaca4005#32, 0x8282a33e#32, 0xc9c94909#32, 0x7d7d68ef#32, 0xfafad0c5#32, 0x5959947f#32, 0x4747ce07#32, 0xf0f0e6ed#32,
  0xadad6e82#32, 0xd4d41a7d#32, 0xa2a243be#32, 0xafaf608a#32, 0x9c9cf946#32, 0xa4a451a6#32, 0x727245d3#32, 0xc0c0762d#32,
  0xb7b728ea#32, 0xfdfdc5d9#32, 0x9393d47a#32, 0x2626f298#32, 0x363682d8#32, 0x3f3fbdfc#32, 0xf7f7f3f1#32, 0xcccc521d#32,
  0x34348cd0#32, 0xa5a556a2#32, 0xe5e58db9#32, 0xf1f1e1e9#32, 0x71714cdf#32, 0xd8d83e4d#32, 0x313197c4#32, 0x15156b54#32,
  0x04041c10#32, 0xc7c76331#32, 0x2323e98c#32, 0xc3c37f21#32, 0x18184860#32, 0x9696cf6e#32, 0x05051b14#32, 0x9a9aeb5e#32,
  0x0707151c#32, 0x12127e48#32, 0x8080ad36#32, 0xe2e298a5#32, 0xebeba781#32, 0x2727f59c#32, 0xb2b233fe#32, 0x757550cf#32,
  0x09093f24#32, 0x8383a43a#32, 0x2c2cc4b0#32, 0x1a1a4668#32, 0x1b1b416c#32, 0x6e6e11a3#32, 0x5a5a9d73#32, 0xa0a04db6#32,
  0x5252a553#32, 0x3b3ba1ec#32, 0xd6d61475#32, 0xb3b334fa#32, 0x2929dfa4#32, 0xe3e39fa1#32, 0x2f2fcdbc#32, 0x8484b126#32,
  0x5353a257#32, 0xd1d10169#32, 0x00000000#32, 0xededb599#32, 0x2020e080#32, 0xfcfcc2dd#32, 0xb1b13af2#32, 0x5b5b9a77#32,
  0x6a6a0db3#32, 0xcbcb4701#32, 0xbebe17ce#32, 0x3939afe4#32, 0x4a4aed33#32, 0x4c4cff2b#32, 0x5858937b#32, 0xcfcf5b11#32,
  0xd0d0066d#32, 0xefefbb91#32, 0xaaaa7b9e#32, 0xfbfbd7c1#32, 0x4343d217#32, 0x4d4df82f#32, 0x333399cc#32, 0x8585b622#32,
  0x4545c00f#32, 0xf9f9d9c9#32, 0x02020e08#32, 0x7f7f66e7#32, 0x5050ab5b#32, 0x3c3cb4f0#32, 0x9f9ff04a#32, 0xa8a87596#32,
  0x5151ac5f#32, 0xa3a344ba#32, 0x4040db1b#32, 0x8f8f800a#32, 0x9292d37e#32, 0x9d9dfe42#32, 0x3838a8e0#32, 0xf5f5fdf9#32,
  0xbcbc19c6#32, 0xb6b62fee#32, 0xdada3045#32, 0x2121e784#32, 0x10107040#32, 0xffffcbd1#32, 0xf3f3efe1#32, 0xd2d20865#32,
  0xcdcd5519#32, 0x0c0c2430#32, 0x1313794c#32, 0xececb29d#32, 0x5f5f8667#32, 0x9797c86a#32, 0x4444c70b#32, 0x1717655c#32,
  0xc4c46a3d#32, 0xa7a758aa#32, 0x7e7e61e3#32, 0x3d3db3f4#32, 0x6464278b#32, 0x5d5d886f#32, 0x19194f64#32, 0x737342d7#32,
  0x60603b9b#32, 0x8181aa32#32, 0x4f4ff627#32, 0xdcdc225d#32, 0x2222ee88#32, 0x2a2ad6a8#32, 0x9090dd76#32, 0x88889516#32,
  0x4646c903#32, 0xeeeebc95#32, 0xb8b805d6#32, 0x14146c50#32, 0xdede2c55#32, 0x5e5e8163#32, 0x0b0b312c#32, 0xdbdb3741#32,
  0xe0e096ad#32, 0x32329ec8#32, 0x3a3aa6e8#32, 0x0a0a3628#32, 0x4949e43f#32, 0x06061218#32, 0x2424fc90#32, 0x5c5c8f6b#32,
  0xc2c27825#32, 0xd3d30f61#32, 0xacac6986#32, 0x62623593#32, 0x9191da72#32, 0x9595c662#32, 0xe4e48abd#32, 0x797974ff#32,
  0xe7e783b1#32, 0xc8c84e0d#32, 0x373785dc#32, 0x6d6d18af#32, 0x8d8d8e02#32, 0xd5d51d79#32, 0x4e4ef123#32, 0xa9a97292#32,
  0x6c6c1fab#32, 0x5656b943#32, 0xf4f4fafd#32, 0xeaeaa085#32, 0x6565208f#32, 0x7a7a7df3#32, 0xaeae678e#32, 0x08083820#32,
  0xbaba0bde#32, 0x787873fb#32, 0x2525fb94#32, 0x2e2ecab8#32, 0x1c1c5470#32, 0xa6a65fae#32, 0xb4b421e6#32, 0xc6c66435#32,
  0xe8e8ae8d#32, 0xdddd2559#32, 0x747457cb#32, 0x1f1f5d7c#32, 0x4b4bea37#32, 0xbdbd1ec2#32, 0x8b8b9c1a#32, 0x8a8a9b1e#32,
  0x70704bdb#32, 0x3e3ebaf8#32, 0xb5b526e2#32, 0x66662983#32, 0x4848e33b#32, 0x0303090c#32, 0xf6f6f4f5#32, 0x0e0e2a38#32,
  0x61613c9f#32, 0x35358bd4#32, 0x5757be47#32, 0xb9b902d2#32, 0x8686bf2e#32, 0xc1c17129#32, 0x1d1d5374#32, 0x9e9ef74e#32,
  0xe1e191a9#32, 0xf8f8decd#32, 0x9898e556#32, 0x11117744#32, 0x696904bf#32, 0xd9d93949#32, 0x8e8e870e#32, 0x9494c166#32,
  0x9b9bec5a#32, 0x1e1e5a78#32, 0x8787b82a#32, 0xe9e9a989#32, 0xcece5c15#32, 0x5555b04f#32, 0x2828d8a0#32, 0xdfdf2b51#32,
  0x8c8c8906#32, 0xa1a14ab2#32, 0x89899212#32, 0x0d0d2334#32, 0xbfbf10ca#32, 0xe6e684b5#32, 0x4242d513#32, 0x686803bb#32,
  0x4141dc1f#32, 0x9999e252#32, 0x2d2dc3b4#32, 0x0f0f2d3c#32, 0xb0b03df6#32, 0x5454b74b#32, 0xbbbb0cda#32, 0x16166258#32]
/-- fugue/sbox.go:70-135 -/
def mixtab1 : List U32 := [
  0x97636332#32, 0xeb7c7c6f#32, 0xc777775e#32, 0xf77b7b7a#32, 0xe5f2f2e8#32, 0xb76b6b0a#32, 0xa76f6f16#32, 0x39c5c56d#32,
  0xc0303090#32, 0x04010107#32, 0x8767672e#32, 0xac2b2bd1#32, 0xd5fefecc#32, 0x71d7d713#32, 0x9aabab7c#32, 0xc3767659#32,
  0x05caca40#32, 0x3e8282a3#32, 0x09c9c949#32, 0xef7d7d68#32, 0xc5fafad0#32, 0x7f595994#32, 0x074747ce#32, 0xedf0f0e6#32,
  0x82adad6e#32, 0x7dd4d41a#32, 0xbea2a243#32, 0x8aafaf60#32, 0x469c9cf9#32, 0xa6a4a451#32, 0xd3727245#32, 0x2dc0c076#32,
  0xeab7b728#32, 0xd9fdfdc5#32, 0x7a9393d4#32, 0x982626f2#32, 0xd8363682#32, 0xfc3f3fbd#32, 0xf1f7f7f3#32, 0x1dcccc52#32,
  0xd034348c#32, 0xa2a5a556#32, 0xb9e5e58d#32, 0xe9f1f1e1#32, 0xdf71714c#32, 0x4dd8d83e#32, 0xc4313197#32, 0x5415156b#32,
  0x1004041c#32, 0x31c7c763#32, 0x8c2323e9#32, 0x21c3c37f#32, 0x60181848#32, 0x6e9696cf#32, 0x1405051b#32, 0x5e9a9aeb#32,
  0x1c070715#32, 0x4812127e#32, 0x368080ad#32, 0xa5e2e298#32, 0x81ebeba7#32, 0x9c2727f5#32, 0xfeb2b233#32, 0xcf757550#32,
  0x2409093f#32, 0x3a8383a4#32, 0xb02c2cc4#32, 0x681a1a46#32, 0x6c1b1b41#32, 0xa36e6e11#32, 0x735a5a9d#32, 0xb6a0a04d#32,
  0x535252a5#32, 0xec3b3ba1#32, 0x75d6d614#32, 0xfab3b334#32, 0xa42929df#32, 0xa1e3e39f#32, 0xbc2f2fcd#32, 0x268484b1#32,
  0x575353a2#32, 0x69d1d101#32, 0x00000000#32, 0x99ededb5#32, 0x802020e0#32, 0xddfcfcc2#32, 0xf2b1b13a#32, 0x775b5b9a#32,
  0xb36a6a0d#32, 0x01cbcb47#32, 0xcebebe17#32, 0xe43939af#32, 0x334a4aed#32, 0x2b4c4cff#32, 0x7b585893#32, 0x11cfcf5b#32,
  0x6dd0d006#32, 0x91efefbb#32, 0x9eaaaa7b#32, 0xc1fbfbd7#32, 0x174343d2#32, 0x2f4d4df8#32, 0xcc333399#32, 0x228585b6#32,
  0x0f4545c0#32, 0xc9f9f9d9#32, 0x0802020e#32, 0xe77f7f66#32, 0x5b5050ab#32, 0xf03c3cb4#32, 0x4a9f9ff0#32, 0x96a8a875#32,
  0x5f5151ac#32, 0xbaa3a344#32, 0x1b4040db#32, 0x0a8f8f80#32, 0x7e9292d3#32, 0x429d9dfe#32, 0xe03838a8#32, 0xf9f5f5fd#32,
  0xc6bcbc19#32, 0xeeb6b62f#32, 0x45dada30#32, 0x842121e7#32, 0x40101070#32, 0xd1ffffcb#32, 0xe1f3f3ef#32, 0x65d2d208#32,
  0x19cdcd55#32, 0x300c0c24#32, 0x4c131379#32, 0x9dececb2#32, 0x675f5f86#32, 0x6a9797c8#32, 0x0b4444c7#32, 0x5c171765#32,
  0x3dc4c46a#32, 0xaaa7a758#32, 0xe37e7e61#32, 0xf43d3db3#32, 0x8b646427#32, 0x6f5d5d88#32, 0x6419194f#32, 0xd7737342#32,
  0x9b60603b#32, 0x328181aa#32, 0x274f4ff6#32, 0x5ddcdc22#32, 0x882222ee#32, 0xa82a2ad6#32, 0x769090dd#32, 0x16888895#32,
  0x034646c9#32, 0x95eeeebc#32, 0xd6b8b805#32, 0x5014146c#32, 0x55dede2c#32, 0x635e5e81#32, 0x2c0b0b31#32, 0x41dbdb37#32,
  0xade0e096#32, 0xc832329e#32, 0xe83a3aa6#32, 0x280a0a36#32, 0x3f4949e4#32, 0x18060612#32, 0x902424fc#32, 0x6b5c5c8f#32,
  0x25c2c278#32, 0x61d3d30f#32, 0x86acac69#32, 0x93626235#32, 0x729191da#32, 0x629595c6#32, 0xbde4e48a#32, 0xff797974#32,
  0xb1e7e783#32, 0x0dc8c84e#32, 0xdc373785#32, 0xaf6d6d18#32, 0x028d8d8e#32, 0x79d5d51d#32, 0x234e4ef1#32, 0x92a9a972#32,
  0xab6c6c1f#32, 0x435656b9#32, 0xfdf4f4fa#32, 0x85eaeaa0#32, 0x8f656520#32, 0xf37a7a7d#32, 0x8eaeae67#32, 0x20080838#32,
  0xdebaba0b#32, 0xfb787873#32, 0x942525fb#32, 0xb82e2eca#32, 0x701c1c54#32, 0xaea6a65f#32, 0xe6b4b421#32, 0x35c6c664#32,
  0x8de8e8ae#32, 0x59dddd25#32, 0xcb747457#32, 0x7c1f1f5d#32, 0x374b4bea#32, 0xc2bdbd1e#32, 0x1a8b8b9c#32, 0x1e8a8a9b#32,
  0xdb70704b#32, 0xf83e3eba#32, 0xe2b5b526#32, 0x83666629#32, 0x3b4848e3#32, 0x0c030309#32, 0xf5f6f6f4#32, 0x380e0e2a#32,
  0x9f61613c#32, 0xd435358b#32, 0x475757be#32, 0xd2b9b902#32, 0x2e8686bf#32, 0x29c1c171#32, 0x741d1d53#32, 0x4e9e9ef7#32,
  0xa9e1e191#32, 0xcdf8f8de#32, 0x569898e5#32, 0x44111177#32, 0xbf696904#32, 0x49d9d939#32, 0x0e8e8e87#32, 0x669494c1#32,
  0x5a9b9bec#32, 0x781e1e5a#32, 0x2a8787b8#32, 0x89e9e9a9#32, 0x15cece5c#32, 0x4f5555b0#32, 0xa02828d8#32, 0x51dfdf2b#32,
  0x068c8c89#32, 0xb2a1a14a#32, 0x12898992#32, 0x340d0d23#32, 0xcabfbf10#32, 0xb5e6e684#32, 0x134242d5#32, 0xbb686803#32,
  0x1f4141dc#32, 0x529999e2#32, 0xb42d2dc3#32, 0x3c0f0f2d#32, 0xf6b0b03d#32, 0x4b5454b7#32, 0xdabbbb0c#32, 0x58161662#32]
/-- fugue/sbox.go:137-202 -/
def mixtab2 : List U32 := [
  0x32976363#32, 0x6feb7c7c#32, 0x5ec77777#32, 0x7af77b7b#32, 0xe8e5f2f2#32, 0x0ab76b6b#32, 0x16a76f6f#32, 0x6d39c5c5#32,
  0x90c03030#32, 0x07040101#32, 0x2e876767#32, 0xd1ac2b2b#32, 0xccd5fefe#32, 0x1371d7d7#32, 0x7c9aabab#32, 0x59c37676#32,
  0x4005caca#32, 0xa33e8282#32, 0x4909c9c9#32, 0x68ef7d7d#32, 0xd0c5fafa#32, 0x947f5959#32, 0xce074747#32, 0xe6edf0f0#32,
  0x6e82adad#32, 0x1a7dd4d4#32, 0x43bea2a2#32, 0x608aafaf#32, 0xf9469c9c#32, 0x51a6a4a4#32, 0x45d37272#32, 0x762dc0c0#32,
  0x28eab7b7#32, 0xc5d9fdfd#32, 0xd47a9393#32, 0xf2982626#32, 0x82d83636#32, 0xbdfc3f3f#32, 0xf3f1f7f7#32, 0x521dcccc#32,
  0x8cd03434#32, 0x56a2a5a5#32, 0x8db9e5e5#32, 0xe1e9f1f1#32, 0x4cdf7171#32, 0x3e4dd8d8#32, 0x97c43131#32, 0x6b541515#32,
  0x1c100404#32, 0x6331c7c7#32, 0xe98c2323#32, 0x7f21c3c3#32, 0x48601818#32, 0xcf6e9696#32, 0x1b140505#32, 0xeb5e9a9a#32,
  0x151c0707#32, 0x7e481212#32, 0xad368080#32, 0x98a5e2e2#32, 0xa781ebeb#32, 0xf59c2727#32, 0x33feb2b2#32, 0x50cf7575#32,
  0x3f240909#32, 0xa43a8383#32, 0xc4b02c2c#32, 0x46681a1a#32, 0x416c1b1b#32, 0x11a36e6e#32, 0x9d735a5a#32, 0x4db6a0a0#32,
  0xa5535252#32, 0xa1ec3b3b#32, 0x1475d6d6#32, 0x34fab3b3#32, 0xdfa42929#32, 0x9fa1e3e3#32, 0xcdbc2f2f#32, 0xb1268484#32,
  0xa2575353#32, 0x0169d1d1#32, 0x00000000#32, 0xb599eded#32, 0xe0802020#32, 0xc2ddfcfc#32, 0x3af2b1b1#32, 0x9a775b5b#32,
  0x0db36a6a#32, 0x4701cbcb#32, 0x17cebebe#32, 0xafe43939#32, 0xed334a4a#32, 0xff2b4c4c#32, 0x937b5858#32, 0x5b11cfcf#32,
  0x066dd0d0#32, 0xbb91efef#32, 0x7b9eaaaa#32, 0xd7c1fbfb#32, 0xd2174343#32, 0xf82f4d4d#32, 0x99cc3333#32, 0xb6228585#32,
  0xc00f4545#32, 0xd9c9f9f9#32, 0x0e080202#32, 0x66e77f7f#32, 0xab5b5050#32, 0xb4f03c3c#32, 0xf04a9f9f#32, 0x7596a8a8#32,
  0xac5f5151#32, 0x44baa3a3#32, 0xdb1b4040#32, 0x800a8f8f#32, 0xd37e9292#32, 0xfe429d9d#32, 0xa8e03838#32, 0xfdf9f5f5#32,
  0x19c6bcbc#32, 0x2feeb6b6#32, 0x3045dada#32, 0xe7842121#32, 0x70401010#32, 0xcbd1ffff#32, 0xefe1f3f3#32, 0x0865d2d2#32,
  0x5519cdcd#32, 0x24300c0c#32, 0x794c1313#32, 0xb29decec#32, 0x86675f5f#32, 0xc86a9797#32, 0xc70b4444#32, 0x655c1717#32,
  0x6a3dc4c4#32, 0x58aaa7a7#32, 0x61e37e7e#32, 0xb3f43d3d#32, 0x278b6464#32, 0x886f5d5d#32, 0x4f641919#32, 0x42d77373#32,
  0x3b9b6060#32, 0xaa328181#32, 0xf6274f4f#32, 0x225ddcdc#32, 0xee882222#32, 0xd6a82a2a#32, 0xdd769090#32, 0x95168888#32,
  0xc9034646#32, 0xbc95eeee#32, 0x05d6b8b8#32, 0x6c501414#32, 0x2c55dede#32, 0x81635e5e#32, 0x312c0b0b#32, 0x3741dbdb#32,
  0x96ade0e0#32, 0x9ec83232#32, 0xa6e83a3a#32, 0x36280a0a#32, 0xe43f4949#32, 0x12180606#32, 0xfc902424#32, 0x8f6b5c5c#32,
  0x7825c2c2#32, 0x0f61d3d3#32, 0x6986acac#32, 0x35936262#32, 0xda729191#32, 0xc6629595#32, 0x8abde4e4#32, 0x74ff7979#32,
  0x83b1e7e7#32, 0x4e0dc8c8#32, 0x85dc3737#32, 0x18af6d6d#32, 0x8e028d8d#32, 0x1d79d5d5#32, 0xf1234e4e#32, 0x7292a9a9#32,
  0x1fab6c6c#32, 0xb9435656#32, 0xfafdf4f4#32, 0xa085eaea#32, 0x208f6565#32, 0x7df37a7a#32, 0x678eaeae#32, 0x38200808#32,
  0x0bdebaba#32, 0x73fb7878#32, 0xfb942525#32, 0xcab82e2e#32, 0x54701c1c#32, 0x5faea6a6#32, 0x21e6b4b4#32, 0x6435c6c6#32,
  0xae8de8e8#32, 0x2559dddd#32, 0x57cb7474#32, 0x5d7c1f1f#32, 0xea374b4b#32, 0x1ec2bdbd#32, 0x9c1a8b8b#32, 0x9b1e8a8a#32,
  0x4bdb7070#32, 0xbaf83e3e#32, 0x26e2b5b5#32, 0x29836666#32, 0xe33b4848#32, 0x090c0303#32, 0xf4f5f6f6#32, 0x2a380e0e#32,
  0x3c9f6161#32, 0x8bd43535#32, 0xbe475757#32, 0x02d2b9b9#32, 0xbf2e8686#32, 0x7129c1c1#32, 0x53741d1d#32, 0xf74e9e9e#32,
  0x91a9e1e1#32, 0xdecdf8f8#32, 0xe5569898#32, 0x77441111#32, 0x04bf6969#32, 0x3949d9d9#32, 0x870e8e8e#32, 0xc1669494#32,
  0xec5a9b9b#32, 0x5a781e1e#32, 0xb82a8787#32, 0xa989e9e9#32, 0x5c15cece#32, 0xb04f5555#32, 0xd8a02828#32, 0x2b51dfdf#32,
  0x89068c8c#32, 0x4ab2a1a1#32, 0x92128989#32, 0x23340d0d#32, 0x10cabfbf#32, 0x84b5e6e6#32, 0xd5134242#32, 0x03bb6868#32,
  0xdc1f4141#32, 0xe2529999#32, 0xc3b42d2d#32, 0x2d3c0f0f#32, 0x3df6b0b0#32, 0xb74b5454#32, 0x0cdabbbb#32, 0x62581616#32]
/-- fugue/sbox.go:204-269 -/
def mixtab3 : List U32 := [
  0x63329763#32, 0x7c6feb7c#32, 0x775ec777#32, 0x7b7af77b#32, 0xf2e8e5f2#32, 0x6b0ab76b#32, 0x6f16a76f#32, 0xc56d39c5#32,
  0x3090c030#32, 0x01070401#32, 0x672e8767#32, 0x2bd1ac2b#32, 0xfeccd5fe#32, 0xd71371d7#32, 0xab7c9aab#32, 0x7659c376#32,
  0xca4005ca#32, 0x82a33e82#32, 0xc94909c9#32, 0x7d68ef7d#32, 0xfad0c5fa#32, 0x59947f59#32, 0x47ce0747#32, 0xf0e6edf0#32,
  0xad6e82ad#32, 0xd41a7dd4#32, 0xa243bea2#32, 0xaf608aaf#32, 0x9cf9469c#32, 0xa451a6a4#32, 0x7245d372#32, 0xc0762dc0#32,
  0xb728eab7#32, 0xfdc5d9fd#32, 0x93d47a93#32, 0x26f29826#32, 0x3682d836#32, 0x3fbdfc3f#32, 0xf7f3f1f7#32, 0xcc521dcc#32,
  0x348cd034#32, 0xa556a2a5#32, 0xe58db9e5#32, 0xf1e1e9f1#32, 0x714cdf71#32, 0xd83e4dd8#32, 0x3197c431#32, 0x156b5415#32,
  0x041c1004#32, 0xc76331c7#32, 0x23e98c23#32, 0xc37f21c3#32, 0x18486018#32, 0x96cf6e96#32, 0x051b1405#32, 0x9aeb5e9a#32,
  0x07151c07#32, 0x127e4812#32, 0x80ad3680#32, 0xe298a5e2#32, 0xeba781eb#32, 0x27f59c27#32, 0xb233feb2#32, 0x7550cf75#32,
  0x093f2409#32, 0x83a43a83#32, 0x2cc4b02c#32, 0x1a46681a#32, 0x1b416c1b#32, 0x6e11a36e#32, 0x5a9d735a#32, 0xa04db6a0#32,
  0x52a55352#32, 0x3ba1ec3b#32, 0xd61475d6#32, 0xb334fab3#32, 0x29dfa429#32, 0xe39fa1e3#32, 0x2fcdbc2f#32, 0x84b12684#32,
  0x53a25753#32, 0xd10169d1#32, 0x00000000#32, 0xedb599ed#32, 0x20e08020#32, 0xfcc2ddfc#32, 0xb13af2b1#32, 0x5b9a775b#32,
  0x6a0db36a#32, 0xcb4701cb#32, 0xbe17cebe#32, 0x39afe439#32, 0x4aed334a#32, 0x4cff2b4c#32, 0x58937b58#32, 0xcf5b11cf#32,
  0xd0066dd0#32, 0xefbb91ef#32, 0xaa7b9eaa#32, 0xfbd7c1fb#32, 0x43d21743#32, 0x4df82f4d#32, 0x3399cc33#32, 0x85b62285#32,
  0x45c00f45#32, 0xf9d9c9f9#32, 0x020e0802#32, 0x7f66e77f#32, 0x50ab5b50#32, 0x3cb4f03c#32, 0x9ff04a9f#32, 0xa87596a8#32,
  0x51ac5f51#32, 0xa344baa3#32, 0x40db1b40#32, 0x8f800a8f#32, 0x92d37e92#32, 0x9dfe429d#32, 0x38a8e038#32, 0xf5fdf9f5#32,
  0xbc19c6bc#32, 0xb62feeb6#32, 0xda3045da#32, 0x21e78421#32, 0x10704010#32, 0xffcbd1ff#32, 0xf3efe1f3#32, 0xd20865d2#32,
  0xcd5519cd#32, 0x0c24300c#32, 0x13794c13#32, 0xecb29dec#32, 0x5f86675f#32, 0x97c86a97#32, 0x44c70b44#32, 0x17655c17#32,
  0xc46a3dc4#32, 0xa758aaa7#32, 0x7e61e37e#32, 0x3db3f43d#32, 0x64278b64#32, 0x5d886f5d#32, 0x194f6419#32, 0x7342d773#32,
  0x603b9b60#32, 0x81aa3281#32, 0x4ff6274f#32, 0xdc225ddc#32, 0x22ee8822#32, 0x2ad6a82a#32, 0x90dd7690#32, 0x88951688#32,
  0x46c90346#32, 0xeebc95ee#32, 0xb805d6b8#32, 0x146c5014#32, 0xde2c55de#32, 0x5e81635e#32, 0x0b312c0b#32, 0xdb3741db#32,
  0xe096ade0#32, 0x329ec832#32, 0x3aa6e83a#32, 0x0a36280a#32, 0x49e43f49#32, 0x06121806#32, 0x24fc9024#32, 0x5c8f6b5c#32,
  0xc27825c2#32, 0xd30f61d3#32, 0xac6986ac#32, 0x62359362#32, 0x91da7291#32, 0x95c66295#32, 0xe48abde4#32, 0x7974ff79#32,
  0xe783b1e7#32, 0xc84e0dc8#32, 0x3785dc37#32, 0x6d18af6d#32, 0x8d8e028d#32, 0xd51d79d5#32, 0x4ef1234e#32, 0xa97292a9#32,
  0x6c1fab6c#32, 0x56b94356#32, 0xf4fafdf4#32, 0xeaa085ea#32, 0x65208f65#32, 0x7a7df37a#32, 0xae678eae#32, 0x08382008#32,
  0xba0bdeba#32, 0x7873fb78#32, 0x25fb9425#32, 0x2ecab82e#32, 0x1c54701c#32, 0xa65faea6#32, 0xb421e6b4#32, 0xc66435c6#32,
  0xe8ae8de8#32, 0xdd2559dd#32, 0x7457cb74#32, 0x1f5d7c1f#32, 0x4bea374b#32, 0xbd1ec2bd#32, 0x8b9c1a8b#32, 0x8a9b1e8a#32,
  0x704bdb70#32, 0x3ebaf83e#32, 0xb526e2b5#32, 0x66298366#32, 0x48e33b48#32, 0x03090c03#32, 0xf6f4f5f6#32, 0x0e2a380e#32,
  0x613c9f61#32, 0x358bd435#32, 0x57be4757#32, 0xb902d2b9#32, 0x86bf2e86#32, 0xc17129c1#32, 0x1d53741d#32, 0x9ef74e9e#32,
  0xe191a9e1#32, 0xf8decdf8#32, 0x98e55698#32, 0x11774411#32, 0x6904bf69#32, 0xd93949d9#32, 0x8e870e8e#32, 0x94c16694#32,
  0x9bec5a9b#32, 0x1e5a781e#32, 0x87b82a87#32, 0xe9a989e9#32, 0xce5c15ce#32, 0x55b04f55#32, 0x28d8a028#32, 0xdf2b51df#32,
  0x8c89068c#32, 0xa14ab2a1#32, 0x89921289#32, 0x0d23340d#32, 0xbf10cabf#32, 0xe684b5e6#32, 0x42d51342#32, 0x6803bb68#32,
  0x41dc1f41#32, 0x99e25299#32, 0x2dc3b42d#32, 0x0f2d3c0f#32, 0xb03df6b0#32, 0x54b74b54#32, 0xbb0cdabb#32, 0x16625816#32]
/-- fugue/sbox.go:271-274 -/
def initVal224 : List U32 := [
  0xf4c9120d#32, 0x6286f757#32, 0xee39e01c#32, 0xe074e3cb#32, 0xa1127c62#32, 0x9a43d215#32, 0xbd8d679a#32]
/-- fugue/sbox.go:276-279 -/
def initVal256 : List U32 := [
  0xe952bdde#32, 0x6671135f#32, 0xe0d4f668#32, 0xd2b0b594#32, 0xf96c621d#32, 0xfbf929de#32, 0x9149e899#32, 0x34f8c248#32]
/-- fugue/sbox.go:281-285 -/
def initVal384 : List U32 := [
  0xaa61ec0d#32, 0x31252e1f#32, 0xa01db4c7#32, 0x00600985#32, 0x215ef44a#32, 0x741b5e9c#32, 0xfa693e9a#32, 0x473eb040#32,
  0xe502ae8a#32, 0xa99c25e0#32, 0xbc95517c#32, 0x5c1095a1#32]
/-- fugue/sbox.go:287-292 -/
def initVal512 : List U32 := [
  0x8807a57e#32, 0xe616af75#32, 0xc5d3e4db#32, 0xac9ab027#32, 0xd915f117#32, 0xb6eecc54#32, 0x06e8020b#32, 0x4a92efd1#32,
  0xaac6e2c9#32, 0xddb21398#32, 0xcae65838#32, 0x437f203f#32, 0x25ea78e7#32, 0x951fddd6#32, 0xda6ed11d#32, 0xe13e3567#32]

/-- A statement of the straight-line parts of fugue/digest.go:
`xs i j` is `S[i] ^= S[j]`, `ld i` is `S[i] = w`, `smix a b c e` is `smix(S[:], a, b, c, e)`. -/
inductive Stmt
  | xs (i j : Nat)
  | ld (i : Nat)
  | smix (a b c e : Nat)
  deriving DecidableEq

/-- fugue/digest.go:172-279 (process2): the cases 1, 2, ... of the switch, cut at the exits `if num <= 0`; with each piece the value the exit gives to rshift. -/
def prog256Cases : List (List Stmt × Nat) := [
  ([.xs 4 24, .ld 24, .xs 2 24, .xs 25 18, .xs 21 25, .xs 22 26, .xs 23 27, .xs 6 25, .xs 7 26, .xs 8 27, .smix 21 22 23 24, .xs 18 22, .xs 19 23, .xs 20 24, .xs 3 22, .xs 4 23, .xs 5 24, .smix 18 19 20 21], 2),
  ([.xs 28 18, .ld 18, .xs 26 18, .xs 19 12, .xs 15 19, .xs 16 20, .xs 17 21, .xs 0 19, .xs 1 20, .xs 2 21, .smix 15 16 17 18, .xs 12 16, .xs 13 17, .xs 14 18, .xs 27 16, .xs 28 17, .xs 29 18, .smix 12 13 14 15], 3),
  ([.xs 22 12, .ld 12, .xs 20 12, .xs 13 6, .xs 9 13, .xs 10 14, .xs 11 15, .xs 24 13, .xs 25 14, .xs 26 15, .smix 9 10 11 12, .xs 6 10, .xs 7 11, .xs 8 12, .xs 21 10, .xs 22 11, .xs 23 12, .smix 6 7 8 9], 4),
  ([.xs 16 6, .ld 6, .xs 14 6, .xs 7 0, .xs 3 7, .xs 4 8, .xs 5 9, .xs 18 7, .xs 19 8, .xs 20 9, .smix 3 4 5 6, .xs 0 4, .xs 1 5, .xs 2 6, .xs 15 4, .xs 16 5, .xs 17 6, .smix 0 1 2 3], 0)]
/-- fugue/digest.go:292-421 (process2): the body of the endless loop, cut at the exits `if num <= 0`; with each piece the value the exit gives to rshift. -/
def prog256Loop : List (List Stmt × Nat) := [
  ([.xs 10 0, .ld 0, .xs 8 0, .xs 1 24, .xs 27 1, .xs 28 2, .xs 29 3, .xs 12 1, .xs 13 2, .xs 14 3, .smix 27 28 29 0, .xs 24 28, .xs 25 29, .xs 26 0, .xs 9 28, .xs 10 29, .xs 11 0, .smix 24 25 26 27], 1),
  ([.xs 4 24, .ld 24, .xs 2 24, .xs 25 18, .xs 21 25, .xs 22 26, .xs 23 27, .xs 6 25, .xs 7 26, .xs 8 27, .smix 21 22 23 24, .xs 18 22, .xs 19 23, .xs 20 24, .xs 3 22, .xs 4 23, .xs 5 24, .smix 18 19 20 21], 2),
  ([.xs 28 18, .ld 18, .xs 26 18, .xs 19 12, .xs 15 19, .xs 16 20, .xs 17 21, .xs 0 19, .xs 1 20, .xs 2 21, .smix 15 16 17 18, .xs 12 16, .xs 13 17, .xs 14 18, .xs 27 16, .xs 28 17, .xs 29 18, .smix 12 13 14 15], 3),
  ([.xs 22 12, .ld 12, .xs 20 12, .xs 13 6, .xs 9 13, .xs 10 14, .xs 11 15, .xs 24 13, .xs 25 14, .xs 26 15, .smix 9 10 11 12, .xs 6 10, .xs 7 11, .xs 8 12, .xs 21 10, .xs 22 11, .xs 23 12, .smix 6 7 8 9], 4),
  ([.xs 16 6, .ld 6, .xs 14 6, .xs 7 0, .xs 3 7, .xs 4 8, .xs 5 9, .xs 18 7, .xs 19 8, .xs 20 9, .smix 3 4 5 6, .xs 0 4, .xs 1 5, .xs 2 6, .xs 15 4, .xs 16 5, .xs 17 6, .smix 0 1 2 3], 0)]
/-- fugue/digest.go:488-590 (process384): the cases 1, 2, ... of the switch, cut at the exits `if num <= 0`; with each piece the value the exit gives to rshift. -/
def prog384Cases : List (List Stmt × Nat) := [
  ([.xs 7 27, .ld 27, .xs 35 27, .xs 28 18, .xs 31 21, .xs 24 28, .xs 25 29, .xs 26 30, .xs 6 28, .xs 7 29, .xs 8 30, .smix 24 25 26 27, .xs 21 25, .xs 22 26, .xs 23 27, .xs 3 25, .xs 4 26, .xs 5 27, .smix 21 22 23 24, .xs 18 22, .xs 19 23, .xs 20 24, .xs 0 22, .xs 1 23, .xs 2 24, .smix 18 19 20 21], 2),
  ([.xs 34 18, .ld 18, .xs 26 18, .xs 19 9, .xs 22 12, .xs 15 19, .xs 16 20, .xs 17 21, .xs 33 19, .xs 34 20, .xs 35 21, .smix 15 16 17 18, .xs 12 16, .xs 13 17, .xs 14 18, .xs 30 16, .xs 31 17, .xs 32 18, .smix 12 13 14 15, .xs 9 13, .xs 10 14, .xs 11 15, .xs 27 13, .xs 28 14, .xs 29 15, .smix 9 10 11 12], 3),
  ([.xs 25 9, .ld 9, .xs 17 9, .xs 10 0, .xs 13 3, .xs 6 10, .xs 7 11, .xs 8 12, .xs 24 10, .xs 25 11, .xs 26 12, .smix 6 7 8 9, .xs 3 7, .xs 4 8, .xs 5 9, .xs 21 7, .xs 22 8, .xs 23 9, .smix 3 4 5 6, .xs 0 4, .xs 1 5, .xs 2 6, .xs 18 4, .xs 19 5, .xs 20 6, .smix 0 1 2 3], 0)]
/-- fugue/digest.go:603-736 (process384): the body of the endless loop, cut at the exits `if num <= 0`; with each piece the value the exit gives to rshift. -/
def prog384Loop : List (List Stmt × Nat) := [
  ([.xs 16 0, .ld 0, .xs 8 0, .xs 1 27, .xs 4 30, .xs 33 1, .xs 34 2, .xs 35 3, .xs 15 1, .xs 16 2, .xs 17 3, .smix 33 34 35 0, .xs 30 34, .xs 31 35, .xs 32 0, .xs 12 34, .xs 13 35, .xs 14 0, .smix 30 31 32 33, .xs 27 31, .xs 28 32, .xs 29 33, .xs 9 31, .xs 10 32, .xs 11 33, .smix 27 28 29 30], 1),
  ([.xs 7 27, .ld 27, .xs 35 27, .xs 28 18, .xs 31 21, .xs 24 28, .xs 25 29, .xs 26 30, .xs 6 28, .xs 7 29, .xs 8 30, .smix 24 25 26 27, .xs 21 25, .xs 22 26, .xs 23 27, .xs 3 25, .xs 4 26, .xs 5 27, .smix 21 22 23 24, .xs 18 22, .xs 19 23, .xs 20 24, .xs 0 22, .xs 1 23, .xs 2 24, .smix 18 19 20 21], 2),
  ([.xs 34 18, .ld 18, .xs 26 18, .xs 19 9, .xs 22 12, .xs 15 19, .xs 16 20, .xs 17 21, .xs 33 19, .xs 34 20, .xs 35 21, .smix 15 16 17 18, .xs 12 16, .xs 13 17, .xs 14 18, .xs 30 16, .xs 31 17, .xs 32 18, .smix 12 13 14 15, .xs 9 13, .xs 10 14, .xs 11 15, .xs 27 13, .xs 28 14, .xs 29 15, .smix 9 10 11 12], 3),
  ([.xs 25 9, .ld 9, .xs 17 9, .xs 10 0, .xs 13 3, .xs 6 10, .xs 7 11, .xs 8 12, .xs 24 10, .xs 25 11, .xs 26 12, .smix 6 7 8 9, .xs 3 7, .xs 4 8, .xs 5 9, .xs 21 7, .xs 22 8, .xs 23 9, .smix 3 4 5 6, .xs 0 4, .xs 1 5, .xs 2 6, .xs 18 4, .xs 19 5, .xs 20 6, .smix 0 1 2 3], 0)]
/-- fugue/digest.go:808-887 (process512): the cases 1, 2, ... of the switch, cut at the exits `if num <= 0`; with each piece the value the exit gives to rshift. -/
def prog512Cases : List (List Stmt × Nat) := [
  ([.xs 10 24, .ld 24, .xs 32 24, .xs 25 12, .xs 28 15, .xs 31 18, .xs 21 25, .xs 22 26, .xs 23 27, .xs 3 25, .xs 4 26, .xs 5 27, .smix 21 22 23 24, .xs 18 22, .xs 19 23, .xs 20 24, .xs 0 22, .xs 1 23, .xs 2 24, .smix 18 19 20 21, .xs 15 19, .xs 16 20, .xs 17 21, .xs 33 19, .xs 34 20, .xs 35 21, .smix 15 16 17 18, .xs 12 16, .xs 13 17, .xs 14 18, .xs 30 16, .xs 31 17, .xs 32 18, .smix 12 13 14 15], 2),
  ([.xs 34 12, .ld 12, .xs 20 12, .xs 13 0, .xs 16 3, .xs 19 6, .xs 9 13, .xs 10 14, .xs 11 15, .xs 27 13, .xs 28 14, .xs 29 15, .smix 9 10 11 12, .xs 6 10, .xs 7 11, .xs 8 12, .xs 24 10, .xs 25 11, .xs 26 12, .smix 6 7 8 9, .xs 3 7, .xs 4 8, .xs 5 9, .xs 21 7, .xs 22 8, .xs 23 9, .smix 3 4 5 6, .xs 0 4, .xs 1 5, .xs 2 6, .xs 18 4, .xs 19 5, .xs 20 6, .smix 0 1 2 3], 0)]
/-- fugue/digest.go:900-1021 (process512): the body of the endless loop, cut at the exits `if num <= 0`; with each piece the value the exit gives to rshift. -/
def prog512Loop : List (List Stmt × Nat) := [
  ([.xs 22 0, .ld 0, .xs 8 0, .xs 1 24, .xs 4 27, .xs 7 30, .xs 33 1, .xs 34 2, .xs 35 3, .xs 15 1, .xs 16 2, .xs 17 3, .smix 33 34 35 0, .xs 30 34, .xs 31 35, .xs 32 0, .xs 12 34, .xs 13 35, .xs 14 0, .smix 30 31 32 33, .xs 27 31, .xs 28 32, .xs 29 33, .xs 9 31, .xs 10 32, .xs 11 33, .smix 27 28 29 30, .xs 24 28, .xs 25 29, .xs 26 30, .xs 6 28, .xs 7 29, .xs 8 30, .smix 24 25 26 27], 1),
  ([.xs 10 24, .ld 24, .xs 32 24, .xs 25 12, .xs 28 15, .xs 31 18, .xs 21 25, .xs 22 26, .xs 23 27, .xs 3 25, .xs 4 26, .xs 5 27, .smix 21 22 23 24, .xs 18 22, .xs 19 23, .xs 20 24, .xs 0 22, .xs 1 23, .xs 2 24, .smix 18 19 20 21, .xs 15 19, .xs 16 20, .xs 17 21, .xs 33 19, .xs 34 20, .xs 35 21, .smix 15 16 17 18, .xs 12 16, .xs 13 17, .xs 14 18, .xs 30 16, .xs 31 17, .xs 32 18, .smix 12 13 14 15], 2),
  ([.xs 34 12, .ld 12, .xs 20 12, .xs 13 0, .xs 16 3, .xs 19 6, .xs 9 13, .xs 10 14, .xs 11 15, .xs 27 13, .xs 28 14, .xs 29 15, .smix 9 10 11 12, .xs 6 10, .xs 7 11, .xs 8 12, .xs 24 10, .xs 25 11, .xs 26 12, .smix 6 7 8 9, .xs 3 7, .xs 4 8, .xs 5 9, .xs 21 7, .xs 22 8, .xs 23 9, .smix 3 4 5 6, .xs 0 4, .xs 1 5, .xs 2 6, .xs 18 4, .xs 19 5, .xs 20 6, .smix 0 1 2 3], 0)]

end Verif.Fugue
