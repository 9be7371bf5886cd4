import Verif.Basic
import Verif.Bits
import Verif.BufDigest
import Verif.Buffer
import Verif.BufferA
import Verif.BufferX
import Verif.FnList
import Verif.Force
import Verif.HashAPI
import Verif.HistAuto
import Verif.Lazy
import Verif.Lemmas.AES
import Verif.Lemmas.Ascon
import Verif.Lemmas.AsconAEAD
import Verif.Lemmas.AsconHash
import Verif.Lemmas.BLAKE256
import Verif.Lemmas.BLAKE3Bits
import Verif.Lemmas.BLAKE3Chunk
import Verif.Lemmas.BLAKE3Compress
import Verif.Lemmas.BLAKE3Stack
import Verif.Lemmas.BLAKE3Tree
import Verif.Lemmas.BLAKE3Write
import Verif.Lemmas.BLAKE512
import Verif.Lemmas.BLAKEMarshal
import Verif.Lemmas.BMW
import Verif.Lemmas.BMWObj
import Verif.Lemmas.Bash
import Verif.Lemmas.BashObj
import Verif.Lemmas.Belt
import Verif.Lemmas.CMAC
import Verif.Lemmas.CRC16
import Verif.Lemmas.CTR
import Verif.Lemmas.Chaskey
import Verif.Lemmas.Chunker
import Verif.Lemmas.CubeHash
import Verif.Lemmas.CubeHashObj
import Verif.Lemmas.DigestLen
import Verif.Lemmas.Echo
import Verif.Lemmas.EchoComp
import Verif.Lemmas.EchoObj
import Verif.Lemmas.EchoRound
import Verif.Lemmas.Esch
import Verif.Lemmas.FSB
import Verif.Lemmas.FSBComp
import Verif.Lemmas.FSBSum
import Verif.Lemmas.Fugue
import Verif.Lemmas.FugueObj
import Verif.Lemmas.FugueObj2
import Verif.Lemmas.FugueObj3
import Verif.Lemmas.FugueRounds
import Verif.Lemmas.GFBlock
import Verif.Lemmas.GMAC
import Verif.Lemmas.GMACMul
import Verif.Lemmas.GoSlice
import Verif.Lemmas.Gost12
import Verif.Lemmas.Gost12Mem
import Verif.Lemmas.Gost94
import Verif.Lemmas.Groestl
import Verif.Lemmas.GroestlDigest
import Verif.Lemmas.GroestlObj
import Verif.Lemmas.HAS160
import Verif.Lemmas.HMAC
import Verif.Lemmas.Hamsi
import Verif.Lemmas.Hamsi2
import Verif.Lemmas.Hamsi3
import Verif.Lemmas.HamsiObj
import Verif.Lemmas.Haraka
import Verif.Lemmas.Haval
import Verif.Lemmas.HavalObj
import Verif.Lemmas.JH1
import Verif.Lemmas.JH1Obj
import Verif.Lemmas.JH2
import Verif.Lemmas.JH2F
import Verif.Lemmas.JH2Obj
import Verif.Lemmas.JHBits
import Verif.Lemmas.JHConsts
import Verif.Lemmas.K12
import Verif.Lemmas.K12Sponge
import Verif.Lemmas.Keccak
import Verif.Lemmas.Kupyna
import Verif.Lemmas.KupynaFast
import Verif.Lemmas.KupynaObj
import Verif.Lemmas.LSH
import Verif.Lemmas.Luffa
import Verif.Lemmas.LuffaObj
import Verif.Lemmas.Lyra2
import Verif.Lemmas.Lyra2Input
import Verif.Lemmas.Lyra2Main
import Verif.Lemmas.Lyra2Setup
import Verif.Lemmas.Lyra2Wander
import Verif.Lemmas.MD2
import Verif.Lemmas.MD6
import Verif.Lemmas.MD6F
import Verif.Lemmas.Makwa
import Verif.Lemmas.MakwaExtend
import Verif.Lemmas.MakwaRecover
import Verif.Lemmas.MakwaText
import Verif.Lemmas.Murmur3
import Verif.Lemmas.PMAC
import Verif.Lemmas.PMACWrite
import Verif.Lemmas.Panama
import Verif.Lemmas.RIPEMD
import Verif.Lemmas.Rabin
import Verif.Lemmas.RabinDigest
import Verif.Lemmas.RadioGatun
import Verif.Lemmas.RadioGatunObj
import Verif.Lemmas.SHA0
import Verif.Lemmas.SIMD
import Verif.Lemmas.SIMD2
import Verif.Lemmas.SIMD3
import Verif.Lemmas.SIMD4
import Verif.Lemmas.SIMD5
import Verif.Lemmas.SIMDObj
import Verif.Lemmas.SM3
import Verif.Lemmas.Shabal
import Verif.Lemmas.ShabalObj
import Verif.Lemmas.Shavite
import Verif.Lemmas.ShaviteFast
import Verif.Lemmas.ShaviteObj
import Verif.Lemmas.SipHash
import Verif.Lemmas.Skein
import Verif.Lemmas.Skein512
import Verif.Lemmas.Skein512Mem
import Verif.Lemmas.Skeins
import Verif.Lemmas.Streebog
import Verif.Lemmas.StreebogFast
import Verif.Lemmas.StreebogPkg
import Verif.Lemmas.StreebogSim
import Verif.Lemmas.Threefish
import Verif.Lemmas.Tiger
import Verif.Lemmas.VMAC
import Verif.Lemmas.Whirlpool
import Verif.Lemmas.XXH3
import Verif.Lemmas.XXH3Long
import Verif.Lemmas.XXH3Obj
import Verif.Lemmas.XXHash
import Verif.LoopBuf
import Verif.LoopBuf0
import Verif.Model.AESMac
import Verif.Model.Ascon
import Verif.Model.BLAKE256
import Verif.Model.BLAKE3
import Verif.Model.BLAKE512
import Verif.Model.BLAKEMarshal
import Verif.Model.BMW
import Verif.Model.BMWCompress
import Verif.Model.Bash
import Verif.Model.Belt
import Verif.Model.Big
import Verif.Model.CMAC
import Verif.Model.CRC16
import Verif.Model.Chaskey
import Verif.Model.Chunker
import Verif.Model.Composition
import Verif.Model.Ctors
import Verif.Model.CubeHash
import Verif.Model.DataSet
import Verif.Model.DeepCopy
import Verif.Model.Echo
import Verif.Model.EchoTables
import Verif.Model.Esch
import Verif.Model.FSB
import Verif.Model.Facade
import Verif.Model.FacadeAlgos
import Verif.Model.FacadeStd
import Verif.Model.FacadeVars
import Verif.Model.Fugue
import Verif.Model.FugueTables
import Verif.Model.GCMCtr
import Verif.Model.GCMOut
import Verif.Model.GMAC
import Verif.Model.GoSlice
import Verif.Model.Gost12
import Verif.Model.Gost12Alias
import Verif.Model.Gost12Mem
import Verif.Model.Gost94
import Verif.Model.Groestl
import Verif.Model.HAS160
import Verif.Model.HMAC
import Verif.Model.Hamsi
import Verif.Model.HamsiProg
import Verif.Model.Haraka
import Verif.Model.HarakaTab
import Verif.Model.Haval
import Verif.Model.HmacTable
import Verif.Model.JH1
import Verif.Model.JH2
import Verif.Model.K12
import Verif.Model.K12Custom
import Verif.Model.Keccak
import Verif.Model.KeyTree
import Verif.Model.KeyTreeMem
import Verif.Model.Kupyna
import Verif.Model.KupynaTables
import Verif.Model.LSH
import Verif.Model.LSHTables
import Verif.Model.Luffa
import Verif.Model.LuffaBlock
import Verif.Model.Lyra2
import Verif.Model.Lyra2Sum
import Verif.Model.MD2
import Verif.Model.MD6
import Verif.Model.MD6Mem
import Verif.Model.Makwa
import Verif.Model.MakwaMem
import Verif.Model.MakwaParams
import Verif.Model.Murmur3
import Verif.Model.OneShot
import Verif.Model.OneShot2
import Verif.Model.PMAC
import Verif.Model.Panama
import Verif.Model.Plugin
import Verif.Model.RIPEMD
import Verif.Model.Rabin
import Verif.Model.RadioGatun
import Verif.Model.Registry
import Verif.Model.SHA0
import Verif.Model.SIMD
import Verif.Model.SIMDTab
import Verif.Model.SM3
import Verif.Model.SM3Rand
import Verif.Model.Shabal
import Verif.Model.ShabalTables
import Verif.Model.Shavite
import Verif.Model.SipHash
import Verif.Model.Skein
import Verif.Model.Skein512
import Verif.Model.Skein512Mem
import Verif.Model.Skeins
import Verif.Model.Streebog
import Verif.Model.Threefish
import Verif.Model.Tiger
import Verif.Model.VMAC
import Verif.Model.VMACNonce
import Verif.Model.Whirlpool
import Verif.Model.WhirlpoolTables
import Verif.Model.XXH3
import Verif.Model.XXHash
import Verif.Padding
import Verif.Props.C01_SM3
import Verif.Props.C02_SM3Marshal
import Verif.Props.C03_MD2
import Verif.Props.C04_MD2Marshal
import Verif.Props.C05_SHA0
import Verif.Props.C06_HAS160
import Verif.Props.C07_RIPEMD
import Verif.Props.C08_Tiger
import Verif.Props.C09_BLAKE256
import Verif.Props.C100_XXH3Funcs
import Verif.Props.C103_SM3Rand
import Verif.Props.C104_SM3Generate
import Verif.Props.C108_Lyra2
import Verif.Props.C10_BLAKE512
import Verif.Props.C112_Lyra2Sum
import Verif.Props.C114_BLAKEMarshal
import Verif.Props.C11_SipHash
import Verif.Props.C120_FacadeAlgos
import Verif.Props.C122_HMAC
import Verif.Props.C126_OneShot
import Verif.Props.C128_FacadeStd
import Verif.Props.C12_XXHash
import Verif.Props.C130_Plugin
import Verif.Props.C131_GCM
import Verif.Props.C134_GCMOut
import Verif.Props.C135_MakwaParams
import Verif.Props.C136_AESMac
import Verif.Props.C137_VMACNonce
import Verif.Props.C138_Ctors
import Verif.Props.C139_OneShot2
import Verif.Props.C13_Murmur3
import Verif.Props.C140_FacadeVars
import Verif.Props.C141_Gost12Mem
import Verif.Props.C142_Gost12Alias
import Verif.Props.C143_KeyTreeMem
import Verif.Props.C144_K12Custom
import Verif.Props.C145_DataSet
import Verif.Props.C147_HmacTable
import Verif.Props.C148_MakwaMem
import Verif.Props.C14_CRC16
import Verif.Props.C150_MD6Mem
import Verif.Props.C151_MakwaSalt
import Verif.Props.C152_Skein512Mem
import Verif.Props.C16_Chaskey
import Verif.Props.C17_GMAC
import Verif.Props.C18_CMAC
import Verif.Props.C19_PMAC
import Verif.Props.C20_Composition
import Verif.Props.C21_Rabin
import Verif.Props.C23_Chunker
import Verif.Props.C24_AsconAEAD
import Verif.Props.C25_AsconHash
import Verif.Props.C26_AsconMAC
import Verif.Props.C27_BLAKE3
import Verif.Props.C27_BLAKE3_Violation
import Verif.Props.C28_K12
import Verif.Props.C29_Esch
import Verif.Props.C30_MD6
import Verif.Props.C31_LSH
import Verif.Props.C32_Whirlpool
import Verif.Props.C33_Streebog
import Verif.Props.C34_Gost12Marshal
import Verif.Props.C35_Gost94
import Verif.Props.C36_KeyTree
import Verif.Props.C37_Groestl
import Verif.Props.C38_JH
import Verif.Props.C39_Skein
import Verif.Props.C39_Skein512
import Verif.Props.C39_Skeins
import Verif.Props.C40_Threefish
import Verif.Props.C41_VMAC
import Verif.Props.C42_MakwaText
import Verif.Props.C43_MakwaRecover
import Verif.Props.C44_MakwaExtend
import Verif.Props.C45_Kupyna
import Verif.Props.C46_Shavite
import Verif.Props.C47_Bash
import Verif.Props.C48_CubeHash
import Verif.Props.C49_Belt
import Verif.Props.C50_BMW
import Verif.Props.C50_Echo
import Verif.Props.C50_Fugue
import Verif.Props.C50_Hamsi
import Verif.Props.C50_Luffa
import Verif.Props.C50_Panama
import Verif.Props.C50_RadioGatun
import Verif.Props.C50_SIMD
import Verif.Props.C50_Shabal
import Verif.Props.C51_Facade
import Verif.Props.C52_Registry
import Verif.Props.C54_DeepCopy
import Verif.Props.C55_Haval
import Verif.Props.C56_FSB
import Verif.Props.C63_LSHSum
import Verif.Props.C64_Haraka
import Verif.Props.C99_XXH3
import Verif.SetLoop
import Verif.Spec.AES
import Verif.Spec.AESCipher
import Verif.Spec.Ascon
import Verif.Spec.BLAKE
import Verif.Spec.BLAKE3
import Verif.Spec.BMW
import Verif.Spec.Bash
import Verif.Spec.Belt
import Verif.Spec.CRC16
import Verif.Spec.CTR
import Verif.Spec.Chaskey
import Verif.Spec.Chunker
import Verif.Spec.CubeHash
import Verif.Spec.DataSet
import Verif.Spec.Echo
import Verif.Spec.Esch
import Verif.Spec.FSB
import Verif.Spec.FacadeVars
import Verif.Spec.Fugue
import Verif.Spec.GFBlock
import Verif.Spec.GMAC
import Verif.Spec.GoValue
import Verif.Spec.Gost12Alias
import Verif.Spec.Gost94
import Verif.Spec.Groestl
import Verif.Spec.HAS160
import Verif.Spec.HMAC
import Verif.Spec.Hamsi
import Verif.Spec.HamsiCode
import Verif.Spec.Haraka
import Verif.Spec.Haval
import Verif.Spec.JH
import Verif.Spec.K12
import Verif.Spec.Keccak
import Verif.Spec.KeyTree
import Verif.Spec.KeyTreeMem
import Verif.Spec.Kupyna
import Verif.Spec.LSH
import Verif.Spec.Luffa
import Verif.Spec.Lyra2
import Verif.Spec.MD2
import Verif.Spec.MD6
import Verif.Spec.Murmur3
import Verif.Spec.PMAC
import Verif.Spec.Panama
import Verif.Spec.RIPEMD
import Verif.Spec.Rabin
import Verif.Spec.RadioGatun
import Verif.Spec.SHA0
import Verif.Spec.SIMD
import Verif.Spec.SM3
import Verif.Spec.SM3Rand
import Verif.Spec.Shabal
import Verif.Spec.Shavite
import Verif.Spec.SipHash
import Verif.Spec.Skein
import Verif.Spec.StreamMem
import Verif.Spec.Streebog
import Verif.Spec.TextCode
import Verif.Spec.Threefish
import Verif.Spec.Tiger
import Verif.Spec.VMAC
import Verif.Spec.Whirlpool
import Verif.Spec.XXH3
import Verif.Spec.XXHash
import Verif.Tail
import Verif.Words
import Verif.Words32
