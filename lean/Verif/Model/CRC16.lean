import Verif.Basic
/-
Model of packages crc16/x25 (x25.go), crc16/modbus (modbus.go) and of hash/crc16.go.
Strings are byte lists.
-/
namespace Verif.CRC16

/-- crc16/x25/x25.go:7-40 `sbox` -/
def sbox : List (BitVec 16) := [
  0x0000#16, 0x1189#16, 0x2312#16, 0x329b#16, 0x4624#16, 0x57ad#16, 0x6536#16, 0x74bf#16,
  0x8c48#16, 0x9dc1#16, 0xaf5a#16, 0xbed3#16, 0xca6c#16, 0xdbe5#16, 0xe97e#16, 0xf8f7#16,
  0x1081#16, 0x0108#16, 0x3393#16, 0x221a#16, 0x56a5#16, 0x472c#16, 0x75b7#16, 0x643e#16,
  0x9cc9#16, 0x8d40#16, 0xbfdb#16, 0xae52#16, 0xdaed#16, 0xcb64#16, 0xf9ff#16, 0xe876#16,
  0x2102#16, 0x308b#16, 0x0210#16, 0x1399#16, 0x6726#16, 0x76af#16, 0x4434#16, 0x55bd#16,
  0xad4a#16, 0xbcc3#16, 0x8e58#16, 0x9fd1#16, 0xeb6e#16, 0xfae7#16, 0xc87c#16, 0xd9f5#16,
  0x3183#16, 0x200a#16, 0x1291#16, 0x0318#16, 0x77a7#16, 0x662e#16, 0x54b5#16, 0x453c#16,
  0xbdcb#16, 0xac42#16, 0x9ed9#16, 0x8f50#16, 0xfbef#16, 0xea66#16, 0xd8fd#16, 0xc974#16,
  0x4204#16, 0x538d#16, 0x6116#16, 0x709f#16, 0x0420#16, 0x15a9#16, 0x2732#16, 0x36bb#16,
  0xce4c#16, 0xdfc5#16, 0xed5e#16, 0xfcd7#16, 0x8868#16, 0x99e1#16, 0xab7a#16, 0xbaf3#16,
  0x5285#16, 0x430c#16, 0x7197#16, 0x601e#16, 0x14a1#16, 0x0528#16, 0x37b3#16, 0x263a#16,
  0xdecd#16, 0xcf44#16, 0xfddf#16, 0xec56#16, 0x98e9#16, 0x8960#16, 0xbbfb#16, 0xaa72#16,
  0x6306#16, 0x728f#16, 0x4014#16, 0x519d#16, 0x2522#16, 0x34ab#16, 0x0630#16, 0x17b9#16,
  0xef4e#16, 0xfec7#16, 0xcc5c#16, 0xddd5#16, 0xa96a#16, 0xb8e3#16, 0x8a78#16, 0x9bf1#16,
  0x7387#16, 0x620e#16, 0x5095#16, 0x411c#16, 0x35a3#16, 0x242a#16, 0x16b1#16, 0x0738#16,
  0xffcf#16, 0xee46#16, 0xdcdd#16, 0xcd54#16, 0xb9eb#16, 0xa862#16, 0x9af9#16, 0x8b70#16,
  0x8408#16, 0x9581#16, 0xa71a#16, 0xb693#16, 0xc22c#16, 0xd3a5#16, 0xe13e#16, 0xf0b7#16,
  0x0840#16, 0x19c9#16, 0x2b52#16, 0x3adb#16, 0x4e64#16, 0x5fed#16, 0x6d76#16, 0x7cff#16,
  0x9489#16, 0x8500#16, 0xb79b#16, 0xa612#16, 0xd2ad#16, 0xc324#16, 0xf1bf#16, 0xe036#16,
  0x18c1#16, 0x0948#16, 0x3bd3#16, 0x2a5a#16, 0x5ee5#16, 0x4f6c#16, 0x7df7#16, 0x6c7e#16,
  0xa50a#16, 0xb483#16, 0x8618#16, 0x9791#16, 0xe32e#16, 0xf2a7#16, 0xc03c#16, 0xd1b5#16,
  0x2942#16, 0x38cb#16, 0x0a50#16, 0x1bd9#16, 0x6f66#16, 0x7eef#16, 0x4c74#16, 0x5dfd#16,
  0xb58b#16, 0xa402#16, 0x9699#16, 0x8710#16, 0xf3af#16, 0xe226#16, 0xd0bd#16, 0xc134#16,
  0x39c3#16, 0x284a#16, 0x1ad1#16, 0x0b58#16, 0x7fe7#16, 0x6e6e#16, 0x5cf5#16, 0x4d7c#16,
  0xc60c#16, 0xd785#16, 0xe51e#16, 0xf497#16, 0x8028#16, 0x91a1#16, 0xa33a#16, 0xb2b3#16,
  0x4a44#16, 0x5bcd#16, 0x6956#16, 0x78df#16, 0x0c60#16, 0x1de9#16, 0x2f72#16, 0x3efb#16,
  0xd68d#16, 0xc704#16, 0xf59f#16, 0xe416#16, 0x90a9#16, 0x8120#16, 0xb3bb#16, 0xa232#16,
  0x5ac5#16, 0x4b4c#16, 0x79d7#16, 0x685e#16, 0x1ce1#16, 0x0d68#16, 0x3ff3#16, 0x2e7a#16,
  0xe70e#16, 0xf687#16, 0xc41c#16, 0xd595#16, 0xa12a#16, 0xb0a3#16, 0x8238#16, 0x93b1#16,
  0x6b46#16, 0x7acf#16, 0x4854#16, 0x59dd#16, 0x2d62#16, 0x3ceb#16, 0x0e70#16, 0x1ff9#16,
  0xf78f#16, 0xe606#16, 0xd49d#16, 0xc514#16, 0xb1ab#16, 0xa022#16, 0x92b9#16, 0x8330#16,
  0x7bc7#16, 0x6a4e#16, 0x58d5#16, 0x495c#16, 0x3de3#16, 0x2c6a#16, 0x1ef1#16, 0x0f78#16]

/-- crc16/modbus/modbus.go:7-40 `mbTable` -/
def mbTable : List (BitVec 16) := [
  0x0000#16, 0xc0c1#16, 0xc181#16, 0x0140#16, 0xc301#16, 0x03c0#16, 0x0280#16, 0xc241#16,
  0xc601#16, 0x06c0#16, 0x0780#16, 0xc741#16, 0x0500#16, 0xc5c1#16, 0xc481#16, 0x0440#16,
  0xcc01#16, 0x0cc0#16, 0x0d80#16, 0xcd41#16, 0x0f00#16, 0xcfc1#16, 0xce81#16, 0x0e40#16,
  0x0a00#16, 0xcac1#16, 0xcb81#16, 0x0b40#16, 0xc901#16, 0x09c0#16, 0x0880#16, 0xc841#16,
  0xd801#16, 0x18c0#16, 0x1980#16, 0xd941#16, 0x1b00#16, 0xdbc1#16, 0xda81#16, 0x1a40#16,
  0x1e00#16, 0xdec1#16, 0xdf81#16, 0x1f40#16, 0xdd01#16, 0x1dc0#16, 0x1c80#16, 0xdc41#16,
  0x1400#16, 0xd4c1#16, 0xd581#16, 0x1540#16, 0xd701#16, 0x17c0#16, 0x1680#16, 0xd641#16,
  0xd201#16, 0x12c0#16, 0x1380#16, 0xd341#16, 0x1100#16, 0xd1c1#16, 0xd081#16, 0x1040#16,
  0xf001#16, 0x30c0#16, 0x3180#16, 0xf141#16, 0x3300#16, 0xf3c1#16, 0xf281#16, 0x3240#16,
  0x3600#16, 0xf6c1#16, 0xf781#16, 0x3740#16, 0xf501#16, 0x35c0#16, 0x3480#16, 0xf441#16,
  0x3c00#16, 0xfcc1#16, 0xfd81#16, 0x3d40#16, 0xff01#16, 0x3fc0#16, 0x3e80#16, 0xfe41#16,
  0xfa01#16, 0x3ac0#16, 0x3b80#16, 0xfb41#16, 0x3900#16, 0xf9c1#16, 0xf881#16, 0x3840#16,
  0x2800#16, 0xe8c1#16, 0xe981#16, 0x2940#16, 0xeb01#16, 0x2bc0#16, 0x2a80#16, 0xea41#16,
  0xee01#16, 0x2ec0#16, 0x2f80#16, 0xef41#16, 0x2d00#16, 0xedc1#16, 0xec81#16, 0x2c40#16,
  0xe401#16, 0x24c0#16, 0x2580#16, 0xe541#16, 0x2700#16, 0xe7c1#16, 0xe681#16, 0x2640#16,
  0x2200#16, 0xe2c1#16, 0xe381#16, 0x2340#16, 0xe101#16, 0x21c0#16, 0x2080#16, 0xe041#16,
  0xa001#16, 0x60c0#16, 0x6180#16, 0xa141#16, 0x6300#16, 0xa3c1#16, 0xa281#16, 0x6240#16,
  0x6600#16, 0xa6c1#16, 0xa781#16, 0x6740#16, 0xa501#16, 0x65c0#16, 0x6480#16, 0xa441#16,
  0x6c00#16, 0xacc1#16, 0xad81#16, 0x6d40#16, 0xaf01#16, 0x6fc0#16, 0x6e80#16, 0xae41#16,
  0xaa01#16, 0x6ac0#16, 0x6b80#16, 0xab41#16, 0x6900#16, 0xa9c1#16, 0xa881#16, 0x6840#16,
  0x7800#16, 0xb8c1#16, 0xb981#16, 0x7940#16, 0xbb01#16, 0x7bc0#16, 0x7a80#16, 0xba41#16,
  0xbe01#16, 0x7ec0#16, 0x7f80#16, 0xbf41#16, 0x7d00#16, 0xbdc1#16, 0xbc81#16, 0x7c40#16,
  0xb401#16, 0x74c0#16, 0x7580#16, 0xb541#16, 0x7700#16, 0xb7c1#16, 0xb681#16, 0x7640#16,
  0x7200#16, 0xb2c1#16, 0xb381#16, 0x7340#16, 0xb101#16, 0x71c0#16, 0x7080#16, 0xb041#16,
  0x5000#16, 0x90c1#16, 0x9181#16, 0x5140#16, 0x9301#16, 0x53c0#16, 0x5280#16, 0x9241#16,
  0x9601#16, 0x56c0#16, 0x5780#16, 0x9741#16, 0x5500#16, 0x95c1#16, 0x9481#16, 0x5440#16,
  0x9c01#16, 0x5cc0#16, 0x5d80#16, 0x9d41#16, 0x5f00#16, 0x9fc1#16, 0x9e81#16, 0x5e40#16,
  0x5a00#16, 0x9ac1#16, 0x9b81#16, 0x5b40#16, 0x9901#16, 0x59c0#16, 0x5880#16, 0x9841#16,
  0x8801#16, 0x48c0#16, 0x4980#16, 0x8941#16, 0x4b00#16, 0x8bc1#16, 0x8a81#16, 0x4a40#16,
  0x4e00#16, 0x8ec1#16, 0x8f81#16, 0x4f40#16, 0x8d01#16, 0x4dc0#16, 0x4c80#16, 0x8c41#16,
  0x4400#16, 0x84c1#16, 0x8581#16, 0x4540#16, 0x8701#16, 0x47c0#16, 0x4680#16, 0x8641#16,
  0x8201#16, 0x42c0#16, 0x4380#16, 0x8341#16, 0x4100#16, 0x81c1#16, 0x8081#16, 0x4040#16]

/-- crc16/x25/x25.go:51 -/
def x25Step (fcs : BitVec 16) (b : Byte) : BitVec 16 :=
  (fcs >>> 8) ^^^ sbox.getD ((fcs ^^^ b.setWidth 16) &&& 0xff#16).toNat 0
/-- crc16/x25/x25.go:44-54 -/
def x25 (bs : Bytes) : BitVec 16 :=
  let fcs := forLoop 0 bs.length (fun fcs i => x25Step fcs (at8 bs i)) 0xffff#16
  ~~~ fcs

/-- crc16/modbus/modbus.go:50-52 -/
def modbusStep (crc : BitVec 16) (v : Byte) : BitVec 16 :=
  let n : Byte := (v.setWidth 16 ^^^ crc).setWidth 8
  (crc >>> 8) ^^^ mbTable.getD n.toNat 0
/-- crc16/modbus/modbus.go:44-53 -/
def modbus (data : Bytes) : BitVec 16 := data.foldl modbusStep 0xffff#16

/-- The digit alphabet of `strconv`. -/
def digits : Bytes := ascii "0123456789abcdef"
/-- `strconv.FormatInt(n, 16)` for `0 ≤ n < 16^(fuel+1)`: the loop of the library emits the low digit
while `n >= 16`, from the right. -/
def formatHex : Nat → Nat → Bytes
  | 0, n => [digits.getD n 0]
  | fuel+1, n => if 16 ≤ n then formatHex fuel (n / 16) ++ [digits.getD (n % 16) 0] else [digits.getD n 0]
/-- `int64` has 16 hexadecimal digits. -/
def formatInt16 (n : Nat) : Bytes := formatHex 15 n

/-- crc16/x25/x25.go:43-57 `Checksum` -/
def x25Checksum (s : Bytes) : Bytes := formatInt16 (x25 s).toNat
/-- crc16/modbus/modbus.go:43-56 `Checksum` -/
def modbusChecksum (s : Bytes) : Bytes := formatInt16 (modbus s).toNat

/-- The results of `encoding/hex`. -/
inductive HexErr where
  | length | invalidByte (b : Byte)
deriving DecidableEq
/-- The value of a hexadecimal digit (`encoding/hex` reverseHexTable). -/
def unhex (b : Byte) : Option (BitVec 4) :=
  if 48 ≤ b.toNat ∧ b.toNat ≤ 57 then some (BitVec.ofNat 4 (b.toNat - 48))
  else if 97 ≤ b.toNat ∧ b.toNat ≤ 102 then some (BitVec.ofNat 4 (b.toNat - 87))
  else if 65 ≤ b.toNat ∧ b.toNat ≤ 70 then some (BitVec.ofNat 4 (b.toNat - 55))
  else none
/-- `hex.DecodeString` (called at hash/hash.go:64-66 `HexDecode`): the decoded prefix and the error. -/
def hexDecode : Bytes → Bytes × Option HexErr
  | [] => ([], none)
  | [a] => match unhex a with
    | none => ([], some (.invalidByte a))
    | some _ => ([], some .length)
  | a :: b :: rest => match unhex a with
    | none => ([], some (.invalidByte a))
    | some x => match unhex b with
      | none => ([], some (.invalidByte b))
      | some y => let r := hexDecode rest; ((x ++ y : Byte) :: r.1, r.2)

/-- hash/crc16.go:9-15 `CRC16_X25`: new `data` and `Error` of the returned value. -/
def facadeX25 (data : Bytes) : Bytes × Option HexErr := hexDecode (x25Checksum data)
/-- hash/crc16.go:18-24 `CRC16_Modbus` -/
def facadeModbus (data : Bytes) : Bytes × Option HexErr := hexDecode (modbusChecksum data)

/-- hash/hash_helper.go:15-32 `LeftCRCPadding` -/
def leftCRCPadding (text : Bytes) (size : Int) : Bytes :=
  let n := text.length
  if n = 0 ∨ size < 1 then text
  else
    let paddingSize := size - n % size
    if paddingSize = size then text
    else List.replicate paddingSize.toNat 48#8 ++ text

end Verif.CRC16
