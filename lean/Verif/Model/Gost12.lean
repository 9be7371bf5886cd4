import Verif.BufDigest
/-
Model of package gost/gost34112012 (hash.go).
-/
namespace Verif.Gost12

/-- gost/gost34112012/hash.go:20-53 -/
def pi : Bytes := [
  0xfc, 0xee, 0xdd, 0x11, 0xcf, 0x6e, 0x31, 0x16, 0xfb, 0xc4, 0xfa, 0xda, 0x23, 0xc5, 0x04, 0x4d,
  0xe9, 0x77, 0xf0, 0xdb, 0x93, 0x2e, 0x99, 0xba, 0x17, 0x36, 0xf1, 0xbb, 0x14, 0xcd, 0x5f, 0xc1,
  0xf9, 0x18, 0x65, 0x5a, 0xe2, 0x5c, 0xef, 0x21, 0x81, 0x1c, 0x3c, 0x42, 0x8b, 0x01, 0x8e, 0x4f,
  0x05, 0x84, 0x02, 0xae, 0xe3, 0x6a, 0x8f, 0xa0, 0x06, 0x0b, 0xed, 0x98, 0x7f, 0xd4, 0xd3, 0x1f,
  0xeb, 0x34, 0x2c, 0x51, 0xea, 0xc8, 0x48, 0xab, 0xf2, 0x2a, 0x68, 0xa2, 0xfd, 0x3a, 0xce, 0xcc,
  0xb5, 0x70, 0x0e, 0x56, 0x08, 0x0c, 0x76, 0x12, 0xbf, 0x72, 0x13, 0x47, 0x9c, 0xb7, 0x5d, 0x87,
  0x15, 0xa1, 0x96, 0x29, 0x10, 0x7b, 0x9a, 0xc7, 0xf3, 0x91, 0x78, 0x6f, 0x9d, 0x9e, 0xb2, 0xb1,
  0x32, 0x75, 0x19, 0x3d, 0xff, 0x35, 0x8a, 0x7e, 0x6d, 0x54, 0xc6, 0x80, 0xc3, 0xbd, 0x0d, 0x57,
  0xdf, 0xf5, 0x24, 0xa9, 0x3e, 0xa8, 0x43, 0xc9, 0xd7, 0x79, 0xd6, 0xf6, 0x7c, 0x22, 0xb9, 0x03,
  0xe0, 0x0f, 0xec, 0xde, 0x7a, 0x94, 0xb0, 0xbc, 0xdc, 0xe8, 0x28, 0x50, 0x4e, 0x33, 0x0a, 0x4a,
  0xa7, 0x97, 0x60, 0x73, 0x1e, 0x00, 0x62, 0x44, 0x1a, 0xb8, 0x38, 0x82, 0x64, 0x9f, 0x26, 0x41,
  0xad, 0x45, 0x46, 0x92, 0x27, 0x5e, 0x55, 0x2f, 0x8c, 0xa3, 0xa5, 0x7d, 0x69, 0xd5, 0x95, 0x3b,
  0x07, 0x58, 0xb3, 0x40, 0x86, 0xac, 0x1d, 0xf7, 0x30, 0x37, 0x6b, 0xe4, 0x88, 0xd9, 0xe7, 0x89,
  0xe1, 0x1b, 0x83, 0x49, 0x4c, 0x3f, 0xf8, 0xfe, 0x8d, 0x53, 0xaa, 0x90, 0xca, 0xd8, 0x85, 0x61,
  0x20, 0x71, 0x67, 0xa4, 0x2d, 0x2b, 0x09, 0x5b, 0xcb, 0x9b, 0x25, 0xd0, 0xbe, 0xe5, 0x6c, 0x52,
  0x59, 0xa6, 0x74, 0xd2, 0xe6, 0xf4, 0xb4, 0xc0, 0xd1, 0x66, 0xaf, 0xc2, 0x39, 0x4b, 0x63, 0xb6]
/-- hash.go:54-63 -/
def tau : List Nat := [
  0x00, 0x08, 0x10, 0x18, 0x20, 0x28, 0x30, 0x38, 0x01, 0x09, 0x11, 0x19, 0x21, 0x29, 0x31, 0x39,
  0x02, 0x0a, 0x12, 0x1a, 0x22, 0x2a, 0x32, 0x3a, 0x03, 0x0b, 0x13, 0x1b, 0x23, 0x2b, 0x33, 0x3b,
  0x04, 0x0c, 0x14, 0x1c, 0x24, 0x2c, 0x34, 0x3c, 0x05, 0x0d, 0x15, 0x1d, 0x25, 0x2d, 0x35, 0x3d,
  0x06, 0x0e, 0x16, 0x1e, 0x26, 0x2e, 0x36, 0x3e, 0x07, 0x0f, 0x17, 0x1f, 0x27, 0x2f, 0x37, 0x3f]
/-- hash.go:64-188 -/
def c : List Bytes := [
  [0x07, 0x45, 0xa6, 0xf2, 0x59, 0x65, 0x80, 0xdd, 0x23, 0x4d, 0x74, 0xcc, 0x36, 0x74, 0x76, 0x05,
  0x15, 0xd3, 0x60, 0xa4, 0x08, 0x2a, 0x42, 0xa2, 0x01, 0x69, 0x67, 0x92, 0x91, 0xe0, 0x7c, 0x4b,
  0xfc, 0xc4, 0x85, 0x75, 0x8d, 0xb8, 0x4e, 0x71, 0x16, 0xd0, 0x45, 0x2e, 0x43, 0x76, 0x6a, 0x2f,
  0x1f, 0x7c, 0x65, 0xc0, 0x81, 0x2f, 0xcb, 0xeb, 0xe9, 0xda, 0xca, 0x1e, 0xda, 0x5b, 0x08, 0xb1],
  [0xb7, 0x9b, 0xb1, 0x21, 0x70, 0x04, 0x79, 0xe6, 0x56, 0xcd, 0xcb, 0xd7, 0x1b, 0xa2, 0xdd, 0x55,
  0xca, 0xa7, 0x0a, 0xdb, 0xc2, 0x61, 0xb5, 0x5c, 0x58, 0x99, 0xd6, 0x12, 0x6b, 0x17, 0xb5, 0x9a,
  0x31, 0x01, 0xb5, 0x16, 0x0f, 0x5e, 0xd5, 0x61, 0x98, 0x2b, 0x23, 0x0a, 0x72, 0xea, 0xfe, 0xf3,
  0xd7, 0xb5, 0x70, 0x0f, 0x46, 0x9d, 0xe3, 0x4f, 0x1a, 0x2f, 0x9d, 0xa9, 0x8a, 0xb5, 0xa3, 0x6f],
  [0xb2, 0x0a, 0xba, 0x0a, 0xf5, 0x96, 0x1e, 0x99, 0x31, 0xdb, 0x7a, 0x86, 0x43, 0xf4, 0xb6, 0xc2,
  0x09, 0xdb, 0x62, 0x60, 0x37, 0x3a, 0xc9, 0xc1, 0xb1, 0x9e, 0x35, 0x90, 0xe4, 0x0f, 0xe2, 0xd3,
  0x7b, 0x7b, 0x29, 0xb1, 0x14, 0x75, 0xea, 0xf2, 0x8b, 0x1f, 0x9c, 0x52, 0x5f, 0x5e, 0xf1, 0x06,
  0x35, 0x84, 0x3d, 0x6a, 0x28, 0xfc, 0x39, 0x0a, 0xc7, 0x2f, 0xce, 0x2b, 0xac, 0xdc, 0x74, 0xf5],
  [0x2e, 0xd1, 0xe3, 0x84, 0xbc, 0xbe, 0x0c, 0x22, 0xf1, 0x37, 0xe8, 0x93, 0xa1, 0xea, 0x53, 0x34,
  0xbe, 0x03, 0x52, 0x93, 0x33, 0x13, 0xb7, 0xd8, 0x75, 0xd6, 0x03, 0xed, 0x82, 0x2c, 0xd7, 0xa9,
  0x3f, 0x35, 0x5e, 0x68, 0xad, 0x1c, 0x72, 0x9d, 0x7d, 0x3c, 0x5c, 0x33, 0x7e, 0x85, 0x8e, 0x48,
  0xdd, 0xe4, 0x71, 0x5d, 0xa0, 0xe1, 0x48, 0xf9, 0xd2, 0x66, 0x15, 0xe8, 0xb3, 0xdf, 0x1f, 0xef],
  [0x57, 0xfe, 0x6c, 0x7c, 0xfd, 0x58, 0x17, 0x60, 0xf5, 0x63, 0xea, 0xa9, 0x7e, 0xa2, 0x56, 0x7a,
  0x16, 0x1a, 0x27, 0x23, 0xb7, 0x00, 0xff, 0xdf, 0xa3, 0xf5, 0x3a, 0x25, 0x47, 0x17, 0xcd, 0xbf,
  0xbd, 0xff, 0x0f, 0x80, 0xd7, 0x35, 0x9e, 0x35, 0x4a, 0x10, 0x86, 0x16, 0x1f, 0x1c, 0x15, 0x7f,
  0x63, 0x23, 0xa9, 0x6c, 0x0c, 0x41, 0x3f, 0x9a, 0x99, 0x47, 0x47, 0xad, 0xac, 0x6b, 0xea, 0x4b],
  [0x6e, 0x7d, 0x64, 0x46, 0x7a, 0x40, 0x68, 0xfa, 0x35, 0x4f, 0x90, 0x36, 0x72, 0xc5, 0x71, 0xbf,
  0xb6, 0xc6, 0xbe, 0xc2, 0x66, 0x1f, 0xf2, 0x0a, 0xb4, 0xb7, 0x9a, 0x1c, 0xb7, 0xa6, 0xfa, 0xcf,
  0xc6, 0x8e, 0xf0, 0x9a, 0xb4, 0x9a, 0x7f, 0x18, 0x6c, 0xa4, 0x42, 0x51, 0xf9, 0xc4, 0x66, 0x2d,
  0xc0, 0x39, 0x30, 0x7a, 0x3b, 0xc3, 0xa4, 0x6f, 0xd9, 0xd3, 0x3a, 0x1d, 0xae, 0xae, 0x4f, 0xae],
  [0x93, 0xd4, 0x14, 0x3a, 0x4d, 0x56, 0x86, 0x88, 0xf3, 0x4a, 0x3c, 0xa2, 0x4c, 0x45, 0x17, 0x35,
  0x04, 0x05, 0x4a, 0x28, 0x83, 0x69, 0x47, 0x06, 0x37, 0x2c, 0x82, 0x2d, 0xc5, 0xab, 0x92, 0x09,
  0xc9, 0x93, 0x7a, 0x19, 0x33, 0x3e, 0x47, 0xd3, 0xc9, 0x87, 0xbf, 0xe6, 0xc7, 0xc6, 0x9e, 0x39,
  0x54, 0x09, 0x24, 0xbf, 0xfe, 0x86, 0xac, 0x51, 0xec, 0xc5, 0xaa, 0xee, 0x16, 0x0e, 0xc7, 0xf4],
  [0x1e, 0xe7, 0x02, 0xbf, 0xd4, 0x0d, 0x7f, 0xa4, 0xd9, 0xa8, 0x51, 0x59, 0x35, 0xc2, 0xac, 0x36,
  0x2f, 0xc4, 0xa5, 0xd1, 0x2b, 0x8d, 0xd1, 0x69, 0x90, 0x06, 0x9b, 0x92, 0xcb, 0x2b, 0x89, 0xf4,
  0x9a, 0xc4, 0xdb, 0x4d, 0x3b, 0x44, 0xb4, 0x89, 0x1e, 0xde, 0x36, 0x9c, 0x71, 0xf8, 0xb7, 0x4e,
  0x41, 0x41, 0x6e, 0x0c, 0x02, 0xaa, 0xe7, 0x03, 0xa7, 0xc9, 0x93, 0x4d, 0x42, 0x5b, 0x1f, 0x9b],
  [0xdb, 0x5a, 0x23, 0x83, 0x51, 0x44, 0x61, 0x72, 0x60, 0x2a, 0x1f, 0xcb, 0x92, 0xdc, 0x38, 0x0e,
  0x54, 0x9c, 0x07, 0xa6, 0x9a, 0x8a, 0x2b, 0x7b, 0xb1, 0xce, 0xb2, 0xdb, 0x0b, 0x44, 0x0a, 0x80,
  0x84, 0x09, 0x0d, 0xe0, 0xb7, 0x55, 0xd9, 0x3c, 0x24, 0x42, 0x89, 0x25, 0x1b, 0x3a, 0x7d, 0x3a,
  0xde, 0x5f, 0x16, 0xec, 0xd8, 0x9a, 0x4c, 0x94, 0x9b, 0x22, 0x31, 0x16, 0x54, 0x5a, 0x8f, 0x37],
  [0xed, 0x9c, 0x45, 0x98, 0xfb, 0xc7, 0xb4, 0x74, 0xc3, 0xb6, 0x3b, 0x15, 0xd1, 0xfa, 0x98, 0x36,
  0xf4, 0x52, 0x76, 0x3b, 0x30, 0x6c, 0x1e, 0x7a, 0x4b, 0x33, 0x69, 0xaf, 0x02, 0x67, 0xe7, 0x9f,
  0x03, 0x61, 0x33, 0x1b, 0x8a, 0xe1, 0xff, 0x1f, 0xdb, 0x78, 0x8a, 0xff, 0x1c, 0xe7, 0x41, 0x89,
  0xf3, 0xf3, 0xe4, 0xb2, 0x48, 0xe5, 0x2a, 0x38, 0x52, 0x6f, 0x05, 0x80, 0xa6, 0xde, 0xbe, 0xab],
  [0x1b, 0x2d, 0xf3, 0x81, 0xcd, 0xa4, 0xca, 0x6b, 0x5d, 0xd8, 0x6f, 0xc0, 0x4a, 0x59, 0xa2, 0xde,
  0x98, 0x6e, 0x47, 0x7d, 0x1d, 0xcd, 0xba, 0xef, 0xca, 0xb9, 0x48, 0xea, 0xef, 0x71, 0x1d, 0x8a,
  0x79, 0x66, 0x84, 0x14, 0x21, 0x80, 0x01, 0x20, 0x61, 0x07, 0xab, 0xeb, 0xbb, 0x6b, 0xfa, 0xd8,
  0x94, 0xfe, 0x5a, 0x63, 0xcd, 0xc6, 0x02, 0x30, 0xfb, 0x89, 0xc8, 0xef, 0xd0, 0x9e, 0xcd, 0x7b],
  [0x20, 0xd7, 0x1b, 0xf1, 0x4a, 0x92, 0xbc, 0x48, 0x99, 0x1b, 0xb2, 0xd9, 0xd5, 0x17, 0xf4, 0xfa,
  0x52, 0x28, 0xe1, 0x88, 0xaa, 0xa4, 0x1d, 0xe7, 0x86, 0xcc, 0x91, 0x18, 0x9d, 0xef, 0x80, 0x5d,
  0x9b, 0x9f, 0x21, 0x30, 0xd4, 0x12, 0x20, 0xf8, 0x77, 0x1d, 0xdf, 0xbc, 0x32, 0x3c, 0xa4, 0xcd,
  0x7a, 0xb1, 0x49, 0x04, 0xb0, 0x80, 0x13, 0xd2, 0xba, 0x31, 0x16, 0xf1, 0x67, 0xe7, 0x8e, 0x37]]
/-- hash.go:189-254 `as` -/
def as : List Bytes := [
  [0x8e, 0x20, 0xfa, 0xa7, 0x2b, 0xa0, 0xb4, 0x70],
  [0x47, 0x10, 0x7d, 0xdd, 0x9b, 0x50, 0x5a, 0x38],
  [0xad, 0x08, 0xb0, 0xe0, 0xc3, 0x28, 0x2d, 0x1c],
  [0xd8, 0x04, 0x58, 0x70, 0xef, 0x14, 0x98, 0x0e],
  [0x6c, 0x02, 0x2c, 0x38, 0xf9, 0x0a, 0x4c, 0x07],
  [0x36, 0x01, 0x16, 0x1c, 0xf2, 0x05, 0x26, 0x8d],
  [0x1b, 0x8e, 0x0b, 0x0e, 0x79, 0x8c, 0x13, 0xc8],
  [0x83, 0x47, 0x8b, 0x07, 0xb2, 0x46, 0x87, 0x64],
  [0xa0, 0x11, 0xd3, 0x80, 0x81, 0x8e, 0x8f, 0x40],
  [0x50, 0x86, 0xe7, 0x40, 0xce, 0x47, 0xc9, 0x20],
  [0x28, 0x43, 0xfd, 0x20, 0x67, 0xad, 0xea, 0x10],
  [0x14, 0xaf, 0xf0, 0x10, 0xbd, 0xd8, 0x75, 0x08],
  [0x0a, 0xd9, 0x78, 0x08, 0xd0, 0x6c, 0xb4, 0x04],
  [0x05, 0xe2, 0x3c, 0x04, 0x68, 0x36, 0x5a, 0x02],
  [0x8c, 0x71, 0x1e, 0x02, 0x34, 0x1b, 0x2d, 0x01],
  [0x46, 0xb6, 0x0f, 0x01, 0x1a, 0x83, 0x98, 0x8e],
  [0x90, 0xda, 0xb5, 0x2a, 0x38, 0x7a, 0xe7, 0x6f],
  [0x48, 0x6d, 0xd4, 0x15, 0x1c, 0x3d, 0xfd, 0xb9],
  [0x24, 0xb8, 0x6a, 0x84, 0x0e, 0x90, 0xf0, 0xd2],
  [0x12, 0x5c, 0x35, 0x42, 0x07, 0x48, 0x78, 0x69],
  [0x09, 0x2e, 0x94, 0x21, 0x8d, 0x24, 0x3c, 0xba],
  [0x8a, 0x17, 0x4a, 0x9e, 0xc8, 0x12, 0x1e, 0x5d],
  [0x45, 0x85, 0x25, 0x4f, 0x64, 0x09, 0x0f, 0xa0],
  [0xac, 0xcc, 0x9c, 0xa9, 0x32, 0x8a, 0x89, 0x50],
  [0x9d, 0x4d, 0xf0, 0x5d, 0x5f, 0x66, 0x14, 0x51],
  [0xc0, 0xa8, 0x78, 0xa0, 0xa1, 0x33, 0x0a, 0xa6],
  [0x60, 0x54, 0x3c, 0x50, 0xde, 0x97, 0x05, 0x53],
  [0x30, 0x2a, 0x1e, 0x28, 0x6f, 0xc5, 0x8c, 0xa7],
  [0x18, 0x15, 0x0f, 0x14, 0xb9, 0xec, 0x46, 0xdd],
  [0x0c, 0x84, 0x89, 0x0a, 0xd2, 0x76, 0x23, 0xe0],
  [0x06, 0x42, 0xca, 0x05, 0x69, 0x3b, 0x9f, 0x70],
  [0x03, 0x21, 0x65, 0x8c, 0xba, 0x93, 0xc1, 0x38],
  [0x86, 0x27, 0x5d, 0xf0, 0x9c, 0xe8, 0xaa, 0xa8],
  [0x43, 0x9d, 0xa0, 0x78, 0x4e, 0x74, 0x55, 0x54],
  [0xaf, 0xc0, 0x50, 0x3c, 0x27, 0x3a, 0xa4, 0x2a],
  [0xd9, 0x60, 0x28, 0x1e, 0x9d, 0x1d, 0x52, 0x15],
  [0xe2, 0x30, 0x14, 0x0f, 0xc0, 0x80, 0x29, 0x84],
  [0x71, 0x18, 0x0a, 0x89, 0x60, 0x40, 0x9a, 0x42],
  [0xb6, 0x0c, 0x05, 0xca, 0x30, 0x20, 0x4d, 0x21],
  [0x5b, 0x06, 0x8c, 0x65, 0x18, 0x10, 0xa8, 0x9e],
  [0x45, 0x6c, 0x34, 0x88, 0x7a, 0x38, 0x05, 0xb9],
  [0xac, 0x36, 0x1a, 0x44, 0x3d, 0x1c, 0x8c, 0xd2],
  [0x56, 0x1b, 0x0d, 0x22, 0x90, 0x0e, 0x46, 0x69],
  [0x2b, 0x83, 0x88, 0x11, 0x48, 0x07, 0x23, 0xba],
  [0x9b, 0xcf, 0x44, 0x86, 0x24, 0x8d, 0x9f, 0x5d],
  [0xc3, 0xe9, 0x22, 0x43, 0x12, 0xc8, 0xc1, 0xa0],
  [0xef, 0xfa, 0x11, 0xaf, 0x09, 0x64, 0xee, 0x50],
  [0xf9, 0x7d, 0x86, 0xd9, 0x8a, 0x32, 0x77, 0x28],
  [0xe4, 0xfa, 0x20, 0x54, 0xa8, 0x0b, 0x32, 0x9c],
  [0x72, 0x7d, 0x10, 0x2a, 0x54, 0x8b, 0x19, 0x4e],
  [0x39, 0xb0, 0x08, 0x15, 0x2a, 0xcb, 0x82, 0x27],
  [0x92, 0x58, 0x04, 0x84, 0x15, 0xeb, 0x41, 0x9d],
  [0x49, 0x2c, 0x02, 0x42, 0x84, 0xfb, 0xae, 0xc0],
  [0xaa, 0x16, 0x01, 0x21, 0x42, 0xf3, 0x57, 0x60],
  [0x55, 0x0b, 0x8e, 0x9e, 0x21, 0xf7, 0xa5, 0x30],
  [0xa4, 0x8b, 0x47, 0x4f, 0x9e, 0xf5, 0xdc, 0x18],
  [0x70, 0xa6, 0xa5, 0x6e, 0x24, 0x40, 0x59, 0x8e],
  [0x38, 0x53, 0xdc, 0x37, 0x12, 0x20, 0xa2, 0x47],
  [0x1c, 0xa7, 0x6e, 0x95, 0x09, 0x10, 0x51, 0xad],
  [0x0e, 0xdd, 0x37, 0xc4, 0x8a, 0x08, 0xa6, 0xd8],
  [0x07, 0xe0, 0x95, 0x62, 0x45, 0x04, 0x53, 0x6c],
  [0x8d, 0x70, 0xc4, 0x31, 0xac, 0x02, 0xa7, 0x36],
  [0xc8, 0x38, 0x62, 0x96, 0x56, 0x01, 0xdd, 0x1b],
  [0x64, 0x1c, 0x31, 0x4b, 0x2b, 0x8e, 0xe0, 0x83]]
/-- hash.go:260-262 -/
def a (i : Nat) : U64 := getBE64 (as.getD i [])
/-- hash.go:264-279, one entry of the table. -/
def cache (byteN : Nat) (val : Byte) : U64 :=
  (forLoop 0 8 (fun (st : Byte × U64) bitN =>
    let res64 := if st.1 &&& 0x80 > 0 then st.2 ^^^ a ((7 - byteN) * 8 + bitN) else st.2
    (st.1 <<< 1, res64)) (val, 0)).2

/-- hash.go:425-431 `blockXor` -/
def blockXor (x y : Bytes) : Bytes := forLoop 0 64 (fun (dst : Bytes) i => dst.set i (at8 x i ^^^ at8 y i)) (zeros 64)
/-- hash.go:433-439 `ps`; the 64-byte buffer is overwritten everywhere. -/
def ps (data : Bytes) : Bytes :=
  forLoop 0 64 (fun (buf : Bytes) i => buf.set (tau.getD i 0) (at8 pi (at8 data i).toNat)) (zeros 64)
/-- hash.go:441-456 `l` -/
def l (data : Bytes) : Bytes :=
  forLoop 0 8 (fun (out : Bytes) i =>
    let res64 := 0 ^^^ cache 0 (at8 data (8*i+0)) ^^^ cache 1 (at8 data (8*i+1)) ^^^ cache 2 (at8 data (8*i+2)) ^^^
      cache 3 (at8 data (8*i+3)) ^^^ cache 4 (at8 data (8*i+4)) ^^^ cache 5 (at8 data (8*i+5)) ^^^
      cache 6 (at8 data (8*i+6)) ^^^ cache 7 (at8 data (8*i+7))
    goCopy out (i*8) (le64 res64)) (zeros 64)
/-- hash.go:416-423 `e` -/
def e (k msg : Bytes) : Bytes :=
  let r := forLoop 0 12 (fun (st : Bytes × Bytes) i =>
    (l (ps (blockXor st.1 (c.getD i []))), l (ps (blockXor st.1 st.2)))) (k, msg)
  blockXor r.1 r.2
/-- hash.go:399-414 `g` -/
def g (n : U64) (hsh data : Bytes) : Bytes :=
  let out := forLoop 0 8 (fun (out : Bytes) i => out.set i (at8 out i ^^^ ((n >>> (8 * i)) &&& 0xFF).setWidth 8)) hsh
  blockXor (blockXor (e (l (ps out)) data) hsh) data
/-- hash.go:388-397 `add512bit` -/
def add512bit (chk data : Bytes) : Bytes :=
  (forLoop 0 64 (fun (st : BitVec 16 × Bytes) i =>
    let ss := (at8 chk i).setWidth 16 + (at8 data i).setWidth 16 + (st.1 >>> 8)
    (ss, st.2.set i ((0xFF#16 &&& ss).setWidth 8))) (0, zeros 64)).2

/-- hash.go:282-295, without the scratch buffers, which carry nothing between calls. -/
structure Digest where
  size : Nat
  buf : Bytes
  n : U64
  hsh : Bytes
  chk : Bytes

/-- hash.go:328-341 `Reset` -/
def reset (h : Digest) : Digest :=
  { h with n := 0, buf := [], chk := zeros 64, hsh := if h.size = 32 then List.replicate 64 1#8 else List.replicate 64 0#8 }
/-- hash.go:298-318 `New`; `none` is the panic. -/
def new (size : Nat) : Option Digest :=
  if size ≠ 32 ∧ size ≠ 64 then none
  else some (reset { size := size, buf := [], n := 0, hsh := zeros 64, chk := zeros 64 })
/-- hash.go:346-353, the loop of `Write`, at most as many times as bytes are buffered. -/
def writeLoop : Nat → Digest → Digest
  | 0, h => h
  | fuel + 1, h =>
    if h.buf.length ≥ 64 then
      let tmp := h.buf.take 64
      writeLoop fuel { h with hsh := g h.n h.hsh tmp, chk := add512bit h.chk tmp, n := h.n + 64 * 8, buf := h.buf.drop 64 }
    else h
/-- hash.go:343-356 `Write` -/
def write (h : Digest) (data : Bytes) : Digest :=
  let h := { h with buf := h.buf ++ data }
  writeLoop h.buf.length h
/-- hash.go:365-386 `checkSum`; `none` is the index panic when 64 bytes or more are buffered. -/
def checkSum (h : Digest) : Option Bytes :=
  if h.buf.length ≥ 64 then none
  else
    let buf := goCopy (zeros 64) 0 h.buf
    let buf := buf.set h.buf.length 1#8
    let hsh := g h.n h.hsh buf
    let tmp := goCopy (zeros 64) 0 (le64 (h.n + BitVec.ofNat 64 h.buf.length * 8))
    let hsh := g 0 hsh tmp
    let hsh := g 0 hsh (add512bit h.chk buf)
    some (if h.size = 32 then hsh.drop 32 else hsh)
/-- hash.go:320-363: the methods. -/
def impl : HashImpl Digest where
  write h p := some (write h p, p.length)
  sum h b := (checkSum h).map fun r => (h, b ++ r)
  reset := reset
  size h := h.size
  blockSize _ := 64

/-- hash.go:16 `MarshalledName` -/
def name : Bytes := ascii "STREEBOG"
/-- hash.go:458-476 `MarshalBinary` -/
def marshal (h : Digest) : Bytes :=
  name ++ [BitVec.ofNat 8 h.size] ++ be64 h.n ++ h.hsh ++ h.chk ++ h.buf
/-- hash.go:478-501 `UnmarshalBinary`; `none` is an error. The buffer shares storage with `data`; the model has
the caller leave `data` alone. -/
def unmarshal (h : Digest) (data : Bytes) : Option Digest :=
  if data.length < 8 + 1 + 8 + 2 * 64 then none
  else if data.take 8 ≠ name then none
  else some { size := (at8 data 8).toNat, n := getBE64 data 9, hsh := goCopy h.hsh 0 (data.drop 17), chk := goCopy h.chk 0 (data.drop 81), buf := data.drop 145 }

end Verif.Gost12
