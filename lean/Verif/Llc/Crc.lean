import Verif.Basic

/-!
# Model of the LLC frame check sequence

/repo/src/llc/crc24.c and `gprs_llc_fcs` of /repo/src/llc/llc_pdu.c.
The register is a `Nat`; every value is below `2^24` (lemma `crcCalc_lt`), so the 32-bit type of the
C code never truncates anything.
-/
namespace Verif.Llc

/-- `tbl_crc24[256]`, /repo/src/llc/crc24.c:26-59, copied verbatim. -/
def tblCrc24 : List Nat := [
  0x000000, 0xd6a776, 0xf64557, 0x20e221, 0xb78115, 0x612663, 0x41c442, 0x976334,
  0x340991, 0xe2aee7, 0xc24cc6, 0x14ebb0, 0x838884, 0x552ff2, 0x75cdd3, 0xa36aa5,
  0x681322, 0xbeb454, 0x9e5675, 0x48f103, 0xdf9237, 0x093541, 0x29d760, 0xff7016,
  0x5c1ab3, 0x8abdc5, 0xaa5fe4, 0x7cf892, 0xeb9ba6, 0x3d3cd0, 0x1ddef1, 0xcb7987,
  0xd02644, 0x068132, 0x266313, 0xf0c465, 0x67a751, 0xb10027, 0x91e206, 0x474570,
  0xe42fd5, 0x3288a3, 0x126a82, 0xc4cdf4, 0x53aec0, 0x8509b6, 0xa5eb97, 0x734ce1,
  0xb83566, 0x6e9210, 0x4e7031, 0x98d747, 0x0fb473, 0xd91305, 0xf9f124, 0x2f5652,
  0x8c3cf7, 0x5a9b81, 0x7a79a0, 0xacded6, 0x3bbde2, 0xed1a94, 0xcdf8b5, 0x1b5fc3,
  0xfb4733, 0x2de045, 0x0d0264, 0xdba512, 0x4cc626, 0x9a6150, 0xba8371, 0x6c2407,
  0xcf4ea2, 0x19e9d4, 0x390bf5, 0xefac83, 0x78cfb7, 0xae68c1, 0x8e8ae0, 0x582d96,
  0x935411, 0x45f367, 0x651146, 0xb3b630, 0x24d504, 0xf27272, 0xd29053, 0x043725,
  0xa75d80, 0x71faf6, 0x5118d7, 0x87bfa1, 0x10dc95, 0xc67be3, 0xe699c2, 0x303eb4,
  0x2b6177, 0xfdc601, 0xdd2420, 0x0b8356, 0x9ce062, 0x4a4714, 0x6aa535, 0xbc0243,
  0x1f68e6, 0xc9cf90, 0xe92db1, 0x3f8ac7, 0xa8e9f3, 0x7e4e85, 0x5eaca4, 0x880bd2,
  0x437255, 0x95d523, 0xb53702, 0x639074, 0xf4f340, 0x225436, 0x02b617, 0xd41161,
  0x777bc4, 0xa1dcb2, 0x813e93, 0x5799e5, 0xc0fad1, 0x165da7, 0x36bf86, 0xe018f0,
  0xad85dd, 0x7b22ab, 0x5bc08a, 0x8d67fc, 0x1a04c8, 0xcca3be, 0xec419f, 0x3ae6e9,
  0x998c4c, 0x4f2b3a, 0x6fc91b, 0xb96e6d, 0x2e0d59, 0xf8aa2f, 0xd8480e, 0x0eef78,
  0xc596ff, 0x133189, 0x33d3a8, 0xe574de, 0x7217ea, 0xa4b09c, 0x8452bd, 0x52f5cb,
  0xf19f6e, 0x273818, 0x07da39, 0xd17d4f, 0x461e7b, 0x90b90d, 0xb05b2c, 0x66fc5a,
  0x7da399, 0xab04ef, 0x8be6ce, 0x5d41b8, 0xca228c, 0x1c85fa, 0x3c67db, 0xeac0ad,
  0x49aa08, 0x9f0d7e, 0xbfef5f, 0x694829, 0xfe2b1d, 0x288c6b, 0x086e4a, 0xdec93c,
  0x15b0bb, 0xc317cd, 0xe3f5ec, 0x35529a, 0xa231ae, 0x7496d8, 0x5474f9, 0x82d38f,
  0x21b92a, 0xf71e5c, 0xd7fc7d, 0x015b0b, 0x96383f, 0x409f49, 0x607d68, 0xb6da1e,
  0x56c2ee, 0x806598, 0xa087b9, 0x7620cf, 0xe143fb, 0x37e48d, 0x1706ac, 0xc1a1da,
  0x62cb7f, 0xb46c09, 0x948e28, 0x42295e, 0xd54a6a, 0x03ed1c, 0x230f3d, 0xf5a84b,
  0x3ed1cc, 0xe876ba, 0xc8949b, 0x1e33ed, 0x8950d9, 0x5ff7af, 0x7f158e, 0xa9b2f8,
  0x0ad85d, 0xdc7f2b, 0xfc9d0a, 0x2a3a7c, 0xbd5948, 0x6bfe3e, 0x4b1c1f, 0x9dbb69,
  0x86e4aa, 0x5043dc, 0x70a1fd, 0xa6068b, 0x3165bf, 0xe7c2c9, 0xc720e8, 0x11879e,
  0xb2ed3b, 0x644a4d, 0x44a86c, 0x920f1a, 0x056c2e, 0xd3cb58, 0xf32979, 0x258e0f,
  0xeef788, 0x3850fe, 0x18b2df, 0xce15a9, 0x59769d, 0x8fd1eb, 0xaf33ca, 0x7994bc,
  0xdafe19, 0x0c596f, 0x2cbb4e, 0xfa1c38, 0x6d7f0c, 0xbbd87a, 0x9b3a5b, 0x4d9d2d]

/-- Table access; the index is always `& 0xff`, hence in range (the default is never used: lemma
`tblCrc24_length`). /repo/src/llc/crc24.c:64 -/
def tblAt (i : Nat) : Nat := tblCrc24[i]?.getD 0

/-- One iteration of the loop of `crc24_calc`, /repo/src/llc/crc24.c:63-64. -/
def crcStep (fcs : Nat) (b : UInt8) : Nat :=
  (fcs >>> 8) ^^^ tblAt ((fcs ^^^ b.toNat) &&& 0xff)

/-- `crc24_calc`, /repo/src/llc/crc24.c:61-66. -/
def crcCalc (fcs : Nat) (data : Octets) : Nat := data.foldl crcStep fcs

/-- `gprs_llc_fcs`, /repo/src/llc/llc_pdu.c:75-84. `~x & 0xffffff` of a 24-bit `x` is
`x ^^^ 0xffffff` (complement of the low 24 bits). -/
def fcs (data : Octets) : Nat := (crcCalc 0xffffff data ^^^ 0xffffffff) &&& 0xffffff

end Verif.Llc
