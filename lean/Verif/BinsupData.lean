/-!
# The matrices of `data/binsup_mat`

Generated by `tools/gen_binsup.py` from the files in `/repo/data/binsup_mat`.  A number stands for one line of a file: bit
`j` is entry `j` of the line.  The lines are grouped by 16 (the length of the inner code used by
`scripts/gen_binary_supmat.py`).
-/

namespace Verif

/-- Contents of a file of `data/binsup_mat`: number of entries per line and lines, 16 in each group. -/
structure BinFile where
  k : Nat
  blocks : List (List Nat)

/-- The lines. -/
def BinFile.lines (f : BinFile) : List Nat := f.blocks.flatten

/-- The entries. -/
def BinFile.bits (f : BinFile) : List (List Bool) := f.lines.map fun v => (List.range f.k).map fun j => v.testBit j

namespace Binsup

/-- `data/binsup_mat/n16_t5.txt`. -/
def n16_t5 : BinFile where
  k := 7
  blocks := [
    [0x1, 0x2, 0x4, 0x8, 0x10, 0x20, 0x40, 0x51, 0x73, 0x37, 0x6e, 0xd, 0x1a, 0x34, 0x68, 0x7f]]

/-- `data/binsup_mat/n128_t31.txt`. -/
def n128_t31 : BinFile where
  k := 14
  blocks := [
    [0x3, 0xc, 0x30, 0xc0, 0x300, 0xc00, 0x3000, 0x3303, 0x3f0f, 0xf3f, 0x3cfc, 0xf3, 0x3cc, 0xf30, 0x3cc0, 0x3fff],
    [0x9, 0x24, 0x90, 0x240, 0x900, 0x2402, 0x1002, 0x190b, 0x3d2d, 0x2dbf, 0x36f4, 0x2d9, 0xb64, 0x2d92, 0x3640,
     0x3ffd],
    [0xb, 0x2c, 0xb0, 0x2c0, 0xb00, 0x2c02, 0x3002, 0x3b09, 0x1727, 0x2795, 0x1e5c, 0x27b, 0x9ec, 0x27b2, 0x1ec0,
     0x1557],
    [0x21, 0x84, 0x210, 0x840, 0x2102, 0x40a, 0x1008, 0x312b, 0x35a5, 0x27bd, 0x1ed6, 0xa71, 0x29c6, 0x2718,
     0x1c42, 0x3ff5],
    [0x23, 0x8c, 0x230, 0x8c0, 0x2302, 0xc0a, 0x3008, 0x1329, 0x1faf, 0x2d97, 0x367e, 0xad3, 0x2b4e, 0x2d38,
     0x34c2, 0x155f],
    [0x29, 0xa4, 0x290, 0xa40, 0x2902, 0x2408, 0x100a, 0x3921, 0x1d8d, 0xf17, 0x3c76, 0x8f9, 0x23e6, 0xf9a, 0x3e42,
     0x155d],
    [0x2b, 0xac, 0x2b0, 0xac0, 0x2b02, 0x2c08, 0x300a, 0x1b23, 0x3787, 0x53d, 0x14de, 0x85b, 0x216e, 0x5ba, 0x16c2,
     0x3ff7],
    [0x81, 0x204, 0x810, 0x2042, 0x10a, 0x428, 0x1020, 0x11ab, 0x1787, 0xfb7, 0x3e5e, 0x28d3, 0x234c, 0xd32,
     0x344a, 0x3fd5]]

/-- `data/binsup_mat/n256_t43.txt`. -/
def n256_t43 : BinFile where
  k := 66
  blocks := [
    [0x3f, 0xfc0, 0x3f000, 0xfc0000, 0x3f000000, 0xfc0000000, 0x3f000000000, 0xfc0000000000, 0x3f000000000000,
     0xfc0000000000000, 0x3f000000000000000, 0x3ffc0fc0ffffff, 0xfff03f03fffffc0, 0x3ffc0fc0ffffff000,
     0x3f000fff03f03ffff, 0x3ffffffffffffffff],
    [0x810204081, 0x20408102040, 0x810204081000, 0x20408102040000, 0x810204081000020, 0x20408102040000810,
     0x10204081000020428, 0x8102040000810a14, 0x408100002042850a, 0x2040000000810204, 0x1000000020408102,
     0x2c5abd7af7efff7cf, 0x16af5ebd7afddb346, 0x2bd7af5e3e74c9122, 0x19b16af5ebdfbffdf, 0x3ffffffffdf3c70c1],
    [0x83020cabf, 0x20c0832afc0, 0x83020cabf000, 0x20c0832afc0000, 0x83020cabf000020, 0x20c0832afc0000830,
     0x3020cabf000020c28, 0x832afc0000830a3c, 0xcabf000020c28f22, 0x2afc000000083020c, 0x3f000000020c0832a,
     0x245bd8f2afe041851, 0x16f63cab7b126dee6, 0x3d8f2ade47997730a, 0x7916f63cabf81061, 0x104104106145957f],
    [0x20010008004002801, 0x4002001000a0070, 0x10008004002801c00, 0x2001000a0070018, 0x8004002801c00600,
     0x1000a007001800c, 0x4002801c00600300, 0xa007001800c006, 0x2801c006003001a0, 0x60010008004002,
     0x18004002001000a0, 0x32fb9fdc7cebc75c3, 0x1ee6f7173ab1d58ca, 0x19bcc5c6ac3561ab0, 0x3dcbee7f71f3af1d7,
     0x3f7df3cf1c70c3061],
    [0x2003000800c02a83f, 0xc00200300aa0fd0, 0x3000800c02a83f400, 0x200300aa0fd0038, 0x800c02a83f400e00,
     0x300aa0fd0038004, 0xc02a83f400e00100, 0xaa0fd0038004026, 0x2a83f400e001009a0, 0xfe003000800c02a,
     0x3f800c00200300aa0, 0x3afa707486ec59a55, 0x1e9f1d29bbd643d62, 0x7c44a66f550df090, 0x2bebe9c1d21bb1669,
     0x1861451659555fdf],
    [0x20810028a1c2068a1, 0x20400a287081a2870, 0x10028a1c2068a1c20, 0xa287081a2870838, 0x28a1c2068a1c20e28,
     0x287081a2870838a34, 0x1c2068a1c20e28d20, 0x81a2870838a3481a, 0x68a1c20e28d206aa, 0x2060810028a1c206,
     0x1820400a287081a2, 0x3681b2e60d0c5904d, 0xedb9abe2d447bcc, 0x1bef6ad014d3e9bba, 0x2dda06cb983431641,
     0x1841451e513450e1],
    [0x20830028a3422629f, 0x20c00a28d0898a7d0, 0x30028a3422629f420, 0xa28d0898a7d0818, 0x28a3422629f420628,
     0x28d0898a7d0818a1c, 0x3422629f420628720, 0x898a7d0818a1c812, 0x2629f420628720482, 0x2afe0830028a34226,
     0x3f820c00a28d0898a, 0x3682d746570bc7ffb, 0x36d1bd61b3d9c44, 0x2d376f70cfb4573b2, 0x1bda0b5d195c2f1ff,
     0x3f7ff3cf9cfef355f],
    [0x200024020480409, 0x8000900812010240, 0x24020480409008, 0x900812010240224, 0x24020480409008900,
     0x812010240224004, 0x20480409008900112, 0x120102402240044a0, 0x409008900112802, 0x10040200024020480,
     0x1008000900812010, 0x1a72f34e5c61eb8c3, 0x1c9cd3b31a7e634fc, 0x2714ece29d9c53b18, 0x1f69cbcd397187ae3,
     0xf3c71c78e30d1441],
    [0x20002c020680c37, 0x8000b0081a030dc0, 0x2c020680c37008, 0xb0081a030dc022c, 0x2c020680c37008b00,
     0x81a030dc022c00c, 0x20680c37008b0031a, 0x1a030dc022c00c6a0, 0xc37008b0031a82a, 0x30fc020002c020680,
     0x3f008000b0081a030, 0x12d31eeea6667dd55, 0x34e7bb859b99f5954, 0x39cee14ae47be5938, 0x214b4c7bba9999f75,
     0x11459659d7554f3ff],
    [0x200a24a106a4489, 0x802892841a912240, 0xa24a106a4489020, 0x2892841a912240824, 0x24a106a4489020900,
     0x2841a912240824034, 0x106a4489020900d32, 0x1a912240824034cb4, 0x24489020900d32d08, 0x12040200a24a106a4,
     0x100802892841a912, 0x368a56742d8c5df45, 0x22b5972fc211d95da, 0x2d45c1d42570f3232, 0x27da2959d0b63177d,
     0x1145967157db774c1],
    [0x200a2ca304ac6b7, 0x8028b28c12b1adc0, 0xa2ca304ac6b7020, 0x28b28c12b1adc082c, 0x2ca304ac6b7020b00,
     0x28c12b1adc082c01c, 0x304ac6b7020b0073a, 0x12b1adc082c01ce9c, 0x2c6b7020b0073a708, 0x1afc0200a2ca304ac,
     0x3f008028b28c12b1a, 0x362931dc778bcbaf3, 0xa6c7d3141f647a52, 0x1b3f467cde954523a, 0x39d8a4c771de2f2eb,
     0xf3c71ef0eb6c997f],
    [0x2021822c824ca2c29, 0x8608b209328b0a78, 0x1822c824ca2c29e00, 0x8b209328b0a78034, 0x2c824ca2c29e00d28,
     0x209328b0a78034a08, 0x24ca2c29e00d28212, 0x328b0a78034a08486, 0x22c29e00d28212182, 0x1086021822c824ca2,
     0x21808608b209328b0, 0x80b74d2260a6d769, 0x22fcb6a500d7ff656, 0x1f0c2b6cb7b37b980, 0x2b202dd3489829b5d,
     0x31459049945853c41],
    [0x2023822482ce8a417, 0x8e08920b3a2905d8, 0x3822482ce8a417600, 0x8920b3a2905d801c, 0x2482ce8a417600728,
     0x20b3a2905d801ca08, 0x2ce8a41760072821a, 0x3a2905d801ca086a6, 0xa41760072821a9aa, 0x307e023822482ce8a,
     0x1f808e08920b3a290, 0x8a8995ade05db2d7, 0xa05d49303b8411d6, 0x2156a6e46cdecd180, 0x3d22a2656b78176cb,
     0x2f3c7ff74f37e5bff],
    [0x20a1880c01ce86c89, 0x2862030073a1b2278, 0x1880c01ce86c89e08, 0x2030073a1b2278214, 0xc01ce86c89e08520,
     0x73a1b2278214810, 0x1ce86c89e0852043a, 0x3a1b2278214810e9a, 0x6c89e0852043a688, 0x12860a1880c01ce86,
     0x2182862030073a1b2, 0xcd351e8d5effb2ef, 0x1475f2397a304d770, 0x3ddd06528ddddb082, 0x1b334d47a357bfecb,
     0x2f3e7fdf4d33f5cc1],
    [0x20a38804034ca6eb7, 0x28e20100d329badd8, 0x38804034ca6eb7608, 0x20100d329badd823c, 0x4034ca6eb7608f20,
     0xd329badd823c830, 0x34ca6eb7608f20c32, 0x329badd823c830c92, 0x26eb7608f20c32488, 0x1a7e0a38804034ca6,
     0x1f828e20100d329ba, 0x47236688de04d771, 0x3c2e12277b5ffb2d0, 0x2b2701dad4b26daaa, 0x2d11c8d9a2378135d,
     0x3147906196546317f],
    [0x804400402220201, 0x20110010088808044, 0x4400402220201130, 0x10010088808044c04, 0x402220201130100,
     0x10088808044c04002, 0x2220201130100098, 0x8808044c04002622, 0x20201130100098880, 0x8840804400402220,
     0x21020110010088808, 0xc7859e63e24f31d1, 0x1e963d8fc91ee7648, 0x250f27f2079bf903c, 0xf31e16798f893cc7,
     0x279c70d34c3049a61]]

/-- `data/binsup_mat/n256_t53.txt`. -/
def n256_t53 : BinFile where
  k := 56
  blocks := [
    [0xff, 0xff00, 0xff0000, 0xff000000, 0xff00000000, 0xff0000000000, 0xff000000000000, 0xff00ff000000ff,
     0xffffff0000ffff, 0xffff00ffffff, 0xffff00ffffff00, 0xffff00ff, 0xffff00ff00, 0xffff00ff0000,
     0xffff00ff000000, 0xffffffffffffff],
    [0x402010080482c1, 0x2010080482c160, 0x10080482c16030, 0x80482c1603018, 0x482c16030180c, 0x82c16030180c86,
     0x81402010080482, 0xc5e2f1783c9e4f, 0x6733994ca653a9, 0xf67bbdde6f371b, 0x3b9dce6733994c, 0x582c964ba5d2e9,
     0x2c964ba5d2e974, 0x964ba5d2e974ba, 0xb85c2e170381c, 0x7f3f1f0f070381],
    [0xc0a0f088cc2abf, 0xa0f088cc2abf60, 0xf088cc2abf6050, 0x88cc2abf605078, 0xcc2abf60507844, 0x2abf60507844e6,
     0x7fc0a0f088cc2a, 0x734aef18149ed1, 0xf9050784466557, 0x764d6b5e71c92d, 0x8dcbaef9050784, 0xb8e4161d131a97,
     0xe4161d131a975c, 0x161d131a975cf2, 0xddb3ea1f90d8b4, 0x8141e11199557f],
    [0x484024209210c9, 0x4024209210c908, 0x24209210c90864, 0x209210c9086404, 0x9210c9086404b2, 0x10c9086404b282,
     0x81484024209210, 0x5b18ad0cd6866b, 0xbf585fac2fde1, 0xae9d57ce2b6795, 0xd517ea0bf585fa, 0x4cf2a6f9537ca9,
     0xf2a6f9537ca9be, 0xa6f9537ca9be54, 0xb11358892c4496, 0xf470723039181],
    [0x48c06ca0daf037, 0xc06ca0daf03788, 0x6ca0daf03788ac, 0xa0daf03788accc, 0xdaf03788accc7a, 0xf03788accc7a2a,
     0x7f48c06ca0daf0, 0xed789b44d6e6bd, 0xdd23b332eaab1f, 0xcecba9ae7df943, 0x8369c2dd23b332, 0x84ba466765d457,
     0xba466765d4573e, 0x466765d4573efc, 0x2fa5b8f7e40c16, 0x115999f5558f7f],
    [0x28687c48f6d2a9, 0x687c48f6d2a940, 0x7c48f6d2a94014, 0x48f6d2a9401434, 0xf6d2a9401434be, 0xd2a9401434be24,
     0x8128687c48f6d2, 0x5f92bd74aa10c5, 0xe547b5964c07a1, 0x18272b38adb167, 0xf4344e547b596, 0x1cd658331f8689,
     0xd658331f8689ca, 0x58331f8689ca8e, 0x1b77fac13c5cc2, 0xd1f991eda55381],
    [0x28e8d448761a57, 0xe8d448761a57c0, 0xd448761a57c03c, 0x48761a57c03c9c, 0x761a57c03c9c3e, 0x1a57c03c9c3e6c,
     0x7f28e8d448761a, 0x21da6b5c02f073, 0xd359e3168499df, 0x78397dd89b2ff9, 0x11950cd359e316, 0xb4d6b805e1e6f7,
     0xd6b805e1e6f762, 0xb805e1e6f7626e, 0x2d0932bf1474ea, 0x4f678f5b13657f],
    [0x541040aa88a0d5, 0x1040aa88a0d544, 0x40aa88a0d54450, 0xaa88a0d54450ea, 0x88a0d54450ea22, 0xa0d54450ea2228,
     0x81541040aa88a0, 0x5de485ae72c257, 0xed716b7638353b, 0x2c8ff39647f9cb, 0xdbe3d6ed716b76, 0xbe3268df19b46f,
     0x3268df19b46f8c, 0x68df19b46f8c5a, 0x8b09f4c504fa62, 0x7534303a92181],
    [0xfcf0c002082083, 0xf0c0020820830c, 0xc0020820830c30, 0x20820830c30c2, 0x820830c30c20a, 0x20830c30c20a28,
     0x7ffcf0c0020820, 0x8b2cb3ce3aeaa9, 0x5b6fbdf6d8638d, 0xe491451659679d, 0x6db5d65b6fbdf6, 0x3efae8a1871c71,
     0xfae8a1871c71c4, 0xe8a1871c71c412, 0x5d77dc73cc32ca, 0x99659555575f7f],
    [0xb4b890624caafd, 0xb890624caafd0c, 0x90624caafd0c28, 0x624caafd0c28f2, 0x4caafd0c28f22e, 0xaafd0c28f22ee6,
     0x49b4b890624caa, 0xb1a6d5fe061479, 0xa3cbbb9a5ec793, 0x7a1d4fa0c18711, 0xa9f730a3cbbb9a, 0x46967635bd8e27,
     0x967635bd8e27d0, 0x7635bd8e27d0e0, 0x81051e459c4abe, 0x51e55dcdafe349],
    [0x1c5870ca8402ab, 0x5870ca8402ab44, 0x70ca8402ab4428, 0xca8402ab4428ba, 0x8402ab4428ba4e, 0x2ab4428ba4e86,
     0xb71c5870ca8402, 0x2f4683fe663ce7, 0x759d0d52ded925, 0xb24bd120bf190f, 0x578950759d0d52, 0xa616f6636b6e39,
     0x16f6636b6e39b0, 0xf6636b6e39b0e0, 0x7f331ef334e23e, 0xcfd38bfb31b5b7],
    [0x1c70048a3230f5, 0x70048a3230f56c, 0x48a3230f56c74, 0x8a3230f56c748e, 0x3230f56c748eb8, 0x30f56c748eb802,
     0xe91c70048a3230, 0xc75c81e2cc8c7d, 0x87ad67a472c113, 0x6a3b25900d9f57, 0x27559487ad67a4, 0x92c8064fab280f,
     0xc8064fab280f5a, 0x64fab280f5ace, 0x53db2c8568febc, 0x9156561ebd9e9],
    [0xb490cca2fa5023, 0x90cca2fa502324, 0xcca2fa5023245c, 0xa2fa5023245c6e, 0xfa5023245c6e58, 0x5023245c6e58aa,
     0x97b490cca2fa50, 0xd9747f4a04c42b, 0x199bf9ec3abfa5, 0x428d9370bb61a9, 0x3903bc199bf9ec, 0xdac866d1fd2811,
     0xc866d1fd281112, 0x66d1fd281112ae, 0x656de4b3e8fe94, 0x77c3539f3dc797],
    [0xdc509c22167afd, 0x509c22167afd8c, 0x9c22167afd8ccc, 0x22167afd8cccbe, 0x167afd8cccbe34, 0x7afd8cccbe346c,
     0x21dc509c22167a, 0xebf63132f8d2b3, 0xc1979fe83c1b53, 0x7c69d90ee381e5, 0xb58992c1979fe8, 0x6264f0a5673a8f,
     0x64f0a5673a8f06, 0xf0a5673a8f0694, 0x7937a6ad10eea8, 0x7fa3f36f4d5b21],
    [0xf430340a96b2ab, 0x30340a96b2abc4, 0x340a96b2abc404, 0xa96b2abc4043e, 0x96b2abc4043e9c, 0xb2abc4043e9c24,
     0x5ff430340a96b2, 0x3d76affa981a85, 0xbfe96168142d65, 0xd417c7eeb57fd3, 0xe3f7dabfe96168, 0xcaac1013f97291,
     0xac1013f9729166, 0x1013f9729166bc, 0xe7c9469bf00ea8, 0x817545717bed5f],
    [0x6848d2403424e9, 0x48d2403424e920, 0xd2403424e9209a, 0x403424e9209a92, 0x3424e9209a9274, 0x24e9209a927410,
     0x816848d2403424, 0xdd0473b2ee82b9, 0xb13f131c581f89, 0xe2176feaf10b37, 0x7f2738b13f131c, 0xfa3cc28dfd9ee1,
     0x3cc28dfd9ee1c6, 0xc28dfd9ee1c6fe, 0xe5b54ca1f2daa6, 0x234b03d191a581]]

/-- `data/binsup_mat/n256_t65.txt`. -/
def n256_t65 : BinFile where
  k := 42
  blocks := [
    [0x3f, 0xfc0, 0x3f000, 0xfc0000, 0x3f000000, 0xfc0000000, 0x3f000000000, 0x3f03f00003f, 0x3ffff000fff,
     0xfff03ffff, 0x3ffc0ffffc0, 0xfff03f, 0x3ffc0fc0, 0xfff03f000, 0x3ffc0fc0000, 0x3ffffffffff],
    [0x810204081, 0x20408102060, 0x10204081830, 0x8102060c18, 0x408183060c, 0x2060c18306, 0x1020408102,
     0x58b1e3c78f, 0x27cd93264e9, 0x36efd7afddb, 0x3b74e9f364c, 0x18b162e54a9, 0x2c58b952a74, 0x162e54a9d3a,
     0xb142870e1c, 0x3ffdf3c70c1],
    [0x83020cabf, 0x20c0832afe0, 0x3020cabf810, 0x832afe0438, 0xcabf810e04, 0x2afe0438126, 0x3f020c0832a,
     0x332af614791, 0x39147106957, 0x3636b7b126d, 0xd2eee451c4, 0x38916753697, 0x2459d4da5dc, 0x16753697732,
     0x1dcea7d0634, 0x106145957f],
    [0x8024812409, 0x920490248, 0x24812409224, 0x20490248904, 0x12409224132, 0x10248904c82, 0x1200920490,
     0x1b62d3161ab, 0xbd45e82f61, 0x2e7573ab9d5, 0x155ea2f517a, 0xcca6e53f29, 0x329b94fca7e, 0x26e53f29f94,
     0x314d826c116, 0xf1c78c3441],
    [0x802c81ac37, 0xb206b0dc8, 0x2c81ac3722c, 0x206b0dc8b0c, 0x1ac3722c33a, 0x30dc8b0ceaa, 0x3f200b206b0,
     0x2de1b1169bd, 0x1d8f3caaadf, 0xe2e9bbde43, 0x3a42763cf2, 0x4e869e5517, 0x3a1a79545fe, 0x69e5517fbc,
     0x2f978de4316, 0x11659d553ff],
    [0x28a3c2364a9, 0x28f08d92a40, 0x3c2364a9014, 0x8d92a40534, 0x364a9014d3e, 0x12a40534fa4, 0x1a28f08d92,
     0x1f4bdd2a405, 0x251f558c1e1, 0x189ebe2dc67, 0xf0c4947d56, 0x1c598cdf189, 0x166337c624a, 0x18cdf18928e,
     0x1bdfa07c702, 0x11e51b654c1],
    [0x28a14236697, 0x28508d9a5c0, 0x1423669703c, 0x8d9a5c0f1c, 0x3669703c73e, 0x1a5c0f1cfac, 0x3fa28508d9a,
     0x216ab702c33, 0x1366358465f, 0x38e7d61bbf9, 0x1154c4d98d6, 0x345b81619b7, 0x16e05866de2, 0x381619b78ae,
     0x2d272fd4d2a, 0xf9cf6d397f],
    [0x14400a88815, 0x1002a220544, 0xa88815110, 0x2a22054442a, 0x8815110aa2, 0x2054442a8a8, 0x151002a220,
     0x1d905bb2097, 0x2dc6bdb8d7b, 0x2c3f3587e4b, 0x1b8d6b71af6, 0x3eca87d9d2f, 0x32a1f674bcc, 0x287d9d2f31a,
     0xb274144ea2, 0x74c30e9841],
    [0x3cc00088803, 0x300022200cc, 0x88803330, 0x22200ccc02, 0x880333008a, 0x200ccc022a8, 0x3ff30002220,
     0xbb333baaa9, 0x1bbfdd988cd, 0x244455999dd, 0x2dd566eff76, 0x3eea8847731, 0x3aa211dcc44, 0x28847731112,
     0x1dddccccc8a, 0x199555577ff],
    [0x34e1088cabd, 0x3842232af4c, 0x1088cabd328, 0x2232af4ca32, 0xcabd328cae, 0x2af4ca32ba6, 0x9d3842232a,
     0x31995f86539, 0x232fb69e1d3, 0x3a74f8011d1, 0x29df08cbeda, 0x65b6d7d3a7, 0x16db5f4e9d0, 0x36d7d3a7420,
     0x115e15c2be, 0x1195d36f8c9],
    [0x1c6302840ab, 0x18c0a102ac4, 0x302840ab128, 0xa102ac4a3a, 0x40ab128e8e, 0x2ac4a3a386, 0x37718c0a102,
     0x2f183fa6f27, 0x3574d49e665, 0x322d183f64f, 0x17250d5d352, 0x265b68ebbb9, 0x16da3aeee70, 0x368ebbb9c20,
     0x3fcdecf48be, 0xf4cbef1d77],
    [0x1cc042b2c35, 0x3010acb0d6c, 0x42b2c35b34, 0xacb0d6cd0e, 0x32c35b343b8, 0x30d6cd0ee02, 0x2973010acb0,
     0x770188c33d, 0x7b67932053, 0x2aee540d7d7, 0x275541ed9e4, 0x122063eba0f, 0x818fae83da, 0x63eba0f68e,
     0x136ec168fbc, 0x956586b669],
    [0x3440c8ba423, 0x10322e908e4, 0xc8ba42391c, 0x22e908e472e, 0x3a42391cb98, 0x108e472e62a, 0x17d10322e90,
     0x19d3f28412b, 0x196f9b3afe5, 0x2353c3b869, 0x390fc65be6c, 0x1a22647da11, 0x8991f68452, 0x2647da114ae,
     0x25b64ce8f94, 0x370d37fd1d7],
    [0x1c41c896ebd, 0x107225baf4c, 0x1c896ebd30c, 0x225baf4c33e, 0x16ebd30cfb4, 0x3af4c33ed2c, 0x217107225ba,
     0x2bdb1cb84b3, 0x15dfa3c6d3, 0x3ca593a3065, 0x352520577e8, 0x22930967e8f, 0x24c259fa3c6, 0x30967e8f194,
     0x39de6b50ba8, 0x3f8f3bcd6e1],
    [0x34c34296cab, 0x30d0a5b2ac4, 0x34296cab104, 0xa5b2ac413e, 0x16cab104f9c, 0x32ac413e724, 0x1fd30d0a5b2,
     0x3ddafe98685, 0x3fa61a14b65, 0x145c7bb5fd3, 0x23ddafe9868, 0xab104f9c91, 0x2c413e72466, 0x104f9c919bc,
     0x272466f03a8, 0x1d45c7bb5f],
    [0x28212034929, 0x8480d24a60, 0x1203492981a, 0xd24a60692, 0x3492981a4b4, 0x24a60692d10, 0x1a08480d24,
     0x1d133cae0b9, 0x31fd37187c9, 0x225efab12f7, 0x3f9f8c7f4dc, 0x3af0237d7a1, 0x3c08df5e846, 0x237d7a11be,
     0x25d4c8726a6, 0x232c3451941]]

/-- `data/binsup_mat/n256_t89.txt`. -/
def n256_t89 : BinFile where
  k := 14
  blocks := [
    [0x3, 0xc, 0x30, 0xc0, 0x300, 0xc00, 0x3000, 0x3303, 0x3f0f, 0xf3f, 0x3cfc, 0xf3, 0x3cc, 0xf30, 0x3cc0, 0x3fff],
    [0x9, 0x24, 0x90, 0x240, 0x900, 0x2402, 0x1002, 0x190b, 0x3d2d, 0x2dbf, 0x36f4, 0x2d9, 0xb64, 0x2d92, 0x3640,
     0x3ffd],
    [0xb, 0x2c, 0xb0, 0x2c0, 0xb00, 0x2c02, 0x3002, 0x3b09, 0x1727, 0x2795, 0x1e5c, 0x27b, 0x9ec, 0x27b2, 0x1ec0,
     0x1557],
    [0x21, 0x84, 0x210, 0x840, 0x2102, 0x40a, 0x1008, 0x312b, 0x35a5, 0x27bd, 0x1ed6, 0xa71, 0x29c6, 0x2718,
     0x1c42, 0x3ff5],
    [0x23, 0x8c, 0x230, 0x8c0, 0x2302, 0xc0a, 0x3008, 0x1329, 0x1faf, 0x2d97, 0x367e, 0xad3, 0x2b4e, 0x2d38,
     0x34c2, 0x155f],
    [0x29, 0xa4, 0x290, 0xa40, 0x2902, 0x2408, 0x100a, 0x3921, 0x1d8d, 0xf17, 0x3c76, 0x8f9, 0x23e6, 0xf9a, 0x3e42,
     0x155d],
    [0x2b, 0xac, 0x2b0, 0xac0, 0x2b02, 0x2c08, 0x300a, 0x1b23, 0x3787, 0x53d, 0x14de, 0x85b, 0x216e, 0x5ba, 0x16c2,
     0x3ff7],
    [0x81, 0x204, 0x810, 0x2042, 0x10a, 0x428, 0x1020, 0x11ab, 0x1787, 0xfb7, 0x3e5e, 0x28d3, 0x234c, 0xd32,
     0x344a, 0x3fd5],
    [0x83, 0x20c, 0x830, 0x20c2, 0x30a, 0xc28, 0x3020, 0x33a9, 0x3d8d, 0x59d, 0x16f6, 0x2871, 0x21c4, 0x712,
     0x1cca, 0x157f],
    [0x89, 0x224, 0x890, 0x2242, 0x90a, 0x242a, 0x1022, 0x19a1, 0x3faf, 0x271d, 0x1cfe, 0x2a5b, 0x296c, 0x25b0,
     0x164a, 0x157d],
    [0x8b, 0x22c, 0x8b0, 0x22c2, 0xb0a, 0x2c2a, 0x3022, 0x3ba3, 0x15a5, 0x2d37, 0x3456, 0x2af9, 0x2be4, 0x2f90,
     0x3eca, 0x3fd7],
    [0xa1, 0x284, 0xa10, 0x2842, 0x2108, 0x422, 0x1028, 0x3181, 0x3727, 0x2d1f, 0x34dc, 0x22f3, 0xbce, 0x2f3a,
     0x3c48, 0x1575],
    [0xa3, 0x28c, 0xa30, 0x28c2, 0x2308, 0xc22, 0x3028, 0x1383, 0x1d2d, 0x2735, 0x1c74, 0x2251, 0x946, 0x251a,
     0x14c8, 0x3fdf],
    [0xa9, 0x2a4, 0xa90, 0x2a42, 0x2908, 0x2420, 0x102a, 0x398b, 0x1f0f, 0x5b5, 0x167c, 0x207b, 0x1ee, 0x7b8,
     0x1e48, 0x3fdd],
    [0xab, 0x2ac, 0xab0, 0x2ac2, 0x2b08, 0x2c20, 0x302a, 0x1b89, 0x3505, 0xf9f, 0x3ed4, 0x20d9, 0x366, 0xd98,
     0x36c8, 0x1577],
    [0x201, 0x804, 0x2012, 0x4a, 0x128, 0x4a0, 0x1080, 0x13a9, 0x1f0d, 0x2f9f, 0x3c7c, 0x2259, 0x966, 0x259a,
     0x146a, 0x3f55]]

/-- `data/binsup_mat/n512_t131.txt`. -/
def n512_t131 : BinFile where
  k := 77
  blocks := [
    [0x7ff, 0x3ff800, 0x1ffc00000, 0xffe00000000, 0x7ff00000000000, 0x3ff80000000000000, 0x1ffc0000000000000000,
     0x1ffc007ff000000007ff, 0x1ffffffff000003fffff, 0x3fffff001ffffffff, 0x1fffff800ffffffff800, 0xfffffc007ff,
     0x7ffffe003ff800, 0x3fffff001ffc00000, 0x1fffff800ffe00000000, 0x1fffffffffffffffffff],
    [0x10010410c10c10c10c1, 0x820860860860860860, 0x10430430430430430430, 0x18218218218218218218,
     0xc10c10c10c10c10c50c, 0x6086086086086286286, 0x2042002082182182182, 0xf14f14f14f04f04f44f,
     0x99e99a99a98a9aa9ea9, 0x1bd9bd9bd1bd1bf1bb1b, 0xceccecce4cf4cd4cd4c, 0x96296696e96e96e96e9,
     0x14b34b74b74b74b74f74, 0x1a5ba5ba5ba5ba7ba3ba, 0x1c2dc29c21c31c11c11c, 0x1fc1f81f81e81c81881],
    [0x300504f0d10732957bf, 0x282786883994abdf860, 0x13c3441cca55efc30450, 0x1a20e652af7e18228278,
     0x732957bf0c11413c744, 0x14abdf8608a09e3a24e6, 0x1dfc600a09e1a20e652a, 0x19cea53ef430c534f5d1,
     0xfe702d07f0911b32957, 0x1d826c6bcbd5c7e482d, 0x23665aae7f381683f84, 0xae3f201683b84c8d197,
     0x1f900b41dc26468cbd5c, 0x5a0ee1323465eae7f2, 0x137759deae3f2416c3b4, 0x604a09e1a22e652af7f],
    [0x19202032404164a086c9, 0x10192020b2504364e08, 0xc9010592821b2704364, 0x82c9410d93821b2304,
     0x164a086c9c10d91825b2, 0x104364e086c8c12d9182, 0x20724040648082c9410, 0xd6d0c5ada19b594376b,
     0x1c2ffab857f4708fe8e1, 0x12b8cee5799dcad33f95, 0x1f570bfeae17fd5c2bfa, 0x1532f92a65f354cbe6a9,
     0x17c9532f9aa65f3548be, 0xa997cd532f9aa45f754, 0x12c689a58d134b1a2696, 0x103d23a0724640e48881],
    [0x19206016c14076a78137, 0x300b60a03b53c09be88, 0x5b0501da9e04df441ac, 0x280ed4f026fa20d61cc,
     0x76a78137d106b0e617a, 0x13c09be88358730bd52a, 0x1dff240c02d8280ed4f0, 0x3b53c09be8835a734bd,
     0x137511eb3e657aa55f1f, 0xb3a65fa955d1f5fca43, 0xa0fb4bc29ba88f59f32, 0x1e10dd446acf995ea157,
     0x6ea23567ccaf50abe3e, 0x111ab3e657a855f1f5fc, 0xcbf52ab83eff9086016, 0x1445acb995ea955c7f7f],
    [0x18a33417cc91bdae96a9, 0x19a0be648ded74b54840, 0x5f3246f6ba5aa420714, 0x19237b5d2d521038a734,
     0x1bdae96a9081c539a0be, 0x174b54840e29cd05f324, 0x207146682f99237b5d2, 0x17ec91bdee9eaa083c5,
     0xf9523fb5d2d531038a1, 0x86113f2b4716b658a67, 0x103ca1b447ca91fdae96, 0x4736b258a6607d43689,
     0x1b592c53303ea1b44fca, 0x9629981f50da27e548e, 0xc6f3bbfa1824f0ae1c2, 0x13457cc91bdae96a9881],
    [0x18a3743d4c901d88d157, 0x1ba1ea6480ec468ab8c0, 0xf532407623455c6053c, 0x19203b11a2ae3029e59c,
     0x1d88d1571814f2ce63e, 0x468ab8c0a796731f16c, 0x1dff146e87a99203b11a, 0x484ed46bab8c0a78673,
     0x1b4dacae302de11ccfdf, 0x9e19cc7d5b026d97bf9, 0x14454a90cda6d6571816, 0xed06b2b8c0a786731f7,
     0x3595c6053c3398fbb62, 0xae3029e19cc7ddb126e, 0xb784f32f7ec51ba5ea, 0xd3eb3b8f0b784f32f7f],
    [0x1d5088140755220505d5, 0x440a03aa910282eae44, 0x501d548814175722050, 0xeaa440a0bab910282ea,
     0x1220505d5c8814175722, 0x282eae440a0bab91428, 0xa07aa110280eaa440a0, 0x5777258595ddcb61257,
     0x3b53886b0ed4e21a83b, 0xcb347df332cd1f7c8cb, 0x76e718d61da9c435876, 0x16fb19568dbfc675a76f,
     0x18cab46dfe33ad3b7b8c, 0x15a36ff19d69dbdc635a, 0x62f04ff498bc11fd662, 0x81ea9c43a07aa510a81],
    [0x17f3f87c0e0502010083, 0x1fc3e070281008041a0c, 0x1f038140804020d06030, 0x1c0a04020106830180c2,
     0x1020100834180c06130a, 0x8041a0c06030985428, 0x15fefe7f0f81c0a04020, 0x122d160b359ccea753a9,
     0xd6eb7dbddecf63b1d8d, 0x793c8e4522d164b3d9d, 0x9b4daed66b75bedeef6, 0x14fa7d3e8f43a1d0e071,
     0x13e9f47a1d0e870389c4, 0xfa3d0e874381c4e2712, 0x974bbddcee7733994ca, 0xe6732995caa55eafd7f],
    [0x6d2dc590ac5d31d51fd, 0x16e2c8562e98ea8fec0c, 0x1642b174c7547f606028, 0x158ba63aa3fb030140f2,
     0x1d31d51fd8180a07922e, 0xea8fec0c0503c9174e6, 0x124da5b8b2158ba63aa, 0x1ac7d31d59fc81a0a079,
     0x28de58bb73457be3893, 0x15eb8ea4fb4170643b11, 0x1aa7fb830146f2c5db9a, 0x51bcb176e6aaf7c7127,
     0x1e58bb73557be3893ed0, 0x5db9aabdf1c49f686e0, 0x1a0782a1e88a672a57be, 0x144f2c5d39b2bdf1849],
    [0xc71ac370395613814ab, 0xd61b81cab09c0a55844, 0xdc0e5584e052ac22028, 0x72ac2702956110142ba,
     0x1613814ab0880a15d44e, 0x1c0a55844050aea27286, 0x1edd8e3586e072ac2702, 0x4bfa34835fd1981e7e7,
     0x15d44ed0dea47786cd25, 0x6c925bd16412fe8ca0f, 0x55c44850aea27686f52, 0x69b8b1f64c65afb7639,
     0x1c58fb2632d7dbb1ceb0, 0x7d93196bedd8e7586e0, 0x5fd19c1efe6cd0f173e, 0x1f3e69f8b9f74c45afb7],
    [0xc70b8204f15cc9185f5, 0x5c10278ae648c2faa6c, 0x813c57324617d536374, 0x1e2b99230bea9b1ba58e,
     0x1cc9185f54d8dd2c70b8, 0x8c2faa6c6e96385c502, 0x1ba58e170409e2b99230, 0xb1c2e681fc4f304677d,
     0x61fd6b677491cae0813, 0x15a99dd257218344f957, 0x9e2a99430feb5b3ba4, 0x1a48e470609e2ad9430f,
     0x7238304f156ca187f5a, 0x1c18278ab650c3fad6ce, 0xd4ced92c90a1a27f2bc, 0x10278ae658c2fae6cee9],
    [0x6d3c86cc744fe928023, 0x1e43663a27f494011e24, 0x1b31d13fa4a008f1215c, 0xe89fd250047890ae56e,
     0xfe928023c48572b7058, 0x94011e242b95b82c1aa, 0x65cda790d98e89fd250, 0xf663a17f6944126222b,
     0x18654dcf93d98ea5fda5, 0x50846893ae16ecb0ea9, 0x4e781bbcc32a6e7c9ec, 0x136be47663a37f694411,
     0x1f23b31d1bfb4a208b12, 0x1d98e8dfda51045890ae, 0x19536be4f663a17f694, 0xddd61d5373e0f5e3997],
    [0x1771a809c245058bd1fd, 0xd404e12282c5e8fee8c, 0x270914162f47f7463cc, 0x48a0b17a3fba31e61be,
     0x1058bd1fdd18f30df534, 0x5e8fee8c7986fa9a56c, 0x1086ee35013848a0b17a, 0x17affb231e65be2695b3,
     0x1f074bd9f1d18f00de53, 0xdf134ad921db8d40ce5, 0x1ed4c4992f83a5ecf8e8, 0x118b325f034ad9e1d38f,
     0x1992f81a56cf0e9c7a06, 0x17c0d2b67874e3d03394, 0x11e41bca655b841775a8, 0x19fdd18f30de536adc21],
    [0x1fd298434a14a5ad94ab, 0x14c21a50a52d6ca55ac4, 0x10d285296b652ad62104, 0x14294b5b2956b108213e,
     0xa5ad94ab5884109f79c, 0x16ca55ac42084fbce724, 0xd7ffa5308694294b5b2, 0x18f7bb5af7f5a630d685,
     0x1afff4a610d085296b65, 0x7528bdc73dced6bffd3, 0xb8c7bddad7ffa530868, 0x1b29563108273e739491,
     0xab1884139f39ca48c66, 0xc4209cf9ce5246331bc, 0xf9ce4a46337bc2073a8, 0x1e043ad452e31ef76b5f],
    [0x19a3245d2081cd1926e9, 0x1922e9040e68c9374820, 0x174820734649ba41039a, 0x1039a324dd2081cd592,
     0x1cd1926e9040e6ac9774, 0xc937482073564bba410, 0x20734648ba41039a324, 0x77582573b653b8c12b9,
     0x12c41fd132389600fe89, 0x78b0bc6ffd53c785e37, 0x1fd13a389620fe8991c, 0xfe89e1c2b1a7f44f0e1,
     0x4f0e158d3fa27870ac6, 0x70ac69fd13c385630fe, 0xf97dad4c1437c9ed2a6, 0x48fa59039a3245d2881],
    [0x1ba32411a181670b6197, 0x19208d0c0b385b0cb8a0, 0x4686059c2d865c50752, 0x302ce16c32e283a91da,
     0x1670b6197141d48ed55c, 0x5b0cb8a0ea476aae4f0, 0x1dff74648234302ce16c, 0x102ce66c52f483a955a7,
     0xcbca0ea5768ae0f09f7, 0x152bb4d71784fbe6efc9, 0x6059cad865e50752bb4, 0x1cc98a5ea0772af4f71f,
     0xc52f503b957a7b8fc26, 0x17a81dcabd3dc7e136fe, 0x1b4d71f84fbe6ebc9446, 0xbd60ea5569ee3f09f7f],
    [0x83041820c0861430a1, 0x1820c1060430a1850e28, 0x6083021850c2871478a, 0x1810c2861438a3c51e2,
     0x861430a1c51e28f1278, 0xa1850e28f147893c09e, 0x204106083041810c286, 0xae65772bf957c8be05f,
     0x18dec69634b1a59d2ee9, 0x1cd2e6d732b995fcabe5, 0x17b5bd8dec6f634b1a58, 0x70a3811c48f245926c9,
     0x11c08e247922c9364db2, 0x47123c91649b26d956c, 0x99d4caa6d53eabf53fa, 0x1f57fa9fd0fe07d03881],
    [0x2834452a0c09e2737df, 0x1a22950604f139befe28, 0x14a8302789cdf7f143a2, 0x1813c4e6fbf8a1d154a,
     0x9e2737dfc50e8aa5218, 0x139befe287455290c69e, 0x1dfc50688a541813c4e6, 0x169d6747d6c46e9ea121,
     0x1f241da3557005b09997, 0x16707dec56e9ea521ed3, 0x16c26e5ef920ed1aab8, 0x17aa483b46b2e3cb6137,
     0x1241da35971e5b09b97a, 0xed1acb8f2d84dcbd724, 0xfe683c462aec09e1732, 0xa0d11cab302785ccf7f],
    [0x1831409ecd12b8be0e1, 0x18a04f66895c5f070e48, 0x27b344ae2f8387246b6, 0x19a25717c1c39235b6f6,
     0x12b8be0e1c91adb7b2c6, 0x5f070e48d6dbd9635d2, 0x2043062813d9a25717c, 0x113f9a65717d1c19235b,
     0xc6fa5e7754cfe8818c1, 0xc10a1cf16895cdf2f0b, 0x48d6cbda637d2f3baa6, 0x1a5a7754cfea81cc10a1,
     0x13baa67f540e60850a78, 0x1533faa073042853c1a2, 0x1e561791cd93b586f258, 0x17b6c6ba567754cfe881],
    [0x1831469edd0b39ea71f, 0x18a34f6e859cf538fe48, 0x1a7b742ce7a9c7f240b6, 0x1ba1673d4e3f9205b076,
     0xb39ea71fc902d83b426, 0xf538fe4816c1da1311a, 0x1dfc30628d3dba1673d4, 0x1746ce7a9c7d240b60ed,
     0xb60ef0988dcc92afbf, 0x7314abef219b1769cdd, 0xbd6e3f9205b07784c46, 0x5907784446e66957df,
     0x83bc22237334abefa18, 0x1e1111b99a55f7d0c58a, 0x90ed8bb426e35b2f2b8, 0x16c1de1311b99655f7f],
    [0x182030286c507884f689, 0x181436283c427b44e68, 0xa1b141e213da27342e6, 0x18a0f109ed139a1734ae,
     0x7884f689cd0b9a577ca, 0x27b44e685cd2bbe517c, 0x2070406050d8a0f109e, 0x1daf7b46f58d4b2e91dd,
     0x1e557cc2f38447248ec9, 0x16496cdad7b46f58dcb1, 0x1346e695cf2abe6179c2, 0xa9bd53fa07e40e080c1,
     0x1ea9fd03f20704060d0c, 0xfe81f90382030686450, 0x18dcb1e96dd33ba6754c, 0xcee99d53faa7f40f881],
    [0x1a20304e6c5152b4f1f7, 0x18273628a95a78fbee8, 0x139b1454ad3c7df74486, 0x18a2a569e3efba2432ce,
     0x152b4f1f7dd121967362, 0x1a78fbee890cb39b13d4, 0x1dff440609cd8a2a569e, 0x12f43b57184df908d40b,
     0x90eb3db1bd4ed1c7937, 0x76ae389bf251ac16b2f, 0xd3c7db7448759ed8dea, 0x111981732282956787bf,
     0xc0b991414ab3c3dff44, 0x1cc8a0a559e1effa2430, 0x1f251a81632e83957784, 0x23702e655072acf0f7f],
    [0x5f2b84f2f44c72d27dd, 0x15c2797a2639693eec0c, 0x13cbd131cb49f7606182, 0x1e898e5a4fbb030c1350,
     0xc72d27dd818609a84be, 0x1693eec0c304d425f6b8, 0x1a84be5709e5e898e5a4, 0x1304d465feb94f2f46c7,
     0x105543df1b84f2345c73, 0x191a2cb9d928edccd855, 0x14977686682aa1ef8dc2, 0x8b0e724abb63341550f,
     0x739255db19a0aa87be2, 0x92aed8cd05543df1384, 0x129edecd855a3fb1004c, 0x1d171cb49f7606582ea1],
    [0xf51c86ba7146d3f620b, 0xe435d38a369fb105844, 0x1ae9c51b4fd882c2252a, 0xe28da7ec41611295530,
     0x6d3f620b0894aa9823e, 0x1fb105844a554c11f658, 0x77dea390d74e28da7ec, 0xeffd4721ae9c51b47d9,
     0x1f0d8ccef3d5721ae9c5, 0x299a3ecb17912556b03, 0x24eade06f86c66779ea, 0x1b90d70e2cdafed41211,
     0x6b87166d7f6a0908f4a, 0x38b36bfb504847a514c, 0x16e435c38337bfb50484, 0xbcc93ab781be1f199df],
    [0x4509c062e85bc30757d, 0x4e031742de183abe82c, 0x18ba16f0c1d5f41615a, 0x1d0b7860eafa0b0ad720,
     0x1bc30757d05856b901b2, 0x183abe82c2b5c80d90fe, 0x11a48a1380c5d0b7860e, 0xe3711427e183a3ef2c1,
     0x12ed9eb4914c71988a13, 0x2c2b5c81d94fe6e6d47, 0x11fedcea8976cf5a48a6, 0x18d04509c862e87bc307,
     0x2284e431743de183ebe, 0x27218ba1ef0c1f5f016, 0x14954cf1a88a13b0c1d0, 0xe6d47bb77ab25d33c69],
    [0xcf3ec2ca6d58407702b, 0x1f616536ac203b815ce4, 0xb29b56101dc0ae72512, 0xdab080ee057392891a0,
     0x18407702b9c9448d057a, 0x3b815ce4a24682bd6fe, 0xc5d9e7d8594dab080ee, 0x18ee05539a881a3af5bf,
     0x43775ab7c8c49907fa5, 0x3435eb7f8c499c7da59, 0x160653ea821bbad5be46, 0xa715143475eb7c8c499,
     0xa8a1a3af5be4624c83e, 0x10d1d7adf2312641f696, 0x24e83bd2fe78bb3c7b0, 0x2b5c8c49d077a5fcb17],
    [0x17d2d81dea158b8fe73d, 0x16c0ef50ac5c7f39e844, 0x77a8562e3f9cf42246e, 0x142b171fce7a112374d4,
     0x18b8fe73d0891ba6a324, 0x7f39e8448dd351927d2, 0xb26fa5b03bd42b171fc, 0x44cdc353921d29835e5,
     0x157fade1dda098b8fa73, 0x1923d2d83de4154bafe1, 0x94419f2cabfd6f0eed0, 0x4834a60c79655eeb787,
     0x1a53063cb2af75bc3fb4, 0x1831e5957bade1fda098, 0x18fe73c0851a668b22fa, 0x62e3f9cf02346d9aac9],
    [0x1f71e815e244139aa2eb, 0xf40af12209cd5175c0c, 0x5789104e6a8bae0628e, 0x488273545d70314707c,
     0x139aa2eb818a383e16c, 0xd5175c0c51c1f0b631a, 0x14dfee3d02bc48827354, 0xa97ac0658e0f89b30d3,
     0x88676d4bd6032870fc5, 0x192109ed5974c0e51e1f, 0x173e82de44433b6a5eb0, 0x1e815e24413baa6eb019,
     0xaf12209dd537580cd1c, 0x9104eea9bac0668e0f8, 0x1d06bcc88277549d6032, 0x976c0e51e1f8b731d37],
    [0x16f3b8306b14c890b53d, 0x1dc18358a64485a9eacc, 0xc1ac532242d4f566476, 0x162991216a7ab323b68c,
     0xc890b53d5991db466a8, 0x85a9eacc8eda3354134, 0x206de77060d62991216, 0x187c6d14b880b7bdc183,
     0xde770e0d62991216a7b, 0x3fb6ba5f409bcee1c1b, 0xdae979026f3b8706b14, 0xcc0ec23254334e567c7,
     0x761192a19a72b3e3ae8, 0x8c950cd3959f1d743ea, 0x1c75d1faa49a728fe5ae, 0x17d424f3987e6d54b881],
    [0x1e50c8366345c2a4b0eb, 0x641b31a2e1525875e04, 0xd98d170a92c3af022f6, 0x68b854961d78117b2c4,
     0x1c2a4b0ebc08bd9626a8, 0x125875e045ecb135439c, 0x1dffca1906cc68b85496, 0x1f854921d981178ac2d5,
     0xb9c8fdbb2788338df4d, 0x1bfb94b21d98d170a92d, 0x2f558daa5ce47edd93c, 0x15439c0fabbe794320d9,
     0x1ce07d5df3ca1906ca68, 0x3eaef9e50c8365347c2, 0x92c3ab022f7589aa5ce, 0x8fdbe27a8338df4f7f],
    [0x15c3d15a4818d435c3d1, 0x1e8ad240c6a1ae1e8ad2, 0x169206350d70f4569206, 0x1031a86b87a2b49031a8,
     0xd435c3d15a4818d475c, 0x1ae1e8ad240c6a3ae5e8, 0x1a86b87a2b49031a86b8, 0x206351d76f556a20235,
     0x66d0ff0945892866d0f, 0xa79b1bfb26165ca79b1, 0x184e2cc9433687f84a2c, 0x13607f04c2ca94f3607f,
     0x3f8261654a79b03fc26, 0x130b2a53cd81fe130b2, 0x1056f8bc88e7ddb052f8, 0xcea1ae1e8ad240cea1]]

end Binsup

end Verif
