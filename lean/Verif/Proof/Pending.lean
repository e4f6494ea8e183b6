import Verif.Proof.Bits

/-! One strongly regular graph for each of the problems without stored solutions but the last (witnesses
for C82).  Each row is coded as a number. -/

namespace TDS

namespace Database

/-- The 35 lines of the projective space of dimension 3 over the field of 2 elements; adjacent when disjoint. -/
def g35_16 : List Nat :=
  [0xffff, 0x3cf00ff, 0x3cfff00, 0xcf33333, 0xcf3cccc, 0xf3c33cc, 0xf3ccc33, 0xf00f0f0f, 0xf00ff0f0,
   0x330335555, 0x33033aaaa, 0x3c03c5a5a, 0x3c03ca5a5, 0xf3c00ff0, 0xf3c0f00f, 0x33cc06666,
   0x33cc09999, 0x3cf006996, 0x3cf009669, 0x555550356, 0x5569a03a9, 0x5a55a0c59, 0x5a6950ca6,
   0x559a63065, 0x55a69309a, 0x5a9a9c095, 0x5aa66c06a, 0x665665603, 0x666a9a903, 0x69569590c,
   0x696a6a60c, 0x669956530, 0x66a5a9a30, 0x6999a95c0, 0x69a556ac0]

theorem g35_16_check : check 35 16 6 8 g35_16 = true := by decide +kernel

/-- The squares of a 6 × 6 board; adjacent when in one row or column. -/
def g36_10 : List Nat :=
  [0x7e0820820, 0xbd0410410, 0xdc8208208, 0xec4104104, 0xf42082082, 0xf81041041, 0x81f820820,
   0x42f410410, 0x237208208, 0x13b104104, 0xbd082082, 0x7e041041, 0x8207e0820, 0x410bd0410,
   0x208dc8208, 0x104ec4104, 0x82f42082, 0x41f81041, 0x82081f820, 0x41042f410, 0x208237208,
   0x10413b104, 0x820bd082, 0x4107e041, 0x8208207e0, 0x410410bd0, 0x208208dc8, 0x104104ec4,
   0x82082f42, 0x41041f81, 0x82082081f, 0x41041042f, 0x208208237, 0x10410413b, 0x820820bd,
   0x4104107e]

theorem g36_10_check : check 36 10 4 2 g36_10 = true := by decide +kernel

/-- The numbers modulo 37; adjacent when they differ by a square. -/
def g37_18 : List Nat :=
  [0xb2f108f4d, 0x15978847a6, 0xacbc423d3, 0x1565e211e9, 0x1ab2f108f4, 0xd5978847a, 0x6acbc423d,
   0x13565e211e, 0x9ab2f108f, 0x14d5978847, 0x1a6acbc423, 0x1d3565e211, 0x1e9ab2f108, 0xf4d597884,
   0x7a6acbc42, 0x3d3565e21, 0x11e9ab2f10, 0x8f4d59788, 0x47a6acbc4, 0x23d3565e2, 0x11e9ab2f1,
   0x108f4d5978, 0x847a6acbc, 0x423d3565e, 0x211e9ab2f, 0x1108f4d597, 0x18847a6acb, 0x1c423d3565,
   0x1e211e9ab2, 0xf108f4d59, 0x178847a6ac, 0xbc423d356, 0x5e211e9ab, 0x12f108f4d5, 0x1978847a6a,
   0xcbc423d35, 0x165e211e9a]

theorem g37_18_check : check 37 18 8 9 g37_18 = true := by decide +kernel

/-- The 40 points of the projective space of dimension 3 over the field of 3 elements; adjacent when
orthogonal with respect to an alternating form. -/
def g40_12 : List Nat :=
  [0xe070381c0, 0x924924924, 0x88c462311, 0x8542a150a, 0xf7f8000000, 0x8a001c0e07, 0x8c00e07038,
   0x4822492492, 0x280a31188c, 0x18128542a1, 0x4901249249, 0x184150a854, 0x288188c462, 0xf003fc0000,
   0x81c5007007, 0x803e000e38, 0x424c109292, 0x231404c48c, 0x12a408a8a1, 0x4494812449, 0x150c214254,
   0x2464411862, 0xf00001fe00, 0x81c01e8038, 0x8038e30007, 0x424a4a0849, 0x2312320262, 0x12a2860454,
   0x4491264092, 0x15095210a1, 0x24618a208c, 0xf0000000ff, 0x81c0e00f40, 0x80381c7180, 0x4249252504,
   0x2311891901, 0x12a1514302, 0x4492489320, 0x150a84a908, 0x246230c510]

theorem g40_12_check : check 40 12 2 4 g40_12 = true := by decide +kernel

/-- The complement of the previous graph. -/
def g40_27 : List Nat :=
  [0x71f8fc7e3f, 0xb6db6db6db, 0xd773b9dcee, 0xe7abd5eaf5, 0x7ffffff, 0x71ffe3f1f8, 0x71ff1f8fc7,
   0xb6ddb6db6d, 0xd775cee773, 0xe7ad7abd5e, 0xb6dedb6db6, 0xe7aeaf57ab, 0xd776773b9d, 0xff803ffff,
   0x7e38ff8ff8, 0x7fc0fff1c7, 0xbdb36f6d6d, 0xdcebbb3b73, 0xed5bd7575e, 0xbb6b6edbb6, 0xeaf3d6bdab,
   0xdb9bbae79d, 0xffffc01ff, 0x7e3fe07fc7, 0x7fc71c7ff8, 0xbdb5b5b7b6, 0xdcedcddd9d, 0xed5d79ebab,
   0xbb6ed9b76d, 0xeaf6adeb5e, 0xdb9e75dd73, 0xffffffe00, 0x7e3f1ff03f, 0x7fc7e38e3f, 0xbdb6dadadb,
   0xdcee76e6ee, 0xed5eaebcf5, 0xbb6db76cdb, 0xeaf57b56f5, 0xdb9dcf3aee]

theorem g40_27_check : check 40 27 18 18 g40_27 = true := by decide +kernel

/-- The numbers modulo 41; adjacent when they differ by a square. -/
def g41_20 : List Nat :=
  [0xd9c15a839b, 0x16ce0ad41cd, 0x1b67056a0e6, 0xdb382b5073, 0x16d9c15a839, 0x1b6ce0ad41c,
   0xdb67056a0e, 0x6db382b507, 0x136d9c15a83, 0x19b6ce0ad41, 0x1cdb67056a0, 0xe6db382b50,
   0x736d9c15a8, 0x39b6ce0ad4, 0x1cdb67056a, 0xe6db382b5, 0x10736d9c15a, 0x839b6ce0ad,
   0x141cdb67056, 0xa0e6db382b, 0x150736d9c15, 0x1a839b6ce0a, 0xd41cdb6705, 0x16a0e6db382,
   0xb50736d9c1, 0x15a839b6ce0, 0xad41cdb670, 0x56a0e6db38, 0x2b50736d9c, 0x15a839b6ce, 0xad41cdb67,
   0x1056a0e6db3, 0x182b50736d9, 0x1c15a839b6c, 0xe0ad41cdb6, 0x7056a0e6db, 0x1382b50736d,
   0x19c15a839b6, 0xce0ad41cdb, 0x167056a0e6d, 0x1b382b50736]

theorem g41_20_check : check 41 20 9 10 g41_20 = true := by decide +kernel

/-- The 45 tritangent planes of a cubic surface; adjacent when they share one of the 27 lines. -/
def g45_12 : List Nat :=
  [0xf8210847000, 0x174408420e00, 0x1b21202101c0, 0x1d1085008038, 0x1e0842180007, 0x107c21087000,
   0x8ba08420124, 0x4d910210812, 0x2e884808481, 0x1f042140248, 0x883e1080e00, 0x1045d0840124,
   0x426c8214009, 0x2174440a042, 0x10f82121090, 0x4841f0801c0, 0x10222e840812, 0x84136424009,
   0x210ba209204, 0x1087c112420, 0x28420f80038, 0x101211740481, 0x84089b22042, 0x42105d11204,
   0x10843e0c900, 0x18421078007, 0x100a108b8248, 0x840484d9090, 0x421022ea420, 0x210841f4900,
   0x10810810b909, 0x108082415462, 0x108044226294, 0x8241010c712, 0x81402812aa1, 0x80c04241c4c,
   0x4422010c8e4, 0x41060821551, 0x408a044238a, 0x2420301251c, 0x220510218aa, 0x20909044271,
   0x14204281323, 0x12090482855, 0x1110888448e]

theorem g45_12_check : check 45 12 3 3 g45_12 = true := by decide +kernel

/-- The complement of the previous graph. -/
def g45_32 : List Nat :=
  [0x7def7b8fff, 0xbbf7bdf1ff, 0xdedfdefe3f, 0xef7aff7fc7, 0xf7bde7fff8, 0xf03def78fff,
   0x1705f7bdfedb, 0x1b06efdef7ed, 0x1d077b7f7b7e, 0x1e07bdebfdb7, 0x17781ef7f1ff, 0xfb82f7bfedb,
   0x1bd837debff6, 0x1de83bbf5fbd, 0x1ef03dedef6f, 0x1b7bc0f7fe3f, 0xfddc17bf7ed, 0x17bec1bdbff6,
   0x1def41df6dfb, 0x1ef781eedbdf, 0x1d7bde07ffc7, 0xfedee0bfb7e, 0x17bf760ddfbd, 0x1bdefa0eedfb,
   0x1ef7bc0f36ff, 0x1e7bdef07ff8, 0xff5ef707db7, 0x17bfb7b06f6f, 0x1bdefdd05bdf, 0x1def7be036ff,
   0xf7ef7ef06f6, 0xf7f7dbe8b9d, 0xf7fbbdd8d6b, 0x17dbefef30ed, 0x17ebfd7ed15e, 0x17f3fbdbe1b3,
   0x1bbddfef361b, 0x1bef9f7dea2e, 0x1bf75fbbdc35, 0x1dbdfcfedac3, 0x1ddfaefde745, 0x1df6f6fbbd86,
   0x1ebdfbd7ecd8, 0x1edf6fb7d7a8, 0x1eeef777bb70]

theorem g45_32_check : check 45 32 22 24 g45_32 = true := by decide +kernel

/-- The squares of a 7 × 7 board; adjacent when in one row or column. -/
def g49_12 : List Nat :=
  [0xfe0408102040, 0x17d0204081020, 0x1bc8102040810, 0x1dc4081020408, 0x1ec2040810204,
   0x1f41020408102, 0x1f80810204081, 0x101fc08102040, 0x82fa04081020, 0x437902040810,
   0x23b881020408, 0x13d840810204, 0xbe820408102, 0x7f010204081, 0x10203f8102040, 0x8105f4081020,
   0x4086f2040810, 0x204771020408, 0x1027b0810204, 0x817d0408102, 0x40fe0204081, 0x1020407f02040,
   0x81020be81020, 0x40810de40810, 0x20408ee20408, 0x10204f610204, 0x8102fa08102, 0x4081fc04081,
   0x10204080fe040, 0x81020417d020, 0x4081021bc810, 0x2040811dc408, 0x1020409ec204, 0x810205f4102,
   0x408103f8081, 0x1020408101fc0, 0x810204082fa0, 0x408102043790, 0x204081023b88, 0x102040813d84,
   0x8102040be82, 0x40810207f01, 0x102040810203f, 0x81020408105f, 0x40810204086f, 0x204081020477,
   0x10204081027b, 0x8102040817d, 0x408102040fe]

theorem g49_12_check : check 49 12 5 2 g49_12 = true := by decide +kernel

/-- The squares of a 7 × 7 board; adjacent when in different rows, columns and diagonals. -/
def g49_30 : List Nat :=
  [0x1f3d76dd79f, 0xfdebb6ebcf, 0x27afddb75e7, 0x33d76fdbaf3, 0x39ebb6efd79, 0x3cf5db75efc,
   0x3e7aedbaf3e, 0x7c03e7aedbaf, 0x13c01fbd76dd7, 0x19c04f5fbb6eb, 0x1cc067aedfb75,
   0x1e4073d76ddfa, 0x1f0079ebb6ebd, 0xf807cf5db75e, 0xbcf807cf5db7, 0x15e7803f7aedb,
   0x1af3809ebf76d, 0x1d7980cf5dbf6, 0x1ebc80e7aedbb, 0xf7e00f3d76dd, 0x179f00f9ebb6e,
   0xdd79f00f9ebb, 0x16ebcf007ef5d, 0x1b75e7013d7ee, 0x1dbaf3019ebb7, 0xefd7901cf5db,
   0x175efc01e7aed, 0x1baf3e01f3d76, 0xedbaf3e01f3d, 0x176dd79e00fde, 0x1bb6ebce027af,
   0xdfb75e6033d7, 0x16ddfaf2039eb, 0x1b6ebdf803cf5, 0x1db75e7c03e7a, 0xf5db75e7c03e,
   0x17aedbaf3c01f, 0xbf76dd79c04f, 0x15dbf6ebcc067, 0x1aedbbf5e4073, 0x1d76dd7bf0079,
   0x1ebb6ebcf807c, 0xf9ebb6ebcf80, 0x7ef5db75e780, 0x13d7eedbaf380, 0x19ebb7edd7980,
   0x1cf5db77ebc80, 0x1e7aedbaf7e00, 0x1f3d76dd79f00]

theorem g49_30_check : check 49 30 17 20 g49_30 = true := by decide +kernel

/-- The complement of the next graph. -/
def g50_21 : List Nat :=
  [0x575b06bf9, 0x1a80ee5da1d, 0xf3c037066f, 0x26cab0cad4b, 0x31b9c5928d6, 0x15f4ad2f520,
   0x3a2b52ad5a4, 0x2d473cf1292, 0x6c001b53877c, 0x1380260ee2d1e, 0x18c01ce0ab0bb, 0xd406acc94327,
   0x1c8064555dcc2, 0xb403baa49ec0, 0x17005933f7005, 0x2546800ba98f6, 0xb970030073d7,
   0x2b09815cac44b, 0xe8d80da729a0, 0x295a0125d2da1, 0x24d501c3c760a, 0x22e196005d927,
   0x172d0a0505cb9, 0x328e1a0d9b340, 0x1569a4029e3c8, 0x24e2b80c66691, 0x315558505859c,
   0x137614d0e4a60, 0x3891ca20b4e70, 0x2b22c6c03368c, 0x6dcd666004c5, 0x1c538f1c0306c,
   0x9f8d81701b0a, 0x1a668d6b04512, 0x15ab516802e26, 0x3186b3b6100aa, 0x2718ae7148232,
   0x11cbe3c160151, 0x36134d8628383, 0xdb3169b98011, 0x386522772a805, 0x25b42d6831849,
   0x22cb6cb98480c, 0x2e237066c1138, 0x29ac4d864e054, 0x3278609a13463, 0x3c3812a9641c6,
   0x1ab4e109c82a9, 0xe5e73003e818, 0x3c0cb59081f14]

theorem g50_21_check : check 50 21 8 9 g50_21 = true := by decide +kernel

/-- The blocks of a Steiner system S(2,4,25); adjacent when they meet. -/
def g50_28 : List Nat :=
  [0x1fffa8a4f9406, 0x2fe57f11a25e2, 0x37f0c3fc8f990, 0x3bd9354f352b4, 0x3dce463a6d729,
   0x3eea0b52d0adf, 0x3f45d4ad52a5b, 0x3f92b8c30ed6d, 0x391ffe4ac7883, 0x2c6fd9f11d2e1,
   0x2737e31f54f44, 0x32bb95336bcd8, 0x237d9baaa233d, 0x34bec455b613f, 0x28ff26cc08ffa,
   0x1ab93ff456709, 0x3468dfcff8c28, 0x14f66ea353bb4, 0x317277258d65f, 0x16a5fada2d25e,
   0x1b2afc3c389f5, 0x1d1e68ffa26d8, 0x28d2f57afa346, 0xd71e5b264cbf, 0x2a965bdd61c37,
   0x1b1d47e39996e, 0xeaaa7a7a7a63, 0x2c89eb2b1b59f, 0x76e35dd4b18f, 0x14dd393ecc973,
   0x392329997fb3a, 0x23ac70e3bcf93, 0x360727e8de4f5, 0x25997294ebaed, 0x2a54ae97f51d9,
   0xe794c49ebf55, 0x18e7518eb5dcd, 0x2e341c3e9eeae, 0x9ecb279d747c, 0x324ce96467bee,
   0x79add88d55fa, 0x1a4bd297ce6b6, 0x1d3493467b773, 0x11dc8f993ee87, 0x1653b279b1f8b,
   0xd879f65ecb8c, 0x3c7ed569be31, 0x254b1ef637d52, 0x31a18cffc17e5, 0x3f34a6f7e0ea]

theorem g50_28_check : check 50 28 15 16 g50_28 = true := by decide +kernel

/-- The numbers modulo 53; adjacent when they differ by a square. -/
def g53_26 : List Nat :=
  [0x96eb81981d769, 0x14b75c0cc0ebb4, 0xa5bae066075da, 0x52dd703303aed, 0x1296eb81981d76,
   0x94b75c0cc0ebb, 0x14a5bae066075d, 0x1a52dd703303ae, 0xd296eb81981d7, 0x1694b75c0cc0eb,
   0x1b4a5bae066075, 0x1da52dd703303a, 0xed296eb81981d, 0x17694b75c0cc0e, 0xbb4a5bae06607,
   0x15da52dd703303, 0x1aed296eb81981, 0x1d7694b75c0cc0, 0xebb4a5bae0660, 0x75da52dd70330,
   0x3aed296eb8198, 0x1d7694b75c0cc, 0xebb4a5bae066, 0x75da52dd7033, 0x103aed296eb819,
   0x181d7694b75c0c, 0xc0ebb4a5bae06, 0x6075da52dd703, 0x1303aed296eb81, 0x1981d7694b75c0,
   0xcc0ebb4a5bae0, 0x66075da52dd70, 0x3303aed296eb8, 0x1981d7694b75c, 0xcc0ebb4a5bae,
   0x66075da52dd7, 0x103303aed296eb, 0x181981d7694b75, 0x1c0cc0ebb4a5ba, 0xe066075da52dd,
   0x1703303aed296e, 0xb81981d7694b7, 0x15c0cc0ebb4a5b, 0x1ae066075da52d, 0x1d703303aed296,
   0xeb81981d7694b, 0x175c0cc0ebb4a5, 0x1bae066075da52, 0xdd703303aed29, 0x16eb81981d7694,
   0xb75c0cc0ebb4a, 0x5bae066075da5, 0x12dd703303aed2]

theorem g53_26_check : check 53 26 12 13 g53_26 = true := by decide +kernel

/-- The pairs of 11 things; adjacent when they meet. -/
def g55_18 : List Nat :=
  [0x3ffff000000000, 0x5ff00ff0000000, 0x6fe8080fe00000, 0x77e404081f8000, 0x7be20204107c00,
   0x7de101020843c0, 0x7ee08081042238, 0x7f604040821126, 0x7fa02020410895, 0x7fc0101020844b,
   0x600ffff0000000, 0x5017f80fe00000, 0x481bf4081f8000, 0x441df204107c00, 0x421ef1020843c0,
   0x411f7081042238, 0x409fb040821126, 0x405fd020410895, 0x403fe01020844b, 0x301807ffe00000,
   0x28140bf81f8000, 0x24120df4107c00, 0x22110ef20843c0, 0x21108f71042238, 0x20904fb0821126,
   0x20502fd0410895, 0x20301fe020844b, 0x180c0c07ff8000, 0x140a0a0bf07c00, 0x1209090de843c0,
   0x1108888ee42238, 0x1088484f621126, 0x1048282fa10895, 0x1028181fc0844b, 0xc06060c0ffc00,
   0xa05050a17c3c0, 0x90484891ba238, 0x88444489d9126, 0x84424285e8895, 0x82414183f044b,
   0x6030306183fc0, 0x5028285145e38, 0x4824244926d26, 0x4422224517495, 0x422121430f84b,
   0x30181830c61f8, 0x28141428a52e6, 0x2412122494b55, 0x221111228c78b, 0x180c0c186331e,
   0x140a0a1452aad, 0x120909124a673, 0xc06060c319b3, 0xa05050a2956d, 0x603030618cde]

theorem g55_18_check : check 55 18 9 4 g55_18 = true := by decide +kernel

/-- A class of 56 hyperovals of the projective plane over the field of 4 elements; adjacent when
disjoint. -/
def g56_10 : List Nat :=
  [0x66602a1, 0x9961412, 0x6998848, 0x9696104, 0x550050162, 0xaa0052811, 0xa500a8484, 0x5a00a5208,
   0x5060500254, 0x5090a02428, 0xa060a04882, 0xa090509101, 0x6605000198, 0x690a001824, 0x9905004441,
   0x960a00a202, 0x33000003003c, 0xcc000003c003, 0x3c00000c2640, 0xc300000c1980, 0x606000030030a,
   0x9090000300c05, 0x6090000c05060, 0x9060000c0a090, 0x55000030000c6, 0xaa00003003009,
   0x5a0000c008520, 0xa50000c004a10, 0x500500300000c9, 0xa00a0030003006, 0xa00500c0004510,
   0x500a00c0008a20, 0x60600300000305, 0x90900300000c0a, 0x90600c00009050, 0x60900c000060a0,
   0x33003000000033, 0xcc00300000c00c, 0xc300c000002940, 0x3c00c000001680, 0x22114121240000,
   0x11224212140000, 0x14412144120000, 0x41141244210000, 0x24241411420000, 0x42422422410000,
   0x81812811810000, 0x18181822820000, 0x82281188110000, 0x28822288220000, 0x88448221180000,
   0x44888112280000, 0x21488848440000, 0x12848484840000, 0x48214884480000, 0x84124448880000]

theorem g56_10_check : check 56 10 0 2 g56_10 = true := by decide +kernel

/-- The blocks of a Steiner triple system on 19 points; adjacent when they meet. -/
def g57_24 : List Nat :=
  [0xffff4107e00000, 0x17f84fe21100560, 0x1bf4883f8821221, 0x1df8240941f2838, 0x1ef24844238f013,
   0x1f711232049ae82, 0x1fb0a304e0249c6, 0x1fd600c80c483dc, 0x1fe11181925540d, 0x1a07ffe841f0000,
   0x142bf89f88480d0, 0x112df848250f30c, 0x109ef290909ce09, 0x144f71244825ba1, 0x190fb0461380573,
   0x124fd601a02287e, 0x109fe1230653486, 0xd0e07ffa10f000, 0x1a082bf17e02838, 0x8c92df0a0a8e46,
   0x8589ee54245d84, 0x83d0f60985c0d9, 0x92a4fac068031f, 0xc889fc20c332a3, 0x14850e0ffe88e00,
   0x62e0857c5f030c, 0x544c95bc284993, 0xc84583d95125e2, 0x6143d1e8243c3c, 0x4552a9f303404f,
   0x1248851c3ff4980, 0x11422e10df2f046, 0x18114492ef14569, 0x142484b076692f1, 0x10a2147a7a1238e,
   0x111055557cc1417, 0xb0a480a70ff560, 0x389425c4378e13, 0x23c11894bb94d4, 0x648a228e9d1267,
   0x29910aad5e608b, 0x1a70a9029c7ed0, 0x1538984f11b989, 0x3823c23251d8ba, 0x51299212b6e625,
   0x2c1a715408e7b8, 0x891531313c9b64, 0x4a382780ca9d2d, 0x862c14e5504eec, 0xe491a64c5e952,
   0x8646282b9685b6, 0xe00e4231923f59, 0x32464c50aca8eb, 0x23324c99416b35, 0x723349a66174a,
   0x1c07266a6b20d5, 0x511c0e49ab523a]

theorem g57_24_check : check 57 24 11 9 g57_24 = true := by decide +kernel

/-- The numbers modulo 61; adjacent when they differ by a square. -/
def g61_30 : List Nat :=
  [0xb89f34a052cf91d, 0x15c4f9a502967c8e, 0xae27cd2814b3e47, 0x15713e6940a59f23, 0x1ab89f34a052cf91,
   0x1d5c4f9a502967c8, 0xeae27cd2814b3e4, 0x75713e6940a59f2, 0x3ab89f34a052cf9, 0x11d5c4f9a502967c,
   0x8eae27cd2814b3e, 0x475713e6940a59f, 0x123ab89f34a052cf, 0x191d5c4f9a502967, 0x1c8eae27cd2814b3,
   0x1e475713e6940a59, 0x1f23ab89f34a052c, 0xf91d5c4f9a50296, 0x7c8eae27cd2814b, 0x13e475713e6940a5,
   0x19f23ab89f34a052, 0xcf91d5c4f9a5029, 0x167c8eae27cd2814, 0xb3e475713e6940a, 0x59f23ab89f34a05,
   0x12cf91d5c4f9a502, 0x967c8eae27cd281, 0x14b3e475713e6940, 0xa59f23ab89f34a0, 0x52cf91d5c4f9a50,
   0x2967c8eae27cd28, 0x14b3e475713e694, 0xa59f23ab89f34a, 0x52cf91d5c4f9a5, 0x102967c8eae27cd2,
   0x814b3e475713e69, 0x140a59f23ab89f34, 0xa052cf91d5c4f9a, 0x502967c8eae27cd, 0x12814b3e475713e6,
   0x940a59f23ab89f3, 0x14a052cf91d5c4f9, 0x1a502967c8eae27c, 0xd2814b3e475713e, 0x6940a59f23ab89f,
   0x134a052cf91d5c4f, 0x19a502967c8eae27, 0x1cd2814b3e475713, 0x1e6940a59f23ab89,
   0x1f34a052cf91d5c4, 0xf9a502967c8eae2, 0x7cd2814b3e47571, 0x13e6940a59f23ab8, 0x9f34a052cf91d5c,
   0x4f9a502967c8eae, 0x27cd2814b3e4757, 0x113e6940a59f23ab, 0x189f34a052cf91d5, 0x1c4f9a502967c8ea,
   0xe27cd2814b3e475, 0x1713e6940a59f23a]

theorem g61_30_check : check 61 30 14 15 g61_30 = true := by decide +kernel

/-- The nonzero vectors of length 6 over the field of 2 elements; adjacent when orthogonal with respect
to an alternating form. -/
def g63_30 : List Nat :=
  [0x3f00ff00ff00ff00, 0x5fff0000ffff0000, 0x6f0000ffff0000ff, 0x77ffffff00000000,
   0x7b00ff0000ff00ff, 0x7dff00000000ffff, 0x7e0000ff00ffff00, 0x2a2aaaaaaaaaaaaa,
   0x2a15aa55aa55aa55, 0x2a8a5555aaaa5555, 0x2a4555aaaa5555aa, 0x2aa2aaaa55555555,
   0x2a51aa5555aa55aa, 0x2aa855555555aaaa, 0x2a5455aa55aaaa55, 0x4ccc4ccccccccccc,
   0x4c338c33cc33cc33, 0x4ccc1333cccc3333, 0x4c3323cccc3333cc, 0x4cccc4cc33333333,
   0x4c33c83333cc33cc, 0x4ccc31333333cccc, 0x4c3332cc33cccc33, 0x1999991999999999,
   0x1966992699669966, 0x1999664699996666, 0x1966668999666699, 0x1999999166666666,
   0x1966996266996699, 0x1999666466669999, 0x1966669866999966, 0x70f0f0f070f0f0f0,
   0x700ff00fb00ff00f, 0x70f00f0fd0f00f0f, 0x700f0ff0e00f0ff0, 0x70f0f0f0070f0f0f,
   0x700ff00f0bf00ff0, 0x70f00f0f0d0ff0f0, 0x700f0ff00ef0f00f, 0x25a5a5a5a525a5a5,
   0x255aa55aa51aa55a, 0x25a55a5aa5855a5a, 0x255a5aa5a54a5aa5, 0x25a5a5a55a525a5a,
   0x255aa55a5aa15aa5, 0x25a55a5a5a58a5a5, 0x255a5aa55aa4a55a, 0x43c3c3c3c3c343c3,
   0x433cc33cc33c833c, 0x43c33c3cc3c31c3c, 0x433c3cc3c33c2cc3, 0x43c3c3c33c3c343c,
   0x433cc33c3cc338c3, 0x43c33c3c3c3cc1c3, 0x433c3cc33cc3c23c, 0x1696969696969616,
   0x1669966996699629, 0x1696696996966949, 0x1669699696696986, 0x1696969669696961,
   0x1669966969966992, 0x1696696969699694, 0x1669699669969668]

theorem g63_30_check : check 63 30 13 15 g63_30 = true := by decide +kernel

/-- The squares of an 8 × 8 board; adjacent when in one row or column. -/
def g64_14 : List Nat :=
  [0x7f80808080808080, 0xbf40404040404040, 0xdf20202020202020, 0xef10101010101010,
   0xf708080808080808, 0xfb04040404040404, 0xfd02020202020202, 0xfe01010101010101,
   0x807f808080808080, 0x40bf404040404040, 0x20df202020202020, 0x10ef101010101010,
   0x8f7080808080808, 0x4fb040404040404, 0x2fd020202020202, 0x1fe010101010101, 0x80807f8080808080,
   0x4040bf4040404040, 0x2020df2020202020, 0x1010ef1010101010, 0x808f70808080808, 0x404fb0404040404,
   0x202fd0202020202, 0x101fe0101010101, 0x8080807f80808080, 0x404040bf40404040, 0x202020df20202020,
   0x101010ef10101010, 0x80808f708080808, 0x40404fb04040404, 0x20202fd02020202, 0x10101fe01010101,
   0x808080807f808080, 0x40404040bf404040, 0x20202020df202020, 0x10101010ef101010,
   0x8080808f7080808, 0x4040404fb040404, 0x2020202fd020202, 0x1010101fe010101, 0x80808080807f8080,
   0x4040404040bf4040, 0x2020202020df2020, 0x1010101010ef1010, 0x808080808f70808, 0x404040404fb0404,
   0x202020202fd0202, 0x101010101fe0101, 0x8080808080807f80, 0x404040404040bf40, 0x202020202020df20,
   0x101010101010ef10, 0x80808080808f708, 0x40404040404fb04, 0x20202020202fd02, 0x10101010101fe01,
   0x808080808080807f, 0x40404040404040bf, 0x20202020202020df, 0x10101010101010ef,
   0x8080808080808f7, 0x4040404040404fb, 0x2020202020202fd, 0x1010101010101fe]

theorem g64_14_check : check 64 14 6 2 g64_14 = true := by decide +kernel

end Database

end TDS
