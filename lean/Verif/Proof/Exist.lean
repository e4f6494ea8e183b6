import Verif.Proof.Bits

/-! Strongly regular graphs with parameters that neither the database nor its list of open problems contains
(witnesses for C85).  Each row is coded as a number. -/

namespace TDS

namespace Database

/-- The squares of a 3 × 3 board; adjacent when in one row or column. -/
def g9_4_1 : List Nat :=
  [0xe4, 0x152, 0x189, 0x11c, 0xaa, 0x71, 0x123, 0x95, 0x4e]

theorem g9_4_1_check : check 9 4 1 2 g9_4_1 = true := by decide +kernel

/-- The pairs of 9 points; adjacent when they share a point. -/
def g36_14_7 : List Nat :=
  [0x7ffe00000, 0xbf81f8000, 0xdf4107c00, 0xef20843c0, 0xf71042238, 0xfb0821126, 0xfd0410895, 0xfe020844b,
   0xc07ff8000, 0xa0bf07c00, 0x90de843c0, 0x88ee42238, 0x84f621126, 0x82fa10895, 0x81fc0844b, 0x60c0ffc00,
   0x50a17c3c0, 0x4891ba238, 0x4489d9126, 0x4285e8895, 0x4183f044b, 0x306183fc0, 0x285145e38, 0x244926d26,
   0x224517495, 0x21430f84b, 0x1830c61f8, 0x1428a52e6, 0x122494b55, 0x11228c78b, 0xc186331e, 0xa1452aad,
   0x9124a673, 0x60c319b3, 0x50a2956d, 0x30618cde]

theorem g36_14_7_check : check 36 14 7 4 g36_14_7 = true := by decide +kernel

/-- The pairs of 10 points; adjacent when they share a point. -/
def g45_16_8 : List Nat :=
  [0xffff0000000, 0x17f80fe00000, 0x1bf4081f8000, 0x1df204107c00, 0x1ef1020843c0, 0x1f7081042238,
   0x1fb040821126, 0x1fd020410895, 0x1fe01020844b, 0x1807ffe00000, 0x140bf81f8000, 0x120df4107c00,
   0x110ef20843c0, 0x108f71042238, 0x104fb0821126, 0x102fd0410895, 0x101fe020844b, 0xc0c07ff8000,
   0xa0a0bf07c00, 0x9090de843c0, 0x8888ee42238, 0x8484f621126, 0x8282fa10895, 0x8181fc0844b, 0x6060c0ffc00,
   0x5050a17c3c0, 0x484891ba238, 0x444489d9126, 0x424285e8895, 0x414183f044b, 0x30306183fc0, 0x28285145e38,
   0x24244926d26, 0x22224517495, 0x2121430f84b, 0x181830c61f8, 0x141428a52e6, 0x12122494b55, 0x1111228c78b,
   0xc0c186331e, 0xa0a1452aad, 0x909124a673, 0x6060c319b3, 0x5050a2956d, 0x3030618cde]

theorem g45_16_8_check : check 45 16 8 4 g45_16_8 = true := by decide +kernel

/-- The cells of the addition table modulo 6; adjacent when in one row, in one column or with equal entries. -/
def g36_15_6 : List Nat :=
  [0x7e18a4a30, 0xbf0452518, 0xdd8a0928c, 0xecc524146, 0xf46292883, 0xf83149461, 0xc1f862928, 0x62fc11494,
   0x33762824a, 0x1bb314905, 0xfd18a4a2, 0x87e0c5251, 0xa307e18a4, 0x518bf0452, 0x28cdd8a09, 0x146ecc524,
   0x883f46292, 0x461f83149, 0x928c1f862, 0x49462fc11, 0x24a337628, 0x9051bb314, 0x4a20fd18a, 0x25187e0c5,
   0x8a4a307e1, 0x452518bf0, 0xa0928cdd8, 0x524146ecc, 0x292883f46, 0x149461f83, 0x862928c1f, 0xc1149462f,
   0x62824a337, 0x3149051bb, 0x18a4a20fd, 0xc525187e]

theorem g36_15_6_check : check 36 15 6 6 g36_15_6 = true := by decide +kernel

/-- The points of five affine planes of order 3, after Mathon: in one plane adjacent when the line joining them has
one of two directions, in different planes according to the lines in two directions that belong to the pair of planes.
-/
def g45_22_10 : List Nat :=
  [0x1b88bd5b7c0, 0x2d88d7ada07, 0x3688eaf6c38, 0xc3313d6da38, 0x1453157b6dc0, 0x186316adb607,
   0xd8463d76c07, 0x16846579b638, 0x1b0466aedbc0, 0x1c00dc45eadb, 0x716c46bd6d, 0x381b44757b6,
   0x3861989eb6d, 0x1c0a298abdb6, 0x7c318b56db, 0x76c231ebb6, 0x38b4232bcdb, 0x1c0d8233576d, 0xdbe006e22f5,
   0x16d038b6235e, 0x1b61c0da23ab, 0x16d1c30cc4f5, 0x1b6e0514c55e, 0xdb03e18c5ab, 0x1b603b6118f5,
   0xdb1c5a1195e, 0x16de06c119ab, 0xf56df003711, 0x15eb681c5b11, 0x1abdb0e06d11, 0xf5b68e18662,
   0x15edb7028a62, 0x1ab6d81f0c62, 0xf5db01db08c, 0x15e6d8e2d08c, 0x1abb6f03608c, 0x1117ab6f801b,
   0x111af5b40e2d, 0x111d5ed87036, 0x627adb470c3, 0x62af6db8145, 0x62d5b6c0f86, 0x8c7aed80ed8,
   0x8caf36c7168, 0x8cd5db781b0]

theorem g45_22_10_check : check 45 22 10 11 g45_22_10 = true := by decide +kernel

/-- A graph in the switching class of `g35_16` with an isolated vertex. -/
def g36_14_4 : List Nat :=
  [0x10ea0a0af, 0x10ea05f50, 0x10d6fa050, 0xef290a050, 0x10253939c, 0x102536c63, 0x1019c9363, 0x1019c6c9c,
   0xe0150505f, 0xe0150afa0, 0xdc16c0a05, 0x23e930a05, 0xd3163050a, 0x2ce9c050a, 0xe029f50a0, 0x1fd6050a0,
   0x23260c6c9, 0x232603936, 0x2c1a0c939, 0x2c1a036c6, 0xba40a5c06, 0x4583aa306, 0xb54055309, 0x4a835ac09,
   0x4570690ca, 0x454c99035, 0x4a709603a, 0x4a4c660c5, 0x894390953, 0x7680909ac, 0x86436065c, 0x7980606a3,
   0x898ca3a60, 0x89b05c560, 0x868c5ca90, 0x86b0a3590]

theorem g36_14_4_check : check 36 14 4 6 g36_14_4 = true := by decide +kernel

/-- The cells of the addition table modulo 7; adjacent when in one row, in one column or with equal entries. -/
def g49_18_7 : List Nat :=
  [0xfe0c28922860, 0x17f0214491430, 0x1bd8502248a18, 0x1dcc28902450c, 0x1ec6144910286, 0x1f430a248a103,
   0x1f818512450c1, 0x181fc18512450, 0xc2fe04289228, 0x637b0a044914, 0x33b98512048a, 0x1bd8c2892205,
   0xfe861449142, 0x107f030a248a1, 0x14303f830a248, 0xa185fc085124, 0x50c6f6140892, 0x2867730a2409,
   0x1437b1851244, 0x1081fd0c28922, 0x860fe0614491, 0x1228607f06144, 0x91430bf810a2, 0x48a18dec2811,
   0x2450cee61448, 0x110286f630a24, 0x8a103fa18512, 0x450c1fc0c289, 0x112450c0fe0c2, 0x89228617f021,
   0x4491431bd850, 0x12048a19dcc28, 0x922050dec614, 0x4914207f430a, 0x248a183f8185, 0x10a248a181fc1,
   0x8512450c2fe0, 0x14089228637b0, 0xa24091433b98, 0x512440a1bd8c, 0x28922840fe86, 0x144914307f03,
   0x106144914303f, 0x1810a248a185f, 0xc28112450c6f, 0x614481228677, 0x30a24881437b, 0x1851245081fd,
   0xc28922860fe]

theorem g49_18_7_check : check 49 18 7 6 g49_18_7 = true := by decide +kernel

/-- The same with the cells of equal difference of row and column adjacent as well. -/
def g49_24_11 : List Nat :=
  [0xff0d29932961, 0x17f8294c994f0, 0x1bdc54264ea38, 0x1dce2a932551c, 0x1ec715c990a8e, 0x1f43ca64ca507,
   0x1fa1a532652c3, 0x185fe1a532652, 0x1c2ff05299329, 0xe37b8a84c9d4, 0x73b9c55264aa, 0x3bd8e2b93215,
   0x1fe8794c994a, 0x10ff434a64ca5, 0x14b0bfc34a64c, 0xa785fe0a5326, 0x151c6f7150993, 0xa8e7738aa4c9,
   0x5477b1c57264, 0x1283fd0f29932, 0x961fe8694c99, 0x1329617f8694c, 0x994f0bfc14a6, 0x4ea38dee2a13,
   0x12551cee71549, 0x190a8ef638ae4, 0xca507fa1e532, 0x652c3fd0d299, 0x132652c2ff0d2, 0x99329e17f829,
   0x4c9d471bdc54, 0x1264aa39dce2a, 0x1932151dec715, 0xc994a0ff43ca, 0x64ca587fa1a5, 0x14a64ca585fe1,
   0xa532653c2ff0, 0x150993a8e37b8, 0xaa4c95473b9c, 0x572642a3bd8e, 0x129932941fe87, 0x94c994b0ff43,
   0x18694c994b0bf, 0x1c14a64ca785f, 0xe2a132751c6f, 0x7154992a8e77, 0x38ae4c85477b, 0x1e53265283fd,
   0x10d29932961fe]

theorem g49_24_11_check : check 49 24 11 12 g49_24_11 = true := by decide +kernel

/-- Five pentagons and five pentagrams, after Robertson: vertex `j` of pentagon `h` and vertex `h i + j` of pentagram
`i` are adjacent (the graph of Hoffman and Singleton). -/
def g50_7_0 : List Nat :=
  [0x1200001084210, 0x2800000842108, 0x1400000421084, 0xa00000210842, 0x2400000108421, 0x90001041041,
   0x140000820830, 0xa0000410608, 0x5000020c104, 0x120000182082, 0x4801020502, 0xa000814081, 0x500040a050,
   0x2800281028, 0x9000140a04, 0x241012024, 0x500809202, 0x280480901, 0x140240490, 0x480124048, 0x13008888,
   0x28880444, 0x14444022, 0xa222201, 0x24111110, 0x2108420600000, 0x1084210300000, 0x842109100000,
   0x421085800000, 0x210842c00000, 0x2011110030000, 0x1100888018000, 0x888044088000, 0x4444020c0000,
   0x222220060000, 0x2024048001800, 0x1012404000c00, 0x901202004400, 0x480920006000, 0x248090003000,
   0x2040a040000c0, 0x1028102000060, 0x8140a0000220, 0x502050000300, 0x281408000180, 0x2082082000006,
   0x1041060000003, 0x820c10000011, 0x418208000018, 0x30410400000c]

theorem g50_7_0_check : check 50 7 0 1 g50_7_0 = true := by decide +kernel

/-- The points of the affine space of dimension 3 over the field of 4 elements; adjacent when the line joining them
has one of the six directions of a hyperoval. -/
def g64_18_2 : List Nat :=
  [0x7888841281248241, 0xb444482142184182, 0xd222214824812814, 0xe111128418421428, 0x8788482118422814,
   0x4b44841224811428, 0x2d22128442188241, 0x1e11214881244182, 0x8878128424814182, 0x44b4214818428241,
   0x22d2482181241428, 0x11e1841242182814, 0x8887214842181428, 0x444b128481242814, 0x222d841218424182,
   0x111e482124818241, 0x8412788882418124, 0x4821b44441824218, 0x2148d22228142481, 0x1284e11114281842,
   0x4821878828141842, 0x84124b4414282481, 0x12842d2282414218, 0x21481e1141828124, 0x1284887841822481,
   0x214844b482411842, 0x482122d214288124, 0x841211e128144218, 0x2148888714284218, 0x1284444b28148124,
   0x8412222d41821842, 0x4821111e82412481, 0x8124824178888412, 0x42184182b4444821, 0x24812814d2222148,
   0x18421428e1111284, 0x1842281487884821, 0x248114284b448412, 0x421882412d221284, 0x812441821e112148,
   0x2481418288781284, 0x1842824144b42148, 0x8124142822d24821, 0x4218281411e18412, 0x4218142888872148,
   0x81242814444b1284, 0x18424182222d8412, 0x24818241111e4821, 0x8241812484127888, 0x418242184821b444,
   0x281424812148d222, 0x142818421284e111, 0x2814184248218788, 0x1428248184124b44, 0x8241421812842d22,
   0x4182812421481e11, 0x4182248112848878, 0x82411842214844b4, 0x14288124482122d2, 0x28144218841211e1,
   0x1428421821488887, 0x281481241284444b, 0x418218428412222d, 0x824124814821111e]

theorem g64_18_2_check : check 64 18 2 6 g64_18_2 = true := by decide +kernel

/-- The cells of the addition table of the field of 8 elements; adjacent when in one row, in one column or with equal
entries. -/
def g64_21_8 : List Nat :=
  [0x7fc0a09088848281, 0xbfc0506044484142, 0xdf30a06022212824, 0xef30509011121418, 0xf70c0a0988482818,
   0xfb0c050644841424, 0xfd030a0622128242, 0xfe03050911214181, 0xc07f90a084888182, 0xc0bf605048444241,
   0x30df60a021222428, 0x30ef905012111814, 0xcf7090a48881828, 0xcfb060584442414, 0x3fd060a12224282,
   0x3fe090521118141, 0xa0907fc082818884, 0x5060bfc041424448, 0xa060df3028242221, 0x5090ef3014181112,
   0xa09f70c28188848, 0x506fb0c14244484, 0xa06fd0382422212, 0x509fe0341811121, 0x90a0c07f81828488,
   0x6050c0bf42414844, 0x60a030df24282122, 0x905030ef18141211, 0x90a0cf718284888, 0x6050cfb24148444,
   0x60a03fd42821222, 0x90503fe81412111, 0x888482817fc0a090, 0x44484142bfc05060, 0x22212824df30a060,
   0x11121418ef305090, 0x88482818f70c0a09, 0x44841424fb0c0506, 0x22128242fd030a06, 0x11214181fe030509,
   0x84888182c07f90a0, 0x48444241c0bf6050, 0x2122242830df60a0, 0x1211181430ef9050, 0x488818280cf7090a,
   0x844424140cfb0605, 0x1222428203fd060a, 0x2111814103fe0905, 0x82818884a0907fc0, 0x414244485060bfc0,
   0x28242221a060df30, 0x141811125090ef30, 0x281888480a09f70c, 0x142444840506fb0c, 0x824222120a06fd03,
   0x418111210509fe03, 0x8182848890a0c07f, 0x424148446050c0bf, 0x2428212260a030df, 0x18141211905030ef,
   0x18284888090a0cf7, 0x2414844406050cfb, 0x42821222060a03fd, 0x81412111090503fe]

theorem g64_21_8_check : check 64 21 8 6 g64_21_8 = true := by decide +kernel

/-- The points of the affine plane over the field of 8 elements; adjacent when the line joining them has one of four
directions. -/
def g64_28_12 : List Nat :=
  [0x7fc4e098a8859283, 0xbfc8d064544a6143, 0xdf31b062a225682c, 0xef327091511a941c, 0xf74c0e898a582938,
   0xfb8c0d4645a41634, 0xfd130b262a5286c2, 0xfe23071915a149c1, 0xc47f98e085a88392, 0xc8bf64d04a544361,
   0x31df62b025a22c68, 0x32ef91701a511c94, 0x4cf7890e588a3829, 0x8cfb460da4453416, 0x13fd260b522ac286,
   0x23fe1907a115c149, 0xe0987fc49283a885, 0xd064bfc86143544a, 0xb062df31682ca225, 0x7091ef32941c511a,
   0xe89f74c29388a58, 0xd46fb8c163445a4, 0xb26fd1386c22a52, 0x719fe2349c115a1, 0x98e0c47f839285a8,
   0x64d0c8bf43614a54, 0x62b031df2c6825a2, 0x917032ef1c941a51, 0x890e4cf73829588a, 0x460d8cfb3416a445,
   0x260b13fdc286522a, 0x190723fec149a115, 0xa88592837fc4e098, 0x544a6143bfc8d064, 0xa225682cdf31b062,
   0x511a941cef327091, 0x8a582938f74c0e89, 0x45a41634fb8c0d46, 0x2a5286c2fd130b26, 0x15a149c1fe230719,
   0x85a88392c47f98e0, 0x4a544361c8bf64d0, 0x25a22c6831df62b0, 0x1a511c9432ef9170, 0x588a38294cf7890e,
   0xa44534168cfb460d, 0x522ac28613fd260b, 0xa115c14923fe1907, 0x9283a885e0987fc4, 0x6143544ad064bfc8,
   0x682ca225b062df31, 0x941c511a7091ef32, 0x29388a580e89f74c, 0x163445a40d46fb8c, 0x86c22a520b26fd13,
   0x49c115a10719fe23, 0x839285a898e0c47f, 0x43614a5464d0c8bf, 0x2c6825a262b031df, 0x1c941a51917032ef,
   0x3829588a890e4cf7, 0x3416a445460d8cfb, 0xc286522a260b13fd, 0xc149a115190723fe]

theorem g64_28_12_check : check 64 28 12 12 g64_28_12 = true := by decide +kernel

/-- The vectors of length 6 over the field of 2 elements; adjacent when an elliptic quadratic form vanishes at the
difference. -/
def g64_27_10 : List Nat :=
  [0x6ee1111e111e111e, 0x9dd2222d222d222d, 0x9bb4444b444b444b, 0x6778888788878887, 0xe61e11e111e111e1,
   0xd92d22d222d222d2, 0xb94b44b444b444b4, 0x7687887888788878, 0xe16e1e111e111e11, 0xd29d2d222d222d22,
   0xb49b4b444b444b44, 0x7867878887888788, 0x1ee6e111e111e111, 0x2dd9d222d222d222, 0x4bb9b444b444b444,
   0x8776788878887888, 0x111e6ee1111e111e, 0x222d9dd2222d222d, 0x444b9bb4444b444b, 0x8887677888878887,
   0x11e1e61e11e111e1, 0x22d2d92d22d222d2, 0x44b4b94b44b444b4, 0x8878768788788878, 0x1e11e16e1e111e11,
   0x2d22d29d2d222d22, 0x4b44b49b4b444b44, 0x8788786787888788, 0xe1111ee6e111e111, 0xd2222dd9d222d222,
   0xb4444bb9b444b444, 0x7888877678887888, 0x111e111e6ee1111e, 0x222d222d9dd2222d, 0x444b444b9bb4444b,
   0x8887888767788887, 0x11e111e1e61e11e1, 0x22d222d2d92d22d2, 0x44b444b4b94b44b4, 0x8878887876878878,
   0x1e111e11e16e1e11, 0x2d222d22d29d2d22, 0x4b444b44b49b4b44, 0x8788878878678788, 0xe111e1111ee6e111,
   0xd222d2222dd9d222, 0xb444b4444bb9b444, 0x7888788887767888, 0x111e111e111e6ee1, 0x222d222d222d9dd2,
   0x444b444b444b9bb4, 0x8887888788876778, 0x11e111e111e1e61e, 0x22d222d222d2d92d, 0x44b444b444b4b94b,
   0x8878887888787687, 0x1e111e111e11e16e, 0x2d222d222d22d29d, 0x4b444b444b44b49b, 0x8788878887887867,
   0xe111e111e1111ee6, 0xd222d222d2222dd9, 0xb444b444b4444bb9, 0x7888788878888776]

theorem g64_27_10_check : check 64 27 10 12 g64_27_10 = true := by decide +kernel

/-- The pairs of 12 points; adjacent when they share a point. -/
def g66_20_10 : List Nat :=
  [0x1ffffe00000000000, 0x2ffc01ff000000000, 0x37fa0100ff0000000, 0x3bf9008080fe00000, 0x3df880404081f8000,
   0x3ef84020204107c00, 0x3f7820101020843c0, 0x3fb81008081042238, 0x3fd80804040821126, 0x3fe80402020410895,
   0x3ff0020101020844b, 0x3003ffff000000000, 0x2805ff00ff0000000, 0x2406fe8080fe00000, 0x22077e404081f8000,
   0x2107be20204107c00, 0x2087de101020843c0, 0x2047ee08081042238, 0x2027f604040821126, 0x2017fa02020410895,
   0x200ffc0101020844b, 0x180600ffff0000000, 0x1405017f80fe00000, 0x120481bf4081f8000, 0x110441df204107c00,
   0x108421ef1020843c0, 0x104411f7081042238, 0x102409fb040821126, 0x101405fd020410895, 0x100c03fe01020844b,
   0xc0301807ffe00000, 0xa028140bf81f8000, 0x9024120df4107c00, 0x8822110ef20843c0, 0x8421108f71042238,
   0x8220904fb0821126, 0x8120502fd0410895, 0x80a0301fe020844b, 0x60180c0c07ff8000, 0x50140a0a0bf07c00,
   0x481209090de843c0, 0x441108888ee42238, 0x421088484f621126, 0x411048282fa10895, 0x409028181fc0844b,
   0x300c06060c0ffc00, 0x280a05050a17c3c0, 0x24090484891ba238, 0x22088444489d9126, 0x21084424285e8895,
   0x20882414183f044b, 0x1806030306183fc0, 0x1405028285145e38, 0x1204824244926d26, 0x1104422224517495,
   0x108422121430f84b, 0xc030181830c61f8, 0xa028141428a52e6, 0x902412122494b55, 0x88221111228c78b,
   0x60180c0c186331e, 0x50140a0a1452aad, 0x48120909124a673, 0x300c06060c319b3, 0x280a05050a2956d,
   0x180603030618cde]

theorem g66_20_10_check : check 66 20 10 4 g66_20_10 = true := by decide +kernel

/-- The pairs of 8 points; adjacent when they share a point. -/
def g28_12_6 : List Nat :=
  [0x7ff8000, 0xbf07c00, 0xde843c0, 0xee42238, 0xf621126, 0xfa10895, 0xfc0844b, 0xc0ffc00, 0xa17c3c0,
   0x91ba238, 0x89d9126, 0x85e8895, 0x83f044b, 0x6183fc0, 0x5145e38, 0x4926d26, 0x4517495, 0x430f84b,
   0x30c61f8, 0x28a52e6, 0x2494b55, 0x228c78b, 0x186331e, 0x1452aad, 0x124a673, 0xc319b3, 0xa2956d, 0x618cde]

theorem g28_12_6_check : check 28 12 6 4 g28_12_6 = true := by decide +kernel

/-- The integers modulo 29; adjacent when the difference is a square. -/
def g29_14_6 : List Nat :=
  [0x9e89179, 0x14f448bc, 0xa7a245e, 0x53d122f, 0x129e8917, 0x194f448b, 0x1ca7a245, 0x1e53d122, 0xf29e891,
   0x1794f448, 0xbca7a24, 0x5e53d12, 0x2f29e89, 0x11794f44, 0x8bca7a2, 0x45e53d1, 0x122f29e8, 0x91794f4,
   0x48bca7a, 0x245e53d, 0x1122f29e, 0x891794f, 0x1448bca7, 0x1a245e53, 0x1d122f29, 0x1e891794, 0xf448bca,
   0x7a245e5, 0x13d122f2]

theorem g29_14_6_check : check 29 14 6 7 g29_14_6 = true := by decide +kernel

end Database

end TDS
