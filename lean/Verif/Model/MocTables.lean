/-
The tables of `pdr/formats/mgs_moc.py`, copied by tools/moc_tables.py.
-/

namespace Verif.Moc

/-- mgs_moc.py 1238-1271 `code0_bits` -/
def code0Bits : List Nat :=
  [0, 1, 2, 3, 4, 5, 6, 7, 8, 9, 10, 11, 12, 13, 14, 15, 16, 17, 18, 19, 20, 21, 22, 23, 24, 25, 26, 27, 28, 29, 30,
   31, 32, 33, 34, 35, 36, 37, 38, 39, 40, 41, 42, 43, 44, 45, 46, 47, 48, 49, 50, 51, 52, 53, 54, 55, 56, 57, 58,
   59, 60, 61, 62, 63, 64, 65, 66, 67, 68, 69, 70, 71, 72, 73, 74, 75, 76, 77, 78, 79, 80, 81, 82, 83, 84, 85, 86,
   87, 88, 89, 90, 91, 92, 93, 94, 95, 96, 97, 98, 99, 100, 101, 102, 103, 104, 105, 106, 107, 108, 109, 110, 111,
   112, 113, 114, 115, 116, 117, 118, 119, 120, 121, 122, 123, 124, 125, 126, 127, 128, 129, 130, 131, 132, 133, 134,
   135, 136, 137, 138, 139, 140, 141, 142, 143, 144, 145, 146, 147, 148, 149, 150, 151, 152, 153, 154, 155, 156, 157,
   158, 159, 160, 161, 162, 163, 164, 165, 166, 167, 168, 169, 170, 171, 172, 173, 174, 175, 176, 177, 178, 179, 180,
   181, 182, 183, 184, 185, 186, 187, 188, 189, 190, 191, 192, 193, 194, 195, 196, 197, 198, 199, 200, 201, 202, 203,
   204, 205, 206, 207, 208, 209, 210, 211, 212, 213, 214, 215, 216, 217, 218, 219, 220, 221, 222, 223, 224, 225, 226,
   227, 228, 229, 230, 231, 232, 233, 234, 235, 236, 237, 238, 239, 240, 241, 242, 243, 244, 245, 246, 247, 248, 249,
   250, 251, 252, 253, 254, 255]

/-- mgs_moc.py 1273-1289 `code0_len` -/
def code0Len : List Nat :=
  [8, 8, 8, 8, 8, 8, 8, 8, 8, 8, 8, 8, 8, 8, 8, 8, 8, 8, 8, 8, 8, 8, 8, 8, 8, 8, 8, 8, 8, 8, 8, 8, 8, 8, 8, 8, 8, 8,
   8, 8, 8, 8, 8, 8, 8, 8, 8, 8, 8, 8, 8, 8, 8, 8, 8, 8, 8, 8, 8, 8, 8, 8, 8, 8, 8, 8, 8, 8, 8, 8, 8, 8, 8, 8, 8, 8,
   8, 8, 8, 8, 8, 8, 8, 8, 8, 8, 8, 8, 8, 8, 8, 8, 8, 8, 8, 8, 8, 8, 8, 8, 8, 8, 8, 8, 8, 8, 8, 8, 8, 8, 8, 8, 8, 8,
   8, 8, 8, 8, 8, 8, 8, 8, 8, 8, 8, 8, 8, 8, 8, 8, 8, 8, 8, 8, 8, 8, 8, 8, 8, 8, 8, 8, 8, 8, 8, 8, 8, 8, 8, 8, 8, 8,
   8, 8, 8, 8, 8, 8, 8, 8, 8, 8, 8, 8, 8, 8, 8, 8, 8, 8, 8, 8, 8, 8, 8, 8, 8, 8, 8, 8, 8, 8, 8, 8, 8, 8, 8, 8, 8, 8,
   8, 8, 8, 8, 8, 8, 8, 8, 8, 8, 8, 8, 8, 8, 8, 8, 8, 8, 8, 8, 8, 8, 8, 8, 8, 8, 8, 8, 8, 8, 8, 8, 8, 8, 8, 8, 8, 8,
   8, 8, 8, 8, 8, 8, 8, 8, 8, 8, 8, 8, 8, 8, 8, 8, 8, 8, 8, 8, 8, 8, 8, 8, 8, 8, 8, 8]

/-- mgs_moc.py 1292-1324 `code1_bits` -/
def code1Bits : List Nat :=
  [0, 1, 13, 85, 245, 885, 309, 4405, 23157, 6773, 27253, 10869, 19061, 2677, 29301, 12917, 21109, 4725, 25205, 8821,
   17013, 629, 31861, 15477, 23669, 7285, 27765, 11381, 19573, 3189, 29813, 13429, 21621, 5237, 25717, 9333, 17525,
   1141, 30837, 14453, 22645, 6261, 26741, 10357, 18549, 2165, 28789, 12405, 20597, 4213, 24693, 8309, 16501, 117,
   32693, 16309, 24501, 8117, 28597, 12213, 20405, 4021, 30645, 14261, 22453, 6069, 26549, 10165, 18357, 1973, 31669,
   15285, 23477, 7093, 27573, 11189, 19381, 2997, 29621, 13237, 21429, 5045, 25525, 9141, 17333, 949, 32181, 15797,
   23989, 7605, 28085, 11701, 19893, 3509, 30133, 13749, 21941, 5557, 26037, 9653, 17845, 1461, 31157, 14773, 22965,
   6581, 27061, 10677, 18869, 2485, 29109, 12725, 20917, 4533, 25013, 8629, 16821, 437, 32437, 16053, 24245, 7861,
   14965, 11957, 20149, 28341, 26229, 5749, 22133, 5813, 26293, 9909, 18101, 1717, 31413, 15029, 23221, 6837, 27317,
   10933, 19125, 2741, 29365, 12981, 21173, 4789, 25269, 8885, 17077, 693, 31925, 15541, 23733, 7349, 27829, 11445,
   19637, 3253, 29877, 13493, 21685, 5301, 25781, 9397, 17589, 1205, 30901, 14517, 22709, 6325, 26805, 10421, 18613,
   2229, 28853, 12469, 20661, 4277, 24757, 8373, 16565, 181, 3765, 16181, 32565, 7989, 28469, 12085, 20277, 3893,
   30517, 14133, 22325, 5941, 26421, 10037, 18229, 1845, 31541, 15157, 23349, 6965, 27445, 11061, 19253, 2869, 29493,
   13109, 21301, 4917, 25397, 9013, 24373, 17205, 32053, 15669, 23861, 7477, 27957, 11573, 19765, 3381, 30005, 13621,
   21813, 5429, 25909, 821, 9525, 1333, 31029, 14645, 22837, 6453, 26933, 17717, 10549, 2357, 28981, 18741, 20789,
   12597, 22197, 14005, 30389, 31349, 1653, 18037, 9845, 13941, 3701, 373, 53, 21, 5, 3]

/-- mgs_moc.py 1326-1342 `code1_len` -/
def code1Len : List Nat :=
  [1, 3, 4, 7, 8, 10, 13, 15, 15, 15, 15, 15, 15, 15, 15, 15, 15, 15, 15, 15, 15, 15, 15, 15, 15, 15, 15, 15, 15, 15,
   15, 15, 15, 15, 15, 15, 15, 15, 15, 15, 15, 15, 15, 15, 15, 15, 15, 15, 15, 15, 15, 15, 15, 15, 15, 15, 15, 15,
   15, 15, 15, 15, 15, 15, 15, 15, 15, 15, 15, 15, 15, 15, 15, 15, 15, 15, 15, 15, 15, 15, 15, 15, 15, 15, 15, 15,
   15, 15, 15, 15, 15, 15, 15, 15, 15, 15, 15, 15, 15, 15, 15, 15, 15, 15, 15, 15, 15, 15, 15, 15, 15, 15, 15, 15,
   15, 15, 15, 15, 15, 15, 15, 15, 15, 15, 15, 15, 15, 15, 15, 15, 15, 15, 15, 15, 15, 15, 15, 15, 15, 15, 15, 15,
   15, 15, 15, 15, 15, 15, 15, 15, 15, 15, 15, 15, 15, 15, 15, 15, 15, 15, 15, 15, 15, 15, 15, 15, 15, 15, 15, 15,
   15, 15, 15, 15, 15, 15, 15, 15, 15, 15, 15, 15, 15, 15, 15, 15, 15, 15, 15, 15, 15, 15, 15, 15, 15, 15, 15, 15,
   15, 15, 15, 15, 15, 15, 15, 15, 15, 15, 15, 15, 15, 15, 15, 15, 15, 15, 15, 15, 15, 15, 15, 15, 15, 15, 15, 15,
   15, 15, 15, 15, 15, 15, 15, 15, 15, 15, 15, 15, 15, 15, 15, 15, 15, 15, 15, 15, 15, 15, 15, 14, 12, 10, 9, 7, 5, 2]

/-- mgs_moc.py 1345-1377 `code2_bits` -/
def code2Bits : List Nat :=
  [2, 0, 5, 12, 17, 60, 252, 257, 129, 385, 3457, 3521, 2497, 3777, 30401, 14017, 22209, 5825, 26305, 9921, 18113,
   1729, 31425, 15041, 23233, 6849, 27329, 10945, 19137, 2753, 29377, 12993, 21185, 4801, 25281, 8897, 17089, 705,
   31937, 15553, 23745, 7361, 27841, 11457, 19649, 3265, 29889, 13505, 21697, 5313, 25793, 9409, 17601, 1217, 30913,
   14529, 22721, 6337, 26817, 10433, 18625, 2241, 28865, 12481, 20673, 4289, 24769, 8385, 16577, 193, 32577, 16193,
   24385, 8001, 28481, 12097, 20289, 3905, 30529, 14145, 22337, 5953, 26433, 10049, 18241, 1857, 31553, 15169, 23361,
   6977, 27457, 11073, 19265, 2881, 29505, 13121, 21313, 4929, 25409, 9025, 17217, 833, 32065, 15681, 23873, 7489,
   27969, 11585, 19777, 3393, 30017, 13633, 21825, 5441, 25921, 9537, 17729, 1345, 31041, 14657, 32449, 28353, 8641,
   16833, 20161, 22849, 25025, 4545, 20929, 4417, 24897, 8513, 16705, 321, 32321, 15937, 24129, 7745, 28225, 11841,
   20033, 3649, 30273, 13889, 22081, 5697, 26177, 9793, 17985, 1601, 31297, 14913, 23105, 6721, 27201, 10817, 19009,
   2625, 29249, 12865, 21057, 4673, 25153, 8769, 16961, 577, 31809, 15425, 23617, 7233, 27713, 11329, 19521, 3137,
   29761, 13377, 21569, 5185, 6465, 10561, 18753, 1089, 30785, 14401, 22593, 6209, 26689, 10305, 18497, 2113, 28737,
   12353, 20545, 4161, 24641, 8257, 16449, 65, 32641, 16257, 24449, 8065, 28545, 12161, 20353, 9281, 3969, 14209,
   22401, 6017, 26497, 10113, 18305, 1921, 31617, 15233, 23425, 7041, 27521, 30593, 11137, 2945, 29569, 13185, 21377,
   4993, 19329, 25473, 17281, 9089, 897, 12737, 17473, 25665, 28993, 2369, 11969, 26945, 7873, 24257, 16065, 449,
   20801, 12609, 6593, 1473, 1409, 961, 641, 1, 124, 33, 28, 9, 4, 3]

/-- mgs_moc.py 1379-1395 `code2_len` -/
def code2Len : List Nat :=
  [2, 3, 3, 5, 5, 7, 8, 9, 10, 11, 12, 12, 13, 15, 15, 15, 15, 15, 15, 15, 15, 15, 15, 15, 15, 15, 15, 15, 15, 15, 15,
   15, 15, 15, 15, 15, 15, 15, 15, 15, 15, 15, 15, 15, 15, 15, 15, 15, 15, 15, 15, 15, 15, 15, 15, 15, 15, 15, 15,
   15, 15, 15, 15, 15, 15, 15, 15, 15, 15, 15, 15, 15, 15, 15, 15, 15, 15, 15, 15, 15, 15, 15, 15, 15, 15, 15, 15,
   15, 15, 15, 15, 15, 15, 15, 15, 15, 15, 15, 15, 15, 15, 15, 15, 15, 15, 15, 15, 15, 15, 15, 15, 15, 15, 15, 15,
   15, 15, 15, 15, 15, 15, 15, 15, 15, 15, 15, 15, 15, 15, 15, 15, 15, 15, 15, 15, 15, 15, 15, 15, 15, 15, 15, 15,
   15, 15, 15, 15, 15, 15, 15, 15, 15, 15, 15, 15, 15, 15, 15, 15, 15, 15, 15, 15, 15, 15, 15, 15, 15, 15, 15, 15,
   15, 15, 15, 15, 15, 15, 15, 15, 15, 15, 15, 15, 15, 15, 15, 15, 15, 15, 15, 15, 15, 15, 15, 15, 15, 15, 15, 15,
   15, 15, 15, 15, 15, 15, 15, 15, 15, 15, 15, 15, 15, 15, 15, 15, 15, 15, 15, 15, 15, 15, 15, 15, 15, 15, 15, 15,
   15, 15, 15, 15, 14, 15, 15, 15, 15, 15, 15, 15, 15, 15, 15, 15, 15, 13, 12, 12, 10, 10, 9, 8, 6, 6, 4, 4, 2]

/-- mgs_moc.py 1398-1431 `code3_bits` -/
def code3Bits : List Nat :=
  [4, 6, 7, 5, 11, 13, 24, 29, 56, 125, 248, 3, 1, 387, 451, 835, 707, 1667, 3713, 2243, 385, 3203, 4481, 1219, 24385,
   8001, 28481, 12097, 20289, 3905, 30529, 14145, 22337, 5953, 26433, 10049, 18241, 1857, 31553, 15169, 23361, 6977,
   27457, 11073, 19265, 2881, 29505, 13121, 21313, 4929, 25409, 9025, 17217, 833, 32065, 15681, 23873, 7489, 27969,
   11585, 19777, 3393, 30017, 13633, 21825, 5441, 25921, 9537, 17729, 1345, 31041, 14657, 22849, 6465, 26945, 10561,
   18753, 2369, 28993, 12609, 20801, 4417, 24897, 8513, 16705, 321, 32321, 15937, 24129, 7745, 28225, 11841, 20033,
   3649, 30273, 13889, 22081, 5697, 26177, 9793, 17985, 1601, 31297, 14913, 23105, 6721, 27201, 10817, 19009, 2625,
   29249, 18563, 32577, 22659, 6275, 1155, 30851, 16193, 12865, 15425, 23617, 7233, 9347, 17539, 19521, 3137, 25731,
   5251, 21635, 5185, 25665, 9281, 17473, 1089, 30785, 14401, 22593, 6209, 26689, 10305, 18497, 2113, 28737, 12353,
   20545, 4161, 24641, 8257, 16449, 65, 32641, 16257, 24449, 8065, 28545, 12161, 20353, 3969, 30593, 14209, 22401,
   6017, 21057, 577, 18305, 31809, 26497, 15233, 23425, 7041, 27521, 11137, 19329, 2945, 29569, 13185, 21377, 4993,
   25473, 9089, 17281, 897, 32129, 15745, 23937, 7553, 28033, 10113, 1921, 31617, 11649, 13697, 21889, 5505, 25985,
   9601, 17793, 1409, 31105, 30081, 19841, 6529, 27009, 10625, 18817, 22913, 2433, 12673, 29057, 9411, 14721, 3457,
   8769, 25153, 4673, 131, 16515, 8323, 24707, 10371, 16961, 26755, 4227, 20611, 12419, 14467, 21569, 13377, 29761,
   11329, 27713, 28803, 2179, 13443, 5315, 7299, 3267, 195, 1665, 643, 641, 323, 129, 67, 257, 193, 120, 61, 35, 33,
   19, 17, 8, 9, 0, 2]

/-- mgs_moc.py 1433-1450 `code3_len` -/
def code3Len : List Nat :=
  [3, 3, 3, 4, 4, 5, 6, 6, 7, 7, 8, 8, 9, 9, 9, 10, 10, 11, 12, 12, 13, 13, 14, 14, 15, 15, 15, 15, 15, 15, 15, 15,
   15, 15, 15, 15, 15, 15, 15, 15, 15, 15, 15, 15, 15, 15, 15, 15, 15, 15, 15, 15, 15, 15, 15, 15, 15, 15, 15, 15,
   15, 15, 15, 15, 15, 15, 15, 15, 15, 15, 15, 15, 15, 15, 15, 15, 15, 15, 15, 15, 15, 15, 15, 15, 15, 15, 15, 15,
   15, 15, 15, 15, 15, 15, 15, 15, 15, 15, 15, 15, 15, 15, 15, 15, 15, 15, 15, 15, 15, 15, 15, 15, 15, 15, 15, 15,
   15, 15, 15, 15, 15, 15, 15, 15, 15, 15, 15, 15, 15, 15, 15, 15, 15, 15, 15, 15, 15, 15, 15, 15, 15, 15, 15, 15,
   15, 15, 15, 15, 15, 15, 15, 15, 15, 15, 15, 15, 15, 15, 15, 15, 15, 15, 15, 15, 15, 15, 15, 15, 15, 15, 15, 15,
   15, 15, 15, 15, 15, 15, 15, 15, 15, 15, 15, 15, 15, 15, 15, 15, 15, 15, 15, 15, 15, 15, 15, 15, 15, 15, 15, 15,
   15, 15, 15, 15, 15, 15, 15, 15, 15, 14, 15, 15, 15, 15, 15, 15, 15, 15, 15, 15, 15, 15, 15, 15, 15, 15, 15, 15,
   15, 15, 15, 15, 15, 14, 13, 13, 12, 12, 12, 11, 11, 10, 10, 9, 9, 8, 8, 7, 6, 6, 5, 5, 5, 4, 4, 3]

/-- mgs_moc.py 1453-1485 `code4_bits` -/
def code4Bits : List Nat :=
  [5, 7, 4, 1, 16, 10, 9, 24, 26, 25, 56, 58, 57, 120, 122, 0, 2, 6, 768, 258, 774, 1152, 1154, 1158, 640, 642, 1666,
   2688, 5760, 7494, 2886, 16000, 11590, 9856, 1664, 13894, 22086, 5702, 26182, 9798, 17990, 1606, 31302, 14918,
   23110, 6726, 27206, 10822, 19014, 2630, 29254, 12870, 21062, 4678, 25158, 8774, 16966, 582, 31814, 15430, 23622,
   7238, 27718, 11334, 19526, 3142, 29766, 13382, 21574, 5190, 25670, 9286, 17478, 1094, 30790, 14406, 22598, 6214,
   26694, 10310, 18502, 2118, 28742, 12358, 20550, 4166, 24646, 8262, 16454, 70, 32646, 16262, 24454, 8070, 28550,
   12166, 20358, 3974, 30598, 1350, 9542, 17734, 26502, 10118, 18310, 1926, 31622, 15238, 23430, 7046, 27526, 11142,
   30278, 14214, 29574, 5446, 25926, 4998, 25478, 9094, 17286, 902, 13638, 21830, 23942, 7558, 30022, 3398, 19782,
   3462, 30086, 13702, 21894, 5510, 25990, 9606, 17798, 1414, 31110, 14726, 22918, 6534, 27014, 10630, 18822, 22406,
   19334, 12678, 20870, 4486, 24966, 2950, 2438, 390, 32390, 16006, 24198, 7814, 28294, 11910, 20102, 3718, 30342,
   13958, 22150, 5766, 26246, 9862, 29062, 8582, 31366, 16774, 18054, 6790, 27270, 10886, 19078, 2694, 29318, 1670,
   14982, 23174, 12934, 8838, 17030, 21126, 26240, 646, 25222, 4742, 6022, 3654, 20038, 11846, 19846, 11654, 28038,
   15750, 32134, 21382, 13190, 28230, 7750, 24134, 15942, 32326, 326, 16710, 8518, 24902, 4422, 20806, 12614, 28998,
   2374, 18758, 10566, 26950, 6470, 22854, 14662, 31046, 13126, 18048, 4934, 7808, 6982, 838, 3712, 6784, 3714, 2690,
   1862, 134, 130, 128, 262, 770, 256, 386, 384, 198, 250, 248, 121, 66, 64, 38, 34, 32, 22, 18, 8, 14, 12, 3]

/-- mgs_moc.py 1487-1503 `code4_len` -/
def code4Len : List Nat :=
  [3, 3, 4, 4, 5, 5, 5, 6, 6, 6, 7, 7, 7, 8, 8, 9, 9, 9, 10, 10, 10, 11, 11, 11, 12, 12, 12, 13, 13, 13, 13, 14, 14,
   15, 15, 15, 15, 15, 15, 15, 15, 15, 15, 15, 15, 15, 15, 15, 15, 15, 15, 15, 15, 15, 15, 15, 15, 15, 15, 15, 15,
   15, 15, 15, 15, 15, 15, 15, 15, 15, 15, 15, 15, 15, 15, 15, 15, 15, 15, 15, 15, 15, 15, 15, 15, 15, 15, 15, 15,
   15, 15, 15, 15, 15, 15, 15, 15, 15, 15, 15, 15, 15, 15, 15, 15, 15, 15, 15, 15, 15, 15, 15, 15, 15, 15, 15, 15,
   15, 15, 15, 15, 15, 15, 15, 15, 15, 15, 15, 15, 15, 15, 15, 15, 15, 15, 15, 15, 15, 15, 15, 15, 15, 15, 15, 15,
   15, 15, 15, 15, 15, 15, 15, 15, 15, 15, 15, 15, 15, 15, 15, 15, 15, 15, 15, 15, 15, 15, 15, 15, 15, 15, 15, 15,
   15, 15, 15, 15, 15, 15, 15, 15, 15, 15, 15, 15, 15, 15, 15, 15, 15, 15, 15, 15, 15, 15, 15, 15, 15, 15, 15, 15,
   15, 15, 15, 15, 15, 15, 15, 15, 15, 15, 15, 15, 15, 15, 15, 15, 15, 15, 15, 15, 15, 14, 15, 14, 14, 13, 13, 13,
   13, 12, 12, 11, 11, 11, 11, 10, 10, 10, 9, 9, 8, 8, 8, 7, 7, 7, 6, 6, 6, 5, 5, 5, 4, 4, 3]

/-- mgs_moc.py 1506-1538 `code5_bits` -/
def code5Bits : List Nat :=
  [8, 12, 6, 13, 7, 18, 9, 11, 16, 26, 25, 27, 64, 74, 65, 123, 240, 250, 3, 195, 10, 1, 131, 256, 266, 650, 387, 768,
   778, 769, 67, 1152, 138, 129, 2627, 4224, 1162, 1657, 1603, 7747, 5258, 14969, 3200, 5699, 16505, 121, 32641,
   16257, 24449, 8065, 28545, 12161, 20353, 3969, 30593, 14209, 22401, 6017, 26497, 10113, 18305, 1921, 31617, 15233,
   23425, 7041, 27521, 11137, 19329, 2945, 29569, 13185, 21377, 4993, 25473, 9089, 17281, 897, 32129, 15745, 23937,
   7553, 28033, 11649, 19841, 3457, 30081, 13697, 21889, 5505, 25985, 9601, 17793, 1409, 27769, 24697, 31865, 15481,
   25209, 8825, 12921, 21113, 29057, 12673, 20865, 4481, 24961, 8313, 31105, 385, 32385, 16001, 24193, 7809, 28289,
   2681, 29305, 3713, 30337, 13953, 22145, 5761, 10873, 19065, 18049, 1665, 27257, 6777, 23161, 6785, 27265, 10881,
   19073, 14721, 8577, 12929, 21121, 4737, 25217, 8833, 16769, 2689, 31873, 15489, 23681, 7297, 27777, 11393, 19585,
   3201, 29825, 13441, 21633, 29313, 17025, 9345, 641, 5249, 30849, 14465, 22657, 6273, 26753, 25729, 17537, 10369,
   29834, 18561, 2177, 19584, 13450, 1153, 27009, 6529, 22913, 4217, 20601, 12409, 28793, 7289, 18817, 10625, 23673,
   2169, 18553, 10361, 26745, 633, 2433, 17017, 6265, 22649, 14457, 4729, 23169, 14977, 31361, 9857, 26241, 20097,
   11905, 30841, 1145, 17529, 9337, 25721, 5241, 21625, 13433, 29817, 3193, 19577, 11385, 13891, 11897, 3705, 11392,
   3651, 7801, 5753, 7296, 128, 579, 3210, 2186, 2176, 1091, 1793, 1802, 1792, 899, 257, 640, 323, 377, 394, 384, 0,
   249, 122, 112, 59, 57, 58, 48, 35, 33, 42, 32, 19, 17, 2, 15, 5, 14, 4]

/-- mgs_moc.py 1540-1556 `code5_len` -/
def code5Len : List Nat :=
  [4, 4, 4, 4, 4, 5, 5, 5, 6, 6, 6, 6, 7, 7, 7, 7, 8, 8, 8, 8, 9, 9, 9, 10, 10, 10, 10, 11, 11, 11, 11, 12, 12, 12,
   12, 13, 13, 13, 13, 13, 14, 14, 15, 14, 15, 15, 15, 15, 15, 15, 15, 15, 15, 15, 15, 15, 15, 15, 15, 15, 15, 15,
   15, 15, 15, 15, 15, 15, 15, 15, 15, 15, 15, 15, 15, 15, 15, 15, 15, 15, 15, 15, 15, 15, 15, 15, 15, 15, 15, 15,
   15, 15, 15, 15, 15, 15, 15, 15, 15, 15, 15, 15, 15, 15, 15, 15, 15, 15, 15, 15, 15, 15, 15, 15, 15, 15, 15, 15,
   15, 15, 15, 15, 15, 15, 15, 15, 15, 15, 15, 15, 15, 15, 15, 15, 15, 15, 15, 15, 15, 15, 15, 15, 15, 15, 15, 15,
   15, 15, 15, 15, 15, 15, 15, 15, 15, 15, 15, 15, 15, 15, 15, 15, 15, 15, 15, 15, 15, 15, 15, 15, 15, 15, 15, 15,
   15, 15, 15, 15, 15, 15, 15, 15, 15, 15, 15, 15, 15, 15, 15, 15, 15, 15, 15, 15, 15, 15, 15, 15, 15, 15, 15, 15,
   15, 15, 15, 15, 15, 15, 15, 15, 15, 15, 15, 14, 14, 14, 14, 13, 13, 13, 13, 13, 12, 12, 12, 12, 11, 11, 11, 11,
   10, 10, 10, 9, 9, 9, 9, 9, 8, 8, 8, 7, 7, 7, 7, 6, 6, 6, 6, 5, 5, 5, 4, 4, 4, 4]

/-- mgs_moc.py 1559-1592 `code6_bits` -/
def code6Bits : List Nat :=
  [10, 14, 5, 15, 8, 28, 17, 11, 16, 20, 18, 25, 35, 64, 68, 50, 57, 59, 112, 132, 114, 249, 251, 496, 500, 242, 259,
   0, 516, 2, 9, 387, 1280, 772, 770, 1289, 899, 2304, 3844, 1794, 3, 3971, 4, 2052, 7938, 6025, 6019, 3840, 8450,
   258, 6147, 12544, 4352, 14339, 28297, 11913, 20105, 3721, 30345, 13961, 22153, 5769, 26249, 9865, 18057, 1673,
   31369, 14985, 23177, 6793, 27273, 10889, 19081, 2697, 29321, 12937, 21129, 4745, 25225, 8841, 17033, 649, 31881,
   15497, 23689, 7305, 27785, 11401, 19593, 3209, 30089, 13705, 28041, 11657, 32137, 15753, 25481, 9097, 29577,
   13193, 11145, 19337, 26761, 16009, 24201, 2185, 28809, 12425, 20617, 4233, 24713, 8329, 16521, 137, 32521, 7049,
   27529, 7945, 28425, 12041, 20233, 3849, 15241, 23433, 22281, 5897, 31625, 1929, 18313, 30473, 31497, 15113, 23305,
   6921, 27401, 11017, 19209, 14089, 18185, 13065, 1801, 2825, 25353, 8969, 17161, 29449, 21257, 777, 28930, 12546,
   22532, 4873, 21641, 7817, 29833, 5257, 25737, 32393, 21897, 393, 16777, 8585, 24969, 3465, 17545, 9353, 19849,
   4489, 20873, 12681, 29065, 7561, 30857, 1161, 23945, 2441, 18825, 10633, 27017, 905, 22665, 14473, 17289, 6537,
   22921, 14729, 31113, 5001, 6281, 21385, 1417, 17801, 9609, 2953, 18569, 9993, 26377, 10377, 13449, 24329, 16137,
   25993, 5513, 20736, 6148, 28928, 10121, 14340, 4354, 12032, 1923, 2051, 3842, 4100, 7936, 256, 3977, 2306, 1796,
   1792, 1027, 265, 1282, 1028, 768, 515, 521, 514, 260, 512, 131, 498, 244, 240, 123, 121, 130, 116, 128, 67, 73,
   66, 52, 48, 27, 41, 34, 36, 32, 19, 1, 12, 24, 7, 13, 6]

/-- mgs_moc.py 1594-1611 `code6_len` -/
def code6Len : List Nat :=
  [4, 4, 4, 4, 5, 5, 5, 5, 6, 6, 6, 6, 6, 7, 7, 7, 7, 7, 8, 8, 8, 8, 8, 9, 9, 9, 9, 10, 10, 10, 10, 10, 11, 11, 11,
   11, 11, 12, 12, 12, 12, 12, 13, 13, 13, 13, 13, 14, 14, 14, 14, 15, 15, 14, 15, 15, 15, 15, 15, 15, 15, 15, 15,
   15, 15, 15, 15, 15, 15, 15, 15, 15, 15, 15, 15, 15, 15, 15, 15, 15, 15, 15, 15, 15, 15, 15, 15, 15, 15, 15, 15,
   15, 15, 15, 15, 15, 15, 15, 15, 15, 15, 15, 15, 15, 15, 15, 15, 15, 15, 15, 15, 15, 15, 15, 15, 15, 15, 15, 15,
   15, 15, 15, 15, 15, 15, 15, 15, 15, 15, 15, 15, 15, 15, 15, 15, 15, 15, 15, 15, 15, 15, 15, 15, 15, 15, 15, 15,
   15, 15, 15, 15, 15, 15, 15, 15, 15, 15, 15, 15, 15, 15, 15, 15, 15, 15, 15, 15, 15, 15, 15, 15, 15, 15, 15, 15,
   15, 15, 15, 15, 15, 15, 15, 15, 15, 15, 15, 15, 15, 15, 15, 15, 15, 15, 15, 15, 15, 15, 15, 15, 15, 15, 15, 15,
   15, 15, 15, 14, 14, 14, 14, 13, 13, 13, 13, 13, 13, 12, 12, 12, 12, 11, 11, 11, 11, 11, 10, 10, 10, 10, 10, 9, 9,
   9, 9, 8, 8, 8, 8, 8, 7, 7, 7, 7, 7, 6, 6, 6, 6, 6, 5, 5, 5, 5, 4, 4, 4]

/-- mgs_moc.py 1614-1647 `code7_bits` -/
def code7Bits : List Nat :=
  [5, 0, 0, 0, 0, 0, 1, 1, 1, 1, 1, 1, 1, 1, 1, 1, 1, 1, 1, 1, 1, 1, 1, 1, 1, 1, 1, 1, 1, 1, 1, 1, 1, 1, 1, 1, 1, 1,
   1, 1, 1, 1, 1, 1, 1, 1, 1, 1, 1, 1, 1, 1, 1, 1, 1, 1, 29, 29, 29, 29, 29, 29, 29, 29, 29, 29, 29, 29, 29, 29, 29,
   29, 29, 29, 29, 29, 29, 29, 29, 29, 29, 29, 29, 29, 29, 29, 29, 29, 29, 29, 29, 29, 29, 29, 29, 29, 29, 29, 29,
   29, 29, 29, 29, 29, 29, 29, 29, 29, 29, 29, 29, 29, 29, 29, 29, 29, 29, 29, 29, 29, 29, 29, 29, 29, 29, 29, 29,
   29, 13, 13, 13, 13, 13, 13, 13, 13, 13, 13, 13, 13, 13, 13, 13, 13, 13, 13, 13, 13, 13, 13, 13, 13, 13, 13, 13,
   13, 13, 13, 13, 13, 13, 13, 13, 13, 13, 13, 13, 13, 13, 13, 13, 13, 13, 13, 13, 13, 13, 13, 13, 13, 13, 13, 13,
   13, 13, 13, 13, 13, 13, 13, 13, 13, 13, 13, 13, 13, 13, 13, 13, 13, 13, 3, 3, 3, 3, 3, 3, 3, 3, 3, 3, 3, 3, 3, 3,
   3, 3, 3, 3, 3, 3, 3, 3, 3, 3, 3, 3, 3, 3, 3, 3, 3, 3, 3, 3, 3, 3, 3, 3, 3, 3, 3, 3, 3, 3, 3, 3, 3, 3, 3, 3, 2, 2,
   2, 2, 2]

/-- mgs_moc.py 1649-1666 `code7_len` -/
def code7Len : List Nat :=
  [4, 2, 2, 2, 2, 2, 3, 3, 3, 3, 3, 3, 3, 3, 3, 3, 3, 3, 3, 3, 3, 3, 3, 3, 3, 3, 3, 3, 3, 3, 3, 3, 3, 3, 3, 3, 3, 3,
   3, 3, 3, 3, 3, 3, 3, 3, 3, 3, 3, 3, 3, 3, 3, 3, 3, 3, 5, 5, 5, 5, 5, 5, 5, 5, 5, 5, 5, 5, 5, 5, 5, 5, 5, 5, 5, 5,
   5, 5, 5, 5, 5, 5, 5, 5, 5, 5, 5, 5, 5, 5, 5, 5, 5, 5, 5, 5, 5, 5, 5, 5, 5, 5, 5, 5, 5, 5, 5, 5, 5, 5, 5, 5, 5, 5,
   5, 5, 5, 5, 5, 5, 5, 5, 5, 5, 5, 5, 5, 5, 5, 5, 5, 5, 5, 5, 5, 5, 5, 5, 5, 5, 5, 5, 5, 5, 5, 5, 5, 5, 5, 5, 5, 5,
   5, 5, 5, 5, 5, 5, 5, 5, 5, 5, 5, 5, 5, 5, 5, 5, 5, 5, 5, 5, 5, 5, 5, 5, 5, 5, 5, 5, 5, 5, 5, 5, 5, 5, 5, 5, 5, 5,
   5, 5, 5, 5, 5, 5, 5, 5, 5, 5, 5, 2, 2, 2, 2, 2, 2, 2, 2, 2, 2, 2, 2, 2, 2, 2, 2, 2, 2, 2, 2, 2, 2, 2, 2, 2, 2, 2,
   2, 2, 2, 2, 2, 2, 2, 2, 2, 2, 2, 2, 2, 2, 2, 2, 2, 2, 2, 2, 2, 2, 2, 2, 2, 2, 2, 2]

/-- mgs_moc.py 1669-1698 `code7_requant` -/
def code7Requant : List Nat :=
  [0, 1, 1, 1, 1, 1, 10, 10, 10, 10, 10, 10, 10, 10, 10, 10, 10, 10, 10, 10, 10, 10, 10, 10, 10, 10, 10, 10, 10, 10,
   10, 10, 10, 10, 10, 10, 10, 10, 10, 10, 10, 10, 10, 10, 10, 10, 10, 10, 10, 10, 10, 10, 10, 10, 10, 10, 100, 100,
   100, 100, 100, 100, 100, 100, 100, 100, 100, 100, 100, 100, 100, 100, 100, 100, 100, 100, 100, 100, 100, 100, 100,
   100, 100, 100, 100, 100, 100, 100, 100, 100, 100, 100, 100, 100, 100, 100, 100, 100, 100, 100, 100, 100, 100, 100,
   100, 100, 100, 100, 100, 100, 100, 100, 100, 100, 100, 100, 100, 100, 100, 100, 100, 100, 100, 100, 100, 100, 100,
   100, 156, 156, 156, 156, 156, 156, 156, 156, 156, 156, 156, 156, 156, 156, 156, 156, 156, 156, 156, 156, 156, 156,
   156, 156, 156, 156, 156, 156, 156, 156, 156, 156, 156, 156, 156, 156, 156, 156, 156, 156, 156, 156, 156, 156, 156,
   156, 156, 156, 156, 156, 156, 156, 156, 156, 156, 156, 156, 156, 156, 156, 156, 156, 156, 156, 156, 156, 156, 156,
   156, 156, 156, 156, 156, 246, 246, 246, 246, 246, 246, 246, 246, 246, 246, 246, 246, 246, 246, 246, 246, 246, 246,
   246, 246, 246, 246, 246, 246, 246, 246, 246, 246, 246, 246, 246, 246, 246, 246, 246, 246, 246, 246, 246, 246, 246,
   246, 246, 246, 246, 246, 246, 246, 246, 246, 255, 255, 255, 255, 255]

/-- mgs_moc.py 1702-1728 `code_ident_requant` -/
def codeIdentRequant : List Nat :=
  [0, 1, 2, 3, 4, 5, 6, 7, 8, 9, 10, 11, 12, 13, 14, 15, 16, 17, 18, 19, 20, 21, 22, 23, 24, 25, 26, 27, 28, 29, 30,
   31, 32, 33, 34, 35, 36, 37, 38, 39, 40, 41, 42, 43, 44, 45, 46, 47, 48, 49, 50, 51, 52, 53, 54, 55, 56, 57, 58,
   59, 60, 61, 62, 63, 64, 65, 66, 67, 68, 69, 70, 71, 72, 73, 74, 75, 76, 77, 78, 79, 80, 81, 82, 83, 84, 85, 86,
   87, 88, 89, 90, 91, 92, 93, 94, 95, 96, 97, 98, 99, 100, 101, 102, 103, 104, 105, 106, 107, 108, 109, 110, 111,
   112, 113, 114, 115, 116, 117, 118, 119, 120, 121, 122, 123, 124, 125, 126, 127, 128, 129, 130, 131, 132, 133, 134,
   135, 136, 137, 138, 139, 140, 141, 142, 143, 144, 145, 146, 147, 148, 149, 150, 151, 152, 153, 154, 155, 156, 157,
   158, 159, 160, 161, 162, 163, 164, 165, 166, 167, 168, 169, 170, 171, 172, 173, 174, 175, 176, 177, 178, 179, 180,
   181, 182, 183, 184, 185, 186, 187, 188, 189, 190, 191, 192, 193, 194, 195, 196, 197, 198, 199, 200, 201, 202, 203,
   204, 205, 206, 207, 208, 209, 210, 211, 212, 213, 214, 215, 216, 217, 218, 219, 220, 221, 222, 223, 224, 225, 226,
   227, 228, 229, 230, 231, 232, 233, 234, 235, 236, 237, 238, 239, 240, 241, 242, 243, 244, 245, 246, 247, 248, 249,
   250, 251, 252, 253, 254, 255]

/-- mgs_moc.py 1739-1761 `trans` -/
def trans : List Nat :=
  [0, 1, 4, 9, 15, 22, 33, 43, 56, 71, 86, 104, 121, 142, 166, 189, 2, 3, 6, 11, 17, 26, 35, 45, 58, 73, 90, 106, 123,
   146, 168, 193, 5, 7, 8, 13, 20, 28, 37, 50, 62, 75, 92, 108, 129, 150, 170, 195, 10, 12, 14, 19, 23, 31, 41, 52,
   65, 81, 96, 113, 133, 152, 175, 201, 16, 18, 21, 24, 30, 39, 48, 59, 69, 83, 100, 119, 137, 158, 181, 203, 25, 27,
   29, 32, 40, 46, 54, 67, 79, 94, 109, 127, 143, 164, 185, 210, 34, 36, 38, 42, 49, 55, 64, 76, 87, 102, 117, 135,
   154, 176, 197, 216, 44, 47, 51, 53, 60, 68, 77, 85, 98, 114, 131, 147, 162, 183, 208, 222, 57, 61, 63, 66, 70, 80,
   88, 99, 112, 124, 140, 159, 179, 199, 214, 227, 72, 74, 78, 82, 84, 95, 103, 115, 125, 139, 156, 173, 190, 211,
   224, 233, 89, 91, 93, 97, 101, 110, 118, 132, 141, 157, 171, 186, 206, 220, 231, 239, 105, 107, 111, 116, 120,
   128, 136, 148, 160, 174, 187, 205, 218, 229, 237, 244, 122, 126, 130, 134, 138, 144, 155, 163, 180, 191, 207, 219,
   226, 235, 242, 248, 145, 149, 151, 153, 161, 165, 177, 184, 200, 212, 221, 230, 236, 241, 246, 251, 167, 169, 172,
   178, 182, 188, 198, 209, 215, 225, 232, 238, 243, 247, 250, 253, 192, 194, 196, 202, 204, 213, 217, 223, 228, 234,
   240, 245, 249, 252, 254, 255]

/-- mgs_moc.py 1785-1790 `num0` -/
def num0 : List Nat :=
  [24, 23, 20, 19, 16, 14, 13, 10, 8, 6, 5, 3, 1, 2, 4, 7, 9, 11, 12, 15, 17, 18, 21, 22, 24]

/-- mgs_moc.py 1794-1802 `code0` -/
def dct0 : List Nat :=
  [16777215, 4194303, 524287, 262143, 32767, 8191, 4095, 511, 127, 31, 15, 3, 0, 1, 7, 63, 255, 1023, 2047, 16383,
   65535, 131071, 1048575, 2097151, 8388607]

/-- mgs_moc.py 1806-1813 `num1` -/
def num1 : List Nat :=
  [24, 24, 23, 22, 21, 20, 19, 18, 17, 16, 15, 14, 13, 12, 11, 10, 9, 8, 7, 6, 5, 4, 2, 2, 2, 4, 5, 6, 7, 8, 9, 10,
   11, 12, 13, 14, 15, 16, 17, 18, 19, 20, 21, 22, 23, 24, 24]

/-- mgs_moc.py 1817-1829 `code1` -/
def dct1 : List Nat :=
  [16777215, 12582911, 6291455, 3145727, 1572863, 786431, 393215, 196607, 98303, 49151, 24575, 12287, 6143, 3071,
   1535, 767, 383, 191, 95, 47, 23, 11, 2, 1, 0, 3, 7, 15, 31, 63, 127, 255, 511, 1023, 2047, 4095, 8191, 16383,
   32767, 65535, 131071, 262143, 524287, 1048575, 2097151, 4194303, 8388607]

/-- mgs_moc.py 1833-1843 `num2` -/
def num2 : List Nat :=
  [24, 24, 23, 23, 22, 22, 21, 20, 19, 19, 18, 17, 17, 16, 16, 15, 14, 14, 13, 12, 11, 11, 10, 9, 9, 8, 7, 7, 6, 6, 5,
   4, 4, 3, 2, 3, 3, 4, 5, 5, 6, 7, 8, 8, 9, 10, 10, 11, 12, 12, 13, 13, 14, 15, 15, 16, 17, 18, 18, 19, 20, 20, 21,
   21, 22, 23, 23, 24, 24]

/-- mgs_moc.py 1847-1865 `code2` -/
def dct2 : List Nat :=
  [16777215, 16777213, 8388606, 4194301, 2097150, 2097151, 1048575, 524286, 262142, 262143, 131069, 65534, 65535,
   32766, 32767, 16383, 8190, 8191, 4095, 2046, 1022, 1023, 510, 254, 255, 125, 62, 61, 29, 31, 13, 5, 7, 1, 0, 3, 2,
   6, 15, 14, 30, 63, 127, 126, 253, 511, 509, 1021, 2047, 2045, 4093, 4094, 8189, 16381, 16382, 32765, 65533,
   131071, 131070, 262141, 524287, 524285, 1048573, 1048574, 2097149, 4194303, 4194302, 8388605, 8388607]

/-- mgs_moc.py 1869-1884 `num3` -/
def num3 : List Nat :=
  [23, 24, 24, 23, 23, 22, 22, 22, 21, 21, 21, 20, 20, 19, 19, 18, 18, 18, 17, 17, 16, 16, 16, 15, 15, 14, 14, 14, 13,
   13, 13, 12, 12, 11, 11, 10, 10, 10, 9, 9, 9, 8, 8, 7, 7, 6, 6, 6, 5, 5, 4, 4, 4, 3, 3, 3, 4, 4, 5, 5, 5, 6, 6, 7,
   7, 7, 8, 8, 8, 9, 9, 10, 10, 11, 11, 11, 12, 12, 12, 13, 13, 14, 14, 15, 15, 15, 16, 16, 17, 17, 17, 18, 18, 19,
   19, 19, 20, 20, 20, 21, 21, 22, 22, 22, 23, 23, 24, 24, 23]

/-- mgs_moc.py 1888-1916 `code3` -/
def dct3 : List Nat :=
  [8388607, 16777213, 14680063, 8388606, 4194301, 4194300, 2097150, 4194299, 1048574, 1048573, 1048571, 524285,
   524287, 262140, 262143, 131068, 131070, 131071, 65534, 65533, 32764, 32765, 32763, 16380, 16383, 8188, 8189, 8191,
   4092, 4093, 4091, 2045, 2043, 1022, 1021, 508, 509, 511, 252, 255, 251, 125, 123, 60, 61, 28, 30, 27, 14, 15, 4,
   6, 3, 2, 1, 0, 7, 5, 11, 13, 12, 31, 29, 59, 63, 62, 127, 126, 124, 253, 254, 507, 510, 1019, 1023, 1020, 2047,
   2046, 2044, 4095, 4094, 8187, 8190, 16379, 16381, 16382, 32767, 32766, 65531, 65535, 65532, 131067, 131069,
   262139, 262141, 262142, 524283, 524286, 524284, 1048575, 1048572, 2097147, 2097149, 2097148, 2097151, 4194302,
   6291455, 8388605, 4194303]

/-- mgs_moc.py 1920-1943 `num4` -/
def num4 : List Nat :=
  [22, 24, 24, 24, 24, 23, 23, 23, 23, 22, 22, 22, 22, 21, 21, 21, 21, 20, 20, 20, 20, 19, 19, 19, 19, 18, 18, 18, 18,
   17, 17, 17, 17, 16, 16, 16, 16, 15, 15, 15, 15, 14, 14, 14, 14, 13, 13, 13, 13, 12, 12, 12, 12, 11, 11, 11, 11,
   10, 10, 10, 10, 9, 9, 9, 9, 8, 8, 8, 8, 7, 7, 7, 7, 6, 6, 6, 6, 5, 5, 5, 5, 4, 4, 4, 3, 4, 4, 4, 5, 5, 5, 5, 6, 6,
   6, 6, 7, 7, 7, 7, 8, 8, 8, 8, 9, 9, 9, 9, 10, 10, 10, 10, 11, 11, 11, 11, 12, 12, 12, 12, 13, 13, 13, 13, 14, 14,
   14, 14, 15, 15, 15, 15, 16, 16, 16, 16, 17, 17, 17, 17, 18, 18, 18, 18, 19, 19, 19, 19, 20, 20, 20, 20, 21, 21,
   21, 21, 22, 22, 22, 22, 23, 23, 23, 23, 24, 24, 24, 24, 22]

/-- mgs_moc.py 1947-1991 `code4` -/
def dct4 : List Nat :=
  [4194303, 16252927, 15204351, 16646143, 16777214, 2621439, 8126463, 4063231, 6291454, 1572863, 1835007, 4194300,
   3145726, 786431, 917503, 1572860, 1572862, 262143, 1048573, 786428, 786430, 262141, 393213, 393212, 393214,
   196607, 196605, 196604, 196606, 98303, 98301, 98300, 98302, 49151, 49149, 49148, 49150, 24575, 24573, 24572,
   24574, 12287, 12285, 12284, 12286, 6143, 6141, 6140, 6142, 3071, 3069, 3068, 3070, 1535, 1533, 1532, 1534, 767,
   765, 764, 766, 383, 381, 380, 382, 191, 189, 188, 190, 95, 93, 92, 94, 47, 45, 44, 46, 23, 21, 20, 22, 9, 8, 10,
   3, 2, 0, 1, 6, 4, 5, 7, 14, 12, 13, 15, 30, 28, 29, 31, 62, 60, 61, 63, 126, 124, 125, 127, 254, 252, 253, 255,
   510, 508, 509, 511, 1022, 1020, 1021, 1023, 2046, 2044, 2045, 2047, 4094, 4092, 4093, 4095, 8190, 8188, 8189,
   8191, 16382, 16380, 16381, 16383, 32766, 32764, 32765, 32767, 65534, 65532, 65533, 65535, 131070, 131068, 131069,
   131071, 262142, 262140, 524285, 393215, 524286, 524284, 1048572, 1048575, 1048574, 2097148, 1966079, 524287,
   2097150, 4194302, 3932159, 3670015, 8388606, 8257535, 6815743, 7864319, 2097151]

/-- mgs_moc.py 1995-2027 `num5` -/
def num5 : List Nat :=
  [21, 24, 24, 24, 24, 24, 24, 23, 23, 23, 23, 23, 23, 22, 22, 22, 22, 22, 22, 22, 21, 21, 21, 21, 21, 20, 20, 20, 20,
   20, 20, 19, 19, 19, 19, 19, 19, 18, 18, 18, 18, 18, 18, 17, 17, 17, 17, 17, 17, 16, 16, 16, 16, 16, 16, 15, 15,
   15, 15, 15, 15, 14, 14, 14, 14, 14, 14, 13, 13, 13, 13, 13, 13, 12, 12, 12, 12, 12, 12, 11, 11, 11, 11, 11, 11,
   10, 10, 10, 10, 10, 10, 9, 9, 9, 9, 9, 9, 8, 8, 8, 8, 8, 8, 7, 7, 7, 7, 7, 7, 6, 6, 6, 6, 6, 6, 5, 5, 5, 5, 5, 5,
   5, 4, 4, 4, 5, 5, 5, 5, 5, 5, 5, 6, 6, 6, 6, 6, 6, 7, 7, 7, 7, 7, 7, 8, 8, 8, 8, 8, 8, 9, 9, 9, 9, 9, 9, 10, 10,
   10, 10, 10, 10, 11, 11, 11, 11, 11, 11, 12, 12, 12, 12, 12, 12, 13, 13, 13, 13, 13, 13, 14, 14, 14, 14, 14, 14,
   15, 15, 15, 15, 15, 15, 16, 16, 16, 16, 16, 16, 17, 17, 17, 17, 17, 17, 18, 18, 18, 18, 18, 18, 19, 19, 19, 19,
   19, 19, 20, 20, 20, 20, 20, 20, 21, 21, 21, 21, 21, 21, 22, 22, 22, 22, 22, 22, 23, 23, 23, 23, 23, 23, 24, 24,
   24, 24, 24, 24, 21]

/-- mgs_moc.py 2031-2093 `code5` -/
def dct5 : List Nat :=
  [2097151, 16777213, 16777214, 16777210, 16744442, 16777212, 16777208, 6291453, 4194301, 8372222, 4161530, 6291452,
   4194300, 3670015, 4186109, 2080766, 2064378, 3145724, 3145720, 2097144, 1048573, 1032190, 1048570, 1572860,
   1572856, 786431, 524285, 507902, 491514, 786428, 786424, 393215, 262141, 262142, 229370, 393212, 393208, 196607,
   122877, 131070, 98298, 196604, 196600, 98303, 65533, 65534, 32762, 98300, 98296, 49151, 24573, 16382, 49146,
   49148, 49144, 24575, 8189, 24574, 24570, 24572, 24568, 12287, 12285, 12286, 12282, 12284, 12280, 6143, 6141, 6142,
   6138, 6140, 6136, 3071, 3069, 3070, 3066, 3068, 3064, 1535, 1533, 1534, 1530, 1532, 1528, 767, 765, 766, 762, 764,
   760, 383, 381, 382, 378, 380, 376, 191, 189, 190, 186, 188, 184, 95, 93, 94, 90, 92, 88, 47, 45, 46, 42, 44, 40,
   23, 21, 25, 22, 18, 20, 16, 11, 1, 3, 0, 4, 2, 6, 9, 5, 7, 8, 12, 10, 14, 13, 15, 24, 28, 26, 30, 29, 31, 56, 60,
   58, 62, 61, 63, 120, 124, 122, 126, 125, 127, 248, 252, 250, 254, 253, 255, 504, 508, 506, 510, 509, 511, 1016,
   1020, 1018, 1022, 1021, 1023, 2040, 2044, 2042, 2046, 2045, 2047, 4088, 4092, 4090, 4094, 4093, 4095, 8184, 8188,
   8186, 8190, 16381, 8191, 16376, 16380, 16378, 32766, 32765, 16383, 32760, 32764, 65530, 49150, 57341, 32767,
   65528, 65532, 131066, 114686, 131069, 65535, 131064, 131068, 262138, 245758, 253949, 131071, 262136, 262140,
   524282, 524286, 516093, 262143, 524280, 524284, 1015802, 1048574, 1040381, 524287, 1048568, 1048572, 2097146,
   2097150, 2088957, 1572863, 4194296, 2097148, 4194298, 4177918, 4194302, 2097149, 8388600, 8388604, 8355834,
   8388602, 8388606, 8388605, 1048575]

/-- mgs_moc.py 2097-2148 `num6` -/
def num6 : List Nat :=
  [21, 24, 24, 24, 24, 24, 24, 24, 24, 24, 23, 23, 23, 23, 23, 23, 23, 23, 23, 23, 22, 22, 22, 22, 22, 22, 22, 22, 22,
   22, 22, 21, 21, 21, 21, 21, 21, 21, 21, 21, 21, 20, 20, 20, 20, 20, 20, 20, 20, 20, 20, 19, 19, 19, 19, 19, 19,
   19, 19, 19, 19, 18, 18, 18, 18, 18, 18, 18, 18, 18, 18, 17, 17, 17, 17, 17, 17, 17, 17, 17, 17, 16, 16, 16, 16,
   16, 16, 16, 16, 16, 16, 15, 15, 15, 15, 15, 15, 15, 15, 15, 15, 14, 14, 14, 14, 14, 14, 14, 14, 14, 14, 13, 13,
   13, 13, 13, 13, 13, 13, 13, 13, 12, 12, 12, 12, 12, 12, 12, 12, 12, 12, 11, 11, 11, 11, 11, 11, 11, 11, 11, 11,
   10, 10, 10, 10, 10, 10, 10, 10, 10, 10, 9, 9, 9, 9, 9, 9, 9, 9, 9, 9, 8, 8, 8, 8, 8, 8, 8, 8, 8, 8, 7, 7, 7, 7, 7,
   7, 7, 7, 7, 7, 6, 6, 6, 6, 6, 6, 6, 6, 6, 6, 6, 5, 5, 5, 5, 5, 5, 5, 5, 5, 5, 5, 6, 6, 6, 6, 6, 6, 6, 6, 6, 6, 6,
   7, 7, 7, 7, 7, 7, 7, 7, 7, 7, 8, 8, 8, 8, 8, 8, 8, 8, 8, 8, 9, 9, 9, 9, 9, 9, 9, 9, 9, 9, 10, 10, 10, 10, 10, 10,
   10, 10, 10, 10, 11, 11, 11, 11, 11, 11, 11, 11, 11, 11, 12, 12, 12, 12, 12, 12, 12, 12, 12, 12, 13, 13, 13, 13,
   13, 13, 13, 13, 13, 13, 14, 14, 14, 14, 14, 14, 14, 14, 14, 14, 15, 15, 15, 15, 15, 15, 15, 15, 15, 15, 16, 16,
   16, 16, 16, 16, 16, 16, 16, 16, 17, 17, 17, 17, 17, 17, 17, 17, 17, 17, 18, 18, 18, 18, 18, 18, 18, 18, 18, 18,
   19, 19, 19, 19, 19, 19, 19, 19, 19, 19, 20, 20, 20, 20, 20, 20, 20, 20, 20, 20, 21, 21, 21, 21, 21, 21, 21, 21,
   21, 21, 22, 22, 22, 22, 22, 22, 22, 22, 22, 22, 23, 23, 23, 23, 23, 23, 23, 23, 23, 23, 23, 24, 24, 24, 24, 24,
   24, 24, 24, 24, 21]

/-- mgs_moc.py 2152-2252 `code6` -/
def dct6 : List Nat :=
  [2097151, 16777214, 16777212, 16777208, 16760824, 16777213, 16777209, 16777211, 16777203, 16777207, 8388602,
   6291454, 4194300, 8380412, 4194296, 6291453, 4194301, 7340027, 4194299, 6291447, 2097146, 4190202, 4186110,
   2088956, 2097144, 3145725, 3145721, 1048571, 2097147, 3670015, 4186103, 1044474, 1040382, 1040380, 1048568,
   1572861, 1572857, 1572859, 1572851, 1048563, 1048567, 520186, 524286, 524284, 507896, 786429, 786425, 786427,
   786419, 786431, 516087, 258042, 253950, 262140, 245752, 393213, 393209, 393211, 393203, 393215, 262135, 126970,
   122878, 131068, 114680, 196605, 196601, 196603, 196595, 196607, 122871, 65530, 65534, 57340, 49144, 98301, 98297,
   98299, 98291, 98303, 65527, 28666, 32766, 32764, 16376, 49149, 49145, 49147, 49139, 49151, 24567, 16378, 8190,
   16380, 24568, 24573, 24569, 24571, 24563, 24575, 8183, 8186, 12286, 12284, 12280, 12285, 12281, 12283, 12275,
   12287, 12279, 6138, 6142, 6140, 6136, 6141, 6137, 6139, 6131, 6143, 6135, 3066, 3070, 3068, 3064, 3069, 3065,
   3067, 3059, 3071, 3063, 1530, 1534, 1532, 1528, 1533, 1529, 1531, 1523, 1535, 1527, 762, 766, 764, 760, 765, 761,
   763, 755, 767, 759, 378, 382, 380, 376, 381, 377, 379, 371, 383, 375, 186, 190, 188, 184, 189, 185, 187, 179, 191,
   183, 90, 94, 92, 88, 93, 89, 91, 83, 95, 87, 42, 46, 44, 40, 45, 41, 49, 43, 35, 47, 39, 18, 22, 20, 16, 21, 1, 5,
   0, 4, 6, 2, 7, 15, 3, 11, 17, 9, 13, 8, 12, 14, 10, 23, 31, 19, 27, 25, 29, 24, 28, 30, 26, 55, 63, 51, 59, 57,
   61, 56, 60, 62, 58, 119, 127, 115, 123, 121, 125, 120, 124, 126, 122, 247, 255, 243, 251, 249, 253, 248, 252, 254,
   250, 503, 511, 499, 507, 505, 509, 504, 508, 510, 506, 1015, 1023, 1011, 1019, 1017, 1021, 1016, 1020, 1022, 1018,
   2039, 2047, 2035, 2043, 2041, 2045, 2040, 2044, 2046, 2042, 4087, 4095, 4083, 4091, 4089, 4093, 4088, 4092, 4094,
   4090, 16375, 8191, 8179, 8187, 8185, 8189, 8184, 8188, 16382, 12282, 32759, 16383, 16371, 16379, 16377, 16381,
   32760, 24572, 24574, 32762, 57335, 32767, 32755, 32763, 32761, 32765, 65528, 65532, 57342, 61434, 131063, 65535,
   65523, 65531, 65529, 65533, 131064, 122876, 131070, 131066, 253943, 131071, 131059, 131067, 131065, 131069,
   262136, 253948, 262142, 262138, 524279, 262143, 262131, 262139, 262137, 262141, 524280, 516092, 516094, 524282,
   1040375, 524287, 524275, 524283, 524281, 524285, 1032184, 1048572, 1048574, 1048570, 2088951, 1572863, 2097139,
   2097145, 1048569, 1048573, 2080760, 2097148, 2088958, 2093050, 4194295, 2097143, 4194291, 3145723, 4194297,
   2097149, 4177912, 4186108, 4194302, 2097150, 4194298, 8388599, 8388595, 8388603, 8388601, 8388605, 8372216,
   8388600, 8388604, 8388606, 1048575]

/-- mgs_moc.py 2256-2334 `num7` -/
def num7 : List Nat :=
  [20, 24, 24, 24, 24, 24, 24, 24, 24, 24, 24, 24, 24, 24, 24, 24, 24, 23, 23, 23, 23, 23, 23, 23, 23, 23, 23, 23, 23,
   23, 23, 23, 23, 22, 22, 22, 22, 22, 22, 22, 22, 22, 22, 22, 22, 22, 22, 22, 22, 21, 21, 21, 21, 21, 21, 21, 21,
   21, 21, 21, 21, 21, 21, 21, 21, 20, 20, 20, 20, 20, 20, 20, 20, 20, 20, 20, 20, 20, 20, 20, 20, 19, 19, 19, 19,
   19, 19, 19, 19, 19, 19, 19, 19, 19, 19, 19, 19, 18, 18, 18, 18, 18, 18, 18, 18, 18, 18, 18, 18, 18, 18, 18, 18,
   17, 17, 17, 17, 17, 17, 17, 17, 17, 17, 17, 17, 17, 17, 17, 17, 16, 16, 16, 16, 16, 16, 16, 16, 16, 16, 16, 16,
   16, 16, 16, 16, 15, 15, 15, 15, 15, 15, 15, 15, 15, 15, 15, 15, 15, 15, 15, 15, 14, 14, 14, 14, 14, 14, 14, 14,
   14, 14, 14, 14, 14, 14, 14, 14, 13, 13, 13, 13, 13, 13, 13, 13, 13, 13, 13, 13, 13, 13, 13, 13, 12, 12, 12, 12,
   12, 12, 12, 12, 12, 12, 12, 12, 12, 12, 12, 12, 11, 11, 11, 11, 11, 11, 11, 11, 11, 11, 11, 11, 11, 11, 11, 11,
   10, 10, 10, 10, 10, 10, 10, 10, 10, 10, 10, 10, 10, 10, 10, 10, 9, 9, 9, 9, 9, 9, 9, 9, 9, 9, 9, 9, 9, 9, 9, 9, 8,
   8, 8, 8, 8, 8, 8, 8, 8, 8, 8, 8, 8, 8, 8, 8, 7, 7, 7, 7, 7, 7, 7, 7, 7, 7, 7, 7, 7, 7, 7, 6, 6, 6, 6, 6, 6, 6, 6,
   6, 6, 6, 6, 6, 6, 6, 6, 6, 6, 6, 6, 6, 6, 6, 6, 6, 6, 6, 6, 6, 6, 6, 6, 6, 7, 7, 7, 7, 7, 7, 7, 7, 7, 7, 7, 7, 7,
   7, 7, 8, 8, 8, 8, 8, 8, 8, 8, 8, 8, 8, 8, 8, 8, 8, 8, 9, 9, 9, 9, 9, 9, 9, 9, 9, 9, 9, 9, 9, 9, 9, 9, 10, 10, 10,
   10, 10, 10, 10, 10, 10, 10, 10, 10, 10, 10, 10, 10, 11, 11, 11, 11, 11, 11, 11, 11, 11, 11, 11, 11, 11, 11, 11,
   11, 12, 12, 12, 12, 12, 12, 12, 12, 12, 12, 12, 12, 12, 12, 12, 12, 13, 13, 13, 13, 13, 13, 13, 13, 13, 13, 13,
   13, 13, 13, 13, 13, 14, 14, 14, 14, 14, 14, 14, 14, 14, 14, 14, 14, 14, 14, 14, 14, 15, 15, 15, 15, 15, 15, 15,
   15, 15, 15, 15, 15, 15, 15, 15, 15, 16, 16, 16, 16, 16, 16, 16, 16, 16, 16, 16, 16, 16, 16, 16, 16, 17, 17, 17,
   17, 17, 17, 17, 17, 17, 17, 17, 17, 17, 17, 17, 17, 18, 18, 18, 18, 18, 18, 18, 18, 18, 18, 18, 18, 18, 18, 18,
   18, 19, 19, 19, 19, 19, 19, 19, 19, 19, 19, 19, 19, 19, 19, 19, 19, 20, 20, 20, 20, 20, 20, 20, 20, 20, 20, 20,
   20, 20, 20, 20, 20, 21, 21, 21, 21, 21, 21, 21, 21, 21, 21, 21, 21, 21, 21, 21, 21, 22, 22, 22, 22, 22, 22, 22,
   22, 22, 22, 22, 22, 22, 22, 22, 22, 23, 23, 23, 23, 23, 23, 23, 23, 23, 23, 23, 23, 23, 23, 23, 23, 24, 24, 24,
   24, 24, 24, 24, 24, 24, 24, 24, 24, 24, 24, 24, 24, 20]

/-- mgs_moc.py 2338-2492 `code7` -/
def dct7 : List Nat :=
  [1048575, 16777213, 15728637, 16777205, 16777209, 16777201, 16777211, 16777203, 16777207, 16646143, 15597567,
   16777214, 16777210, 16777212, 16252924, 16777208, 16777200, 3145725, 7864309, 4194297, 6291449, 4194299, 8126459,
   4194295, 6291447, 3014655, 8126462, 4194302, 6291450, 4194300, 8388596, 4194288, 6291440, 1048573, 2097141,
   3670009, 3932145, 2097147, 1835003, 3145715, 3145719, 1966079, 1835006, 3932154, 4194290, 2097148, 2097144,
   3145720, 3145712, 1572861, 1048565, 1048569, 786417, 786427, 1834995, 1834999, 1835007, 2097142, 1048574, 1048570,
   1048562, 1048564, 1572852, 1572856, 1572848, 786429, 786421, 786425, 524273, 524283, 524275, 262135, 262143,
   262142, 524286, 524282, 786418, 786428, 786420, 786424, 786416, 393213, 393205, 393209, 393201, 393211, 393203,
   393207, 131071, 393206, 393214, 393210, 393202, 393212, 393204, 393208, 393200, 196605, 196597, 196601, 196593,
   196603, 196595, 196599, 196607, 196598, 196606, 196602, 196594, 196604, 196596, 196600, 196592, 98301, 98293,
   98297, 98289, 98299, 98291, 98295, 98303, 98294, 98302, 98298, 98290, 98300, 98292, 98296, 98288, 49149, 49141,
   49145, 49137, 49147, 49139, 49143, 49151, 49142, 49150, 49146, 49138, 49148, 49140, 49144, 49136, 24573, 24565,
   24569, 24561, 24571, 24563, 24567, 24575, 24566, 24574, 24570, 24562, 24572, 24564, 24568, 24560, 12285, 12277,
   12281, 12273, 12283, 12275, 12279, 12287, 12278, 12286, 12282, 12274, 12284, 12276, 12280, 12272, 6141, 6133,
   6137, 6129, 6139, 6131, 6135, 6143, 6134, 6142, 6138, 6130, 6140, 6132, 6136, 6128, 3069, 3061, 3065, 3057, 3067,
   3059, 3063, 3071, 3062, 3070, 3066, 3058, 3068, 3060, 3064, 3056, 1533, 1525, 1529, 1521, 1531, 1523, 1527, 1535,
   1526, 1534, 1530, 1522, 1532, 1524, 1528, 1520, 765, 757, 761, 753, 763, 755, 759, 767, 758, 766, 762, 754, 764,
   756, 760, 752, 381, 373, 377, 369, 379, 371, 375, 383, 374, 382, 378, 370, 380, 372, 376, 368, 189, 181, 185, 177,
   187, 179, 183, 191, 182, 190, 186, 178, 188, 180, 184, 176, 93, 85, 89, 81, 91, 83, 87, 95, 86, 94, 90, 82, 92,
   84, 88, 45, 37, 41, 33, 43, 35, 39, 47, 38, 46, 42, 34, 44, 36, 40, 32, 16, 0, 8, 4, 12, 2, 10, 14, 6, 15, 7, 3,
   11, 1, 9, 5, 13, 24, 20, 28, 18, 26, 30, 22, 31, 23, 19, 27, 17, 25, 21, 29, 48, 56, 52, 60, 50, 58, 62, 54, 63,
   55, 51, 59, 49, 57, 53, 61, 112, 120, 116, 124, 114, 122, 126, 118, 127, 119, 115, 123, 113, 121, 117, 125, 240,
   248, 244, 252, 242, 250, 254, 246, 255, 247, 243, 251, 241, 249, 245, 253, 496, 504, 500, 508, 498, 506, 510, 502,
   511, 503, 499, 507, 497, 505, 501, 509, 1008, 1016, 1012, 1020, 1010, 1018, 1022, 1014, 1023, 1015, 1011, 1019,
   1009, 1017, 1013, 1021, 2032, 2040, 2036, 2044, 2034, 2042, 2046, 2038, 2047, 2039, 2035, 2043, 2033, 2041, 2037,
   2045, 4080, 4088, 4084, 4092, 4082, 4090, 4094, 4086, 4095, 4087, 4083, 4091, 4081, 4089, 4085, 4093, 8176, 8184,
   8180, 8188, 8178, 8186, 8190, 8182, 8191, 8183, 8179, 8187, 8177, 8185, 8181, 8189, 16368, 16376, 16372, 16380,
   16370, 16378, 16382, 16374, 16383, 16375, 16371, 16379, 16369, 16377, 16373, 16381, 32752, 32760, 32756, 32764,
   32754, 32762, 32766, 32758, 32767, 32759, 32755, 32763, 32753, 32761, 32757, 32765, 65520, 65528, 65524, 65532,
   65522, 65530, 65534, 65526, 65535, 65527, 65523, 65531, 65521, 65529, 65525, 65533, 131056, 131064, 131060,
   131068, 131058, 131066, 131070, 131062, 262134, 131063, 131059, 131067, 131057, 131065, 131061, 131069, 262128,
   262136, 262132, 262140, 262130, 524274, 262138, 524278, 393215, 524279, 262131, 262139, 262129, 262137, 262133,
   262141, 524272, 524280, 524276, 524284, 1048572, 786426, 786430, 1048566, 786431, 786423, 786419, 1048571,
   1048561, 524281, 524277, 524285, 1048560, 1048568, 2097140, 1572860, 2097138, 1835002, 2097150, 917503, 1048567,
   1048563, 2097139, 2097137, 1834993, 1572857, 1572853, 2097149, 2097136, 4194296, 4194292, 3670012, 2097146,
   4194298, 3932158, 4063231, 2097143, 4194291, 3932155, 4194289, 2097145, 4194293, 3670005, 4194301, 8388592,
   8388600, 7864316, 8388604, 8388602, 8388606, 7208959, 8257535, 8388599, 8388595, 8388603, 8388593, 8388601,
   8388597, 7340029, 8388605, 524287]

/-- mgs_moc.py 2500-2502 `sizes` -/
def sizes : List Nat :=
  [25, 47, 69, 109, 169, 247, 395, 609]

/-- mgs_moc.py 1764-1781 `cosineDouble`: the doubles nearest to the decimals there, times 2 to the 60 -/
def cosine60 : List Nat :=
  [1152921504606846976, 1147369872436663040, 1130768441178740736, 1103277091691359488, 1065160580698383104,
   1016785991037278336, 958619196450722176, 891220374967787648, 815238614083298944, 731405659690429184,
   640528868967736320, 543483435088187072, 441203958630471872, 334675446864527744, 224923827593068896,
   113006068906017472]

end Verif.Moc
