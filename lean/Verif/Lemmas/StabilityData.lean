/-
Generated by tools/gen_stability.py: data for the bound on the amplification of a mode by the extrapolation (C127).  The
data are checked in Lemmas/Stability; the generator is not trusted.
-/
set_option autoImplicit false

namespace DLB.Stability

/-- For one order: a common denominator of the weights, the positive and the negative weights times it with the numbers of
sub-steps, and step sizes and numbers of steps of subdivisions for the upper and the lower bound. -/
structure Order where
  D : Nat
  pos : List (Nat × Nat)
  neg : List (Nat × Nat)
  upper : List (Nat × Nat)
  lower : List (Nat × Nat)

def order1 : Order where
  D := 1
  pos := [(2, 0), (3, 3)]
  neg := [(2, 2), (3, 0)]
  upper := [(504, 2), (704, 2), (992, 2), (1408, 2), (1984, 2), (2816, 2), (3968, 2), (5632, 2), (8192, 2), (12032, 1), (15104, 1), (18944, 1), (24064, 1), (31232, 1), (40960, 1), (55296, 1), (75776, 1), (110592, 1), (167936, 1), (278528, 1), (524288, 1), (1245184, 1), (4718592, 1), (57671680, 1), (26306674688, 1)]
  lower := [(491520, 1), (819200, 1), (1572864, 1), (4325376, 1), (24117248, 1), (461373440, 1)]

def order2 : Order where
  D := 1
  pos := [(2, 2), (3, 0), (4, 8)]
  neg := [(2, 0), (3, 9), (4, 0)]
  upper := [(132, 5), (168, 5), (212, 6), (280, 5), (352, 5), (448, 6), (592, 5), (752, 5), (960, 5), (1216, 5), (1568, 5), (2016, 5), (2624, 5), (3456, 5), (4480, 4), (5760, 4), (7424, 4), (9472, 4), (12800, 3), (16128, 3), (20992, 3), (27648, 3), (37888, 2), (48128, 2), (63488, 2), (86016, 2), (122880, 1), (155648, 1), (200704, 1), (262144, 1), (368640, 1), (557056, 1), (933888, 1), (1900544, 1), (5767168, 1), (40894464, 1), (1241513984, 1)]
  lower := [(112640, 2), (143360, 2), (184320, 2), (249856, 2), (368640, 1), (491520, 1), (720896, 1), (1245184, 1), (2949120, 1), (13631488, 1), (310378496, 1)]

def order3 : Order where
  D := 1
  pos := [(2, 0), (3, 9), (4, 0), (6, 9)]
  neg := [(2, 1), (3, 0), (4, 16), (6, 0)]
  upper := [(72, 10), (92, 9), (116, 10), (148, 9), (188, 9), (236, 9), (296, 9), (376, 9), (480, 9), (608, 9), (768, 9), (992, 9), (1248, 8), (1600, 8), (2016, 8), (2560, 8), (3328, 7), (4224, 7), (5376, 6), (6784, 6), (8704, 5), (11008, 5), (14080, 5), (18432, 4), (23552, 4), (30720, 3), (38912, 3), (51200, 3), (69632, 2), (88064, 2), (116736, 2), (159744, 2), (237568, 1), (311296, 1), (425984, 1), (622592, 1), (1032192, 1), (2162688, 1), (8126464, 1), (109051904, 1)]
  lower := [(60416, 4), (75776, 4), (98304, 3), (124928, 3), (172032, 2), (229376, 2), (335872, 1), (450560, 1), (655360, 1), (1114112, 1), (2490368, 1), (10485760, 1), (180355072, 1)]

def order4 : Order where
  D := 15
  pos := [(2, 5), (3, 0), (4, 240), (6, 0), (8, 256)]
  neg := [(2, 0), (3, 81), (4, 0), (6, 405), (8, 0)]
  upper := [(38, 16), (48, 18), (61, 18), (78, 17), (98, 17), (124, 17), (156, 16), (196, 17), (248, 16), (312, 16), (392, 17), (496, 15), (624, 15), (784, 16), (992, 14), (1248, 14), (1568, 14), (1984, 12), (2496, 12), (3136, 12), (3968, 10), (4992, 10), (6272, 9), (8064, 9), (10240, 7), (13056, 6), (16384, 6), (20992, 6), (27648, 5), (35840, 4), (47104, 3), (59392, 3), (75776, 3), (104448, 2), (135168, 2), (184320, 2), (278528, 1), (368640, 1), (524288, 1), (835584, 1), (1703936, 1), (6422528, 1), (104857600, 1)]
  lower := [(31744, 9), (39936, 7), (51200, 6), (65536, 4), (83968, 4), (112640, 3), (155648, 2), (208896, 2), (311296, 1), (417792, 1), (606208, 1), (1032192, 1), (2424832, 1), (13369344, 1), (486539264, 1)]

def order5 : Order where
  D := 15
  pos := [(2, 0), (3, 27), (4, 0), (6, 405), (8, 0), (12, 216)]
  neg := [(2, 1), (3, 0), (4, 120), (6, 0), (8, 512), (12, 0)]
  upper := [(29, 21), (37, 23), (47, 22), (59, 21), (74, 23), (94, 21), (118, 22), (148, 22), (188, 21), (236, 21), (296, 21), (376, 21), (472, 19), (592, 21), (752, 18), (944, 18), (1184, 19), (1504, 16), (1888, 16), (2368, 15), (3008, 14), (3776, 13), (4736, 12), (6016, 10), (7552, 10), (9472, 9), (12288, 8), (15616, 7), (19968, 6), (25600, 5), (32768, 5), (43008, 4), (56320, 3), (71680, 3), (96256, 2), (124928, 2), (167936, 2), (249856, 1), (327680, 1), (466944, 1), (770048, 1), (1736704, 1), (9961472, 1), (553648128, 1)]
  lower := [(24576, 13), (31232, 10), (39936, 6), (50176, 5), (63488, 4), (79872, 3), (102400, 3), (139264, 2), (188416, 2), (278528, 1), (368640, 1), (540672, 1), (950272, 1), (2555904, 1), (24117248, 1), (5368709120, 1)]

def order6 : Order where
  D := 1365
  pos := [(2, 13), (3, 0), (4, 3640), (6, 0), (8, 46592), (12, 0), (16, 32768)]
  neg := [(2, 0), (3, 567), (4, 0), (6, 22113), (8, 0), (12, 58968), (16, 0)]
  upper := [(21, 34), (27, 31), (34, 32), (43, 30), (54, 31), (68, 31), (86, 30), (108, 31), (136, 31), (172, 29), (216, 29), (272, 30), (344, 28), (432, 28), (544, 27), (688, 26), (864, 25), (1088, 24), (1376, 23), (1728, 21), (2176, 20), (2752, 18), (3456, 17), (4352, 15), (5504, 13), (6912, 12), (8704, 11), (11008, 9), (13824, 8), (17408, 7), (22016, 6), (27648, 5), (34816, 4), (44032, 4), (57344, 3), (73728, 3), (98304, 2), (129024, 2), (180224, 2), (278528, 1), (393216, 1), (638976, 1), (1441792, 1), (10223616, 1), (1509949440, 1)]
  lower := [(17408, 19), (22016, 13), (27648, 9), (34816, 7), (44032, 5), (55296, 4), (69632, 3), (88064, 3), (118784, 2), (155648, 2), (221184, 1), (286720, 1), (401408, 1), (655360, 1), (1507328, 1), (11272192, 1), (2046820352, 1)]

def order7 : Order where
  D := 15015
  pos := [(2, 0), (3, 891), (4, 0), (6, 81081), (8, 0), (12, 648648), (16, 0), (24, 269568)]
  neg := [(2, 13), (3, 0), (4, 8008), (6, 0), (8, 256256), (12, 0), (16, 720896), (24, 0)]
  upper := [(19, 33), (24, 38), (31, 34), (39, 34), (49, 34), (62, 34), (78, 33), (98, 34), (124, 33), (156, 32), (196, 33), (248, 32), (312, 31), (392, 31), (496, 30), (624, 28), (784, 28), (992, 27), (1248, 24), (1568, 24), (1984, 22), (2496, 20), (3136, 19), (3968, 17), (4992, 14), (6272, 14), (7936, 12), (9984, 10), (12544, 9), (16128, 8), (20480, 7), (26624, 5), (33792, 5), (44032, 4), (58368, 3), (75776, 3), (104448, 2), (139264, 2), (204800, 1), (270336, 1), (393216, 1), (688128, 1), (2097152, 1), (41943040, 1), (33822867456, 1)]
  lower := [(15872, 21), (19968, 14), (25088, 11), (32256, 8), (40960, 5), (52224, 4), (65536, 4), (88064, 2), (110592, 2), (143360, 2), (208896, 1), (270336, 1), (393216, 1), (671744, 1), (1998848, 1), (36700160, 1), (33822867456, 1)]

def order8 : Order where
  D := 6531525
  pos := [(2, 377), (3, 0), (4, 497640), (6, 0), (8, 37157120), (12, 0), (16, 313589760), (24, 0), (32, 184549376)]
  neg := [(2, 0), (3, 40095), (4, 0), (6, 8139285), (8, 0), (12, 169297128), (16, 0), (24, 351786240), (32, 0)]
  upper := [(15, 37), (19, 42), (24, 48), (31, 41), (39, 42), (49, 42), (62, 41), (78, 41), (98, 42), (124, 40), (156, 40), (196, 40), (248, 39), (312, 37), (392, 38), (496, 35), (624, 34), (784, 34), (992, 31), (1248, 29), (1568, 28), (1984, 25), (2496, 23), (3136, 22), (3968, 18), (4992, 17), (6272, 15), (7936, 12), (9984, 11), (12544, 10), (16128, 8), (20480, 7), (26112, 5), (32768, 5), (43008, 4), (56320, 3), (71680, 2), (90112, 2), (118784, 2), (167936, 1), (212992, 1), (294912, 1), (466944, 1), (1048576, 1), (9961472, 1), (17716740096, 1)]
  lower := [(12800, 27), (16128, 18), (20480, 13), (26112, 9), (32768, 7), (43008, 5), (55296, 4), (73728, 3), (96256, 2), (124928, 2), (176128, 1), (225280, 1), (311296, 1), (499712, 1), (1179648, 1), (13893632, 1), (33822867456, 1)]

def order9 : Order where
  D := 150225075
  pos := [(2, 0), (3, 61479), (4, 0), (6, 26743365), (8, 0), (12, 1297944648), (16, 0), (24, 8091083520), (32, 0), (48, 3001909248)]
  neg := [(2, 377), (3, 0), (4, 1040520), (6, 0), (8, 170922752), (12, 0), (16, 3606282240), (24, 0), (32, 8489271296), (48, 0)]
  upper := [(15, 38), (19, 43), (24, 48), (31, 42), (39, 42), (49, 43), (62, 41), (78, 41), (98, 42), (124, 41), (156, 40), (196, 40), (248, 39), (312, 38), (392, 38), (496, 36), (624, 35), (784, 34), (992, 31), (1248, 30), (1568, 28), (1984, 26), (2496, 23), (3136, 21), (3968, 19), (4992, 17), (6272, 15), (7936, 12), (9984, 11), (12544, 9), (15872, 8), (19968, 7), (25600, 5), (32256, 5), (41984, 4), (55296, 3), (71680, 2), (90112, 2), (118784, 2), (172032, 1), (229376, 1), (327680, 1), (589824, 1), (2228224, 1), (115343360, 1)]
  lower := [(12544, 27), (15872, 18), (19968, 12), (25088, 9), (31744, 7), (39936, 5), (51200, 4), (65536, 3), (86016, 2), (110592, 2), (147456, 2), (233472, 1), (335872, 1), (589824, 1), (2162688, 1), (104857600, 1)]

def order10 : Order where
  D := 284075616825
  pos := [(2, 22997), (3, 0), (4, 131174888), (6, 0), (8, 46173560576), (12, 0), (16, 2273159905280), (24, 0), (32, 16053212020736), (48, 0), (64, 8693013807104)]
  neg := [(2, 0), (3, 5717547), (4, 0), (6, 5231555505), (8, 0), (12, 566403076008), (16, 0), (24, 9180143361792), (32, 0), (48, 17029831163904), (64, 0)]
  upper := [(13, 52), (17, 55), (22, 52), (28, 53), (36, 52), (46, 49), (58, 51), (74, 50), (94, 46), (118, 46), (148, 48), (188, 45), (236, 44), (296, 46), (376, 42), (472, 40), (592, 41), (752, 38), (944, 35), (1184, 35), (1504, 30), (1888, 28), (2368, 28), (3008, 23), (3776, 20), (4736, 19), (6016, 16), (7552, 13), (9472, 12), (12032, 10), (15104, 8), (18944, 7), (24064, 6), (31232, 5), (39936, 4), (52224, 3), (67584, 3), (94208, 2), (129024, 2), (196608, 1), (270336, 1), (442368, 1), (1146880, 1), (21495808, 1), (33822867456, 1)]
  lower := [(11008, 32), (13824, 21), (17408, 14), (22016, 10), (27648, 7), (34816, 6), (45056, 4), (57344, 4), (77824, 3), (108544, 2), (147456, 1), (188416, 1), (253952, 1), (393216, 1), (851968, 1), (9175040, 1), (33822867456, 1)]

def order11 : Order where
  D := 13351553990775
  pos := [(2, 0), (3, 8668539), (4, 0), (6, 16392207249), (8, 0), (12, 3802992081768), (16, 0), (24, 143822246001408), (32, 0), (48, 800402064703488), (64, 0), (96, 281266888900608)]
  neg := [(2, 22997), (3, 0), (4, 268053032), (6, 0), (8, 197287031552), (12, 0), (16, 21367703109632), (24, 0), (32, 377250482487296), (48, 0), (64, 817143297867776), (96, 0)]
  upper := [(13, 43), (17, 54), (22, 50), (28, 52), (36, 50), (46, 47), (58, 49), (74, 48), (94, 45), (118, 45), (148, 47), (188, 43), (236, 43), (296, 44), (376, 41), (472, 39), (592, 40), (752, 37), (944, 34), (1184, 34), (1504, 30), (1888, 28), (2368, 27), (3008, 22), (3776, 20), (4736, 19), (6016, 16), (7552, 13), (9472, 12), (12032, 10), (15360, 8), (19456, 7), (24576, 6), (32256, 5), (41984, 4), (56320, 3), (73728, 2), (96256, 2), (131072, 2), (204800, 1), (294912, 1), (524288, 1), (2162688, 1), (192937984, 1)]
  lower := [(11264, 32), (14336, 22), (18432, 13), (23552, 9), (29696, 7), (37888, 5), (48128, 4), (62464, 3), (79872, 2), (102400, 2), (139264, 2), (217088, 1), (311296, 1), (573440, 1), (2883584, 1), (637534208, 1)]

def order12 : Order where
  D := 105143487677353125
  pos := [(2, 2874625), (3, 0), (4, 68094117000), (6, 0), (8, 103575691564800), (12, 0), (16, 24038665998336000), (24, 0), (32, 990282516529152000), (48, 0), (64, 6435003470708736000), (96, 0), (128, 3347018948066410496)]
  neg := [(2, 0), (3, 1638353871), (4, 0), (6, 6348621250125), (8, 0), (12, 3098127170061000), (16, 0), (24, 261369273983328000), (32, 0), (48, 3781899755723980800), (64, 0), (96, 6644930250276864000), (128, 0)]
  upper := [(12, 60), (16, 64), (21, 58), (27, 52), (34, 53), (43, 52), (54, 52), (68, 52), (86, 51), (108, 50), (136, 51), (172, 49), (216, 48), (272, 49), (344, 45), (432, 45), (544, 44), (688, 40), (864, 39), (1088, 37), (1376, 34), (1728, 31), (2176, 29), (2752, 25), (3456, 23), (4352, 20), (5504, 17), (6912, 15), (8704, 13), (11008, 10), (13824, 9), (17408, 7), (22016, 6), (27648, 5), (34816, 4), (45056, 4), (60416, 3), (81920, 2), (108544, 2), (159744, 1), (208896, 1), (311296, 1), (589824, 1), (3801088, 1), (3959422976, 1)]
  lower := [(10240, 38), (13056, 21), (16384, 16), (20992, 10), (26624, 8), (33792, 5), (43008, 4), (54272, 4), (73728, 3), (102400, 2), (139264, 1), (176128, 1), (237568, 1), (368640, 1), (819200, 1), (10747904, 1), (33822867456, 1)]

def order (k : Nat) : Order :=
  match k with
  | 2 => order2
  | 3 => order3
  | 4 => order4
  | 5 => order5
  | 6 => order6
  | 7 => order7
  | 8 => order8
  | 9 => order9
  | 10 => order10
  | 11 => order11
  | 12 => order12
  | _ => order1

end DLB.Stability
