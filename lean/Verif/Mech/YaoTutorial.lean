/- Generated by tools/gen_tutorial.py from tutorials/multicomponentFluid/shearlayer_DLB/constant/reactionsYao. Do not edit. -/
import Verif.Spec.FoamReaction
set_option autoImplicit false

namespace DLB.Mech.Yao
open DLB

/-- The reactions of tutorials/multicomponentFluid/shearlayer_DLB/constant/reactionsYao, in its order. Species are numbered as in utilities/mechanisms/yao/lib/src/mechanism.h. -/
def tutorial : List FoamReaction := [
  /- reactionsYao:3  H + O2 = OH + O -/
  ⟨[1, 8], [3, 2], true, .arrhenius ⟨(97560000000, 0), (0, 0), (74685, 1)⟩⟩,
  /- reactionsYao:11  O + H2 = H + OH -/
  ⟨[2, 5], [1, 3], true, .arrhenius ⟨(4589, 2), (27, 1), (314998, 2)⟩⟩,
  /- reactionsYao:19  OH + H2 = H2O + H -/
  ⟨[3, 5], [6, 1], true, .arrhenius ⟨(102400, 0), (16, 1), (165967, 2)⟩⟩,
  /- reactionsYao:27  OH + OH = O + H2O -/
  ⟨[3, 3], [2, 6], true, .arrhenius ⟨(3973, 2), (24, 1), (-106173, 2)⟩⟩,
  /- reactionsYao:35  H + O2 = HO2 -/
  ⟨[1, 8], [4], true, .falloff ⟨(63280000000000, 0), (-14, 1), (0, 0)⟩ ⟨(5116000000, 0), (44, 2), (0, 0)⟩ (some ⟨(5, 1), (1, 30), (1000000000000000000000000000000, 0), (1000000000000000, 0)⟩) [(53, 1, 0), (0, 4, 1), (1, 1, 0), (2, 1, 0), (3, 1, 0), (4, 1, 0), (5, 1, 0), (6, 1189, 2), (7, 1, 0), (8, 85, 2), (9, 1, 0), (10, 1, 0), (11, 1, 0), (12, 1, 0), (13, 1, 0), (14, 1, 0), (15, 1, 0), (16, 109, 2), (17, 218, 2), (18, 1, 0), (19, 1, 0), (20, 1, 0), (21, 1, 0), (22, 1, 0), (23, 1, 0), (24, 1, 0), (25, 1, 0), (26, 1, 0), (27, 1, 0), (28, 1, 0), (29, 1, 0), (30, 1, 0), (31, 1, 0), (32, 1, 0), (33, 1, 0), (34, 1, 0), (35, 1, 0), (36, 1, 0), (37, 1, 0), (38, 1, 0), (39, 1, 0), (40, 1, 0), (41, 1, 0), (42, 1, 0), (43, 1, 0), (44, 1, 0), (45, 1, 0), (46, 1, 0), (47, 1, 0), (48, 1, 0), (49, 1, 0), (50, 1, 0), (51, 1, 0), (52, 1, 0)]⟩,
  /- reactionsYao:121  HO2 + H = OH + OH -/
  ⟨[4, 1], [3, 3], true, .arrhenius ⟨(74850000000, 0), (0, 0), (148441, 3)⟩⟩,
  /- reactionsYao:129  H2 + O2 = HO2 + H -/
  ⟨[5, 8], [4, 1], true, .arrhenius ⟨(5916, 1), (2433, 3), (269217, 1)⟩⟩,
  /- reactionsYao:137  HO2 + OH = H2O + O2 -/
  ⟨[4, 3], [6, 8], true, .arrhenius ⟨(28910000000, 0), (0, 0), (-252557, 3)⟩⟩,
  /- reactionsYao:145  HO2 + H = O + H2O -/
  ⟨[4, 1], [2, 6], true, .arrhenius ⟨(3970000000, 0), (0, 0), (337641, 3)⟩⟩,
  /- reactionsYao:153  HO2 + O = OH + O2 -/
  ⟨[4, 2], [3, 8], true, .arrhenius ⟨(40000000000, 0), (0, 0), (0, 0)⟩⟩,
  /- reactionsYao:161  HO2 + HO2 = O2 + H2O2 -/
  ⟨[4, 4], [8, 7], true, .arrhenius ⟨(130000000, 0), (0, 0), (-820202, 3)⟩⟩,
  /- reactionsYao:169  HO2 + HO2 = O2 + H2O2 -/
  ⟨[4, 4], [8, 7], true, .arrhenius ⟨(365800000000, 0), (0, 0), (603829, 2)⟩⟩,
  /- reactionsYao:177  H2O2 + H = OH + H2O -/
  ⟨[7, 1], [3, 6], true, .arrhenius ⟨(24100000000, 0), (0, 0), (199767, 2)⟩⟩,
  /- reactionsYao:185  H2O2 + H = HO2 + H2 -/
  ⟨[7, 1], [4, 5], true, .arrhenius ⟨(6050, 0), (2, 0), (261659, 2)⟩⟩,
  /- reactionsYao:193  H2O2 + O = OH + HO2 -/
  ⟨[7, 2], [3, 4], true, .arrhenius ⟨(9630, 0), (2, 0), (199767, 2)⟩⟩,
  /- reactionsYao:201  H2O2 + OH = HO2 + H2O -/
  ⟨[7, 3], [4, 6], true, .arrhenius ⟨(2000000000, 0), (0, 0), (214863, 3)⟩⟩,
  /- reactionsYao:209  H2O2 + OH = HO2 + H2O -/
  ⟨[7, 3], [4, 6], true, .arrhenius ⟨(267000000000000000000000000000000000000, 0), (-7, 0), (18920, 0)⟩⟩,
  /- reactionsYao:217  OH + OH = H2O2 -/
  ⟨[3, 3], [7], true, .falloff ⟨(201000000000, 0), (-584, 3), (-115382, 2)⟩ ⟨(111000000000, 0), (-37, 2), (0, 0)⟩ (some ⟨(7346, 4), (94, 0), (1756, 0), (5182, 0)⟩) [(53, 1, 0), (0, 7, 1), (1, 1, 0), (2, 1, 0), (3, 1, 0), (4, 1, 0), (5, 2, 0), (6, 6, 0), (7, 1, 0), (8, 1, 0), (9, 1, 0), (10, 1, 0), (11, 1, 0), (12, 1, 0), (13, 1, 0), (14, 1, 0), (15, 1, 0), (16, 175, 2), (17, 36, 1), (18, 1, 0), (19, 1, 0), (20, 1, 0), (21, 1, 0), (22, 1, 0), (23, 1, 0), (24, 1, 0), (25, 1, 0), (26, 1, 0), (27, 1, 0), (28, 1, 0), (29, 1, 0), (30, 1, 0), (31, 1, 0), (32, 1, 0), (33, 1, 0), (34, 1, 0), (35, 1, 0), (36, 1, 0), (37, 1, 0), (38, 1, 0), (39, 1, 0), (40, 1, 0), (41, 1, 0), (42, 1, 0), (43, 1, 0), (44, 1, 0), (45, 1, 0), (46, 1, 0), (47, 1, 0), (48, 1, 0), (49, 1, 0), (50, 1, 0), (51, 1, 0), (52, 1, 0)]⟩,
  /- reactionsYao:303  H + H = H2 -/
  ⟨[1, 1], [5], true, .thirdBody ⟨(1780000000000, 0), (-1, 0), (0, 0)⟩ [(53, 1, 0), (0, 63, 2), (1, 1, 0), (2, 1, 0), (3, 1, 0), (4, 1, 0), (5, 0, 0), (6, 0, 0), (7, 1, 0), (8, 1, 0), (9, 1, 0), (10, 1, 0), (11, 1, 0), (12, 1, 0), (13, 1, 0), (14, 1, 0), (15, 1, 0), (16, 1, 0), (17, 0, 0), (18, 1, 0), (19, 1, 0), (20, 1, 0), (21, 1, 0), (22, 1, 0), (23, 1, 0), (24, 1, 0), (25, 1, 0), (26, 1, 0), (27, 1, 0), (28, 1, 0), (29, 1, 0), (30, 1, 0), (31, 1, 0), (32, 1, 0), (33, 1, 0), (34, 1, 0), (35, 1, 0), (36, 1, 0), (37, 1, 0), (38, 1, 0), (39, 1, 0), (40, 1, 0), (41, 1, 0), (42, 1, 0), (43, 1, 0), (44, 1, 0), (45, 1, 0), (46, 1, 0), (47, 1, 0), (48, 1, 0), (49, 1, 0), (50, 1, 0), (51, 1, 0), (52, 1, 0)]⟩,
  /- reactionsYao:370  H + OH = H2O -/
  ⟨[1, 3], [6], true, .thirdBody ⟨(44000000000000000, 0), (-2, 0), (0, 0)⟩ [(53, 1, 0), (0, 38, 2), (1, 1, 0), (2, 1, 0), (3, 1, 0), (4, 1, 0), (5, 2, 0), (6, 63, 1), (7, 1, 0), (8, 1, 0), (9, 1, 0), (10, 1, 0), (11, 1, 0), (12, 1, 0), (13, 1, 0), (14, 1, 0), (15, 1, 0), (16, 175, 2), (17, 36, 1), (18, 1, 0), (19, 1, 0), (20, 1, 0), (21, 1, 0), (22, 1, 0), (23, 1, 0), (24, 1, 0), (25, 1, 0), (26, 1, 0), (27, 1, 0), (28, 1, 0), (29, 1, 0), (30, 1, 0), (31, 1, 0), (32, 1, 0), (33, 1, 0), (34, 1, 0), (35, 1, 0), (36, 1, 0), (37, 1, 0), (38, 1, 0), (39, 1, 0), (40, 1, 0), (41, 1, 0), (42, 1, 0), (43, 1, 0), (44, 1, 0), (45, 1, 0), (46, 1, 0), (47, 1, 0), (48, 1, 0), (49, 1, 0), (50, 1, 0), (51, 1, 0), (52, 1, 0)]⟩,
  /- reactionsYao:437  O + O = O2 -/
  ⟨[2, 2], [8], true, .thirdBody ⟨(120000000000, 0), (-1, 0), (0, 0)⟩ [(53, 1, 0), (0, 83, 2), (1, 1, 0), (2, 1, 0), (3, 1, 0), (4, 1, 0), (5, 24, 1), (6, 154, 1), (7, 1, 0), (8, 1, 0), (9, 1, 0), (10, 1, 0), (11, 1, 0), (12, 1, 0), (13, 1, 0), (14, 1, 0), (15, 1, 0), (16, 175, 2), (17, 36, 1), (18, 1, 0), (19, 1, 0), (20, 1, 0), (21, 1, 0), (22, 1, 0), (23, 1, 0), (24, 1, 0), (25, 1, 0), (26, 1, 0), (27, 1, 0), (28, 1, 0), (29, 1, 0), (30, 1, 0), (31, 1, 0), (32, 1, 0), (33, 1, 0), (34, 1, 0), (35, 1, 0), (36, 1, 0), (37, 1, 0), (38, 1, 0), (39, 1, 0), (40, 1, 0), (41, 1, 0), (42, 1, 0), (43, 1, 0), (44, 1, 0), (45, 1, 0), (46, 1, 0), (47, 1, 0), (48, 1, 0), (49, 1, 0), (50, 1, 0), (51, 1, 0), (52, 1, 0)]⟩,
  /- reactionsYao:504  H + H + H2 = H2 + H2 -/
  ⟨[1, 1, 5], [5, 5], true, .arrhenius ⟨(90000000000, 0), (-6, 1), (0, 0)⟩⟩,
  /- reactionsYao:512  H + H + H2O = H2 + H2O -/
  ⟨[1, 1, 6], [5, 6], true, .arrhenius ⟨(56240000000000, 0), (-125, 2), (0, 0)⟩⟩,
  /- reactionsYao:520  H + H + CO2 = H2 + CO2 -/
  ⟨[1, 1, 17], [5, 17], true, .arrhenius ⟨(550000000000000, 0), (-2, 0), (0, 0)⟩⟩,
  /- reactionsYao:528  O + H = OH -/
  ⟨[2, 1], [3], true, .thirdBody ⟨(9428000000000, 0), (-1, 0), (0, 0)⟩ [(53, 1, 0), (0, 7, 1), (1, 1, 0), (2, 1, 0), (3, 1, 0), (4, 1, 0), (5, 2, 0), (6, 12, 0), (7, 1, 0), (8, 1, 0), (9, 1, 0), (10, 1, 0), (11, 1, 0), (12, 1, 0), (13, 1, 0), (14, 1, 0), (15, 1, 0), (16, 175, 2), (17, 36, 1), (18, 1, 0), (19, 1, 0), (20, 1, 0), (21, 1, 0), (22, 1, 0), (23, 1, 0), (24, 1, 0), (25, 1, 0), (26, 1, 0), (27, 1, 0), (28, 1, 0), (29, 1, 0), (30, 1, 0), (31, 1, 0), (32, 1, 0), (33, 1, 0), (34, 1, 0), (35, 1, 0), (36, 1, 0), (37, 1, 0), (38, 1, 0), (39, 1, 0), (40, 1, 0), (41, 1, 0), (42, 1, 0), (43, 1, 0), (44, 1, 0), (45, 1, 0), (46, 1, 0), (47, 1, 0), (48, 1, 0), (49, 1, 0), (50, 1, 0), (51, 1, 0), (52, 1, 0)]⟩,
  /- reactionsYao:595  CO + OH = CO2 + H -/
  ⟨[16, 3], [17, 1], true, .arrhenius ⟨(7046, 2), (2053, 3), (-17897, 2)⟩⟩,
  /- reactionsYao:603  CO + OH = CO2 + H -/
  ⟨[16, 3], [17, 1], true, .arrhenius ⟨(5757000000, 0), (-664, 3), (166974, 3)⟩⟩,
  /- reactionsYao:611  CO + HO2 = CO2 + OH -/
  ⟨[16, 4], [17, 3], true, .arrhenius ⟨(157, 0), (218, 2), (902856, 2)⟩⟩,
  /- reactionsYao:619  CO + O = CO2 -/
  ⟨[16, 2], [17], true, .falloff ⟨(1173000000000000000, 0), (-279, 2), (210887, 2)⟩ ⟨(13620000, 0), (0, 0), (119961, 2)⟩ none [(53, 1, 0), (0, 7, 1), (1, 1, 0), (2, 1, 0), (3, 1, 0), (4, 1, 0), (5, 2, 0), (6, 12, 0), (7, 1, 0), (8, 1, 0), (9, 1, 0), (10, 1, 0), (11, 1, 0), (12, 1, 0), (13, 1, 0), (14, 1, 0), (15, 1, 0), (16, 175, 2), (17, 36, 1), (18, 1, 0), (19, 1, 0), (20, 1, 0), (21, 1, 0), (22, 1, 0), (23, 1, 0), (24, 1, 0), (25, 1, 0), (26, 1, 0), (27, 1, 0), (28, 1, 0), (29, 1, 0), (30, 1, 0), (31, 1, 0), (32, 1, 0), (33, 1, 0), (34, 1, 0), (35, 1, 0), (36, 1, 0), (37, 1, 0), (38, 1, 0), (39, 1, 0), (40, 1, 0), (41, 1, 0), (42, 1, 0), (43, 1, 0), (44, 1, 0), (45, 1, 0), (46, 1, 0), (47, 1, 0), (48, 1, 0), (49, 1, 0), (50, 1, 0), (51, 1, 0), (52, 1, 0)]⟩,
  /- reactionsYao:701  CO + O2 = CO2 + O -/
  ⟨[16, 8], [17, 2], true, .arrhenius ⟨(1119000000, 0), (0, 0), (240022, 1)⟩⟩,
  /- reactionsYao:709  HCO = CO + H -/
  ⟨[13], [16, 1], true, .thirdBody ⟨(187000000000000, 0), (-1, 0), (855425, 2)⟩ [(53, 1, 0), (0, 1, 0), (1, 1, 0), (2, 1, 0), (3, 1, 0), (4, 1, 0), (5, 2, 0), (6, 0, 0), (7, 1, 0), (8, 1, 0), (9, 1, 0), (10, 1, 0), (11, 1, 0), (12, 1, 0), (13, 1, 0), (14, 1, 0), (15, 1, 0), (16, 175, 2), (17, 36, 1), (18, 1, 0), (19, 1, 0), (20, 1, 0), (21, 1, 0), (22, 1, 0), (23, 1, 0), (24, 1, 0), (25, 1, 0), (26, 1, 0), (27, 1, 0), (28, 1, 0), (29, 1, 0), (30, 1, 0), (31, 1, 0), (32, 1, 0), (33, 1, 0), (34, 1, 0), (35, 1, 0), (36, 1, 0), (37, 1, 0), (38, 1, 0), (39, 1, 0), (40, 1, 0), (41, 1, 0), (42, 1, 0), (43, 1, 0), (44, 1, 0), (45, 1, 0), (46, 1, 0), (47, 1, 0), (48, 1, 0), (49, 1, 0), (50, 1, 0), (51, 1, 0), (52, 1, 0)]⟩,
  /- reactionsYao:776  HCO + H = CO + H2 -/
  ⟨[13, 1], [16, 5], true, .arrhenius ⟨(120000000000, 0), (0, 0), (0, 0)⟩⟩,
  /- reactionsYao:784  HCO + O = CO + OH -/
  ⟨[13, 2], [16, 3], true, .arrhenius ⟨(30000000000, 0), (0, 0), (0, 0)⟩⟩,
  /- reactionsYao:792  HCO + O = CO2 + H -/
  ⟨[13, 2], [17, 1], true, .arrhenius ⟨(30000000000, 0), (0, 0), (0, 0)⟩⟩,
  /- reactionsYao:800  HCO + OH = CO + H2O -/
  ⟨[13, 3], [16, 6], true, .arrhenius ⟨(30200000000, 0), (0, 0), (0, 0)⟩⟩,
  /- reactionsYao:808  HCO + O2 = CO + HO2 -/
  ⟨[13, 8], [16, 4], true, .arrhenius ⟨(12040000, 0), (807, 3), (-36582, 2)⟩⟩,
  /- reactionsYao:816  HCO + H2O = CO + H + H2O -/
  ⟨[13, 6], [16, 1, 6], true, .arrhenius ⟨(2244000000000000, 0), (-1, 0), (855425, 2)⟩⟩,
  /- reactionsYao:824  CO + H2 = CH2O -/
  ⟨[16, 5], [14], true, .falloff ⟨(5070000000000000000000, 0), (-342, 2), (424442, 1)⟩ ⟨(43000, 0), (15, 1), (40054, 0)⟩ (some ⟨(932, 3), (197, 0), (1540, 0), (10300, 0)⟩) [(53, 1, 0), (0, 7, 1), (1, 1, 0), (2, 1, 0), (3, 1, 0), (4, 1, 0), (5, 2, 0), (6, 6, 0), (7, 1, 0), (8, 1, 0), (9, 1, 0), (10, 1, 0), (11, 1, 0), (12, 2, 0), (13, 1, 0), (14, 1, 0), (15, 1, 0), (16, 15, 1), (17, 2, 0), (18, 1, 0), (19, 1, 0), (20, 1, 0), (21, 1, 0), (22, 3, 0), (23, 1, 0), (24, 1, 0), (25, 1, 0), (26, 1, 0), (27, 1, 0), (28, 1, 0), (29, 1, 0), (30, 1, 0), (31, 1, 0), (32, 1, 0), (33, 1, 0), (34, 1, 0), (35, 1, 0), (36, 1, 0), (37, 1, 0), (38, 1, 0), (39, 1, 0), (40, 1, 0), (41, 1, 0), (42, 1, 0), (43, 1, 0), (44, 1, 0), (45, 1, 0), (46, 1, 0), (47, 1, 0), (48, 1, 0), (49, 1, 0), (50, 1, 0), (51, 1, 0), (52, 1, 0)]⟩,
  /- reactionsYao:910  HCO + H = CH2O -/
  ⟨[13, 1], [14], true, .falloff ⟨(1350000000000000000, 0), (-257, 2), (717048, 3)⟩ ⟨(1090000000, 0), (48, 2), (-13083, 2)⟩ (some ⟨(7824, 4), (271, 0), (2755, 0), (6570, 0)⟩) [(53, 1, 0), (0, 7, 1), (1, 1, 0), (2, 1, 0), (3, 1, 0), (4, 1, 0), (5, 2, 0), (6, 6, 0), (7, 1, 0), (8, 1, 0), (9, 1, 0), (10, 1, 0), (11, 1, 0), (12, 2, 0), (13, 1, 0), (14, 1, 0), (15, 1, 0), (16, 15, 1), (17, 2, 0), (18, 1, 0), (19, 1, 0), (20, 1, 0), (21, 1, 0), (22, 3, 0), (23, 1, 0), (24, 1, 0), (25, 1, 0), (26, 1, 0), (27, 1, 0), (28, 1, 0), (29, 1, 0), (30, 1, 0), (31, 1, 0), (32, 1, 0), (33, 1, 0), (34, 1, 0), (35, 1, 0), (36, 1, 0), (37, 1, 0), (38, 1, 0), (39, 1, 0), (40, 1, 0), (41, 1, 0), (42, 1, 0), (43, 1, 0), (44, 1, 0), (45, 1, 0), (46, 1, 0), (47, 1, 0), (48, 1, 0), (49, 1, 0), (50, 1, 0), (51, 1, 0), (52, 1, 0)]⟩,
  /- reactionsYao:996  CH2 + H = CH3 -/
  ⟨[9, 1], [11], true, .falloff ⟨(3200000000000000000000, 0), (-314, 2), (618925, 3)⟩ ⟨(25000000000000, 0), (-8, 1), (0, 0)⟩ (some ⟨(68, 2), (78, 0), (1995, 0), (5590, 0)⟩) [(53, 1, 0), (0, 7, 1), (1, 1, 0), (2, 1, 0), (3, 1, 0), (4, 1, 0), (5, 2, 0), (6, 6, 0), (7, 1, 0), (8, 1, 0), (9, 1, 0), (10, 1, 0), (11, 1, 0), (12, 2, 0), (13, 1, 0), (14, 1, 0), (15, 1, 0), (16, 15, 1), (17, 2, 0), (18, 1, 0), (19, 1, 0), (20, 1, 0), (21, 1, 0), (22, 3, 0), (23, 1, 0), (24, 1, 0), (25, 1, 0), (26, 1, 0), (27, 1, 0), (28, 1, 0), (29, 1, 0), (30, 1, 0), (31, 1, 0), (32, 1, 0), (33, 1, 0), (34, 1, 0), (35, 1, 0), (36, 1, 0), (37, 1, 0), (38, 1, 0), (39, 1, 0), (40, 1, 0), (41, 1, 0), (42, 1, 0), (43, 1, 0), (44, 1, 0), (45, 1, 0), (46, 1, 0), (47, 1, 0), (48, 1, 0), (49, 1, 0), (50, 1, 0), (51, 1, 0), (52, 1, 0)]⟩,
  /- reactionsYao:1082  CH2 + O = HCO + H -/
  ⟨[9, 2], [13, 1], true, .arrhenius ⟨(80000000000, 0), (0, 0), (0, 0)⟩⟩,
  /- reactionsYao:1090  CH2 + OH = CH2O + H -/
  ⟨[9, 3], [14, 1], true, .arrhenius ⟨(20000000000, 0), (0, 0), (0, 0)⟩⟩,
  /- reactionsYao:1098  CH2 + H2 = H + CH3 -/
  ⟨[9, 5], [1, 11], true, .arrhenius ⟨(500, 0), (2, 0), (363807, 2)⟩⟩,
  /- reactionsYao:1106  CH2 + O2 = HCO + OH -/
  ⟨[9, 8], [13, 3], true, .arrhenius ⟨(10600000000, 0), (0, 0), (754787, 3)⟩⟩,
  /- reactionsYao:1114  CH2 + O2 = CO2 + H + H -/
  ⟨[9, 8], [17, 1, 1], true, .arrhenius ⟨(2640000000, 0), (0, 0), (754787, 3)⟩⟩,
  /- reactionsYao:1122  CH2 + HO2 = CH2O + OH -/
  ⟨[9, 4], [14, 3], true, .arrhenius ⟨(20000000000, 0), (0, 0), (0, 0)⟩⟩,
  /- reactionsYao:1130  CH2 + CH2 = C2H2 + H2 -/
  ⟨[9, 9], [18, 5], true, .arrhenius ⟨(32000000000, 0), (0, 0), (0, 0)⟩⟩,
  /- reactionsYao:1138  CH2* + N2 = CH2 + N2 -/
  ⟨[10, 53], [9, 53], true, .arrhenius ⟨(15000000000, 0), (0, 0), (301915, 3)⟩⟩,
  /- reactionsYao:1146  CH2* + AR = CH2 + AR -/
  ⟨[10, 0], [9, 0], true, .arrhenius ⟨(9000000000, 0), (0, 0), (301915, 3)⟩⟩,
  /- reactionsYao:1154  CH2* + O = CO + H2 -/
  ⟨[10, 2], [16, 5], true, .arrhenius ⟨(15000000000, 0), (0, 0), (0, 0)⟩⟩,
  /- reactionsYao:1162  CH2* + O = HCO + H -/
  ⟨[10, 2], [13, 1], true, .arrhenius ⟨(15000000000, 0), (0, 0), (0, 0)⟩⟩,
  /- reactionsYao:1170  CH2* + OH = CH2O + H -/
  ⟨[10, 3], [14, 1], true, .arrhenius ⟨(30000000000, 0), (0, 0), (0, 0)⟩⟩,
  /- reactionsYao:1178  CH2* + H2 = CH3 + H -/
  ⟨[10, 5], [11, 1], true, .arrhenius ⟨(70000000000, 0), (0, 0), (0, 0)⟩⟩,
  /- reactionsYao:1186  CH2* + O2 = H + OH + CO -/
  ⟨[10, 8], [1, 3, 16], true, .arrhenius ⟨(28000000000, 0), (0, 0), (0, 0)⟩⟩,
  /- reactionsYao:1194  CH2* + O2 = CO + H2O -/
  ⟨[10, 8], [16, 6], true, .arrhenius ⟨(12000000000, 0), (0, 0), (0, 0)⟩⟩,
  /- reactionsYao:1202  CH2* + H2O = CH2 + H2O -/
  ⟨[10, 6], [9, 6], true, .arrhenius ⟨(30000000000, 0), (0, 0), (0, 0)⟩⟩,
  /- reactionsYao:1210  CH2* + CO = CH2 + CO -/
  ⟨[10, 16], [9, 16], true, .arrhenius ⟨(9000000000, 0), (0, 0), (0, 0)⟩⟩,
  /- reactionsYao:1218  CH2* + CO2 = CH2 + CO2 -/
  ⟨[10, 17], [9, 17], true, .arrhenius ⟨(7000000000, 0), (0, 0), (0, 0)⟩⟩,
  /- reactionsYao:1226  CH2* + CO2 = CH2O + CO -/
  ⟨[10, 17], [14, 16], true, .arrhenius ⟨(14000000000, 0), (0, 0), (0, 0)⟩⟩,
  /- reactionsYao:1234  CH2O + H = CH3O -/
  ⟨[14, 1], [15], true, .falloff ⟨(2200000000000000000000000, 0), (-48, 1), (279774, 2)⟩ ⟨(540000000, 0), (454, 3), (13083, 1)⟩ (some ⟨(758, 3), (94, 0), (1555, 0), (4200, 0)⟩) [(53, 1, 0), (0, 1, 0), (1, 1, 0), (2, 1, 0), (3, 1, 0), (4, 1, 0), (5, 2, 0), (6, 6, 0), (7, 1, 0), (8, 1, 0), (9, 1, 0), (10, 1, 0), (11, 1, 0), (12, 2, 0), (13, 1, 0), (14, 1, 0), (15, 1, 0), (16, 15, 1), (17, 2, 0), (18, 1, 0), (19, 1, 0), (20, 1, 0), (21, 1, 0), (22, 3, 0), (23, 1, 0), (24, 1, 0), (25, 1, 0), (26, 1, 0), (27, 1, 0), (28, 1, 0), (29, 1, 0), (30, 1, 0), (31, 1, 0), (32, 1, 0), (33, 1, 0), (34, 1, 0), (35, 1, 0), (36, 1, 0), (37, 1, 0), (38, 1, 0), (39, 1, 0), (40, 1, 0), (41, 1, 0), (42, 1, 0), (43, 1, 0), (44, 1, 0), (45, 1, 0), (46, 1, 0), (47, 1, 0), (48, 1, 0), (49, 1, 0), (50, 1, 0), (51, 1, 0), (52, 1, 0)]⟩,
  /- reactionsYao:1320  CH2O + H = HCO + H2 -/
  ⟨[14, 1], [13, 5], true, .arrhenius ⟨(23000000, 0), (105, 2), (164795, 2)⟩⟩,
  /- reactionsYao:1328  CH2O + O = HCO + OH -/
  ⟨[14, 2], [13, 3], true, .arrhenius ⟨(39000000000, 0), (0, 0), (17813, 1)⟩⟩,
  /- reactionsYao:1336  CH2O + OH = HCO + H2O -/
  ⟨[14, 3], [13, 6], true, .arrhenius ⟨(3430000, 0), (118, 2), (-224926, 3)⟩⟩,
  /- reactionsYao:1344  CH2O + O2 = HCO + HO2 -/
  ⟨[14, 8], [13, 4], true, .arrhenius ⟨(100000000000, 0), (0, 0), (201276, 1)⟩⟩,
  /- reactionsYao:1352  CH2O + HO2 = HCO + H2O2 -/
  ⟨[14, 4], [13, 7], true, .arrhenius ⟨(1000000000, 0), (0, 0), (402553, 2)⟩⟩,
  /- reactionsYao:1360  CH3 + H = CH4 -/
  ⟨[11, 1], [12], true, .falloff ⟨(2477000000000000000000000000, 0), (-476, 2), (122779, 2)⟩ ⟨(12700000000000, 0), (-63, 2), (192722, 3)⟩ (some ⟨(783, 3), (74, 0), (2941, 0), (6964, 0)⟩) [(53, 1, 0), (0, 7, 1), (1, 1, 0), (2, 1, 0), (3, 1, 0), (4, 1, 0), (5, 2, 0), (6, 6, 0), (7, 1, 0), (8, 1, 0), (9, 1, 0), (10, 1, 0), (11, 1, 0), (12, 2, 0), (13, 1, 0), (14, 1, 0), (15, 1, 0), (16, 15, 1), (17, 2, 0), (18, 1, 0), (19, 1, 0), (20, 1, 0), (21, 1, 0), (22, 3, 0), (23, 1, 0), (24, 1, 0), (25, 1, 0), (26, 1, 0), (27, 1, 0), (28, 1, 0), (29, 1, 0), (30, 1, 0), (31, 1, 0), (32, 1, 0), (33, 1, 0), (34, 1, 0), (35, 1, 0), (36, 1, 0), (37, 1, 0), (38, 1, 0), (39, 1, 0), (40, 1, 0), (41, 1, 0), (42, 1, 0), (43, 1, 0), (44, 1, 0), (45, 1, 0), (46, 1, 0), (47, 1, 0), (48, 1, 0), (49, 1, 0), (50, 1, 0), (51, 1, 0), (52, 1, 0)]⟩,
  /- reactionsYao:1446  CH3 + O = CH2O + H -/
  ⟨[11, 2], [14, 1], true, .arrhenius ⟨(84300000000, 0), (0, 0), (0, 0)⟩⟩,
  /- reactionsYao:1454  CH3 + OH = CH2 + H2O -/
  ⟨[11, 3], [9, 6], true, .arrhenius ⟨(56000, 0), (16, 1), (27273, 1)⟩⟩,
  /- reactionsYao:1462  CH3 + OH = CH2* + H2O -/
  ⟨[11, 3], [10, 6], true, .arrhenius ⟨(25010000000, 0), (0, 0), (0, 0)⟩⟩,
  /- reactionsYao:1470  CH3 + O2 = O + CH3O -/
  ⟨[11, 8], [2, 15], true, .arrhenius ⟨(30830000000, 0), (0, 0), (144919, 1)⟩⟩,
  /- reactionsYao:1478  CH3 + O2 = OH + CH2O -/
  ⟨[11, 8], [3, 14], true, .arrhenius ⟨(36000000, 0), (0, 0), (449853, 2)⟩⟩,
  /- reactionsYao:1486  CH3 + HO2 = CH4 + O2 -/
  ⟨[11, 4], [12, 8], true, .arrhenius ⟨(1000000000, 0), (0, 0), (0, 0)⟩⟩,
  /- reactionsYao:1494  CH3 + HO2 = CH3O + OH -/
  ⟨[11, 4], [15, 3], true, .arrhenius ⟨(13400000000, 0), (0, 0), (0, 0)⟩⟩,
  /- reactionsYao:1502  CH3 + H2O2 = CH4 + HO2 -/
  ⟨[11, 7], [12, 4], true, .arrhenius ⟨(245, 1), (247, 2), (260653, 2)⟩⟩,
  /- reactionsYao:1510  CH3 + HCO = CH4 + CO -/
  ⟨[11, 13], [12, 16], true, .arrhenius ⟨(8480000000, 0), (0, 0), (0, 0)⟩⟩,
  /- reactionsYao:1518  CH3 + CH2O = CH4 + HCO -/
  ⟨[11, 14], [12, 13], true, .arrhenius ⟨(332, 2), (281, 2), (29487, 1)⟩⟩,
  /- reactionsYao:1526  CH3 + CH2 = C2H4 + H -/
  ⟨[11, 9], [20, 1], true, .arrhenius ⟨(40000000000, 0), (0, 0), (0, 0)⟩⟩,
  /- reactionsYao:1534  CH3 + CH2* = C2H4 + H -/
  ⟨[11, 10], [20, 1], true, .arrhenius ⟨(12000000000, 0), (0, 0), (-286819, 3)⟩⟩,
  /- reactionsYao:1542  CH3 + CH3 = C2H6 -/
  ⟨[11, 11], [22], true, .falloff ⟨(177000000000000000000000000000000000000000000, 0), (-967, 2), (312985, 2)⟩ ⟨(21200000000000, 0), (-97, 2), (311979, 3)⟩ (some ⟨(5325, 4), (151, 0), (1038, 0), (4970, 0)⟩) [(53, 1, 0), (0, 7, 1), (1, 1, 0), (2, 1, 0), (3, 1, 0), (4, 1, 0), (5, 2, 0), (6, 6, 0), (7, 1, 0), (8, 1, 0), (9, 1, 0), (10, 1, 0), (11, 1, 0), (12, 2, 0), (13, 1, 0), (14, 1, 0), (15, 1, 0), (16, 15, 1), (17, 2, 0), (18, 1, 0), (19, 1, 0), (20, 1, 0), (21, 1, 0), (22, 3, 0), (23, 1, 0), (24, 1, 0), (25, 1, 0), (26, 1, 0), (27, 1, 0), (28, 1, 0), (29, 1, 0), (30, 1, 0), (31, 1, 0), (32, 1, 0), (33, 1, 0), (34, 1, 0), (35, 1, 0), (36, 1, 0), (37, 1, 0), (38, 1, 0), (39, 1, 0), (40, 1, 0), (41, 1, 0), (42, 1, 0), (43, 1, 0), (44, 1, 0), (45, 1, 0), (46, 1, 0), (47, 1, 0), (48, 1, 0), (49, 1, 0), (50, 1, 0), (51, 1, 0), (52, 1, 0)]⟩,
  /- reactionsYao:1628  CH3 + CH3 = H + C2H5 -/
  ⟨[11, 11], [1, 21], true, .arrhenius ⟨(4990000000, 0), (1, 1), (533383, 2)⟩⟩,
  /- reactionsYao:1636  CH3O + H = CH2O + H2 -/
  ⟨[15, 1], [14, 5], true, .arrhenius ⟨(20000000000, 0), (0, 0), (0, 0)⟩⟩,
  /- reactionsYao:1644  CH3O + H = CH3 + OH -/
  ⟨[15, 1], [11, 3], true, .arrhenius ⟨(32000000000, 0), (0, 0), (0, 0)⟩⟩,
  /- reactionsYao:1652  CH3O + H = CH2* + H2O -/
  ⟨[15, 1], [10, 6], true, .arrhenius ⟨(16000000000, 0), (0, 0), (0, 0)⟩⟩,
  /- reactionsYao:1660  CH3O + O = CH2O + OH -/
  ⟨[15, 2], [14, 3], true, .arrhenius ⟨(10000000000, 0), (0, 0), (0, 0)⟩⟩,
  /- reactionsYao:1668  CH3O + OH = CH2O + H2O -/
  ⟨[15, 3], [14, 6], true, .arrhenius ⟨(5000000000, 0), (0, 0), (0, 0)⟩⟩,
  /- reactionsYao:1676  CH3O + O2 = CH2O + HO2 -/
  ⟨[15, 8], [14, 4], true, .arrhenius ⟨(428, 18), (76, 1), (-177627, 2)⟩⟩,
  /- reactionsYao:1684  CH4 + H = CH3 + H2 -/
  ⟨[12, 1], [11, 5], true, .arrhenius ⟨(660000, 0), (162, 2), (545459, 2)⟩⟩,
  /- reactionsYao:1692  CH4 + O = CH3 + OH -/
  ⟨[12, 2], [11, 3], true, .arrhenius ⟨(1020000, 0), (15, 1), (432744, 2)⟩⟩,
  /- reactionsYao:1700  CH4 + OH = CH3 + H2O -/
  ⟨[12, 3], [11, 6], true, .arrhenius ⟨(100000, 0), (16, 1), (156996, 2)⟩⟩,
  /- reactionsYao:1708  CH4 + CH2 = CH3 + CH3 -/
  ⟨[12, 9], [11, 11], true, .arrhenius ⟨(2460, 0), (2, 0), (416139, 2)⟩⟩,
  /- reactionsYao:1716  CH4 + CH2* = CH3 + CH3 -/
  ⟨[12, 10], [11, 11], true, .arrhenius ⟨(16000000000, 0), (0, 0), (-286819, 3)⟩⟩,
  /- reactionsYao:1724  C2H3 = C2H2 + H -/
  ⟨[19], [18, 1], true, .falloff ⟨(2565000000000000000000000, 0), (-34, 1), (180136, 1)⟩ ⟨(38600000, 0), (162, 2), (186423, 1)⟩ (some ⟨(19816, 4), (53837, 1), (42932, 4), (-795, 4)⟩) [(53, 1, 0), (0, 7, 1), (1, 1, 0), (2, 1, 0), (3, 1, 0), (4, 1, 0), (5, 2, 0), (6, 6, 0), (7, 1, 0), (8, 1, 0), (9, 1, 0), (10, 1, 0), (11, 1, 0), (12, 2, 0), (13, 1, 0), (14, 1, 0), (15, 1, 0), (16, 15, 1), (17, 2, 0), (18, 3, 0), (19, 1, 0), (20, 3, 0), (21, 1, 0), (22, 3, 0), (23, 1, 0), (24, 1, 0), (25, 1, 0), (26, 1, 0), (27, 1, 0), (28, 1, 0), (29, 1, 0), (30, 1, 0), (31, 1, 0), (32, 1, 0), (33, 1, 0), (34, 1, 0), (35, 1, 0), (36, 1, 0), (37, 1, 0), (38, 1, 0), (39, 1, 0), (40, 1, 0), (41, 1, 0), (42, 1, 0), (43, 1, 0), (44, 1, 0), (45, 1, 0), (46, 1, 0), (47, 1, 0), (48, 1, 0), (49, 1, 0), (50, 1, 0), (51, 1, 0), (52, 1, 0)]⟩,
  /- reactionsYao:1810  C2H2 + O = CH2 + CO -/
  ⟨[18, 2], [9, 16], true, .arrhenius ⟨(4080, 0), (2, 0), (956063, 3)⟩⟩,
  /- reactionsYao:1818  C2H2 + OH = CH3 + CO -/
  ⟨[18, 3], [11, 16], true, .arrhenius ⟨(483, 9), (4, 0), (-100638, 2)⟩⟩,
  /- reactionsYao:1826  C2H2 + HCO = C2H3 + CO -/
  ⟨[18, 13], [19, 16], true, .arrhenius ⟨(10000, 0), (2, 0), (301915, 2)⟩⟩,
  /- reactionsYao:1834  C2H2 + CH3 = aC3H5 -/
  ⟨[18, 11], [24], true, .arrhenius ⟨(268000000000000000000000000000000000000000000000000, 0), (-1282, 2), (17979, 0)⟩⟩,
  /- reactionsYao:1842  C2H3 + H = C2H4 -/
  ⟨[19, 1], [20], true, .falloff ⟨(1400000000000000000000000, 0), (-386, 2), (167059, 2)⟩ ⟨(6080000000, 0), (27, 2), (140894, 3)⟩ (some ⟨(782, 3), (2075, 1), (2663, 0), (6095, 0)⟩) [(53, 1, 0), (0, 7, 1), (1, 1, 0), (2, 1, 0), (3, 1, 0), (4, 1, 0), (5, 2, 0), (6, 6, 0), (7, 1, 0), (8, 1, 0), (9, 1, 0), (10, 1, 0), (11, 1, 0), (12, 2, 0), (13, 1, 0), (14, 1, 0), (15, 1, 0), (16, 15, 1), (17, 2, 0), (18, 3, 0), (19, 1, 0), (20, 3, 0), (21, 1, 0), (22, 3, 0), (23, 1, 0), (24, 1, 0), (25, 1, 0), (26, 1, 0), (27, 1, 0), (28, 1, 0), (29, 1, 0), (30, 1, 0), (31, 1, 0), (32, 1, 0), (33, 1, 0), (34, 1, 0), (35, 1, 0), (36, 1, 0), (37, 1, 0), (38, 1, 0), (39, 1, 0), (40, 1, 0), (41, 1, 0), (42, 1, 0), (43, 1, 0), (44, 1, 0), (45, 1, 0), (46, 1, 0), (47, 1, 0), (48, 1, 0), (49, 1, 0), (50, 1, 0), (51, 1, 0), (52, 1, 0)]⟩,
  /- reactionsYao:1928  C2H3 + H = C2H2 + H2 -/
  ⟨[19, 1], [18, 5], true, .arrhenius ⟨(90000000000, 0), (0, 0), (0, 0)⟩⟩,
  /- reactionsYao:1936  C2H3 + O = CH3 + CO -/
  ⟨[19, 2], [11, 16], true, .arrhenius ⟨(48000000000, 0), (0, 0), (0, 0)⟩⟩,
  /- reactionsYao:1944  C2H3 + OH = C2H2 + H2O -/
  ⟨[19, 3], [18, 6], true, .arrhenius ⟨(30110000000, 0), (0, 0), (0, 0)⟩⟩,
  /- reactionsYao:1952  C2H3 + O2 = C2H2 + HO2 -/
  ⟨[19, 8], [18, 4], true, .arrhenius ⟨(1340, 0), (161, 2), (-192924, 3)⟩⟩,
  /- reactionsYao:1960  C2H3 + O2 = CH2CHO + O -/
  ⟨[19, 8], [23, 2], true, .arrhenius ⟨(300000000, 0), (29, 2), (55351, 4)⟩⟩,
  /- reactionsYao:1968  C2H3 + O2 = HCO + CH2O -/
  ⟨[19, 8], [13, 14], true, .arrhenius ⟨(46000000000000, 0), (-139, 2), (508223, 3)⟩⟩,
  /- reactionsYao:1976  C2H3 + HO2 = CH2CHO + OH -/
  ⟨[19, 4], [23, 3], true, .arrhenius ⟨(10000000000, 0), (0, 0), (0, 0)⟩⟩,
  /- reactionsYao:1984  C2H3 + H2O2 = C2H4 + HO2 -/
  ⟨[19, 7], [20, 4], true, .arrhenius ⟨(12100000, 0), (0, 0), (-299902, 3)⟩⟩,
  /- reactionsYao:1992  C2H3 + HCO = C2H4 + CO -/
  ⟨[19, 13], [20, 16], true, .arrhenius ⟨(90330000000, 0), (0, 0), (0, 0)⟩⟩,
  /- reactionsYao:2000  C2H3 + HCO = C2H3CHO -/
  ⟨[19, 13], [27], true, .arrhenius ⟨(18000000000, 0), (0, 0), (0, 0)⟩⟩,
  /- reactionsYao:2008  C2H3 + CH3 = C2H2 + CH4 -/
  ⟨[19, 11], [18, 12], true, .arrhenius ⟨(392000000, 0), (0, 0), (0, 0)⟩⟩,
  /- reactionsYao:2016  C2H3 + CH3 = C3H6 -/
  ⟨[19, 11], [25], true, .falloff ⟨(42700000000000000000000000000000000000000000000000000, 0), (-1194, 2), (491608, 2)⟩ ⟨(25000000000, 0), (0, 0), (0, 0)⟩ (some ⟨(175, 3), (13406, 1), (60000, 0), (101398, 1)⟩) [(53, 1, 0), (0, 7, 1), (1, 1, 0), (2, 1, 0), (3, 1, 0), (4, 1, 0), (5, 2, 0), (6, 6, 0), (7, 1, 0), (8, 1, 0), (9, 1, 0), (10, 1, 0), (11, 1, 0), (12, 2, 0), (13, 1, 0), (14, 1, 0), (15, 1, 0), (16, 15, 1), (17, 2, 0), (18, 3, 0), (19, 1, 0), (20, 3, 0), (21, 1, 0), (22, 3, 0), (23, 1, 0), (24, 1, 0), (25, 1, 0), (26, 1, 0), (27, 1, 0), (28, 1, 0), (29, 1, 0), (30, 1, 0), (31, 1, 0), (32, 1, 0), (33, 1, 0), (34, 1, 0), (35, 1, 0), (36, 1, 0), (37, 1, 0), (38, 1, 0), (39, 1, 0), (40, 1, 0), (41, 1, 0), (42, 1, 0), (43, 1, 0), (44, 1, 0), (45, 1, 0), (46, 1, 0), (47, 1, 0), (48, 1, 0), (49, 1, 0), (50, 1, 0), (51, 1, 0), (52, 1, 0)]⟩,
  /- reactionsYao:2102  C2H3 + CH3 = aC3H5 + H -/
  ⟨[19, 11], [24, 1], true, .arrhenius ⟨(1500000000000000000000, 0), (-283, 2), (936841, 2)⟩⟩,
  /- reactionsYao:2110  C2H3 + C2H3 = C2H2 + C2H4 -/
  ⟨[19, 19], [18, 20], true, .arrhenius ⟨(960000000, 0), (0, 0), (0, 0)⟩⟩,
  /- reactionsYao:2118  CH2CHO = CH3 + CO -/
  ⟨[23], [11, 16], true, .arrhenius ⟨(780000000000000000000000000000000000000000, 0), (-9147, 3), (235997, 1)⟩⟩,
  /- reactionsYao:2126  CH2CHO + H = CH3 + HCO -/
  ⟨[23, 1], [11, 13], true, .arrhenius ⟨(90000000000, 0), (0, 0), (0, 0)⟩⟩,
  /- reactionsYao:2134  CH2CHO + O2 = CH2O + CO + OH -/
  ⟨[23, 8], [14, 16, 3], true, .arrhenius ⟨(18000000, 0), (0, 0), (0, 0)⟩⟩,
  /- reactionsYao:2142  C2H4 + H = C2H5 -/
  ⟨[20, 1], [21], true, .falloff ⟨(4715000000000, 0), (0, 0), (38004, 2)⟩ ⟨(3975000, 0), (128, 2), (649434, 3)⟩ (some ⟨(76, 2), (40, 0), (1025, 0), (1000000000000000, 0)⟩) [(53, 1, 0), (0, 7, 1), (1, 1, 0), (2, 1, 0), (3, 1, 0), (4, 1, 0), (5, 2, 0), (6, 6, 0), (7, 1, 0), (8, 1, 0), (9, 1, 0), (10, 1, 0), (11, 1, 0), (12, 2, 0), (13, 1, 0), (14, 1, 0), (15, 1, 0), (16, 15, 1), (17, 2, 0), (18, 1, 0), (19, 1, 0), (20, 1, 0), (21, 1, 0), (22, 3, 0), (23, 1, 0), (24, 1, 0), (25, 1, 0), (26, 1, 0), (27, 1, 0), (28, 1, 0), (29, 1, 0), (30, 1, 0), (31, 1, 0), (32, 1, 0), (33, 1, 0), (34, 1, 0), (35, 1, 0), (36, 1, 0), (37, 1, 0), (38, 1, 0), (39, 1, 0), (40, 1, 0), (41, 1, 0), (42, 1, 0), (43, 1, 0), (44, 1, 0), (45, 1, 0), (46, 1, 0), (47, 1, 0), (48, 1, 0), (49, 1, 0), (50, 1, 0), (51, 1, 0), (52, 1, 0)]⟩,
  /- reactionsYao:2228  C2H4 + H = C2H3 + H2 -/
  ⟨[20, 1], [19, 5], true, .arrhenius ⟨(50700, 0), (19, 1), (651633, 2)⟩⟩,
  /- reactionsYao:2236  C2H4 + O = C2H3 + OH -/
  ⟨[20, 2], [19, 3], true, .arrhenius ⟨(15100, 0), (19, 1), (188194, 2)⟩⟩,
  /- reactionsYao:2244  C2H4 + O = CH3 + HCO -/
  ⟨[20, 2], [11, 13], true, .arrhenius ⟨(19200, 0), (183, 2), (110702, 3)⟩⟩,
  /- reactionsYao:2252  C2H4 + O = CH2 + CH2O -/
  ⟨[20, 2], [9, 14], true, .arrhenius ⟨(384, 0), (183, 2), (110702, 3)⟩⟩,
  /- reactionsYao:2260  C2H4 + OH = C2H3 + H2O -/
  ⟨[20, 3], [19, 6], true, .arrhenius ⟨(3600, 0), (2, 0), (125798, 2)⟩⟩,
  /- reactionsYao:2268  C2H4 + HCO = C2H5 + CO -/
  ⟨[20, 13], [21, 16], true, .arrhenius ⟨(10000, 0), (2, 0), (402553, 2)⟩⟩,
  /- reactionsYao:2276  C2H4 + CH2 = aC3H5 + H -/
  ⟨[20, 9], [24, 1], true, .arrhenius ⟨(20000000000, 0), (0, 0), (301915, 2)⟩⟩,
  /- reactionsYao:2284  C2H4 + CH2* = aC3H5 + H -/
  ⟨[20, 10], [24, 1], true, .arrhenius ⟨(50000000000, 0), (0, 0), (0, 0)⟩⟩,
  /- reactionsYao:2292  C2H4 + CH3 = C2H3 + CH4 -/
  ⟨[20, 11], [19, 12], true, .arrhenius ⟨(227, 0), (2, 0), (462936, 2)⟩⟩,
  /- reactionsYao:2300  nC3H7 = CH3 + C2H4 -/
  ⟨[26], [11, 20], true, .arrhenius ⟨(96000000000000, 0), (0, 0), (156105, 1)⟩⟩,
  /- reactionsYao:2308  C2H4 + O2 = C2H3 + HO2 -/
  ⟨[20, 8], [19, 4], true, .arrhenius ⟨(42200000000, 0), (0, 0), (30594, 0)⟩⟩,
  /- reactionsYao:2316  C2H4 + C2H3 = C4H7 -/
  ⟨[20, 19], [28], true, .arrhenius ⟨(793000000000000000000000000000000000, 0), (-847, 2), (715538, 2)⟩⟩,
  /- reactionsYao:2324  C2H5 + H = C2H6 -/
  ⟨[21, 1], [22], true, .falloff ⟨(199000000000000000000000000000000000, 0), (-708, 2), (336383, 2)⟩ ⟨(521000000000000, 0), (-99, 2), (795042, 3)⟩ (some ⟨(8422, 4), (125, 0), (2219, 0), (6882, 0)⟩) [(53, 1, 0), (0, 7, 1), (1, 1, 0), (2, 1, 0), (3, 1, 0), (4, 1, 0), (5, 2, 0), (6, 6, 0), (7, 1, 0), (8, 1, 0), (9, 1, 0), (10, 1, 0), (11, 1, 0), (12, 2, 0), (13, 1, 0), (14, 1, 0), (15, 1, 0), (16, 15, 1), (17, 2, 0), (18, 1, 0), (19, 1, 0), (20, 1, 0), (21, 1, 0), (22, 3, 0), (23, 1, 0), (24, 1, 0), (25, 1, 0), (26, 1, 0), (27, 1, 0), (28, 1, 0), (29, 1, 0), (30, 1, 0), (31, 1, 0), (32, 1, 0), (33, 1, 0), (34, 1, 0), (35, 1, 0), (36, 1, 0), (37, 1, 0), (38, 1, 0), (39, 1, 0), (40, 1, 0), (41, 1, 0), (42, 1, 0), (43, 1, 0), (44, 1, 0), (45, 1, 0), (46, 1, 0), (47, 1, 0), (48, 1, 0), (49, 1, 0), (50, 1, 0), (51, 1, 0), (52, 1, 0)]⟩,
  /- reactionsYao:2410  C2H5 + H = C2H4 + H2 -/
  ⟨[21, 1], [20, 5], true, .arrhenius ⟨(2000000000, 0), (0, 0), (0, 0)⟩⟩,
  /- reactionsYao:2418  C2H5 + O = CH3 + CH2O -/
  ⟨[21, 2], [11, 14], true, .arrhenius ⟨(16040000000, 0), (0, 0), (0, 0)⟩⟩,
  /- reactionsYao:2426  C2H5 + O2 = C2H4 + HO2 -/
  ⟨[21, 8], [20, 4], true, .arrhenius ⟨(20000000, 0), (0, 0), (0, 0)⟩⟩,
  /- reactionsYao:2434  C2H5 + HO2 = C2H6 + O2 -/
  ⟨[21, 4], [22, 8], true, .arrhenius ⟨(300000000, 0), (0, 0), (0, 0)⟩⟩,
  /- reactionsYao:2442  C2H5 + HO2 = C2H4 + H2O2 -/
  ⟨[21, 4], [20, 7], true, .arrhenius ⟨(300000000, 0), (0, 0), (0, 0)⟩⟩,
  /- reactionsYao:2450  C2H5 + HO2 = CH3 + CH2O + OH -/
  ⟨[21, 4], [11, 14, 3], true, .arrhenius ⟨(24000000000, 0), (0, 0), (0, 0)⟩⟩,
  /- reactionsYao:2458  C2H5 + H2O2 = C2H6 + HO2 -/
  ⟨[21, 7], [22, 4], true, .arrhenius ⟨(8700000, 0), (0, 0), (490108, 3)⟩⟩,
  /- reactionsYao:2466  C2H5 + C2H3 = C4H81 -/
  ⟨[21, 19], [29], true, .falloff ⟨(155000000000000000000000000000000000000000000000000, 0), (-1179, 2), (452092, 2)⟩ ⟨(15000000000, 0), (0, 0), (0, 0)⟩ (some ⟨(198, 3), (22779, 1), (60000, 0), (57232, 1)⟩) [(53, 1, 0), (0, 7, 1), (1, 1, 0), (2, 1, 0), (3, 1, 0), (4, 1, 0), (5, 2, 0), (6, 6, 0), (7, 1, 0), (8, 1, 0), (9, 1, 0), (10, 1, 0), (11, 1, 0), (12, 2, 0), (13, 1, 0), (14, 1, 0), (15, 1, 0), (16, 15, 1), (17, 2, 0), (18, 1, 0), (19, 1, 0), (20, 1, 0), (21, 1, 0), (22, 3, 0), (23, 1, 0), (24, 1, 0), (25, 1, 0), (26, 1, 0), (27, 1, 0), (28, 1, 0), (29, 1, 0), (30, 1, 0), (31, 1, 0), (32, 1, 0), (33, 1, 0), (34, 1, 0), (35, 1, 0), (36, 1, 0), (37, 1, 0), (38, 1, 0), (39, 1, 0), (40, 1, 0), (41, 1, 0), (42, 1, 0), (43, 1, 0), (44, 1, 0), (45, 1, 0), (46, 1, 0), (47, 1, 0), (48, 1, 0), (49, 1, 0), (50, 1, 0), (51, 1, 0), (52, 1, 0)]⟩,
  /- reactionsYao:2552  C2H5 + C2H3 = aC3H5 + CH3 -/
  ⟨[21, 19], [24, 11], true, .arrhenius ⟨(390000000000000000000000000000, 0), (-522, 2), (993652, 2)⟩⟩,
  /- reactionsYao:2560  C2H6 + H = C2H5 + H2 -/
  ⟨[22, 1], [21, 5], true, .arrhenius ⟨(115000, 0), (19, 1), (378903, 2)⟩⟩,
  /- reactionsYao:2568  C2H6 + O = C2H5 + OH -/
  ⟨[22, 2], [21, 3], true, .arrhenius ⟨(89800, 0), (192, 2), (286316, 2)⟩⟩,
  /- reactionsYao:2576  C2H6 + OH = C2H5 + H2O -/
  ⟨[22, 3], [21, 6], true, .arrhenius ⟨(3540, 0), (212, 2), (437776, 3)⟩⟩,
  /- reactionsYao:2584  C2H6 + CH2* = C2H5 + CH3 -/
  ⟨[22, 10], [21, 11], true, .arrhenius ⟨(40000000000, 0), (0, 0), (-276755, 3)⟩⟩,
  /- reactionsYao:2592  C2H6 + CH3 = C2H5 + CH4 -/
  ⟨[22, 11], [21, 12], true, .arrhenius ⟨(6140, 0), (174, 2), (525835, 2)⟩⟩,
  /- reactionsYao:2600  aC3H5 + H = C3H6 -/
  ⟨[24, 1], [25], true, .falloff ⟨(1330000000000000000000000000000000000000000000000000000, 0), (-12, 0), (300294, 2)⟩ ⟨(200000000000, 0), (0, 0), (0, 0)⟩ (some ⟨(2, 2), (10966, 1), (10966, 1), (68595, 1)⟩) [(53, 1, 0), (0, 7, 1), (1, 1, 0), (2, 1, 0), (3, 1, 0), (4, 1, 0), (5, 2, 0), (6, 6, 0), (7, 1, 0), (8, 1, 0), (9, 1, 0), (10, 1, 0), (11, 1, 0), (12, 2, 0), (13, 1, 0), (14, 1, 0), (15, 1, 0), (16, 15, 1), (17, 2, 0), (18, 1, 0), (19, 1, 0), (20, 1, 0), (21, 1, 0), (22, 3, 0), (23, 1, 0), (24, 1, 0), (25, 1, 0), (26, 1, 0), (27, 1, 0), (28, 1, 0), (29, 1, 0), (30, 1, 0), (31, 1, 0), (32, 1, 0), (33, 1, 0), (34, 1, 0), (35, 1, 0), (36, 1, 0), (37, 1, 0), (38, 1, 0), (39, 1, 0), (40, 1, 0), (41, 1, 0), (42, 1, 0), (43, 1, 0), (44, 1, 0), (45, 1, 0), (46, 1, 0), (47, 1, 0), (48, 1, 0), (49, 1, 0), (50, 1, 0), (51, 1, 0), (52, 1, 0)]⟩,
  /- reactionsYao:2686  aC3H5 + O = C2H3CHO + H -/
  ⟨[24, 2], [27, 1], true, .arrhenius ⟨(60000000000, 0), (0, 0), (0, 0)⟩⟩,
  /- reactionsYao:2694  aC3H5 + OH = C2H3CHO + H + H -/
  ⟨[24, 3], [27, 1, 1], true, .arrhenius ⟨(420000000000000000000000000000, 0), (-516, 2), (151591, 1)⟩⟩,
  /- reactionsYao:2702  aC3H5 + O2 = C2H3CHO + OH -/
  ⟨[24, 8], [27, 3], true, .arrhenius ⟨(18200000000, 0), (-41, 2), (115024, 1)⟩⟩,
  /- reactionsYao:2710  aC3H5 + HO2 = C3H6 + O2 -/
  ⟨[24, 4], [25, 8], true, .arrhenius ⟨(2660000000, 0), (0, 0), (0, 0)⟩⟩,
  /- reactionsYao:2718  aC3H5 + HO2 = OH + C2H3 + CH2O -/
  ⟨[24, 4], [3, 19, 14], true, .arrhenius ⟨(6600000000, 0), (0, 0), (0, 0)⟩⟩,
  /- reactionsYao:2726  aC3H5 + HCO = C3H6 + CO -/
  ⟨[24, 13], [25, 16], true, .arrhenius ⟨(60000000000, 0), (0, 0), (0, 0)⟩⟩,
  /- reactionsYao:2734  aC3H5 + CH3 = C4H81 -/
  ⟨[24, 11], [29], true, .falloff ⟨(3910000000000000000000000000000000000000000000000000000, 0), (-1281, 2), (314495, 2)⟩ ⟨(100000000000, 0), (-32, 2), (-131987, 3)⟩ (some ⟨(104, 3), (1606, 0), (60000, 0), (61184, 1)⟩) [(53, 1, 0), (0, 7, 1), (1, 1, 0), (2, 1, 0), (3, 1, 0), (4, 1, 0), (5, 2, 0), (6, 6, 0), (7, 1, 0), (8, 1, 0), (9, 1, 0), (10, 1, 0), (11, 1, 0), (12, 2, 0), (13, 1, 0), (14, 1, 0), (15, 1, 0), (16, 15, 1), (17, 2, 0), (18, 1, 0), (19, 1, 0), (20, 1, 0), (21, 1, 0), (22, 3, 0), (23, 1, 0), (24, 1, 0), (25, 1, 0), (26, 1, 0), (27, 1, 0), (28, 1, 0), (29, 1, 0), (30, 1, 0), (31, 1, 0), (32, 1, 0), (33, 1, 0), (34, 1, 0), (35, 1, 0), (36, 1, 0), (37, 1, 0), (38, 1, 0), (39, 1, 0), (40, 1, 0), (41, 1, 0), (42, 1, 0), (43, 1, 0), (44, 1, 0), (45, 1, 0), (46, 1, 0), (47, 1, 0), (48, 1, 0), (49, 1, 0), (50, 1, 0), (51, 1, 0), (52, 1, 0)]⟩,
  /- reactionsYao:2820  C3H6 + H = nC3H7 -/
  ⟨[25, 1], [26], true, .falloff ⟨(626000000000000000000000000000000, 0), (-666, 2), (352234, 2)⟩ ⟨(13300000000, 0), (0, 0), (164076, 2)⟩ (some ⟨(1, 0), (1000, 0), (1310, 0), (48097, 0)⟩) [(53, 1, 0), (0, 7, 1), (1, 1, 0), (2, 1, 0), (3, 1, 0), (4, 1, 0), (5, 2, 0), (6, 6, 0), (7, 1, 0), (8, 1, 0), (9, 1, 0), (10, 1, 0), (11, 1, 0), (12, 2, 0), (13, 1, 0), (14, 1, 0), (15, 1, 0), (16, 15, 1), (17, 2, 0), (18, 1, 0), (19, 1, 0), (20, 1, 0), (21, 1, 0), (22, 3, 0), (23, 1, 0), (24, 1, 0), (25, 1, 0), (26, 1, 0), (27, 1, 0), (28, 1, 0), (29, 1, 0), (30, 1, 0), (31, 1, 0), (32, 1, 0), (33, 1, 0), (34, 1, 0), (35, 1, 0), (36, 1, 0), (37, 1, 0), (38, 1, 0), (39, 1, 0), (40, 1, 0), (41, 1, 0), (42, 1, 0), (43, 1, 0), (44, 1, 0), (45, 1, 0), (46, 1, 0), (47, 1, 0), (48, 1, 0), (49, 1, 0), (50, 1, 0), (51, 1, 0), (52, 1, 0)]⟩,
  /- reactionsYao:2906  C3H6 + H = C2H4 + CH3 -/
  ⟨[25, 1], [20, 11], true, .arrhenius ⟨(8000000000000000000, 0), (-239, 2), (562568, 2)⟩⟩,
  /- reactionsYao:2914  C3H6 + H = aC3H5 + H2 -/
  ⟨[25, 1], [24, 5], true, .arrhenius ⟨(173, 0), (25, 1), (125295, 2)⟩⟩,
  /- reactionsYao:2922  C3H6 + O = C2H3CHO + H + H -/
  ⟨[25, 2], [27, 1, 1], true, .arrhenius ⟨(40000, 0), (165, 2), (164544, 3)⟩⟩,
  /- reactionsYao:2930  C3H6 + O = C2H5 + HCO -/
  ⟨[25, 2], [21, 13], true, .arrhenius ⟨(35000, 0), (165, 2), (-489102, 3)⟩⟩,
  /- reactionsYao:2938  C3H6 + O = aC3H5 + OH -/
  ⟨[25, 2], [24, 3], true, .arrhenius ⟨(180000000, 0), (7, 1), (295876, 2)⟩⟩,
  /- reactionsYao:2946  C3H6 + OH = aC3H5 + H2O -/
  ⟨[25, 3], [24, 6], true, .arrhenius ⟨(3100, 0), (2, 0), (-149951, 3)⟩⟩,
  /- reactionsYao:2954  C3H6 + HO2 = aC3H5 + H2O2 -/
  ⟨[25, 4], [24, 7], true, .arrhenius ⟨(96, 1), (26, 1), (699939, 2)⟩⟩,
  /- reactionsYao:2962  C3H6 + CH3 = aC3H5 + CH4 -/
  ⟨[25, 11], [24, 12], true, .arrhenius ⟨(22, 4), (35, 1), (285561, 2)⟩⟩,
  /- reactionsYao:2970  C2H3CHO + H = C2H4 + HCO -/
  ⟨[27, 1], [20, 13], true, .arrhenius ⟨(108000000, 0), (454, 3), (292857, 2)⟩⟩,
  /- reactionsYao:2978  C2H3CHO + O = C2H3 + OH + CO -/
  ⟨[27, 2], [19, 3, 16], true, .arrhenius ⟨(30000000000, 0), (0, 0), (17813, 1)⟩⟩,
  /- reactionsYao:2986  C2H3CHO + OH = C2H3 + H2O + CO -/
  ⟨[27, 3], [19, 6, 16], true, .arrhenius ⟨(3430000, 0), (118, 2), (-224926, 3)⟩⟩,
  /- reactionsYao:2994  nC3H7 + H = C2H5 + CH3 -/
  ⟨[26, 1], [21, 11], true, .arrhenius ⟨(3700000000000000000000, 0), (-292, 2), (629241, 2)⟩⟩,
  /- reactionsYao:3002  nC3H7 + H = C3H6 + H2 -/
  ⟨[26, 1], [25, 5], true, .arrhenius ⟨(1800000000, 0), (0, 0), (0, 0)⟩⟩,
  /- reactionsYao:3010  nC3H7 + O = C2H5 + CH2O -/
  ⟨[26, 2], [21, 14], true, .arrhenius ⟨(96000000000, 0), (0, 0), (0, 0)⟩⟩,
  /- reactionsYao:3018  nC3H7 + OH = C3H6 + H2O -/
  ⟨[26, 3], [25, 6], true, .arrhenius ⟨(24000000000, 0), (0, 0), (0, 0)⟩⟩,
  /- reactionsYao:3026  nC3H7 + O2 = C3H6 + HO2 -/
  ⟨[26, 8], [25, 4], true, .arrhenius ⟨(90000000, 0), (0, 0), (0, 0)⟩⟩,
  /- reactionsYao:3034  nC3H7 + HO2 = C2H5 + OH + CH2O -/
  ⟨[26, 4], [21, 3, 14], true, .arrhenius ⟨(24000000000, 0), (0, 0), (0, 0)⟩⟩,
  /- reactionsYao:3042  nC3H7 + CH3 = CH4 + C3H6 -/
  ⟨[26, 11], [12, 25], true, .arrhenius ⟨(11000000000, 0), (0, 0), (0, 0)⟩⟩,
  /- reactionsYao:3050  C4H7 + H = C4H81 -/
  ⟨[28, 1], [29], true, .falloff ⟨(3010000000000000000000000000000000000000000, 0), (-932, 2), (293542, 2)⟩ ⟨(36000000000, 0), (0, 0), (0, 0)⟩ (some ⟨(498, 3), (1314, 0), (1314, 0), (50000, 0)⟩) [(53, 1, 0), (0, 7, 1), (1, 1, 0), (2, 1, 0), (3, 1, 0), (4, 1, 0), (5, 2, 0), (6, 6, 0), (7, 1, 0), (8, 1, 0), (9, 1, 0), (10, 1, 0), (11, 1, 0), (12, 2, 0), (13, 1, 0), (14, 1, 0), (15, 1, 0), (16, 15, 1), (17, 2, 0), (18, 1, 0), (19, 1, 0), (20, 1, 0), (21, 1, 0), (22, 3, 0), (23, 1, 0), (24, 1, 0), (25, 1, 0), (26, 1, 0), (27, 1, 0), (28, 1, 0), (29, 1, 0), (30, 1, 0), (31, 1, 0), (32, 1, 0), (33, 1, 0), (34, 1, 0), (35, 1, 0), (36, 1, 0), (37, 1, 0), (38, 1, 0), (39, 1, 0), (40, 1, 0), (41, 1, 0), (42, 1, 0), (43, 1, 0), (44, 1, 0), (45, 1, 0), (46, 1, 0), (47, 1, 0), (48, 1, 0), (49, 1, 0), (50, 1, 0), (51, 1, 0), (52, 1, 0)]⟩,
  /- reactionsYao:3136  C4H7 + H = CH3 + aC3H5 -/
  ⟨[28, 1], [11, 24], true, .arrhenius ⟨(2000000000000000000, 0), (-2, 0), (55351, 1)⟩⟩,
  /- reactionsYao:3144  C4H7 + HO2 = CH2O + OH + aC3H5 -/
  ⟨[28, 4], [14, 3, 24], true, .arrhenius ⟨(24000000000, 0), (0, 0), (0, 0)⟩⟩,
  /- reactionsYao:3152  C4H7 + HCO = C4H81 + CO -/
  ⟨[28, 13], [29, 16], true, .arrhenius ⟨(60000000000, 0), (0, 0), (0, 0)⟩⟩,
  /- reactionsYao:3160  C4H81 + H = pC4H9 -/
  ⟨[29, 1], [30], true, .falloff ⟨(626000000000000000000000000000000, 0), (-666, 2), (352234, 2)⟩ ⟨(13300000000, 0), (0, 0), (164076, 2)⟩ (some ⟨(1, 0), (1000, 0), (1310, 0), (48097, 0)⟩) [(53, 1, 0), (0, 7, 1), (1, 1, 0), (2, 1, 0), (3, 1, 0), (4, 1, 0), (5, 2, 0), (6, 6, 0), (7, 1, 0), (8, 1, 0), (9, 1, 0), (10, 1, 0), (11, 1, 0), (12, 2, 0), (13, 1, 0), (14, 1, 0), (15, 1, 0), (16, 15, 1), (17, 2, 0), (18, 1, 0), (19, 1, 0), (20, 1, 0), (21, 1, 0), (22, 3, 0), (23, 1, 0), (24, 1, 0), (25, 1, 0), (26, 1, 0), (27, 1, 0), (28, 1, 0), (29, 1, 0), (30, 1, 0), (31, 1, 0), (32, 1, 0), (33, 1, 0), (34, 1, 0), (35, 1, 0), (36, 1, 0), (37, 1, 0), (38, 1, 0), (39, 1, 0), (40, 1, 0), (41, 1, 0), (42, 1, 0), (43, 1, 0), (44, 1, 0), (45, 1, 0), (46, 1, 0), (47, 1, 0), (48, 1, 0), (49, 1, 0), (50, 1, 0), (51, 1, 0), (52, 1, 0)]⟩,
  /- reactionsYao:3246  C4H81 + H = C2H4 + C2H5 -/
  ⟨[29, 1], [20, 21], true, .arrhenius ⟨(16000000000000000000, 0), (-239, 2), (562568, 2)⟩⟩,
  /- reactionsYao:3254  C4H81 + H = C3H6 + CH3 -/
  ⟨[29, 1], [25, 11], true, .arrhenius ⟨(32000000000000000000, 0), (-239, 2), (562568, 2)⟩⟩,
  /- reactionsYao:3262  C4H81 + H = C4H7 + H2 -/
  ⟨[29, 1], [28, 5], true, .arrhenius ⟨(650, 0), (254, 2), (339956, 2)⟩⟩,
  /- reactionsYao:3270  C4H81 + O = nC3H7 + HCO -/
  ⟨[29, 2], [26, 13], true, .arrhenius ⟨(330000, 0), (145, 2), (-202283, 3)⟩⟩,
  /- reactionsYao:3278  C4H81 + O = C4H7 + OH -/
  ⟨[29, 2], [28, 3], true, .arrhenius ⟨(15000000000, 0), (0, 0), (289838, 2)⟩⟩,
  /- reactionsYao:3286  C4H81 + O = C4H7 + OH -/
  ⟨[29, 2], [28, 3], true, .arrhenius ⟨(26000000000, 0), (0, 0), (224926, 2)⟩⟩,
  /- reactionsYao:3294  C4H81 + OH = C4H7 + H2O -/
  ⟨[29, 3], [28, 6], true, .arrhenius ⟨(7, 1), (266, 2), (265182, 3)⟩⟩,
  /- reactionsYao:3302  C4H81 + O2 = C4H7 + HO2 -/
  ⟨[29, 8], [28, 4], true, .arrhenius ⟨(20000000000, 0), (0, 0), (256275, 1)⟩⟩,
  /- reactionsYao:3310  C4H81 + HO2 = C4H7 + H2O2 -/
  ⟨[29, 4], [28, 7], true, .arrhenius ⟨(1000000000, 0), (0, 0), (721576, 2)⟩⟩,
  /- reactionsYao:3318  C4H81 + CH3 = C4H7 + CH4 -/
  ⟨[29, 11], [28, 12], true, .arrhenius ⟨(45, 5), (365, 2), (359933, 2)⟩⟩,
  /- reactionsYao:3326  pC4H9 + H = C2H5 + C2H5 -/
  ⟨[30, 1], [21, 21], true, .arrhenius ⟨(3700000000000000000000, 0), (-292, 2), (629241, 2)⟩⟩,
  /- reactionsYao:3334  pC4H9 + H = C4H81 + H2 -/
  ⟨[30, 1], [29, 5], true, .arrhenius ⟨(1800000000, 0), (0, 0), (0, 0)⟩⟩,
  /- reactionsYao:3342  pC4H9 + O = nC3H7 + CH2O -/
  ⟨[30, 2], [26, 14], true, .arrhenius ⟨(96000000000, 0), (0, 0), (0, 0)⟩⟩,
  /- reactionsYao:3350  pC4H9 + OH = C4H81 + H2O -/
  ⟨[30, 3], [29, 6], true, .arrhenius ⟨(24000000000, 0), (0, 0), (0, 0)⟩⟩,
  /- reactionsYao:3358  pC4H9 + O2 = C4H81 + HO2 -/
  ⟨[30, 8], [29, 4], true, .arrhenius ⟨(270000000, 0), (0, 0), (0, 0)⟩⟩,
  /- reactionsYao:3366  pC4H9 + HO2 = nC3H7 + OH + CH2O -/
  ⟨[30, 4], [26, 3, 14], true, .arrhenius ⟨(24000000000, 0), (0, 0), (0, 0)⟩⟩,
  /- reactionsYao:3374  pC4H9 + CH3 = C4H81 + CH4 -/
  ⟨[30, 11], [29, 12], true, .arrhenius ⟨(11000000000, 0), (0, 0), (0, 0)⟩⟩,
  /- reactionsYao:3382  C5H9 = aC3H5 + C2H4 -/
  ⟨[31], [24, 20], false, .arrhenius ⟨(25000000000000, 0), (0, 0), (151054, 1)⟩⟩,
  /- reactionsYao:3390  C5H9 = C2H3 + C3H6 -/
  ⟨[31], [19, 25], false, .arrhenius ⟨(25000000000000, 0), (0, 0), (151054, 1)⟩⟩,
  /- reactionsYao:3398  C5H10 + H = PXC5H11 -/
  ⟨[32, 1], [33], true, .falloff ⟨(626000000000000000000000000000000, 0), (-666, 2), (352234, 2)⟩ ⟨(13300000000, 0), (0, 0), (164076, 2)⟩ (some ⟨(1, 0), (1000, 0), (1310, 0), (48097, 0)⟩) [(53, 1, 0), (0, 7, 1), (1, 1, 0), (2, 1, 0), (3, 1, 0), (4, 1, 0), (5, 2, 0), (6, 6, 0), (7, 1, 0), (8, 1, 0), (9, 1, 0), (10, 1, 0), (11, 1, 0), (12, 2, 0), (13, 1, 0), (14, 1, 0), (15, 1, 0), (16, 15, 1), (17, 2, 0), (18, 1, 0), (19, 1, 0), (20, 1, 0), (21, 1, 0), (22, 3, 0), (23, 1, 0), (24, 1, 0), (25, 1, 0), (26, 1, 0), (27, 1, 0), (28, 1, 0), (29, 1, 0), (30, 1, 0), (31, 1, 0), (32, 1, 0), (33, 1, 0), (34, 1, 0), (35, 1, 0), (36, 1, 0), (37, 1, 0), (38, 1, 0), (39, 1, 0), (40, 1, 0), (41, 1, 0), (42, 1, 0), (43, 1, 0), (44, 1, 0), (45, 1, 0), (46, 1, 0), (47, 1, 0), (48, 1, 0), (49, 1, 0), (50, 1, 0), (51, 1, 0), (52, 1, 0)]⟩,
  /- reactionsYao:3484  C5H10 + H = C2H4 + nC3H7 -/
  ⟨[32, 1], [20, 26], true, .arrhenius ⟨(8000000000000000000, 0), (-239, 2), (562568, 2)⟩⟩,
  /- reactionsYao:3492  C5H10 + H = C3H6 + C2H5 -/
  ⟨[32, 1], [25, 21], true, .arrhenius ⟨(16000000000000000000, 0), (-239, 2), (562568, 2)⟩⟩,
  /- reactionsYao:3500  C2H4 + nC3H7 = PXC5H11 -/
  ⟨[20, 26], [33], true, .arrhenius ⟨(300000000, 0), (0, 0), (36733, 1)⟩⟩,
  /- reactionsYao:3508  C6H12 + H = PXC6H13 -/
  ⟨[34, 1], [35], true, .falloff ⟨(626000000000000000000000000000000, 0), (-666, 2), (352234, 2)⟩ ⟨(13300000000, 0), (0, 0), (164076, 2)⟩ (some ⟨(1, 0), (1000, 0), (1310, 0), (48097, 0)⟩) [(53, 1, 0), (0, 7, 1), (1, 1, 0), (2, 1, 0), (3, 1, 0), (4, 1, 0), (5, 2, 0), (6, 6, 0), (7, 1, 0), (8, 1, 0), (9, 1, 0), (10, 1, 0), (11, 1, 0), (12, 2, 0), (13, 1, 0), (14, 1, 0), (15, 1, 0), (16, 15, 1), (17, 2, 0), (18, 1, 0), (19, 1, 0), (20, 1, 0), (21, 1, 0), (22, 3, 0), (23, 1, 0), (24, 1, 0), (25, 1, 0), (26, 1, 0), (27, 1, 0), (28, 1, 0), (29, 1, 0), (30, 1, 0), (31, 1, 0), (32, 1, 0), (33, 1, 0), (34, 1, 0), (35, 1, 0), (36, 1, 0), (37, 1, 0), (38, 1, 0), (39, 1, 0), (40, 1, 0), (41, 1, 0), (42, 1, 0), (43, 1, 0), (44, 1, 0), (45, 1, 0), (46, 1, 0), (47, 1, 0), (48, 1, 0), (49, 1, 0), (50, 1, 0), (51, 1, 0), (52, 1, 0)]⟩,
  /- reactionsYao:3594  C6H12 + H = C2H4 + pC4H9 -/
  ⟨[34, 1], [20, 30], true, .arrhenius ⟨(8000000000000000000, 0), (-239, 2), (562568, 2)⟩⟩,
  /- reactionsYao:3602  C6H12 + H = C3H6 + nC3H7 -/
  ⟨[34, 1], [25, 26], true, .arrhenius ⟨(16000000000000000000, 0), (-239, 2), (562568, 2)⟩⟩,
  /- reactionsYao:3610  C2H4 + pC4H9 = PXC6H13 -/
  ⟨[20, 30], [35], true, .arrhenius ⟨(300000000, 0), (0, 0), (36733, 1)⟩⟩,
  /- reactionsYao:3618  C7H14 + H = PXC7H15 -/
  ⟨[36, 1], [37], true, .falloff ⟨(626000000000000000000000000000000, 0), (-666, 2), (352234, 2)⟩ ⟨(13300000000, 0), (0, 0), (164076, 2)⟩ (some ⟨(1, 0), (1000, 0), (1310, 0), (48097, 0)⟩) [(53, 1, 0), (0, 7, 1), (1, 1, 0), (2, 1, 0), (3, 1, 0), (4, 1, 0), (5, 2, 0), (6, 6, 0), (7, 1, 0), (8, 1, 0), (9, 1, 0), (10, 1, 0), (11, 1, 0), (12, 2, 0), (13, 1, 0), (14, 1, 0), (15, 1, 0), (16, 15, 1), (17, 2, 0), (18, 1, 0), (19, 1, 0), (20, 1, 0), (21, 1, 0), (22, 3, 0), (23, 1, 0), (24, 1, 0), (25, 1, 0), (26, 1, 0), (27, 1, 0), (28, 1, 0), (29, 1, 0), (30, 1, 0), (31, 1, 0), (32, 1, 0), (33, 1, 0), (34, 1, 0), (35, 1, 0), (36, 1, 0), (37, 1, 0), (38, 1, 0), (39, 1, 0), (40, 1, 0), (41, 1, 0), (42, 1, 0), (43, 1, 0), (44, 1, 0), (45, 1, 0), (46, 1, 0), (47, 1, 0), (48, 1, 0), (49, 1, 0), (50, 1, 0), (51, 1, 0), (52, 1, 0)]⟩,
  /- reactionsYao:3704  C7H14 + H = C2H4 + PXC5H11 -/
  ⟨[36, 1], [20, 33], true, .arrhenius ⟨(8000000000000000000, 0), (-239, 2), (562568, 2)⟩⟩,
  /- reactionsYao:3712  C7H14 + H = C3H6 + pC4H9 -/
  ⟨[36, 1], [25, 30], true, .arrhenius ⟨(16000000000000000000, 0), (-239, 2), (562568, 2)⟩⟩,
  /- reactionsYao:3720  C2H4 + PXC5H11 = PXC7H15 -/
  ⟨[20, 33], [37], true, .arrhenius ⟨(300000000, 0), (0, 0), (36733, 1)⟩⟩,
  /- reactionsYao:3728  C8H16 + H = PXC8H17 -/
  ⟨[38, 1], [39], true, .falloff ⟨(626000000000000000000000000000000, 0), (-666, 2), (352234, 2)⟩ ⟨(13300000000, 0), (0, 0), (164076, 2)⟩ (some ⟨(1, 0), (1000, 0), (1310, 0), (48097, 0)⟩) [(53, 1, 0), (0, 7, 1), (1, 1, 0), (2, 1, 0), (3, 1, 0), (4, 1, 0), (5, 2, 0), (6, 6, 0), (7, 1, 0), (8, 1, 0), (9, 1, 0), (10, 1, 0), (11, 1, 0), (12, 2, 0), (13, 1, 0), (14, 1, 0), (15, 1, 0), (16, 15, 1), (17, 2, 0), (18, 1, 0), (19, 1, 0), (20, 1, 0), (21, 1, 0), (22, 3, 0), (23, 1, 0), (24, 1, 0), (25, 1, 0), (26, 1, 0), (27, 1, 0), (28, 1, 0), (29, 1, 0), (30, 1, 0), (31, 1, 0), (32, 1, 0), (33, 1, 0), (34, 1, 0), (35, 1, 0), (36, 1, 0), (37, 1, 0), (38, 1, 0), (39, 1, 0), (40, 1, 0), (41, 1, 0), (42, 1, 0), (43, 1, 0), (44, 1, 0), (45, 1, 0), (46, 1, 0), (47, 1, 0), (48, 1, 0), (49, 1, 0), (50, 1, 0), (51, 1, 0), (52, 1, 0)]⟩,
  /- reactionsYao:3814  C8H16 + H = C2H4 + PXC6H13 -/
  ⟨[38, 1], [20, 35], true, .arrhenius ⟨(8000000000000000000, 0), (-239, 2), (562568, 2)⟩⟩,
  /- reactionsYao:3822  C8H16 + H = C3H6 + PXC5H11 -/
  ⟨[38, 1], [25, 33], true, .arrhenius ⟨(16000000000000000000, 0), (-239, 2), (562568, 2)⟩⟩,
  /- reactionsYao:3830  C2H4 + PXC6H13 = PXC8H17 -/
  ⟨[20, 35], [39], true, .arrhenius ⟨(300000000, 0), (0, 0), (36733, 1)⟩⟩,
  /- reactionsYao:3838  C9H18 + H = PXC9H19 -/
  ⟨[40, 1], [41], true, .falloff ⟨(626000000000000000000000000000000, 0), (-666, 2), (352234, 2)⟩ ⟨(13300000000, 0), (0, 0), (164076, 2)⟩ (some ⟨(1, 0), (1000, 0), (1310, 0), (48097, 0)⟩) [(53, 1, 0), (0, 7, 1), (1, 1, 0), (2, 1, 0), (3, 1, 0), (4, 1, 0), (5, 2, 0), (6, 6, 0), (7, 1, 0), (8, 1, 0), (9, 1, 0), (10, 1, 0), (11, 1, 0), (12, 2, 0), (13, 1, 0), (14, 1, 0), (15, 1, 0), (16, 15, 1), (17, 2, 0), (18, 1, 0), (19, 1, 0), (20, 1, 0), (21, 1, 0), (22, 3, 0), (23, 1, 0), (24, 1, 0), (25, 1, 0), (26, 1, 0), (27, 1, 0), (28, 1, 0), (29, 1, 0), (30, 1, 0), (31, 1, 0), (32, 1, 0), (33, 1, 0), (34, 1, 0), (35, 1, 0), (36, 1, 0), (37, 1, 0), (38, 1, 0), (39, 1, 0), (40, 1, 0), (41, 1, 0), (42, 1, 0), (43, 1, 0), (44, 1, 0), (45, 1, 0), (46, 1, 0), (47, 1, 0), (48, 1, 0), (49, 1, 0), (50, 1, 0), (51, 1, 0), (52, 1, 0)]⟩,
  /- reactionsYao:3924  C9H18 + H = C2H4 + PXC7H15 -/
  ⟨[40, 1], [20, 37], true, .arrhenius ⟨(8000000000000000000, 0), (-239, 2), (562568, 2)⟩⟩,
  /- reactionsYao:3932  C9H18 + H = C3H6 + PXC6H13 -/
  ⟨[40, 1], [25, 35], true, .arrhenius ⟨(16000000000000000000, 0), (-239, 2), (562568, 2)⟩⟩,
  /- reactionsYao:3940  C2H4 + PXC7H15 = PXC9H19 -/
  ⟨[20, 37], [41], true, .arrhenius ⟨(300000000, 0), (0, 0), (36733, 1)⟩⟩,
  /- reactionsYao:3948  C10H20 + H = PXC10H21 -/
  ⟨[42, 1], [43], true, .falloff ⟨(626000000000000000000000000000000, 0), (-666, 2), (352234, 2)⟩ ⟨(13300000000, 0), (0, 0), (164076, 2)⟩ (some ⟨(1, 0), (1000, 0), (1310, 0), (48097, 0)⟩) [(53, 1, 0), (0, 7, 1), (1, 1, 0), (2, 1, 0), (3, 1, 0), (4, 1, 0), (5, 2, 0), (6, 6, 0), (7, 1, 0), (8, 1, 0), (9, 1, 0), (10, 1, 0), (11, 1, 0), (12, 2, 0), (13, 1, 0), (14, 1, 0), (15, 1, 0), (16, 15, 1), (17, 2, 0), (18, 1, 0), (19, 1, 0), (20, 1, 0), (21, 1, 0), (22, 3, 0), (23, 1, 0), (24, 1, 0), (25, 1, 0), (26, 1, 0), (27, 1, 0), (28, 1, 0), (29, 1, 0), (30, 1, 0), (31, 1, 0), (32, 1, 0), (33, 1, 0), (34, 1, 0), (35, 1, 0), (36, 1, 0), (37, 1, 0), (38, 1, 0), (39, 1, 0), (40, 1, 0), (41, 1, 0), (42, 1, 0), (43, 1, 0), (44, 1, 0), (45, 1, 0), (46, 1, 0), (47, 1, 0), (48, 1, 0), (49, 1, 0), (50, 1, 0), (51, 1, 0), (52, 1, 0)]⟩,
  /- reactionsYao:4034  C10H20 + H = C2H4 + PXC8H17 -/
  ⟨[42, 1], [20, 39], true, .arrhenius ⟨(8000000000000000000, 0), (-239, 2), (562568, 2)⟩⟩,
  /- reactionsYao:4042  C10H20 + H = C3H6 + PXC7H15 -/
  ⟨[42, 1], [25, 37], true, .arrhenius ⟨(16000000000000000000, 0), (-239, 2), (562568, 2)⟩⟩,
  /- reactionsYao:4050  C2H4 + PXC8H17 = PXC10H21 -/
  ⟨[20, 39], [43], true, .arrhenius ⟨(300000000, 0), (0, 0), (36733, 1)⟩⟩,
  /- reactionsYao:4058  C12H24 = PXC7H15 + C5H9 -/
  ⟨[48], [37, 31], true, .arrhenius ⟨(35000000000000000, 0), (0, 0), (356948, 1)⟩⟩,
  /- reactionsYao:4066  C2H4 + PXC10H21 = PXC12H25 -/
  ⟨[20, 43], [45], true, .arrhenius ⟨(300000000, 0), (0, 0), (36733, 1)⟩⟩,
  /- reactionsYao:4074  PXC12H25 = S3XC12H25 -/
  ⟨[45], [47], true, .arrhenius ⟨(3670000000000, 0), (-6, 1), (724595, 2)⟩⟩,
  /- reactionsYao:4082  C3H6 + PXC9H19 = SXC12H25 -/
  ⟨[25, 41], [46], true, .arrhenius ⟨(300000000, 0), (0, 0), (36733, 1)⟩⟩,
  /- reactionsYao:4090  C4H81 + PXC8H17 = SXC12H25 -/
  ⟨[29, 39], [46], true, .arrhenius ⟨(300000000, 0), (0, 0), (36733, 1)⟩⟩,
  /- reactionsYao:4098  C5H10 + PXC7H15 = S3XC12H25 -/
  ⟨[32, 37], [47], true, .arrhenius ⟨(300000000, 0), (0, 0), (36733, 1)⟩⟩,
  /- reactionsYao:4106  C10H20 + C2H5 = S3XC12H25 -/
  ⟨[42, 21], [47], true, .arrhenius ⟨(300000000, 0), (0, 0), (36733, 1)⟩⟩,
  /- reactionsYao:4114  C6H12 + PXC6H13 = S3XC12H25 -/
  ⟨[34, 35], [47], true, .arrhenius ⟨(300000000, 0), (0, 0), (36733, 1)⟩⟩,
  /- reactionsYao:4122  C9H18 + nC3H7 = S3XC12H25 -/
  ⟨[40, 26], [47], true, .arrhenius ⟨(300000000, 0), (0, 0), (36733, 1)⟩⟩,
  /- reactionsYao:4130  C7H14 + PXC5H11 = S3XC12H25 -/
  ⟨[36, 33], [47], true, .arrhenius ⟨(300000000, 0), (0, 0), (36733, 1)⟩⟩,
  /- reactionsYao:4138  C8H16 + pC4H9 = S3XC12H25 -/
  ⟨[38, 30], [47], true, .arrhenius ⟨(300000000, 0), (0, 0), (36733, 1)⟩⟩,
  /- reactionsYao:4146  PXC10H21 + C2H5 = NC12H26 -/
  ⟨[43, 21], [44], true, .arrhenius ⟨(188000000000, 0), (-5, 1), (0, 0)⟩⟩,
  /- reactionsYao:4154  PXC9H19 + nC3H7 = NC12H26 -/
  ⟨[41, 26], [44], true, .arrhenius ⟨(188000000000, 0), (-5, 1), (0, 0)⟩⟩,
  /- reactionsYao:4162  PXC8H17 + pC4H9 = NC12H26 -/
  ⟨[39, 30], [44], true, .arrhenius ⟨(188000000000, 0), (-5, 1), (0, 0)⟩⟩,
  /- reactionsYao:4170  PXC7H15 + PXC5H11 = NC12H26 -/
  ⟨[37, 33], [44], true, .arrhenius ⟨(188000000000, 0), (-5, 1), (0, 0)⟩⟩,
  /- reactionsYao:4178  PXC6H13 + PXC6H13 = NC12H26 -/
  ⟨[35, 35], [44], true, .arrhenius ⟨(188000000000, 0), (-5, 1), (0, 0)⟩⟩,
  /- reactionsYao:4186  NC12H26 + H = PXC12H25 + H2 -/
  ⟨[44, 1], [45, 5], true, .arrhenius ⟨(1300, 0), (254, 2), (339956, 2)⟩⟩,
  /- reactionsYao:4194  NC12H26 + H = SXC12H25 + H2 -/
  ⟨[44, 1], [46, 5], true, .arrhenius ⟨(2600, 0), (24, 1), (224977, 2)⟩⟩,
  /- reactionsYao:4202  NC12H26 + H = S3XC12H25 + H2 -/
  ⟨[44, 1], [47, 5], true, .arrhenius ⟨(3900, 0), (24, 1), (224977, 2)⟩⟩,
  /- reactionsYao:4210  NC12H26 + O = PXC12H25 + OH -/
  ⟨[44, 2], [45, 3], true, .arrhenius ⟨(190, 0), (268, 2), (186986, 2)⟩⟩,
  /- reactionsYao:4218  NC12H26 + O = SXC12H25 + OH -/
  ⟨[44, 2], [46, 3], true, .arrhenius ⟨(952, 1), (271, 2), (105972, 2)⟩⟩,
  /- reactionsYao:4226  NC12H26 + O = S3XC12H25 + OH -/
  ⟨[44, 2], [47, 3], true, .arrhenius ⟨(1428, 1), (271, 2), (105972, 2)⟩⟩,
  /- reactionsYao:4234  NC12H26 + OH = PXC12H25 + H2O -/
  ⟨[44, 3], [45, 6], true, .arrhenius ⟨(34, 1), (266, 2), (265182, 3)⟩⟩,
  /- reactionsYao:4242  NC12H26 + OH = SXC12H25 + H2O -/
  ⟨[44, 3], [46, 6], true, .arrhenius ⟨(74, 0), (239, 2), (197754, 3)⟩⟩,
  /- reactionsYao:4250  NC12H26 + OH = S3XC12H25 + H2O -/
  ⟨[44, 3], [47, 6], true, .arrhenius ⟨(101, 0), (239, 2), (197754, 3)⟩⟩,
  /- reactionsYao:4258  NC12H26 + O2 = PXC12H25 + HO2 -/
  ⟨[44, 8], [45, 4], true, .arrhenius ⟨(40000000000, 0), (0, 0), (256275, 1)⟩⟩,
  /- reactionsYao:4266  NC12H26 + O2 = SXC12H25 + HO2 -/
  ⟨[44, 8], [46, 4], true, .arrhenius ⟨(80000000000, 0), (0, 0), (239469, 1)⟩⟩,
  /- reactionsYao:4274  NC12H26 + O2 = S3XC12H25 + HO2 -/
  ⟨[44, 8], [47, 4], true, .arrhenius ⟨(120000000000, 0), (0, 0), (239469, 1)⟩⟩,
  /- reactionsYao:4282  NC12H26 + HO2 = PXC12H25 + H2O2 -/
  ⟨[44, 4], [45, 7], true, .arrhenius ⟨(676, 1), (255, 2), (829762, 2)⟩⟩,
  /- reactionsYao:4290  NC12H26 + HO2 = SXC12H25 + H2O2 -/
  ⟨[44, 4], [46, 7], true, .arrhenius ⟨(89, 0), (26, 1), (699939, 2)⟩⟩,
  /- reactionsYao:4298  NC12H26 + HO2 = S3XC12H25 + H2O2 -/
  ⟨[44, 4], [47, 7], true, .arrhenius ⟨(885, 1), (26, 1), (699939, 2)⟩⟩,
  /- reactionsYao:4306  NC12H26 + CH3 = PXC12H25 + CH4 -/
  ⟨[44, 11], [45, 12], true, .arrhenius ⟨(181, 5), (365, 2), (359933, 2)⟩⟩,
  /- reactionsYao:4314  NC12H26 + CH3 = SXC12H25 + CH4 -/
  ⟨[44, 11], [46, 12], true, .arrhenius ⟨(6, 3), (346, 2), (275749, 2)⟩⟩,
  /- reactionsYao:4322  NC12H26 + CH3 = S3XC12H25 + CH4 -/
  ⟨[44, 11], [47, 12], true, .arrhenius ⟨(9, 3), (346, 2), (275749, 2)⟩⟩,
  /- reactionsYao:4330  PXC12H25 + O2 = C12H25O2 -/
  ⟨[45, 8], [49], false, .arrhenius ⟨(50000000000, 0), (0, 0), (0, 0)⟩⟩,
  /- reactionsYao:4338  C12H25O2 = PXC12H25 + O2 -/
  ⟨[49], [45, 8], false, .arrhenius ⟨(27500000000000, 0), (0, 0), (137874, 1)⟩⟩,
  /- reactionsYao:4346  SXC12H25 + O2 = C12H25O2 -/
  ⟨[46, 8], [49], false, .arrhenius ⟨(50000000000, 0), (0, 0), (0, 0)⟩⟩,
  /- reactionsYao:4354  C12H25O2 = SXC12H25 + O2 -/
  ⟨[49], [46, 8], false, .arrhenius ⟨(27500000000000, 0), (0, 0), (137874, 1)⟩⟩,
  /- reactionsYao:4362  S3XC12H25 + O2 = C12H25O2 -/
  ⟨[47, 8], [49], false, .arrhenius ⟨(50000000000, 0), (0, 0), (0, 0)⟩⟩,
  /- reactionsYao:4370  C12H25O2 = S3XC12H25 + O2 -/
  ⟨[49], [47, 8], false, .arrhenius ⟨(27500000000000, 0), (0, 0), (137874, 1)⟩⟩,
  /- reactionsYao:4378  C12H25O2 = C12OOH -/
  ⟨[49], [50], false, .arrhenius ⟨(1510000000000, 0), (0, 0), (956063, 2)⟩⟩,
  /- reactionsYao:4386  C12OOH = C12H25O2 -/
  ⟨[50], [49], false, .arrhenius ⟨(100000000000, 0), (0, 0), (57867, 1)⟩⟩,
  /- reactionsYao:4394  PXC12H25 + O2 = C12H24 + HO2 -/
  ⟨[45, 8], [48, 4], false, .arrhenius ⟨(350000000, 0), (0, 0), (301915, 2)⟩⟩,
  /- reactionsYao:4402  C12H24 + HO2 = PXC12H25 + O2 -/
  ⟨[48, 4], [45, 8], false, .arrhenius ⟨(316000000, 0), (0, 0), (981223, 2)⟩⟩,
  /- reactionsYao:4410  SXC12H25 + O2 = C12H24 + HO2 -/
  ⟨[46, 8], [48, 4], false, .arrhenius ⟨(350000000, 0), (0, 0), (301915, 2)⟩⟩,
  /- reactionsYao:4418  C12H24 + HO2 = SXC12H25 + O2 -/
  ⟨[48, 4], [46, 8], false, .arrhenius ⟨(316000000, 0), (0, 0), (981223, 2)⟩⟩,
  /- reactionsYao:4426  S3XC12H25 + O2 = C12H24 + HO2 -/
  ⟨[47, 8], [48, 4], false, .arrhenius ⟨(350000000, 0), (0, 0), (301915, 2)⟩⟩,
  /- reactionsYao:4434  C12H24 + HO2 = S3XC12H25 + O2 -/
  ⟨[48, 4], [47, 8], false, .arrhenius ⟨(316000000, 0), (0, 0), (981223, 2)⟩⟩,
  /- reactionsYao:4442  C12OOH + O2 = O2C12H24OOH -/
  ⟨[50, 8], [51], false, .arrhenius ⟨(46000000, 0), (0, 0), (0, 0)⟩⟩,
  /- reactionsYao:4450  O2C12H24OOH = C12OOH + O2 -/
  ⟨[51], [50, 8], false, .arrhenius ⟨(25100000000000, 0), (0, 0), (137874, 1)⟩⟩,
  /- reactionsYao:4458  O2C12H24OOH = OC12H23OOH + OH -/
  ⟨[51], [52, 3], true, .arrhenius ⟨(89000000000, 0), (0, 0), (855425, 2)⟩⟩,
  /- reactionsYao:4466  OC12H23OOH = 3C2H4 + C2H5 + 2CH2CHO + OH -/
  ⟨[52], [20, 20, 20, 21, 23, 23, 3], false, .arrhenius ⟨(1800000000000000, 0), (0, 0), (211667, 1)⟩⟩]

end DLB.Mech.Yao
