/- Generated by tools/gen_mechanisms.py from utilities/mechanisms/yao/chem.cti. Do not edit. -/
import Verif.Spec.RateLaw
set_option autoImplicit false

namespace DLB.Mech.Yao
open DLB

/-- The rate laws of the reactions, utilities/mechanisms/yao/chem.cti:896-1833 -/
def laws : List RateLaw := [
  /- chem.cti:896  H + O2 <=> OH + O -/
  .simple ⟨(97560000000000, 0), (0, 0), (1484226, 2)⟩,
  /- chem.cti:899  O + H2 <=> H + OH -/
  .simple ⟨(45890, 0), (27, 1), (6260, 0)⟩,
  /- chem.cti:902  OH + H2 <=> H2O + H -/
  .simple ⟨(102400000, 0), (16, 1), (329828, 2)⟩,
  /- chem.cti:905  OH + OH <=> O + H2O -/
  .simple ⟨(39730, 0), (24, 1), (-2110, 0)⟩,
  /- chem.cti:908  H + O2 (+ M) <=> HO2 (+ M) -/
  .falloff ⟨(5116000000000, 0), (44, 2), (0, 0)⟩ ⟨(63280000000000000000, 0), (-14, 1), (0, 0)⟩ (some ⟨(5, 1), (1, 30), (1000000000000000000000000000000, 0), none⟩),
  /- chem.cti:915  HO2 + H <=> OH + OH -/
  .simple ⟨(74850000000000, 0), (0, 0), (295, 0)⟩,
  /- chem.cti:918  H2 + O2 <=> HO2 + H -/
  .simple ⟨(591600, 0), (2433, 3), (53502, 0)⟩,
  /- chem.cti:921  HO2 + OH <=> H2O + O2 -/
  .simple ⟨(28910000000000, 0), (0, 0), (-50191, 2)⟩,
  /- chem.cti:924  HO2 + H <=> O + H2O -/
  .simple ⟨(3970000000000, 0), (0, 0), (671, 0)⟩,
  /- chem.cti:927  HO2 + O <=> OH + O2 -/
  .simple ⟨(40000000000000, 0), (0, 0), (0, 0)⟩,
  /- chem.cti:930  HO2 + HO2 <=> O2 + H2O2 -/
  .simple ⟨(130000000000, 0), (0, 0), (-1630, 0)⟩,
  /- chem.cti:934  HO2 + HO2 <=> O2 + H2O2 -/
  .simple ⟨(365800000000000, 0), (0, 0), (12000, 0)⟩,
  /- chem.cti:938  H2O2 + H <=> OH + H2O -/
  .simple ⟨(24100000000000, 0), (0, 0), (3970, 0)⟩,
  /- chem.cti:941  H2O2 + H <=> HO2 + H2 -/
  .simple ⟨(6050000, 0), (2, 0), (5200, 0)⟩,
  /- chem.cti:944  H2O2 + O <=> OH + HO2 -/
  .simple ⟨(9630000, 0), (2, 0), (3970, 0)⟩,
  /- chem.cti:947  H2O2 + OH <=> HO2 + H2O -/
  .simple ⟨(2000000000000, 0), (0, 0), (427, 0)⟩,
  /- chem.cti:951  H2O2 + OH <=> HO2 + H2O -/
  .simple ⟨(267000000000000000000000000000000000000000, 0), (-7, 0), (37600, 0)⟩,
  /- chem.cti:955  OH + OH (+ M) <=> H2O2 (+ M) -/
  .falloff ⟨(111000000000000, 0), (-37, 2), (0, 0)⟩ ⟨(201000000000000000, 0), (-584, 3), (-2293, 0)⟩ (some ⟨(7346, 4), (94, 0), (1756, 0), some (5182, 0)⟩),
  /- chem.cti:962  H + H + M <=> H2 + M -/
  .simple ⟨(1780000000000000000, 0), (-1, 0), (0, 0)⟩,
  /- chem.cti:966  H + OH + M <=> H2O + M -/
  .simple ⟨(44000000000000000000000, 0), (-2, 0), (0, 0)⟩,
  /- chem.cti:970  O + O + M <=> O2 + M -/
  .simple ⟨(120000000000000000, 0), (-1, 0), (0, 0)⟩,
  /- chem.cti:974  H + H + H2 <=> H2 + H2 -/
  .simple ⟨(90000000000000000, 0), (-6, 1), (0, 0)⟩,
  /- chem.cti:977  H + H + H2O <=> H2 + H2O -/
  .simple ⟨(56240000000000000000, 0), (-125, 2), (0, 0)⟩,
  /- chem.cti:980  H + H + CO2 <=> H2 + CO2 -/
  .simple ⟨(550000000000000000000, 0), (-2, 0), (0, 0)⟩,
  /- chem.cti:983  O + H + M <=> OH + M -/
  .simple ⟨(9428000000000000000, 0), (-1, 0), (0, 0)⟩,
  /- chem.cti:987  CO + OH <=> CO2 + H -/
  .simple ⟨(70460, 0), (2053, 3), (-35567, 2)⟩,
  /- chem.cti:991  CO + OH <=> CO2 + H -/
  .simple ⟨(5757000000000, 0), (-664, 3), (33183, 2)⟩,
  /- chem.cti:995  CO + HO2 <=> CO2 + OH -/
  .simple ⟨(157000, 0), (218, 2), (1794261, 2)⟩,
  /- chem.cti:998  CO + O (+ M) <=> CO2 (+ M) -/
  .falloff ⟨(13620000000, 0), (0, 0), (2384, 0)⟩ ⟨(1173000000000000000000000, 0), (-279, 2), (4191, 0)⟩ none,
  /- chem.cti:1004  CO + O2 <=> CO2 + O -/
  .simple ⟨(1119000000000, 0), (0, 0), (47700, 0)⟩,
  /- chem.cti:1007  HCO + M <=> CO + H + M -/
  .simple ⟨(187000000000000000, 0), (-1, 0), (17000, 0)⟩,
  /- chem.cti:1011  HCO + H <=> CO + H2 -/
  .simple ⟨(120000000000000, 0), (0, 0), (0, 0)⟩,
  /- chem.cti:1014  HCO + O <=> CO + OH -/
  .simple ⟨(30000000000000, 0), (0, 0), (0, 0)⟩,
  /- chem.cti:1017  HCO + O <=> CO2 + H -/
  .simple ⟨(30000000000000, 0), (0, 0), (0, 0)⟩,
  /- chem.cti:1020  HCO + OH <=> CO + H2O -/
  .simple ⟨(30200000000000, 0), (0, 0), (0, 0)⟩,
  /- chem.cti:1023  HCO + O2 <=> CO + HO2 -/
  .simple ⟨(12040000000, 0), (807, 3), (-727, 0)⟩,
  /- chem.cti:1026  HCO + H2O <=> CO + H + H2O -/
  .simple ⟨(2244000000000000000, 0), (-1, 0), (17000, 0)⟩,
  /- chem.cti:1029  CO + H2 (+ M) <=> CH2O (+ M) -/
  .falloff ⟨(43000000, 0), (15, 1), (79600, 0)⟩ ⟨(5070000000000000000000000000, 0), (-342, 2), (84350, 0)⟩ (some ⟨(932, 3), (197, 0), (1540, 0), some (10300, 0)⟩),
  /- chem.cti:1036  HCO + H (+ M) <=> CH2O (+ M) -/
  .falloff ⟨(1090000000000, 0), (48, 2), (-260, 0)⟩ ⟨(1350000000000000000000000, 0), (-257, 2), (1425, 0)⟩ (some ⟨(7824, 4), (271, 0), (2755, 0), some (6570, 0)⟩),
  /- chem.cti:1043  CH2 + H (+ M) <=> CH3 (+ M) -/
  .falloff ⟨(25000000000000000, 0), (-8, 1), (0, 0)⟩ ⟨(3200000000000000000000000000, 0), (-314, 2), (1230, 0)⟩ (some ⟨(68, 2), (78, 0), (1995, 0), some (5590, 0)⟩),
  /- chem.cti:1050  CH2 + O <=> HCO + H -/
  .simple ⟨(80000000000000, 0), (0, 0), (0, 0)⟩,
  /- chem.cti:1053  CH2 + OH <=> CH2O + H -/
  .simple ⟨(20000000000000, 0), (0, 0), (0, 0)⟩,
  /- chem.cti:1056  CH2 + H2 <=> H + CH3 -/
  .simple ⟨(500000, 0), (2, 0), (7230, 0)⟩,
  /- chem.cti:1059  CH2 + O2 <=> HCO + OH -/
  .simple ⟨(10600000000000, 0), (0, 0), (1500, 0)⟩,
  /- chem.cti:1062  CH2 + O2 <=> CO2 + H + H -/
  .simple ⟨(2640000000000, 0), (0, 0), (1500, 0)⟩,
  /- chem.cti:1065  CH2 + HO2 <=> CH2O + OH -/
  .simple ⟨(20000000000000, 0), (0, 0), (0, 0)⟩,
  /- chem.cti:1068  CH2 + CH2 <=> C2H2 + H2 -/
  .simple ⟨(32000000000000, 0), (0, 0), (0, 0)⟩,
  /- chem.cti:1071  CH2* + N2 <=> CH2 + N2 -/
  .simple ⟨(15000000000000, 0), (0, 0), (600, 0)⟩,
  /- chem.cti:1074  CH2* + AR <=> CH2 + AR -/
  .simple ⟨(9000000000000, 0), (0, 0), (600, 0)⟩,
  /- chem.cti:1077  CH2* + O <=> CO + H2 -/
  .simple ⟨(15000000000000, 0), (0, 0), (0, 0)⟩,
  /- chem.cti:1080  CH2* + O <=> HCO + H -/
  .simple ⟨(15000000000000, 0), (0, 0), (0, 0)⟩,
  /- chem.cti:1083  CH2* + OH <=> CH2O + H -/
  .simple ⟨(30000000000000, 0), (0, 0), (0, 0)⟩,
  /- chem.cti:1086  CH2* + H2 <=> CH3 + H -/
  .simple ⟨(70000000000000, 0), (0, 0), (0, 0)⟩,
  /- chem.cti:1089  CH2* + O2 <=> H + OH + CO -/
  .simple ⟨(28000000000000, 0), (0, 0), (0, 0)⟩,
  /- chem.cti:1092  CH2* + O2 <=> CO + H2O -/
  .simple ⟨(12000000000000, 0), (0, 0), (0, 0)⟩,
  /- chem.cti:1095  CH2* + H2O <=> CH2 + H2O -/
  .simple ⟨(30000000000000, 0), (0, 0), (0, 0)⟩,
  /- chem.cti:1098  CH2* + CO <=> CH2 + CO -/
  .simple ⟨(9000000000000, 0), (0, 0), (0, 0)⟩,
  /- chem.cti:1101  CH2* + CO2 <=> CH2 + CO2 -/
  .simple ⟨(7000000000000, 0), (0, 0), (0, 0)⟩,
  /- chem.cti:1104  CH2* + CO2 <=> CH2O + CO -/
  .simple ⟨(14000000000000, 0), (0, 0), (0, 0)⟩,
  /- chem.cti:1107  CH2O + H (+ M) <=> CH3O (+ M) -/
  .falloff ⟨(540000000000, 0), (454, 3), (2600, 0)⟩ ⟨(2200000000000000000000000000000, 0), (-48, 1), (5560, 0)⟩ (some ⟨(758, 3), (94, 0), (1555, 0), some (4200, 0)⟩),
  /- chem.cti:1114  CH2O + H <=> HCO + H2 -/
  .simple ⟨(23000000000, 0), (105, 2), (3275, 0)⟩,
  /- chem.cti:1117  CH2O + O <=> HCO + OH -/
  .simple ⟨(39000000000000, 0), (0, 0), (3540, 0)⟩,
  /- chem.cti:1120  CH2O + OH <=> HCO + H2O -/
  .simple ⟨(3430000000, 0), (118, 2), (-447, 0)⟩,
  /- chem.cti:1123  CH2O + O2 <=> HCO + HO2 -/
  .simple ⟨(100000000000000, 0), (0, 0), (40000, 0)⟩,
  /- chem.cti:1126  CH2O + HO2 <=> HCO + H2O2 -/
  .simple ⟨(1000000000000, 0), (0, 0), (8000, 0)⟩,
  /- chem.cti:1129  CH3 + H (+ M) <=> CH4 (+ M) -/
  .falloff ⟨(12700000000000000, 0), (-63, 2), (383, 0)⟩ ⟨(2477000000000000000000000000000000, 0), (-476, 2), (2440, 0)⟩ (some ⟨(783, 3), (74, 0), (2941, 0), some (6964, 0)⟩),
  /- chem.cti:1136  CH3 + O <=> CH2O + H -/
  .simple ⟨(84300000000000, 0), (0, 0), (0, 0)⟩,
  /- chem.cti:1139  CH3 + OH <=> CH2 + H2O -/
  .simple ⟨(56000000, 0), (16, 1), (5420, 0)⟩,
  /- chem.cti:1142  CH3 + OH <=> CH2* + H2O -/
  .simple ⟨(25010000000000, 0), (0, 0), (0, 0)⟩,
  /- chem.cti:1145  CH3 + O2 <=> O + CH3O -/
  .simple ⟨(30830000000000, 0), (0, 0), (28800, 0)⟩,
  /- chem.cti:1148  CH3 + O2 <=> OH + CH2O -/
  .simple ⟨(36000000000, 0), (0, 0), (8940, 0)⟩,
  /- chem.cti:1151  CH3 + HO2 <=> CH4 + O2 -/
  .simple ⟨(1000000000000, 0), (0, 0), (0, 0)⟩,
  /- chem.cti:1154  CH3 + HO2 <=> CH3O + OH -/
  .simple ⟨(13400000000000, 0), (0, 0), (0, 0)⟩,
  /- chem.cti:1157  CH3 + H2O2 <=> CH4 + HO2 -/
  .simple ⟨(24500, 0), (247, 2), (5180, 0)⟩,
  /- chem.cti:1160  CH3 + HCO <=> CH4 + CO -/
  .simple ⟨(8480000000000, 0), (0, 0), (0, 0)⟩,
  /- chem.cti:1163  CH3 + CH2O <=> CH4 + HCO -/
  .simple ⟨(3320, 0), (281, 2), (5860, 0)⟩,
  /- chem.cti:1166  CH3 + CH2 <=> C2H4 + H -/
  .simple ⟨(40000000000000, 0), (0, 0), (0, 0)⟩,
  /- chem.cti:1169  CH3 + CH2* <=> C2H4 + H -/
  .simple ⟨(12000000000000, 0), (0, 0), (-570, 0)⟩,
  /- chem.cti:1172  CH3 + CH3 (+ M) <=> C2H6 (+ M) -/
  .falloff ⟨(21200000000000000, 0), (-97, 2), (620, 0)⟩ ⟨(177000000000000000000000000000000000000000000000000, 0), (-967, 2), (6220, 0)⟩ (some ⟨(5325, 4), (151, 0), (1038, 0), some (4970, 0)⟩),
  /- chem.cti:1179  CH3 + CH3 <=> H + C2H5 -/
  .simple ⟨(4990000000000, 0), (1, 1), (10600, 0)⟩,
  /- chem.cti:1182  CH3O + H <=> CH2O + H2 -/
  .simple ⟨(20000000000000, 0), (0, 0), (0, 0)⟩,
  /- chem.cti:1185  CH3O + H <=> CH3 + OH -/
  .simple ⟨(32000000000000, 0), (0, 0), (0, 0)⟩,
  /- chem.cti:1188  CH3O + H <=> CH2* + H2O -/
  .simple ⟨(16000000000000, 0), (0, 0), (0, 0)⟩,
  /- chem.cti:1191  CH3O + O <=> CH2O + OH -/
  .simple ⟨(10000000000000, 0), (0, 0), (0, 0)⟩,
  /- chem.cti:1194  CH3O + OH <=> CH2O + H2O -/
  .simple ⟨(5000000000000, 0), (0, 0), (0, 0)⟩,
  /- chem.cti:1197  CH3O + O2 <=> CH2O + HO2 -/
  .simple ⟨(428, 15), (76, 1), (-3530, 0)⟩,
  /- chem.cti:1200  CH4 + H <=> CH3 + H2 -/
  .simple ⟨(660000000, 0), (162, 2), (10840, 0)⟩,
  /- chem.cti:1203  CH4 + O <=> CH3 + OH -/
  .simple ⟨(1020000000, 0), (15, 1), (8600, 0)⟩,
  /- chem.cti:1206  CH4 + OH <=> CH3 + H2O -/
  .simple ⟨(100000000, 0), (16, 1), (3120, 0)⟩,
  /- chem.cti:1209  CH4 + CH2 <=> CH3 + CH3 -/
  .simple ⟨(2460000, 0), (2, 0), (8270, 0)⟩,
  /- chem.cti:1212  CH4 + CH2* <=> CH3 + CH3 -/
  .simple ⟨(16000000000000, 0), (0, 0), (-570, 0)⟩,
  /- chem.cti:1215  C2H3 (+ M) <=> C2H2 + H (+ M) -/
  .falloff ⟨(38600000, 0), (162, 2), (370482, 1)⟩ ⟨(2565000000000000000000000000, 0), (-34, 1), (3579872, 2)⟩ (some ⟨(19816, 4), (53837, 1), (42932, 4), some (-795, 4)⟩),
  /- chem.cti:1222  C2H2 + O <=> CH2 + CO -/
  .simple ⟨(4080000, 0), (2, 0), (1900, 0)⟩,
  /- chem.cti:1225  C2H2 + OH <=> CH3 + CO -/
  .simple ⟨(483, 6), (4, 0), (-2000, 0)⟩,
  /- chem.cti:1228  C2H2 + HCO <=> C2H3 + CO -/
  .simple ⟨(10000000, 0), (2, 0), (6000, 0)⟩,
  /- chem.cti:1231  C2H2 + CH3 <=> aC3H5 -/
  .simple ⟨(268000000000000000000000000000000000000000000000000000, 0), (-1282, 2), (35730, 0)⟩,
  /- chem.cti:1235  C2H3 + H (+ M) <=> C2H4 (+ M) -/
  .falloff ⟨(6080000000000, 0), (27, 2), (280, 0)⟩ ⟨(1400000000000000000000000000000, 0), (-386, 2), (3320, 0)⟩ (some ⟨(782, 3), (2075, 1), (2663, 0), some (6095, 0)⟩),
  /- chem.cti:1242  C2H3 + H <=> C2H2 + H2 -/
  .simple ⟨(90000000000000, 0), (0, 0), (0, 0)⟩,
  /- chem.cti:1245  C2H3 + O <=> CH3 + CO -/
  .simple ⟨(48000000000000, 0), (0, 0), (0, 0)⟩,
  /- chem.cti:1248  C2H3 + OH <=> C2H2 + H2O -/
  .simple ⟨(30110000000000, 0), (0, 0), (0, 0)⟩,
  /- chem.cti:1251  C2H3 + O2 <=> C2H2 + HO2 -/
  .simple ⟨(1340000, 0), (161, 2), (-3834, 1)⟩,
  /- chem.cti:1254  C2H3 + O2 <=> CH2CHO + O -/
  .simple ⟨(300000000000, 0), (29, 2), (11, 0)⟩,
  /- chem.cti:1257  C2H3 + O2 <=> HCO + CH2O -/
  .simple ⟨(46000000000000000, 0), (-139, 2), (1010, 0)⟩,
  /- chem.cti:1260  C2H3 + HO2 <=> CH2CHO + OH -/
  .simple ⟨(10000000000000, 0), (0, 0), (0, 0)⟩,
  /- chem.cti:1263  C2H3 + H2O2 <=> C2H4 + HO2 -/
  .simple ⟨(12100000000, 0), (0, 0), (-596, 0)⟩,
  /- chem.cti:1266  C2H3 + HCO <=> C2H4 + CO -/
  .simple ⟨(90330000000000, 0), (0, 0), (0, 0)⟩,
  /- chem.cti:1269  C2H3 + HCO <=> C2H3CHO -/
  .simple ⟨(18000000000000, 0), (0, 0), (0, 0)⟩,
  /- chem.cti:1272  C2H3 + CH3 <=> C2H2 + CH4 -/
  .simple ⟨(392000000000, 0), (0, 0), (0, 0)⟩,
  /- chem.cti:1275  C2H3 + CH3 (+ M) <=> C3H6 (+ M) -/
  .falloff ⟨(25000000000000, 0), (0, 0), (0, 0)⟩ ⟨(42700000000000000000000000000000000000000000000000000000000, 0), (-1194, 2), (97698, 1)⟩ (some ⟨(175, 3), (13406, 1), (60000, 0), some (101398, 1)⟩),
  /- chem.cti:1282  C2H3 + CH3 <=> aC3H5 + H -/
  .simple ⟨(1500000000000000000000000, 0), (-283, 2), (18618, 0)⟩,
  /- chem.cti:1285  C2H3 + C2H3 <=> C2H2 + C2H4 -/
  .simple ⟨(960000000000, 0), (0, 0), (0, 0)⟩,
  /- chem.cti:1288  CH2CHO <=> CH3 + CO -/
  .simple ⟨(780000000000000000000000000000000000000000, 0), (-9147, 3), (46900, 0)⟩,
  /- chem.cti:1291  CH2CHO + H <=> CH3 + HCO -/
  .simple ⟨(90000000000000, 0), (0, 0), (0, 0)⟩,
  /- chem.cti:1294  CH2CHO + O2 <=> CH2O + CO + OH -/
  .simple ⟨(18000000000, 0), (0, 0), (0, 0)⟩,
  /- chem.cti:1298  C2H4 + H (+ M) <=> C2H5 (+ M) -/
  .falloff ⟨(3975000000, 0), (128, 2), (129063, 2)⟩ ⟨(4715000000000000000, 0), (0, 0), (75526, 2)⟩ (some ⟨(76, 2), (40, 0), (1025, 0), none⟩),
  /- chem.cti:1305  C2H4 + H <=> C2H3 + H2 -/
  .simple ⟨(50700000, 0), (19, 1), (12950, 0)⟩,
  /- chem.cti:1308  C2H4 + O <=> C2H3 + OH -/
  .simple ⟨(15100000, 0), (19, 1), (3740, 0)⟩,
  /- chem.cti:1311  C2H4 + O <=> CH3 + HCO -/
  .simple ⟨(19200000, 0), (183, 2), (220, 0)⟩,
  /- chem.cti:1314  C2H4 + O <=> CH2 + CH2O -/
  .simple ⟨(384000, 0), (183, 2), (220, 0)⟩,
  /- chem.cti:1317  C2H4 + OH <=> C2H3 + H2O -/
  .simple ⟨(3600000, 0), (2, 0), (2500, 0)⟩,
  /- chem.cti:1320  C2H4 + HCO <=> C2H5 + CO -/
  .simple ⟨(10000000, 0), (2, 0), (8000, 0)⟩,
  /- chem.cti:1323  C2H4 + CH2 <=> aC3H5 + H -/
  .simple ⟨(20000000000000, 0), (0, 0), (6000, 0)⟩,
  /- chem.cti:1326  C2H4 + CH2* <=> aC3H5 + H -/
  .simple ⟨(50000000000000, 0), (0, 0), (0, 0)⟩,
  /- chem.cti:1329  C2H4 + CH3 <=> C2H3 + CH4 -/
  .simple ⟨(227000, 0), (2, 0), (9200, 0)⟩,
  /- chem.cti:1332  nC3H7 <=> CH3 + C2H4 -/
  .simple ⟨(96000000000000, 0), (0, 0), (3102294, 2)⟩,
  /- chem.cti:1335  C2H4 + O2 <=> C2H3 + HO2 -/
  .simple ⟨(42200000000000, 0), (0, 0), (60800, 0)⟩,
  /- chem.cti:1338  C2H4 + C2H3 <=> C4H7 -/
  .simple ⟨(793000000000000000000000000000000000000, 0), (-847, 2), (14220, 0)⟩,
  /- chem.cti:1342  C2H5 + H (+ M) <=> C2H6 (+ M) -/
  .falloff ⟨(521000000000000000, 0), (-99, 2), (1580, 0)⟩ ⟨(199000000000000000000000000000000000000000, 0), (-708, 2), (6685, 0)⟩ (some ⟨(8422, 4), (125, 0), (2219, 0), some (6882, 0)⟩),
  /- chem.cti:1349  C2H5 + H <=> C2H4 + H2 -/
  .simple ⟨(2000000000000, 0), (0, 0), (0, 0)⟩,
  /- chem.cti:1352  C2H5 + O <=> CH3 + CH2O -/
  .simple ⟨(16040000000000, 0), (0, 0), (0, 0)⟩,
  /- chem.cti:1355  C2H5 + O2 <=> C2H4 + HO2 -/
  .simple ⟨(20000000000, 0), (0, 0), (0, 0)⟩,
  /- chem.cti:1358  C2H5 + HO2 <=> C2H6 + O2 -/
  .simple ⟨(300000000000, 0), (0, 0), (0, 0)⟩,
  /- chem.cti:1361  C2H5 + HO2 <=> C2H4 + H2O2 -/
  .simple ⟨(300000000000, 0), (0, 0), (0, 0)⟩,
  /- chem.cti:1364  C2H5 + HO2 <=> CH3 + CH2O + OH -/
  .simple ⟨(24000000000000, 0), (0, 0), (0, 0)⟩,
  /- chem.cti:1367  C2H5 + H2O2 <=> C2H6 + HO2 -/
  .simple ⟨(8700000000, 0), (0, 0), (974, 0)⟩,
  /- chem.cti:1370  C2H5 + C2H3 (+ M) <=> C4H81 (+ M) -/
  .falloff ⟨(15000000000000, 0), (0, 0), (0, 0)⟩ ⟨(155000000000000000000000000000000000000000000000000000000, 0), (-1179, 2), (89845, 1)⟩ (some ⟨(198, 3), (22779, 1), (60000, 0), some (57232, 1)⟩),
  /- chem.cti:1377  C2H5 + C2H3 <=> aC3H5 + CH3 -/
  .simple ⟨(390000000000000000000000000000000, 0), (-522, 2), (19747, 0)⟩,
  /- chem.cti:1381  C2H6 + H <=> C2H5 + H2 -/
  .simple ⟨(115000000, 0), (19, 1), (7530, 0)⟩,
  /- chem.cti:1384  C2H6 + O <=> C2H5 + OH -/
  .simple ⟨(89800000, 0), (192, 2), (5690, 0)⟩,
  /- chem.cti:1387  C2H6 + OH <=> C2H5 + H2O -/
  .simple ⟨(3540000, 0), (212, 2), (870, 0)⟩,
  /- chem.cti:1390  C2H6 + CH2* <=> C2H5 + CH3 -/
  .simple ⟨(40000000000000, 0), (0, 0), (-550, 0)⟩,
  /- chem.cti:1393  C2H6 + CH3 <=> C2H5 + CH4 -/
  .simple ⟨(6140000, 0), (174, 2), (10450, 0)⟩,
  /- chem.cti:1397  aC3H5 + H (+ M) <=> C3H6 (+ M) -/
  .falloff ⟨(200000000000000, 0), (0, 0), (0, 0)⟩ ⟨(1330000000000000000000000000000000000000000000000000000000000, 0), (-12, 0), (59678, 1)⟩ (some ⟨(2, 2), (10966, 1), (10966, 1), some (68595, 1)⟩),
  /- chem.cti:1404  aC3H5 + O <=> C2H3CHO + H -/
  .simple ⟨(60000000000000, 0), (0, 0), (0, 0)⟩,
  /- chem.cti:1407  aC3H5 + OH <=> C2H3CHO + H + H -/
  .simple ⟨(420000000000000000000000000000000, 0), (-516, 2), (30126, 0)⟩,
  /- chem.cti:1410  aC3H5 + O2 <=> C2H3CHO + OH -/
  .simple ⟨(18200000000000, 0), (-41, 2), (22859, 0)⟩,
  /- chem.cti:1413  aC3H5 + HO2 <=> C3H6 + O2 -/
  .simple ⟨(2660000000000, 0), (0, 0), (0, 0)⟩,
  /- chem.cti:1416  aC3H5 + HO2 <=> OH + C2H3 + CH2O -/
  .simple ⟨(6600000000000, 0), (0, 0), (0, 0)⟩,
  /- chem.cti:1419  aC3H5 + HCO <=> C3H6 + CO -/
  .simple ⟨(60000000000000, 0), (0, 0), (0, 0)⟩,
  /- chem.cti:1422  aC3H5 + CH3 (+ M) <=> C4H81 (+ M) -/
  .falloff ⟨(100000000000000, 0), (-32, 2), (-2623, 1)⟩ ⟨(3910000000000000000000000000000000000000000000000000000000000, 0), (-1281, 2), (6250, 0)⟩ (some ⟨(104, 3), (1606, 0), (60000, 0), some (61184, 1)⟩),
  /- chem.cti:1430  C3H6 + H (+ M) <=> nC3H7 (+ M) -/
  .falloff ⟨(13300000000000, 0), (0, 0), (32607, 1)⟩ ⟨(626000000000000000000000000000000000000, 0), (-666, 2), (7000, 0)⟩ (some ⟨(1, 0), (1000, 0), (1310, 0), some (48097, 0)⟩),
  /- chem.cti:1437  C3H6 + H <=> C2H4 + CH3 -/
  .simple ⟨(8000000000000000000000, 0), (-239, 2), (11180, 0)⟩,
  /- chem.cti:1440  C3H6 + H <=> aC3H5 + H2 -/
  .simple ⟨(173000, 0), (25, 1), (2490, 0)⟩,
  /- chem.cti:1443  C3H6 + O <=> C2H3CHO + H + H -/
  .simple ⟨(40000000, 0), (165, 2), (327, 0)⟩,
  /- chem.cti:1446  C3H6 + O <=> C2H5 + HCO -/
  .simple ⟨(35000000, 0), (165, 2), (-972, 0)⟩,
  /- chem.cti:1449  C3H6 + O <=> aC3H5 + OH -/
  .simple ⟨(180000000000, 0), (7, 1), (5880, 0)⟩,
  /- chem.cti:1452  C3H6 + OH <=> aC3H5 + H2O -/
  .simple ⟨(3100000, 0), (2, 0), (-298, 0)⟩,
  /- chem.cti:1455  C3H6 + HO2 <=> aC3H5 + H2O2 -/
  .simple ⟨(9600, 0), (26, 1), (13910, 0)⟩,
  /- chem.cti:1458  C3H6 + CH3 <=> aC3H5 + CH4 -/
  .simple ⟨(22, 1), (35, 1), (5675, 0)⟩,
  /- chem.cti:1462  C2H3CHO + H <=> C2H4 + HCO -/
  .simple ⟨(108000000000, 0), (454, 3), (5820, 0)⟩,
  /- chem.cti:1465  C2H3CHO + O <=> C2H3 + OH + CO -/
  .simple ⟨(30000000000000, 0), (0, 0), (3540, 0)⟩,
  /- chem.cti:1468  C2H3CHO + OH <=> C2H3 + H2O + CO -/
  .simple ⟨(3430000000, 0), (118, 2), (-447, 0)⟩,
  /- chem.cti:1472  nC3H7 + H <=> C2H5 + CH3 -/
  .simple ⟨(3700000000000000000000000, 0), (-292, 2), (12505, 0)⟩,
  /- chem.cti:1475  nC3H7 + H <=> C3H6 + H2 -/
  .simple ⟨(1800000000000, 0), (0, 0), (0, 0)⟩,
  /- chem.cti:1478  nC3H7 + O <=> C2H5 + CH2O -/
  .simple ⟨(96000000000000, 0), (0, 0), (0, 0)⟩,
  /- chem.cti:1481  nC3H7 + OH <=> C3H6 + H2O -/
  .simple ⟨(24000000000000, 0), (0, 0), (0, 0)⟩,
  /- chem.cti:1484  nC3H7 + O2 <=> C3H6 + HO2 -/
  .simple ⟨(90000000000, 0), (0, 0), (0, 0)⟩,
  /- chem.cti:1487  nC3H7 + HO2 <=> C2H5 + OH + CH2O -/
  .simple ⟨(24000000000000, 0), (0, 0), (0, 0)⟩,
  /- chem.cti:1490  nC3H7 + CH3 <=> CH4 + C3H6 -/
  .simple ⟨(11000000000000, 0), (0, 0), (0, 0)⟩,
  /- chem.cti:1494  C4H7 + H (+ M) <=> C4H81 (+ M) -/
  .falloff ⟨(36000000000000, 0), (0, 0), (0, 0)⟩ ⟨(3010000000000000000000000000000000000000000000000, 0), (-932, 2), (58336, 1)⟩ (some ⟨(498, 3), (1314, 0), (1314, 0), some (50000, 0)⟩),
  /- chem.cti:1501  C4H7 + H <=> CH3 + aC3H5 -/
  .simple ⟨(2000000000000000000000, 0), (-2, 0), (11000, 0)⟩,
  /- chem.cti:1504  C4H7 + HO2 <=> CH2O + OH + aC3H5 -/
  .simple ⟨(24000000000000, 0), (0, 0), (0, 0)⟩,
  /- chem.cti:1507  C4H7 + HCO <=> C4H81 + CO -/
  .simple ⟨(60000000000000, 0), (0, 0), (0, 0)⟩,
  /- chem.cti:1511  C4H81 + H (+ M) <=> pC4H9 (+ M) -/
  .falloff ⟨(13300000000000, 0), (0, 0), (32607, 1)⟩ ⟨(626000000000000000000000000000000000000, 0), (-666, 2), (7000, 0)⟩ (some ⟨(1, 0), (1000, 0), (1310, 0), some (48097, 0)⟩),
  /- chem.cti:1518  C4H81 + H <=> C2H4 + C2H5 -/
  .simple ⟨(16000000000000000000000, 0), (-239, 2), (11180, 0)⟩,
  /- chem.cti:1521  C4H81 + H <=> C3H6 + CH3 -/
  .simple ⟨(32000000000000000000000, 0), (-239, 2), (11180, 0)⟩,
  /- chem.cti:1524  C4H81 + H <=> C4H7 + H2 -/
  .simple ⟨(650000, 0), (254, 2), (6756, 0)⟩,
  /- chem.cti:1527  C4H81 + O <=> nC3H7 + HCO -/
  .simple ⟨(330000000, 0), (145, 2), (-402, 0)⟩,
  /- chem.cti:1530  C4H81 + O <=> C4H7 + OH -/
  .simple ⟨(15000000000000, 0), (0, 0), (5760, 0)⟩,
  /- chem.cti:1534  C4H81 + O <=> C4H7 + OH -/
  .simple ⟨(26000000000000, 0), (0, 0), (4470, 0)⟩,
  /- chem.cti:1538  C4H81 + OH <=> C4H7 + H2O -/
  .simple ⟨(700, 0), (266, 2), (527, 0)⟩,
  /- chem.cti:1541  C4H81 + O2 <=> C4H7 + HO2 -/
  .simple ⟨(20000000000000, 0), (0, 0), (50930, 0)⟩,
  /- chem.cti:1544  C4H81 + HO2 <=> C4H7 + H2O2 -/
  .simple ⟨(1000000000000, 0), (0, 0), (14340, 0)⟩,
  /- chem.cti:1547  C4H81 + CH3 <=> C4H7 + CH4 -/
  .simple ⟨(45, 2), (365, 2), (7153, 0)⟩,
  /- chem.cti:1552  pC4H9 + H <=> C2H5 + C2H5 -/
  .simple ⟨(3700000000000000000000000, 0), (-292, 2), (12505, 0)⟩,
  /- chem.cti:1555  pC4H9 + H <=> C4H81 + H2 -/
  .simple ⟨(1800000000000, 0), (0, 0), (0, 0)⟩,
  /- chem.cti:1558  pC4H9 + O <=> nC3H7 + CH2O -/
  .simple ⟨(96000000000000, 0), (0, 0), (0, 0)⟩,
  /- chem.cti:1561  pC4H9 + OH <=> C4H81 + H2O -/
  .simple ⟨(24000000000000, 0), (0, 0), (0, 0)⟩,
  /- chem.cti:1564  pC4H9 + O2 <=> C4H81 + HO2 -/
  .simple ⟨(270000000000, 0), (0, 0), (0, 0)⟩,
  /- chem.cti:1567  pC4H9 + HO2 <=> nC3H7 + OH + CH2O -/
  .simple ⟨(24000000000000, 0), (0, 0), (0, 0)⟩,
  /- chem.cti:1570  pC4H9 + CH3 <=> C4H81 + CH4 -/
  .simple ⟨(11000000000000, 0), (0, 0), (0, 0)⟩,
  /- chem.cti:1576  C5H9 => aC3H5 + C2H4 -/
  .simple ⟨(25000000000000, 0), (0, 0), (3001912, 2)⟩,
  /- chem.cti:1579  C5H9 => C2H3 + C3H6 -/
  .simple ⟨(25000000000000, 0), (0, 0), (3001912, 2)⟩,
  /- chem.cti:1582  C5H10 + H (+ M) <=> PXC5H11 (+ M) -/
  .falloff ⟨(13300000000000, 0), (0, 0), (32607, 1)⟩ ⟨(626000000000000000000000000000000000000, 0), (-666, 2), (7000, 0)⟩ (some ⟨(1, 0), (1000, 0), (1310, 0), some (48097, 0)⟩),
  /- chem.cti:1589  C5H10 + H <=> C2H4 + nC3H7 -/
  .simple ⟨(8000000000000000000000, 0), (-239, 2), (11180, 0)⟩,
  /- chem.cti:1592  C5H10 + H <=> C3H6 + C2H5 -/
  .simple ⟨(16000000000000000000000, 0), (-239, 2), (11180, 0)⟩,
  /- chem.cti:1595  C2H4 + nC3H7 <=> PXC5H11 -/
  .simple ⟨(300000000000, 0), (0, 0), (7300, 0)⟩,
  /- chem.cti:1598  C6H12 + H (+ M) <=> PXC6H13 (+ M) -/
  .falloff ⟨(13300000000000, 0), (0, 0), (32607, 1)⟩ ⟨(626000000000000000000000000000000000000, 0), (-666, 2), (7000, 0)⟩ (some ⟨(1, 0), (1000, 0), (1310, 0), some (48097, 0)⟩),
  /- chem.cti:1605  C6H12 + H <=> C2H4 + pC4H9 -/
  .simple ⟨(8000000000000000000000, 0), (-239, 2), (11180, 0)⟩,
  /- chem.cti:1608  C6H12 + H <=> C3H6 + nC3H7 -/
  .simple ⟨(16000000000000000000000, 0), (-239, 2), (11180, 0)⟩,
  /- chem.cti:1611  C2H4 + pC4H9 <=> PXC6H13 -/
  .simple ⟨(300000000000, 0), (0, 0), (7300, 0)⟩,
  /- chem.cti:1614  C7H14 + H (+ M) <=> PXC7H15 (+ M) -/
  .falloff ⟨(13300000000000, 0), (0, 0), (32607, 1)⟩ ⟨(626000000000000000000000000000000000000, 0), (-666, 2), (7000, 0)⟩ (some ⟨(1, 0), (1000, 0), (1310, 0), some (48097, 0)⟩),
  /- chem.cti:1621  C7H14 + H <=> C2H4 + PXC5H11 -/
  .simple ⟨(8000000000000000000000, 0), (-239, 2), (11180, 0)⟩,
  /- chem.cti:1624  C7H14 + H <=> C3H6 + pC4H9 -/
  .simple ⟨(16000000000000000000000, 0), (-239, 2), (11180, 0)⟩,
  /- chem.cti:1627  C2H4 + PXC5H11 <=> PXC7H15 -/
  .simple ⟨(300000000000, 0), (0, 0), (7300, 0)⟩,
  /- chem.cti:1630  C8H16 + H (+ M) <=> PXC8H17 (+ M) -/
  .falloff ⟨(13300000000000, 0), (0, 0), (32607, 1)⟩ ⟨(626000000000000000000000000000000000000, 0), (-666, 2), (7000, 0)⟩ (some ⟨(1, 0), (1000, 0), (1310, 0), some (48097, 0)⟩),
  /- chem.cti:1637  C8H16 + H <=> C2H4 + PXC6H13 -/
  .simple ⟨(8000000000000000000000, 0), (-239, 2), (11180, 0)⟩,
  /- chem.cti:1640  C8H16 + H <=> C3H6 + PXC5H11 -/
  .simple ⟨(16000000000000000000000, 0), (-239, 2), (11180, 0)⟩,
  /- chem.cti:1643  C2H4 + PXC6H13 <=> PXC8H17 -/
  .simple ⟨(300000000000, 0), (0, 0), (7300, 0)⟩,
  /- chem.cti:1646  C9H18 + H (+ M) <=> PXC9H19 (+ M) -/
  .falloff ⟨(13300000000000, 0), (0, 0), (32607, 1)⟩ ⟨(626000000000000000000000000000000000000, 0), (-666, 2), (7000, 0)⟩ (some ⟨(1, 0), (1000, 0), (1310, 0), some (48097, 0)⟩),
  /- chem.cti:1653  C9H18 + H <=> C2H4 + PXC7H15 -/
  .simple ⟨(8000000000000000000000, 0), (-239, 2), (11180, 0)⟩,
  /- chem.cti:1656  C9H18 + H <=> C3H6 + PXC6H13 -/
  .simple ⟨(16000000000000000000000, 0), (-239, 2), (11180, 0)⟩,
  /- chem.cti:1659  C2H4 + PXC7H15 <=> PXC9H19 -/
  .simple ⟨(300000000000, 0), (0, 0), (7300, 0)⟩,
  /- chem.cti:1662  C10H20 + H (+ M) <=> PXC10H21 (+ M) -/
  .falloff ⟨(13300000000000, 0), (0, 0), (32607, 1)⟩ ⟨(626000000000000000000000000000000000000, 0), (-666, 2), (7000, 0)⟩ (some ⟨(1, 0), (1000, 0), (1310, 0), some (48097, 0)⟩),
  /- chem.cti:1669  C10H20 + H <=> C2H4 + PXC8H17 -/
  .simple ⟨(8000000000000000000000, 0), (-239, 2), (11180, 0)⟩,
  /- chem.cti:1672  C10H20 + H <=> C3H6 + PXC7H15 -/
  .simple ⟨(16000000000000000000000, 0), (-239, 2), (11180, 0)⟩,
  /- chem.cti:1675  C2H4 + PXC8H17 <=> PXC10H21 -/
  .simple ⟨(300000000000, 0), (0, 0), (7300, 0)⟩,
  /- chem.cti:1678  C12H24 <=> PXC7H15 + C5H9 -/
  .simple ⟨(35000000000000000, 0), (0, 0), (709369, 1)⟩,
  /- chem.cti:1681  C2H4 + PXC10H21 <=> PXC12H25 -/
  .simple ⟨(300000000000, 0), (0, 0), (7300, 0)⟩,
  /- chem.cti:1684  PXC12H25 <=> S3XC12H25 -/
  .simple ⟨(3670000000000, 0), (-6, 1), (14400, 0)⟩,
  /- chem.cti:1687  C3H6 + PXC9H19 <=> SXC12H25 -/
  .simple ⟨(300000000000, 0), (0, 0), (7300, 0)⟩,
  /- chem.cti:1690  C4H81 + PXC8H17 <=> SXC12H25 -/
  .simple ⟨(300000000000, 0), (0, 0), (7300, 0)⟩,
  /- chem.cti:1693  C5H10 + PXC7H15 <=> S3XC12H25 -/
  .simple ⟨(300000000000, 0), (0, 0), (7300, 0)⟩,
  /- chem.cti:1696  C10H20 + C2H5 <=> S3XC12H25 -/
  .simple ⟨(300000000000, 0), (0, 0), (7300, 0)⟩,
  /- chem.cti:1699  C6H12 + PXC6H13 <=> S3XC12H25 -/
  .simple ⟨(300000000000, 0), (0, 0), (7300, 0)⟩,
  /- chem.cti:1702  C9H18 + nC3H7 <=> S3XC12H25 -/
  .simple ⟨(300000000000, 0), (0, 0), (7300, 0)⟩,
  /- chem.cti:1705  C7H14 + PXC5H11 <=> S3XC12H25 -/
  .simple ⟨(300000000000, 0), (0, 0), (7300, 0)⟩,
  /- chem.cti:1708  C8H16 + pC4H9 <=> S3XC12H25 -/
  .simple ⟨(300000000000, 0), (0, 0), (7300, 0)⟩,
  /- chem.cti:1712  PXC10H21 + C2H5 <=> NC12H26 -/
  .simple ⟨(188000000000000, 0), (-5, 1), (0, 0)⟩,
  /- chem.cti:1715  PXC9H19 + nC3H7 <=> NC12H26 -/
  .simple ⟨(188000000000000, 0), (-5, 1), (0, 0)⟩,
  /- chem.cti:1718  PXC8H17 + pC4H9 <=> NC12H26 -/
  .simple ⟨(188000000000000, 0), (-5, 1), (0, 0)⟩,
  /- chem.cti:1721  PXC7H15 + PXC5H11 <=> NC12H26 -/
  .simple ⟨(188000000000000, 0), (-5, 1), (0, 0)⟩,
  /- chem.cti:1724  PXC6H13 + PXC6H13 <=> NC12H26 -/
  .simple ⟨(188000000000000, 0), (-5, 1), (0, 0)⟩,
  /- chem.cti:1727  NC12H26 + H <=> PXC12H25 + H2 -/
  .simple ⟨(1300000, 0), (254, 2), (6756, 0)⟩,
  /- chem.cti:1730  NC12H26 + H <=> SXC12H25 + H2 -/
  .simple ⟨(2600000, 0), (24, 1), (4471, 0)⟩,
  /- chem.cti:1733  NC12H26 + H <=> S3XC12H25 + H2 -/
  .simple ⟨(3900000, 0), (24, 1), (4471, 0)⟩,
  /- chem.cti:1736  NC12H26 + O <=> PXC12H25 + OH -/
  .simple ⟨(190000, 0), (268, 2), (3716, 0)⟩,
  /- chem.cti:1739  NC12H26 + O <=> SXC12H25 + OH -/
  .simple ⟨(95200, 0), (271, 2), (2106, 0)⟩,
  /- chem.cti:1742  NC12H26 + O <=> S3XC12H25 + OH -/
  .simple ⟨(142800, 0), (271, 2), (2106, 0)⟩,
  /- chem.cti:1745  NC12H26 + OH <=> PXC12H25 + H2O -/
  .simple ⟨(3400, 0), (266, 2), (527, 0)⟩,
  /- chem.cti:1748  NC12H26 + OH <=> SXC12H25 + H2O -/
  .simple ⟨(74000, 0), (239, 2), (393, 0)⟩,
  /- chem.cti:1751  NC12H26 + OH <=> S3XC12H25 + H2O -/
  .simple ⟨(101000, 0), (239, 2), (393, 0)⟩,
  /- chem.cti:1754  NC12H26 + O2 <=> PXC12H25 + HO2 -/
  .simple ⟨(40000000000000, 0), (0, 0), (50930, 0)⟩,
  /- chem.cti:1757  NC12H26 + O2 <=> SXC12H25 + HO2 -/
  .simple ⟨(80000000000000, 0), (0, 0), (47590, 0)⟩,
  /- chem.cti:1760  NC12H26 + O2 <=> S3XC12H25 + HO2 -/
  .simple ⟨(120000000000000, 0), (0, 0), (47590, 0)⟩,
  /- chem.cti:1763  NC12H26 + HO2 <=> PXC12H25 + H2O2 -/
  .simple ⟨(67600, 0), (255, 2), (16490, 0)⟩,
  /- chem.cti:1766  NC12H26 + HO2 <=> SXC12H25 + H2O2 -/
  .simple ⟨(89000, 0), (26, 1), (13910, 0)⟩,
  /- chem.cti:1769  NC12H26 + HO2 <=> S3XC12H25 + H2O2 -/
  .simple ⟨(88500, 0), (26, 1), (13910, 0)⟩,
  /- chem.cti:1772  NC12H26 + CH3 <=> PXC12H25 + CH4 -/
  .simple ⟨(181, 2), (365, 2), (7153, 0)⟩,
  /- chem.cti:1775  NC12H26 + CH3 <=> SXC12H25 + CH4 -/
  .simple ⟨(6, 0), (346, 2), (5480, 0)⟩,
  /- chem.cti:1778  NC12H26 + CH3 <=> S3XC12H25 + CH4 -/
  .simple ⟨(9, 0), (346, 2), (5480, 0)⟩,
  /- chem.cti:1782  PXC12H25 + O2 => C12H25O2 -/
  .simple ⟨(50000000000000, 0), (0, 0), (0, 0)⟩,
  /- chem.cti:1785  C12H25O2 => PXC12H25 + O2 -/
  .simple ⟨(27500000000000, 0), (0, 0), (27400, 0)⟩,
  /- chem.cti:1788  SXC12H25 + O2 => C12H25O2 -/
  .simple ⟨(50000000000000, 0), (0, 0), (0, 0)⟩,
  /- chem.cti:1791  C12H25O2 => SXC12H25 + O2 -/
  .simple ⟨(27500000000000, 0), (0, 0), (27400, 0)⟩,
  /- chem.cti:1794  S3XC12H25 + O2 => C12H25O2 -/
  .simple ⟨(50000000000000, 0), (0, 0), (0, 0)⟩,
  /- chem.cti:1797  C12H25O2 => S3XC12H25 + O2 -/
  .simple ⟨(27500000000000, 0), (0, 0), (27400, 0)⟩,
  /- chem.cti:1800  C12H25O2 => C12OOH -/
  .simple ⟨(1510000000000, 0), (0, 0), (19000, 0)⟩,
  /- chem.cti:1803  C12OOH => C12H25O2 -/
  .simple ⟨(100000000000, 0), (0, 0), (11500, 0)⟩,
  /- chem.cti:1806  PXC12H25 + O2 => C12H24 + HO2 -/
  .simple ⟨(350000000000, 0), (0, 0), (6000, 0)⟩,
  /- chem.cti:1809  C12H24 + HO2 => PXC12H25 + O2 -/
  .simple ⟨(316000000000, 0), (0, 0), (19500, 0)⟩,
  /- chem.cti:1812  SXC12H25 + O2 => C12H24 + HO2 -/
  .simple ⟨(350000000000, 0), (0, 0), (6000, 0)⟩,
  /- chem.cti:1815  C12H24 + HO2 => SXC12H25 + O2 -/
  .simple ⟨(316000000000, 0), (0, 0), (19500, 0)⟩,
  /- chem.cti:1818  S3XC12H25 + O2 => C12H24 + HO2 -/
  .simple ⟨(350000000000, 0), (0, 0), (6000, 0)⟩,
  /- chem.cti:1821  C12H24 + HO2 => S3XC12H25 + O2 -/
  .simple ⟨(316000000000, 0), (0, 0), (19500, 0)⟩,
  /- chem.cti:1824  C12OOH + O2 => O2C12H24OOH -/
  .simple ⟨(46000000000, 0), (0, 0), (0, 0)⟩,
  /- chem.cti:1827  O2C12H24OOH => C12OOH + O2 -/
  .simple ⟨(25100000000000, 0), (0, 0), (27400, 0)⟩,
  /- chem.cti:1830  O2C12H24OOH <=> OC12H23OOH + OH -/
  .simple ⟨(89000000000, 0), (0, 0), (17000, 0)⟩,
  /- chem.cti:1833  OC12H23OOH => 3 C2H4 + C2H5 + 2 CH2CHO + OH -/
  .simple ⟨(1800000000000000, 0), (0, 0), (42065, 0)⟩]

end DLB.Mech.Yao
