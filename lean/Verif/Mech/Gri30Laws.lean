/- Generated by tools/gen_mechanisms.py from utilities/mechanisms/gri30/chem.cti. Do not edit. -/
import Verif.Spec.RateLaw
set_option autoImplicit false

namespace DLB.Mech.Gri30
open DLB

/-- The rate laws of the reactions, utilities/mechanisms/gri30/chem.cti:883-1986 -/
def laws : List RateLaw := [
  /- chem.cti:883  2 O + M <=> O2 + M -/
  .simple ⟨(120000000000000000, 0), (-1, 0), (0, 0)⟩,
  /- chem.cti:887  O + H + M <=> OH + M -/
  .simple ⟨(500000000000000000, 0), (-1, 0), (0, 0)⟩,
  /- chem.cti:891  O + H2 <=> H + OH -/
  .simple ⟨(38700, 0), (27, 1), (6260, 0)⟩,
  /- chem.cti:894  O + HO2 <=> OH + O2 -/
  .simple ⟨(20000000000000, 0), (0, 0), (0, 0)⟩,
  /- chem.cti:897  O + H2O2 <=> OH + HO2 -/
  .simple ⟨(9630000, 0), (2, 0), (4000, 0)⟩,
  /- chem.cti:900  O + CH <=> H + CO -/
  .simple ⟨(57000000000000, 0), (0, 0), (0, 0)⟩,
  /- chem.cti:903  O + CH2 <=> H + HCO -/
  .simple ⟨(80000000000000, 0), (0, 0), (0, 0)⟩,
  /- chem.cti:906  O + CH2(S) <=> H2 + CO -/
  .simple ⟨(15000000000000, 0), (0, 0), (0, 0)⟩,
  /- chem.cti:909  O + CH2(S) <=> H + HCO -/
  .simple ⟨(15000000000000, 0), (0, 0), (0, 0)⟩,
  /- chem.cti:912  O + CH3 <=> H + CH2O -/
  .simple ⟨(50600000000000, 0), (0, 0), (0, 0)⟩,
  /- chem.cti:915  O + CH4 <=> OH + CH3 -/
  .simple ⟨(1020000000, 0), (15, 1), (8600, 0)⟩,
  /- chem.cti:918  O + CO (+ M) <=> CO2 (+ M) -/
  .falloff ⟨(18000000000, 0), (0, 0), (2385, 0)⟩ ⟨(602000000000000, 0), (0, 0), (3000, 0)⟩ none,
  /- chem.cti:924  O + HCO <=> OH + CO -/
  .simple ⟨(30000000000000, 0), (0, 0), (0, 0)⟩,
  /- chem.cti:927  O + HCO <=> H + CO2 -/
  .simple ⟨(30000000000000, 0), (0, 0), (0, 0)⟩,
  /- chem.cti:930  O + CH2O <=> OH + HCO -/
  .simple ⟨(39000000000000, 0), (0, 0), (3540, 0)⟩,
  /- chem.cti:933  O + CH2OH <=> OH + CH2O -/
  .simple ⟨(10000000000000, 0), (0, 0), (0, 0)⟩,
  /- chem.cti:936  O + CH3O <=> OH + CH2O -/
  .simple ⟨(10000000000000, 0), (0, 0), (0, 0)⟩,
  /- chem.cti:939  O + CH3OH <=> OH + CH2OH -/
  .simple ⟨(388000, 0), (25, 1), (3100, 0)⟩,
  /- chem.cti:942  O + CH3OH <=> OH + CH3O -/
  .simple ⟨(130000, 0), (25, 1), (5000, 0)⟩,
  /- chem.cti:945  O + C2H <=> CH + CO -/
  .simple ⟨(50000000000000, 0), (0, 0), (0, 0)⟩,
  /- chem.cti:948  O + C2H2 <=> H + HCCO -/
  .simple ⟨(13500000, 0), (2, 0), (1900, 0)⟩,
  /- chem.cti:951  O + C2H2 <=> OH + C2H -/
  .simple ⟨(46000000000000000000, 0), (-141, 2), (28950, 0)⟩,
  /- chem.cti:954  O + C2H2 <=> CO + CH2 -/
  .simple ⟨(6940000, 0), (2, 0), (1900, 0)⟩,
  /- chem.cti:957  O + C2H3 <=> H + CH2CO -/
  .simple ⟨(30000000000000, 0), (0, 0), (0, 0)⟩,
  /- chem.cti:960  O + C2H4 <=> CH3 + HCO -/
  .simple ⟨(12500000, 0), (183, 2), (220, 0)⟩,
  /- chem.cti:963  O + C2H5 <=> CH3 + CH2O -/
  .simple ⟨(22400000000000, 0), (0, 0), (0, 0)⟩,
  /- chem.cti:966  O + C2H6 <=> OH + C2H5 -/
  .simple ⟨(89800000, 0), (192, 2), (5690, 0)⟩,
  /- chem.cti:969  O + HCCO <=> H + 2 CO -/
  .simple ⟨(100000000000000, 0), (0, 0), (0, 0)⟩,
  /- chem.cti:972  O + CH2CO <=> OH + HCCO -/
  .simple ⟨(10000000000000, 0), (0, 0), (8000, 0)⟩,
  /- chem.cti:975  O + CH2CO <=> CH2 + CO2 -/
  .simple ⟨(1750000000000, 0), (0, 0), (1350, 0)⟩,
  /- chem.cti:978  O2 + CO <=> O + CO2 -/
  .simple ⟨(2500000000000, 0), (0, 0), (47800, 0)⟩,
  /- chem.cti:981  O2 + CH2O <=> HO2 + HCO -/
  .simple ⟨(100000000000000, 0), (0, 0), (40000, 0)⟩,
  /- chem.cti:984  H + O2 + M <=> HO2 + M -/
  .simple ⟨(2800000000000000000, 0), (-86, 2), (0, 0)⟩,
  /- chem.cti:988  H + 2 O2 <=> HO2 + O2 -/
  .simple ⟨(20800000000000000000, 0), (-124, 2), (0, 0)⟩,
  /- chem.cti:991  H + O2 + H2O <=> HO2 + H2O -/
  .simple ⟨(11260000000000000000, 0), (-76, 2), (0, 0)⟩,
  /- chem.cti:994  H + O2 + N2 <=> HO2 + N2 -/
  .simple ⟨(26000000000000000000, 0), (-124, 2), (0, 0)⟩,
  /- chem.cti:997  H + O2 + AR <=> HO2 + AR -/
  .simple ⟨(700000000000000000, 0), (-8, 1), (0, 0)⟩,
  /- chem.cti:1000  H + O2 <=> O + OH -/
  .simple ⟨(26500000000000000, 0), (-6707, 4), (17041, 0)⟩,
  /- chem.cti:1003  2 H + M <=> H2 + M -/
  .simple ⟨(1000000000000000000, 0), (-1, 0), (0, 0)⟩,
  /- chem.cti:1007  2 H + H2 <=> 2 H2 -/
  .simple ⟨(90000000000000000, 0), (-6, 1), (0, 0)⟩,
  /- chem.cti:1010  2 H + H2O <=> H2 + H2O -/
  .simple ⟨(60000000000000000000, 0), (-125, 2), (0, 0)⟩,
  /- chem.cti:1013  2 H + CO2 <=> H2 + CO2 -/
  .simple ⟨(550000000000000000000, 0), (-2, 0), (0, 0)⟩,
  /- chem.cti:1016  H + OH + M <=> H2O + M -/
  .simple ⟨(22000000000000000000000, 0), (-2, 0), (0, 0)⟩,
  /- chem.cti:1020  H + HO2 <=> O + H2O -/
  .simple ⟨(3970000000000, 0), (0, 0), (671, 0)⟩,
  /- chem.cti:1023  H + HO2 <=> O2 + H2 -/
  .simple ⟨(44800000000000, 0), (0, 0), (1068, 0)⟩,
  /- chem.cti:1026  H + HO2 <=> 2 OH -/
  .simple ⟨(84000000000000, 0), (0, 0), (635, 0)⟩,
  /- chem.cti:1029  H + H2O2 <=> HO2 + H2 -/
  .simple ⟨(12100000, 0), (2, 0), (5200, 0)⟩,
  /- chem.cti:1032  H + H2O2 <=> OH + H2O -/
  .simple ⟨(10000000000000, 0), (0, 0), (3600, 0)⟩,
  /- chem.cti:1035  H + CH <=> C + H2 -/
  .simple ⟨(165000000000000, 0), (0, 0), (0, 0)⟩,
  /- chem.cti:1038  H + CH2 (+ M) <=> CH3 (+ M) -/
  .falloff ⟨(600000000000000, 0), (0, 0), (0, 0)⟩ ⟨(104000000000000000000000000, 0), (-276, 2), (1600, 0)⟩ (some ⟨(562, 3), (91, 0), (5836, 0), some (8552, 0)⟩),
  /- chem.cti:1045  H + CH2(S) <=> CH + H2 -/
  .simple ⟨(30000000000000, 0), (0, 0), (0, 0)⟩,
  /- chem.cti:1048  H + CH3 (+ M) <=> CH4 (+ M) -/
  .falloff ⟨(13900000000000000, 0), (-534, 3), (536, 0)⟩ ⟨(2620000000000000000000000000000000, 0), (-476, 2), (2440, 0)⟩ (some ⟨(783, 3), (74, 0), (2941, 0), some (6964, 0)⟩),
  /- chem.cti:1055  H + CH4 <=> CH3 + H2 -/
  .simple ⟨(660000000, 0), (162, 2), (10840, 0)⟩,
  /- chem.cti:1058  H + HCO (+ M) <=> CH2O (+ M) -/
  .falloff ⟨(1090000000000, 0), (48, 2), (-260, 0)⟩ ⟨(2470000000000000000000000, 0), (-257, 2), (425, 0)⟩ (some ⟨(7824, 4), (271, 0), (2755, 0), some (6570, 0)⟩),
  /- chem.cti:1065  H + HCO <=> H2 + CO -/
  .simple ⟨(73400000000000, 0), (0, 0), (0, 0)⟩,
  /- chem.cti:1068  H + CH2O (+ M) <=> CH2OH (+ M) -/
  .falloff ⟨(540000000000, 0), (454, 3), (3600, 0)⟩ ⟨(127000000000000000000000000000000, 0), (-482, 2), (6530, 0)⟩ (some ⟨(7187, 4), (103, 0), (1291, 0), some (4160, 0)⟩),
  /- chem.cti:1075  H + CH2O (+ M) <=> CH3O (+ M) -/
  .falloff ⟨(540000000000, 0), (454, 3), (2600, 0)⟩ ⟨(2200000000000000000000000000000, 0), (-48, 1), (5560, 0)⟩ (some ⟨(758, 3), (94, 0), (1555, 0), some (4200, 0)⟩),
  /- chem.cti:1082  H + CH2O <=> HCO + H2 -/
  .simple ⟨(57400000, 0), (19, 1), (2742, 0)⟩,
  /- chem.cti:1085  H + CH2OH (+ M) <=> CH3OH (+ M) -/
  .falloff ⟨(1055000000000, 0), (5, 1), (86, 0)⟩ ⟨(43600000000000000000000000000000, 0), (-465, 2), (5080, 0)⟩ (some ⟨(6, 1), (100, 0), (90000, 0), some (10000, 0)⟩),
  /- chem.cti:1092  H + CH2OH <=> H2 + CH2O -/
  .simple ⟨(20000000000000, 0), (0, 0), (0, 0)⟩,
  /- chem.cti:1095  H + CH2OH <=> OH + CH3 -/
  .simple ⟨(165000000000, 0), (65, 2), (-284, 0)⟩,
  /- chem.cti:1098  H + CH2OH <=> CH2(S) + H2O -/
  .simple ⟨(32800000000000, 0), (-9, 2), (610, 0)⟩,
  /- chem.cti:1101  H + CH3O (+ M) <=> CH3OH (+ M) -/
  .falloff ⟨(2430000000000, 0), (515, 3), (50, 0)⟩ ⟨(466000000000000000000000000000000000000000, 0), (-744, 2), (14080, 0)⟩ (some ⟨(7, 1), (100, 0), (90000, 0), some (10000, 0)⟩),
  /- chem.cti:1108  H + CH3O <=> H + CH2OH -/
  .simple ⟨(41500000, 0), (163, 2), (1924, 0)⟩,
  /- chem.cti:1111  H + CH3O <=> H2 + CH2O -/
  .simple ⟨(20000000000000, 0), (0, 0), (0, 0)⟩,
  /- chem.cti:1114  H + CH3O <=> OH + CH3 -/
  .simple ⟨(1500000000000, 0), (5, 1), (-110, 0)⟩,
  /- chem.cti:1117  H + CH3O <=> CH2(S) + H2O -/
  .simple ⟨(262000000000000, 0), (-23, 2), (1070, 0)⟩,
  /- chem.cti:1120  H + CH3OH <=> CH2OH + H2 -/
  .simple ⟨(17000000, 0), (21, 1), (4870, 0)⟩,
  /- chem.cti:1123  H + CH3OH <=> CH3O + H2 -/
  .simple ⟨(4200000, 0), (21, 1), (4870, 0)⟩,
  /- chem.cti:1126  H + C2H (+ M) <=> C2H2 (+ M) -/
  .falloff ⟨(100000000000000000, 0), (-1, 0), (0, 0)⟩ ⟨(3750000000000000000000000000000000, 0), (-48, 1), (1900, 0)⟩ (some ⟨(6464, 4), (132, 0), (1315, 0), some (5566, 0)⟩),
  /- chem.cti:1133  H + C2H2 (+ M) <=> C2H3 (+ M) -/
  .falloff ⟨(5600000000000, 0), (0, 0), (2400, 0)⟩ ⟨(38000000000000000000000000000000000000000, 0), (-727, 2), (7220, 0)⟩ (some ⟨(7507, 4), (985, 1), (1302, 0), some (4167, 0)⟩),
  /- chem.cti:1140  H + C2H3 (+ M) <=> C2H4 (+ M) -/
  .falloff ⟨(6080000000000, 0), (27, 2), (280, 0)⟩ ⟨(1400000000000000000000000000000, 0), (-386, 2), (3320, 0)⟩ (some ⟨(782, 3), (2075, 1), (2663, 0), some (6095, 0)⟩),
  /- chem.cti:1147  H + C2H3 <=> H2 + C2H2 -/
  .simple ⟨(30000000000000, 0), (0, 0), (0, 0)⟩,
  /- chem.cti:1150  H + C2H4 (+ M) <=> C2H5 (+ M) -/
  .falloff ⟨(540000000000, 0), (454, 3), (1820, 0)⟩ ⟨(600000000000000000000000000000000000000000, 0), (-762, 2), (6970, 0)⟩ (some ⟨(9753, 4), (210, 0), (984, 0), some (4374, 0)⟩),
  /- chem.cti:1157  H + C2H4 <=> C2H3 + H2 -/
  .simple ⟨(1325000, 0), (253, 2), (12240, 0)⟩,
  /- chem.cti:1160  H + C2H5 (+ M) <=> C2H6 (+ M) -/
  .falloff ⟨(521000000000000000, 0), (-99, 2), (1580, 0)⟩ ⟨(199000000000000000000000000000000000000000, 0), (-708, 2), (6685, 0)⟩ (some ⟨(8422, 4), (125, 0), (2219, 0), some (6882, 0)⟩),
  /- chem.cti:1167  H + C2H5 <=> H2 + C2H4 -/
  .simple ⟨(2000000000000, 0), (0, 0), (0, 0)⟩,
  /- chem.cti:1170  H + C2H6 <=> C2H5 + H2 -/
  .simple ⟨(115000000, 0), (19, 1), (7530, 0)⟩,
  /- chem.cti:1173  H + HCCO <=> CH2(S) + CO -/
  .simple ⟨(100000000000000, 0), (0, 0), (0, 0)⟩,
  /- chem.cti:1176  H + CH2CO <=> HCCO + H2 -/
  .simple ⟨(50000000000000, 0), (0, 0), (8000, 0)⟩,
  /- chem.cti:1179  H + CH2CO <=> CH3 + CO -/
  .simple ⟨(11300000000000, 0), (0, 0), (3428, 0)⟩,
  /- chem.cti:1182  H + HCCOH <=> H + CH2CO -/
  .simple ⟨(10000000000000, 0), (0, 0), (0, 0)⟩,
  /- chem.cti:1185  H2 + CO (+ M) <=> CH2O (+ M) -/
  .falloff ⟨(43000000, 0), (15, 1), (79600, 0)⟩ ⟨(5070000000000000000000000000, 0), (-342, 2), (84350, 0)⟩ (some ⟨(932, 3), (197, 0), (1540, 0), some (10300, 0)⟩),
  /- chem.cti:1192  OH + H2 <=> H + H2O -/
  .simple ⟨(216000000, 0), (151, 2), (3430, 0)⟩,
  /- chem.cti:1195  2 OH (+ M) <=> H2O2 (+ M) -/
  .falloff ⟨(74000000000000, 0), (-37, 2), (0, 0)⟩ ⟨(2300000000000000000, 0), (-9, 1), (-1700, 0)⟩ (some ⟨(7346, 4), (94, 0), (1756, 0), some (5182, 0)⟩),
  /- chem.cti:1202  2 OH <=> O + H2O -/
  .simple ⟨(35700, 0), (24, 1), (-2110, 0)⟩,
  /- chem.cti:1205  OH + HO2 <=> O2 + H2O -/
  .simple ⟨(14500000000000, 0), (0, 0), (-500, 0)⟩,
  /- chem.cti:1209  OH + H2O2 <=> HO2 + H2O -/
  .simple ⟨(2000000000000, 0), (0, 0), (427, 0)⟩,
  /- chem.cti:1213  OH + H2O2 <=> HO2 + H2O -/
  .simple ⟨(1700000000000000000, 0), (0, 0), (29410, 0)⟩,
  /- chem.cti:1217  OH + C <=> H + CO -/
  .simple ⟨(50000000000000, 0), (0, 0), (0, 0)⟩,
  /- chem.cti:1220  OH + CH <=> H + HCO -/
  .simple ⟨(30000000000000, 0), (0, 0), (0, 0)⟩,
  /- chem.cti:1223  OH + CH2 <=> H + CH2O -/
  .simple ⟨(20000000000000, 0), (0, 0), (0, 0)⟩,
  /- chem.cti:1226  OH + CH2 <=> CH + H2O -/
  .simple ⟨(11300000, 0), (2, 0), (3000, 0)⟩,
  /- chem.cti:1229  OH + CH2(S) <=> H + CH2O -/
  .simple ⟨(30000000000000, 0), (0, 0), (0, 0)⟩,
  /- chem.cti:1232  OH + CH3 (+ M) <=> CH3OH (+ M) -/
  .falloff ⟨(2790000000000000000, 0), (-143, 2), (1330, 0)⟩ ⟨(4000000000000000000000000000000000000, 0), (-592, 2), (3140, 0)⟩ (some ⟨(412, 3), (195, 0), (5900, 0), some (6394, 0)⟩),
  /- chem.cti:1239  OH + CH3 <=> CH2 + H2O -/
  .simple ⟨(56000000, 0), (16, 1), (5420, 0)⟩,
  /- chem.cti:1242  OH + CH3 <=> CH2(S) + H2O -/
  .simple ⟨(644000000000000000, 0), (-134, 2), (1417, 0)⟩,
  /- chem.cti:1245  OH + CH4 <=> CH3 + H2O -/
  .simple ⟨(100000000, 0), (16, 1), (3120, 0)⟩,
  /- chem.cti:1248  OH + CO <=> H + CO2 -/
  .simple ⟨(47600000, 0), (1228, 3), (70, 0)⟩,
  /- chem.cti:1251  OH + HCO <=> H2O + CO -/
  .simple ⟨(50000000000000, 0), (0, 0), (0, 0)⟩,
  /- chem.cti:1254  OH + CH2O <=> HCO + H2O -/
  .simple ⟨(3430000000, 0), (118, 2), (-447, 0)⟩,
  /- chem.cti:1257  OH + CH2OH <=> H2O + CH2O -/
  .simple ⟨(5000000000000, 0), (0, 0), (0, 0)⟩,
  /- chem.cti:1260  OH + CH3O <=> H2O + CH2O -/
  .simple ⟨(5000000000000, 0), (0, 0), (0, 0)⟩,
  /- chem.cti:1263  OH + CH3OH <=> CH2OH + H2O -/
  .simple ⟨(1440000, 0), (2, 0), (-840, 0)⟩,
  /- chem.cti:1266  OH + CH3OH <=> CH3O + H2O -/
  .simple ⟨(6300000, 0), (2, 0), (1500, 0)⟩,
  /- chem.cti:1269  OH + C2H <=> H + HCCO -/
  .simple ⟨(20000000000000, 0), (0, 0), (0, 0)⟩,
  /- chem.cti:1272  OH + C2H2 <=> H + CH2CO -/
  .simple ⟨(218, 6), (45, 1), (-1000, 0)⟩,
  /- chem.cti:1275  OH + C2H2 <=> H + HCCOH -/
  .simple ⟨(504000, 0), (23, 1), (13500, 0)⟩,
  /- chem.cti:1278  OH + C2H2 <=> C2H + H2O -/
  .simple ⟨(33700000, 0), (2, 0), (14000, 0)⟩,
  /- chem.cti:1281  OH + C2H2 <=> CH3 + CO -/
  .simple ⟨(483, 6), (4, 0), (-2000, 0)⟩,
  /- chem.cti:1284  OH + C2H3 <=> H2O + C2H2 -/
  .simple ⟨(5000000000000, 0), (0, 0), (0, 0)⟩,
  /- chem.cti:1287  OH + C2H4 <=> C2H3 + H2O -/
  .simple ⟨(3600000, 0), (2, 0), (2500, 0)⟩,
  /- chem.cti:1290  OH + C2H6 <=> C2H5 + H2O -/
  .simple ⟨(3540000, 0), (212, 2), (870, 0)⟩,
  /- chem.cti:1293  OH + CH2CO <=> HCCO + H2O -/
  .simple ⟨(7500000000000, 0), (0, 0), (2000, 0)⟩,
  /- chem.cti:1296  2 HO2 <=> O2 + H2O2 -/
  .simple ⟨(130000000000, 0), (0, 0), (-1630, 0)⟩,
  /- chem.cti:1300  2 HO2 <=> O2 + H2O2 -/
  .simple ⟨(420000000000000, 0), (0, 0), (12000, 0)⟩,
  /- chem.cti:1304  HO2 + CH2 <=> OH + CH2O -/
  .simple ⟨(20000000000000, 0), (0, 0), (0, 0)⟩,
  /- chem.cti:1307  HO2 + CH3 <=> O2 + CH4 -/
  .simple ⟨(1000000000000, 0), (0, 0), (0, 0)⟩,
  /- chem.cti:1310  HO2 + CH3 <=> OH + CH3O -/
  .simple ⟨(37800000000000, 0), (0, 0), (0, 0)⟩,
  /- chem.cti:1313  HO2 + CO <=> OH + CO2 -/
  .simple ⟨(150000000000000, 0), (0, 0), (23600, 0)⟩,
  /- chem.cti:1316  HO2 + CH2O <=> HCO + H2O2 -/
  .simple ⟨(5600000, 0), (2, 0), (12000, 0)⟩,
  /- chem.cti:1319  C + O2 <=> O + CO -/
  .simple ⟨(58000000000000, 0), (0, 0), (576, 0)⟩,
  /- chem.cti:1322  C + CH2 <=> H + C2H -/
  .simple ⟨(50000000000000, 0), (0, 0), (0, 0)⟩,
  /- chem.cti:1325  C + CH3 <=> H + C2H2 -/
  .simple ⟨(50000000000000, 0), (0, 0), (0, 0)⟩,
  /- chem.cti:1328  CH + O2 <=> O + HCO -/
  .simple ⟨(67100000000000, 0), (0, 0), (0, 0)⟩,
  /- chem.cti:1331  CH + H2 <=> H + CH2 -/
  .simple ⟨(108000000000000, 0), (0, 0), (3110, 0)⟩,
  /- chem.cti:1334  CH + H2O <=> H + CH2O -/
  .simple ⟨(5710000000000, 0), (0, 0), (-755, 0)⟩,
  /- chem.cti:1337  CH + CH2 <=> H + C2H2 -/
  .simple ⟨(40000000000000, 0), (0, 0), (0, 0)⟩,
  /- chem.cti:1340  CH + CH3 <=> H + C2H3 -/
  .simple ⟨(30000000000000, 0), (0, 0), (0, 0)⟩,
  /- chem.cti:1343  CH + CH4 <=> H + C2H4 -/
  .simple ⟨(60000000000000, 0), (0, 0), (0, 0)⟩,
  /- chem.cti:1346  CH + CO (+ M) <=> HCCO (+ M) -/
  .falloff ⟨(50000000000000, 0), (0, 0), (0, 0)⟩ ⟨(26900000000000000000000000000, 0), (-374, 2), (1936, 0)⟩ (some ⟨(5757, 4), (237, 0), (1652, 0), some (5069, 0)⟩),
  /- chem.cti:1353  CH + CO2 <=> HCO + CO -/
  .simple ⟨(190000000000000, 0), (0, 0), (15792, 0)⟩,
  /- chem.cti:1356  CH + CH2O <=> H + CH2CO -/
  .simple ⟨(94600000000000, 0), (0, 0), (-515, 0)⟩,
  /- chem.cti:1359  CH + HCCO <=> CO + C2H2 -/
  .simple ⟨(50000000000000, 0), (0, 0), (0, 0)⟩,
  /- chem.cti:1362  CH2 + O2 => OH + H + CO -/
  .simple ⟨(5000000000000, 0), (0, 0), (1500, 0)⟩,
  /- chem.cti:1365  CH2 + H2 <=> H + CH3 -/
  .simple ⟨(500000, 0), (2, 0), (7230, 0)⟩,
  /- chem.cti:1368  2 CH2 <=> H2 + C2H2 -/
  .simple ⟨(1600000000000000, 0), (0, 0), (11944, 0)⟩,
  /- chem.cti:1371  CH2 + CH3 <=> H + C2H4 -/
  .simple ⟨(40000000000000, 0), (0, 0), (0, 0)⟩,
  /- chem.cti:1374  CH2 + CH4 <=> 2 CH3 -/
  .simple ⟨(2460000, 0), (2, 0), (8270, 0)⟩,
  /- chem.cti:1377  CH2 + CO (+ M) <=> CH2CO (+ M) -/
  .falloff ⟨(810000000000, 0), (5, 1), (4510, 0)⟩ ⟨(2690000000000000000000000000000000, 0), (-511, 2), (7095, 0)⟩ (some ⟨(5907, 4), (275, 0), (1226, 0), some (5185, 0)⟩),
  /- chem.cti:1384  CH2 + HCCO <=> C2H3 + CO -/
  .simple ⟨(30000000000000, 0), (0, 0), (0, 0)⟩,
  /- chem.cti:1387  CH2(S) + N2 <=> CH2 + N2 -/
  .simple ⟨(15000000000000, 0), (0, 0), (600, 0)⟩,
  /- chem.cti:1390  CH2(S) + AR <=> CH2 + AR -/
  .simple ⟨(9000000000000, 0), (0, 0), (600, 0)⟩,
  /- chem.cti:1393  CH2(S) + O2 <=> H + OH + CO -/
  .simple ⟨(28000000000000, 0), (0, 0), (0, 0)⟩,
  /- chem.cti:1396  CH2(S) + O2 <=> CO + H2O -/
  .simple ⟨(12000000000000, 0), (0, 0), (0, 0)⟩,
  /- chem.cti:1399  CH2(S) + H2 <=> CH3 + H -/
  .simple ⟨(70000000000000, 0), (0, 0), (0, 0)⟩,
  /- chem.cti:1402  CH2(S) + H2O (+ M) <=> CH3OH (+ M) -/
  .falloff ⟨(482000000000000000, 0), (-116, 2), (1145, 0)⟩ ⟨(188000000000000000000000000000000000000, 0), (-636, 2), (5040, 0)⟩ (some ⟨(6027, 4), (208, 0), (3922, 0), some (10180, 0)⟩),
  /- chem.cti:1409  CH2(S) + H2O <=> CH2 + H2O -/
  .simple ⟨(30000000000000, 0), (0, 0), (0, 0)⟩,
  /- chem.cti:1412  CH2(S) + CH3 <=> H + C2H4 -/
  .simple ⟨(12000000000000, 0), (0, 0), (-570, 0)⟩,
  /- chem.cti:1415  CH2(S) + CH4 <=> 2 CH3 -/
  .simple ⟨(16000000000000, 0), (0, 0), (-570, 0)⟩,
  /- chem.cti:1418  CH2(S) + CO <=> CH2 + CO -/
  .simple ⟨(9000000000000, 0), (0, 0), (0, 0)⟩,
  /- chem.cti:1421  CH2(S) + CO2 <=> CH2 + CO2 -/
  .simple ⟨(7000000000000, 0), (0, 0), (0, 0)⟩,
  /- chem.cti:1424  CH2(S) + CO2 <=> CO + CH2O -/
  .simple ⟨(14000000000000, 0), (0, 0), (0, 0)⟩,
  /- chem.cti:1427  CH2(S) + C2H6 <=> CH3 + C2H5 -/
  .simple ⟨(40000000000000, 0), (0, 0), (-550, 0)⟩,
  /- chem.cti:1430  CH3 + O2 <=> O + CH3O -/
  .simple ⟨(35600000000000, 0), (0, 0), (30480, 0)⟩,
  /- chem.cti:1433  CH3 + O2 <=> OH + CH2O -/
  .simple ⟨(2310000000000, 0), (0, 0), (20315, 0)⟩,
  /- chem.cti:1436  CH3 + H2O2 <=> HO2 + CH4 -/
  .simple ⟨(24500, 0), (247, 2), (5180, 0)⟩,
  /- chem.cti:1439  2 CH3 (+ M) <=> C2H6 (+ M) -/
  .falloff ⟨(67700000000000000, 0), (-118, 2), (654, 0)⟩ ⟨(340000000000000000000000000000000000000000, 0), (-703, 2), (2762, 0)⟩ (some ⟨(619, 3), (732, 1), (1180, 0), some (9999, 0)⟩),
  /- chem.cti:1446  2 CH3 <=> H + C2H5 -/
  .simple ⟨(6840000000000, 0), (1, 1), (10600, 0)⟩,
  /- chem.cti:1449  CH3 + HCO <=> CH4 + CO -/
  .simple ⟨(26480000000000, 0), (0, 0), (0, 0)⟩,
  /- chem.cti:1452  CH3 + CH2O <=> HCO + CH4 -/
  .simple ⟨(3320, 0), (281, 2), (5860, 0)⟩,
  /- chem.cti:1455  CH3 + CH3OH <=> CH2OH + CH4 -/
  .simple ⟨(30000000, 0), (15, 1), (9940, 0)⟩,
  /- chem.cti:1458  CH3 + CH3OH <=> CH3O + CH4 -/
  .simple ⟨(10000000, 0), (15, 1), (9940, 0)⟩,
  /- chem.cti:1461  CH3 + C2H4 <=> C2H3 + CH4 -/
  .simple ⟨(227000, 0), (2, 0), (9200, 0)⟩,
  /- chem.cti:1464  CH3 + C2H6 <=> C2H5 + CH4 -/
  .simple ⟨(6140000, 0), (174, 2), (10450, 0)⟩,
  /- chem.cti:1467  HCO + H2O <=> H + CO + H2O -/
  .simple ⟨(1500000000000000000, 0), (-1, 0), (17000, 0)⟩,
  /- chem.cti:1470  HCO + M <=> H + CO + M -/
  .simple ⟨(187000000000000000, 0), (-1, 0), (17000, 0)⟩,
  /- chem.cti:1474  HCO + O2 <=> HO2 + CO -/
  .simple ⟨(13450000000000, 0), (0, 0), (400, 0)⟩,
  /- chem.cti:1477  CH2OH + O2 <=> HO2 + CH2O -/
  .simple ⟨(18000000000000, 0), (0, 0), (900, 0)⟩,
  /- chem.cti:1480  CH3O + O2 <=> HO2 + CH2O -/
  .simple ⟨(428, 15), (76, 1), (-3530, 0)⟩,
  /- chem.cti:1483  C2H + O2 <=> HCO + CO -/
  .simple ⟨(10000000000000, 0), (0, 0), (-755, 0)⟩,
  /- chem.cti:1486  C2H + H2 <=> H + C2H2 -/
  .simple ⟨(56800000000, 0), (9, 1), (1993, 0)⟩,
  /- chem.cti:1489  C2H3 + O2 <=> HCO + CH2O -/
  .simple ⟨(45800000000000000, 0), (-139, 2), (1015, 0)⟩,
  /- chem.cti:1492  C2H4 (+ M) <=> H2 + C2H2 (+ M) -/
  .falloff ⟨(8000000000000, 0), (44, 2), (86770, 0)⟩ ⟨(1580000000000000000000000000000000000000000000000000, 0), (-93, 1), (97800, 0)⟩ (some ⟨(7345, 4), (180, 0), (1035, 0), some (5417, 0)⟩),
  /- chem.cti:1499  C2H5 + O2 <=> HO2 + C2H4 -/
  .simple ⟨(840000000000, 0), (0, 0), (3875, 0)⟩,
  /- chem.cti:1502  HCCO + O2 <=> OH + 2 CO -/
  .simple ⟨(3200000000000, 0), (0, 0), (854, 0)⟩,
  /- chem.cti:1505  2 HCCO <=> 2 CO + C2H2 -/
  .simple ⟨(10000000000000, 0), (0, 0), (0, 0)⟩,
  /- chem.cti:1508  N + NO <=> N2 + O -/
  .simple ⟨(27000000000000, 0), (0, 0), (355, 0)⟩,
  /- chem.cti:1511  N + O2 <=> NO + O -/
  .simple ⟨(9000000000, 0), (1, 0), (6500, 0)⟩,
  /- chem.cti:1514  N + OH <=> NO + H -/
  .simple ⟨(33600000000000, 0), (0, 0), (385, 0)⟩,
  /- chem.cti:1517  N2O + O <=> N2 + O2 -/
  .simple ⟨(1400000000000, 0), (0, 0), (10810, 0)⟩,
  /- chem.cti:1520  N2O + O <=> 2 NO -/
  .simple ⟨(29000000000000, 0), (0, 0), (23150, 0)⟩,
  /- chem.cti:1523  N2O + H <=> N2 + OH -/
  .simple ⟨(387000000000000, 0), (0, 0), (18880, 0)⟩,
  /- chem.cti:1526  N2O + OH <=> N2 + HO2 -/
  .simple ⟨(2000000000000, 0), (0, 0), (21060, 0)⟩,
  /- chem.cti:1529  N2O (+ M) <=> N2 + O (+ M) -/
  .falloff ⟨(79100000000, 0), (0, 0), (56020, 0)⟩ ⟨(637000000000000, 0), (0, 0), (56640, 0)⟩ none,
  /- chem.cti:1535  HO2 + NO <=> NO2 + OH -/
  .simple ⟨(2110000000000, 0), (0, 0), (-480, 0)⟩,
  /- chem.cti:1538  NO + O + M <=> NO2 + M -/
  .simple ⟨(106000000000000000000, 0), (-141, 2), (0, 0)⟩,
  /- chem.cti:1542  NO2 + O <=> NO + O2 -/
  .simple ⟨(3900000000000, 0), (0, 0), (-240, 0)⟩,
  /- chem.cti:1545  NO2 + H <=> NO + OH -/
  .simple ⟨(132000000000000, 0), (0, 0), (360, 0)⟩,
  /- chem.cti:1548  NH + O <=> NO + H -/
  .simple ⟨(40000000000000, 0), (0, 0), (0, 0)⟩,
  /- chem.cti:1551  NH + H <=> N + H2 -/
  .simple ⟨(32000000000000, 0), (0, 0), (330, 0)⟩,
  /- chem.cti:1554  NH + OH <=> HNO + H -/
  .simple ⟨(20000000000000, 0), (0, 0), (0, 0)⟩,
  /- chem.cti:1557  NH + OH <=> N + H2O -/
  .simple ⟨(2000000000, 0), (12, 1), (0, 0)⟩,
  /- chem.cti:1560  NH + O2 <=> HNO + O -/
  .simple ⟨(461000, 0), (2, 0), (6500, 0)⟩,
  /- chem.cti:1563  NH + O2 <=> NO + OH -/
  .simple ⟨(1280000, 0), (15, 1), (100, 0)⟩,
  /- chem.cti:1566  NH + N <=> N2 + H -/
  .simple ⟨(15000000000000, 0), (0, 0), (0, 0)⟩,
  /- chem.cti:1569  NH + H2O <=> HNO + H2 -/
  .simple ⟨(20000000000000, 0), (0, 0), (13850, 0)⟩,
  /- chem.cti:1572  NH + NO <=> N2 + OH -/
  .simple ⟨(21600000000000, 0), (-23, 2), (0, 0)⟩,
  /- chem.cti:1575  NH + NO <=> N2O + H -/
  .simple ⟨(365000000000000, 0), (-45, 2), (0, 0)⟩,
  /- chem.cti:1578  NH2 + O <=> OH + NH -/
  .simple ⟨(3000000000000, 0), (0, 0), (0, 0)⟩,
  /- chem.cti:1581  NH2 + O <=> H + HNO -/
  .simple ⟨(39000000000000, 0), (0, 0), (0, 0)⟩,
  /- chem.cti:1584  NH2 + H <=> NH + H2 -/
  .simple ⟨(40000000000000, 0), (0, 0), (3650, 0)⟩,
  /- chem.cti:1587  NH2 + OH <=> NH + H2O -/
  .simple ⟨(90000000, 0), (15, 1), (-460, 0)⟩,
  /- chem.cti:1590  NNH <=> N2 + H -/
  .simple ⟨(330000000, 0), (0, 0), (0, 0)⟩,
  /- chem.cti:1593  NNH + M <=> N2 + H + M -/
  .simple ⟨(130000000000000, 0), (-11, 2), (4980, 0)⟩,
  /- chem.cti:1597  NNH + O2 <=> HO2 + N2 -/
  .simple ⟨(5000000000000, 0), (0, 0), (0, 0)⟩,
  /- chem.cti:1600  NNH + O <=> OH + N2 -/
  .simple ⟨(25000000000000, 0), (0, 0), (0, 0)⟩,
  /- chem.cti:1603  NNH + O <=> NH + NO -/
  .simple ⟨(70000000000000, 0), (0, 0), (0, 0)⟩,
  /- chem.cti:1606  NNH + H <=> H2 + N2 -/
  .simple ⟨(50000000000000, 0), (0, 0), (0, 0)⟩,
  /- chem.cti:1609  NNH + OH <=> H2O + N2 -/
  .simple ⟨(20000000000000, 0), (0, 0), (0, 0)⟩,
  /- chem.cti:1612  NNH + CH3 <=> CH4 + N2 -/
  .simple ⟨(25000000000000, 0), (0, 0), (0, 0)⟩,
  /- chem.cti:1615  H + NO + M <=> HNO + M -/
  .simple ⟨(44800000000000000000, 0), (-132, 2), (740, 0)⟩,
  /- chem.cti:1619  HNO + O <=> NO + OH -/
  .simple ⟨(25000000000000, 0), (0, 0), (0, 0)⟩,
  /- chem.cti:1622  HNO + H <=> H2 + NO -/
  .simple ⟨(900000000000, 0), (72, 2), (660, 0)⟩,
  /- chem.cti:1625  HNO + OH <=> NO + H2O -/
  .simple ⟨(13000000, 0), (19, 1), (-950, 0)⟩,
  /- chem.cti:1628  HNO + O2 <=> HO2 + NO -/
  .simple ⟨(10000000000000, 0), (0, 0), (13000, 0)⟩,
  /- chem.cti:1631  CN + O <=> CO + N -/
  .simple ⟨(77000000000000, 0), (0, 0), (0, 0)⟩,
  /- chem.cti:1634  CN + OH <=> NCO + H -/
  .simple ⟨(40000000000000, 0), (0, 0), (0, 0)⟩,
  /- chem.cti:1637  CN + H2O <=> HCN + OH -/
  .simple ⟨(8000000000000, 0), (0, 0), (7460, 0)⟩,
  /- chem.cti:1640  CN + O2 <=> NCO + O -/
  .simple ⟨(6140000000000, 0), (0, 0), (-440, 0)⟩,
  /- chem.cti:1643  CN + H2 <=> HCN + H -/
  .simple ⟨(295000, 0), (245, 2), (2240, 0)⟩,
  /- chem.cti:1646  NCO + O <=> NO + CO -/
  .simple ⟨(23500000000000, 0), (0, 0), (0, 0)⟩,
  /- chem.cti:1649  NCO + H <=> NH + CO -/
  .simple ⟨(54000000000000, 0), (0, 0), (0, 0)⟩,
  /- chem.cti:1652  NCO + OH <=> NO + H + CO -/
  .simple ⟨(2500000000000, 0), (0, 0), (0, 0)⟩,
  /- chem.cti:1655  NCO + N <=> N2 + CO -/
  .simple ⟨(20000000000000, 0), (0, 0), (0, 0)⟩,
  /- chem.cti:1658  NCO + O2 <=> NO + CO2 -/
  .simple ⟨(2000000000000, 0), (0, 0), (20000, 0)⟩,
  /- chem.cti:1661  NCO + M <=> N + CO + M -/
  .simple ⟨(310000000000000, 0), (0, 0), (54050, 0)⟩,
  /- chem.cti:1665  NCO + NO <=> N2O + CO -/
  .simple ⟨(190000000000000000, 0), (-152, 2), (740, 0)⟩,
  /- chem.cti:1668  NCO + NO <=> N2 + CO2 -/
  .simple ⟨(3800000000000000000, 0), (-2, 0), (800, 0)⟩,
  /- chem.cti:1671  HCN + M <=> H + CN + M -/
  .simple ⟨(104000000000000000000000000000, 0), (-33, 1), (126600, 0)⟩,
  /- chem.cti:1675  HCN + O <=> NCO + H -/
  .simple ⟨(20300, 0), (264, 2), (4980, 0)⟩,
  /- chem.cti:1678  HCN + O <=> NH + CO -/
  .simple ⟨(5070, 0), (264, 2), (4980, 0)⟩,
  /- chem.cti:1681  HCN + O <=> CN + OH -/
  .simple ⟨(3910000000, 0), (158, 2), (26600, 0)⟩,
  /- chem.cti:1684  HCN + OH <=> HOCN + H -/
  .simple ⟨(1100000, 0), (203, 2), (13370, 0)⟩,
  /- chem.cti:1687  HCN + OH <=> HNCO + H -/
  .simple ⟨(4400, 0), (226, 2), (6400, 0)⟩,
  /- chem.cti:1690  HCN + OH <=> NH2 + CO -/
  .simple ⟨(160, 0), (256, 2), (9000, 0)⟩,
  /- chem.cti:1693  H + HCN (+ M) <=> H2CN (+ M) -/
  .falloff ⟨(33000000000000, 0), (0, 0), (0, 0)⟩ ⟨(140000000000000000000000000, 0), (-34, 1), (1900, 0)⟩ none,
  /- chem.cti:1699  H2CN + N <=> N2 + CH2 -/
  .simple ⟨(60000000000000, 0), (0, 0), (400, 0)⟩,
  /- chem.cti:1702  C + N2 <=> CN + N -/
  .simple ⟨(63000000000000, 0), (0, 0), (46020, 0)⟩,
  /- chem.cti:1705  CH + N2 <=> HCN + N -/
  .simple ⟨(3120000000, 0), (88, 2), (20130, 0)⟩,
  /- chem.cti:1708  CH + N2 (+ M) <=> HCNN (+ M) -/
  .falloff ⟨(3100000000000, 0), (15, 2), (0, 0)⟩ ⟨(13000000000000000000000000, 0), (-316, 2), (740, 0)⟩ (some ⟨(667, 3), (235, 0), (2117, 0), some (4536, 0)⟩),
  /- chem.cti:1715  CH2 + N2 <=> HCN + NH -/
  .simple ⟨(10000000000000, 0), (0, 0), (74000, 0)⟩,
  /- chem.cti:1718  CH2(S) + N2 <=> NH + HCN -/
  .simple ⟨(100000000000, 0), (0, 0), (65000, 0)⟩,
  /- chem.cti:1721  C + NO <=> CN + O -/
  .simple ⟨(19000000000000, 0), (0, 0), (0, 0)⟩,
  /- chem.cti:1724  C + NO <=> CO + N -/
  .simple ⟨(29000000000000, 0), (0, 0), (0, 0)⟩,
  /- chem.cti:1727  CH + NO <=> HCN + O -/
  .simple ⟨(41000000000000, 0), (0, 0), (0, 0)⟩,
  /- chem.cti:1730  CH + NO <=> H + NCO -/
  .simple ⟨(16200000000000, 0), (0, 0), (0, 0)⟩,
  /- chem.cti:1733  CH + NO <=> N + HCO -/
  .simple ⟨(24600000000000, 0), (0, 0), (0, 0)⟩,
  /- chem.cti:1736  CH2 + NO <=> H + HNCO -/
  .simple ⟨(310000000000000000, 0), (-138, 2), (1270, 0)⟩,
  /- chem.cti:1739  CH2 + NO <=> OH + HCN -/
  .simple ⟨(290000000000000, 0), (-69, 2), (760, 0)⟩,
  /- chem.cti:1742  CH2 + NO <=> H + HCNO -/
  .simple ⟨(38000000000000, 0), (-36, 2), (580, 0)⟩,
  /- chem.cti:1745  CH2(S) + NO <=> H + HNCO -/
  .simple ⟨(310000000000000000, 0), (-138, 2), (1270, 0)⟩,
  /- chem.cti:1748  CH2(S) + NO <=> OH + HCN -/
  .simple ⟨(290000000000000, 0), (-69, 2), (760, 0)⟩,
  /- chem.cti:1751  CH2(S) + NO <=> H + HCNO -/
  .simple ⟨(38000000000000, 0), (-36, 2), (580, 0)⟩,
  /- chem.cti:1754  CH3 + NO <=> HCN + H2O -/
  .simple ⟨(96000000000000, 0), (0, 0), (28800, 0)⟩,
  /- chem.cti:1757  CH3 + NO <=> H2CN + OH -/
  .simple ⟨(1000000000000, 0), (0, 0), (21750, 0)⟩,
  /- chem.cti:1760  HCNN + O <=> CO + H + N2 -/
  .simple ⟨(22000000000000, 0), (0, 0), (0, 0)⟩,
  /- chem.cti:1763  HCNN + O <=> HCN + NO -/
  .simple ⟨(2000000000000, 0), (0, 0), (0, 0)⟩,
  /- chem.cti:1766  HCNN + O2 <=> O + HCO + N2 -/
  .simple ⟨(12000000000000, 0), (0, 0), (0, 0)⟩,
  /- chem.cti:1769  HCNN + OH <=> H + HCO + N2 -/
  .simple ⟨(12000000000000, 0), (0, 0), (0, 0)⟩,
  /- chem.cti:1772  HCNN + H <=> CH2 + N2 -/
  .simple ⟨(100000000000000, 0), (0, 0), (0, 0)⟩,
  /- chem.cti:1775  HNCO + O <=> NH + CO2 -/
  .simple ⟨(98000000, 0), (141, 2), (8500, 0)⟩,
  /- chem.cti:1778  HNCO + O <=> HNO + CO -/
  .simple ⟨(150000000, 0), (157, 2), (44000, 0)⟩,
  /- chem.cti:1781  HNCO + O <=> NCO + OH -/
  .simple ⟨(2200000, 0), (211, 2), (11400, 0)⟩,
  /- chem.cti:1784  HNCO + H <=> NH2 + CO -/
  .simple ⟨(22500000, 0), (17, 1), (3800, 0)⟩,
  /- chem.cti:1787  HNCO + H <=> H2 + NCO -/
  .simple ⟨(105000, 0), (25, 1), (13300, 0)⟩,
  /- chem.cti:1790  HNCO + OH <=> NCO + H2O -/
  .simple ⟨(33000000, 0), (15, 1), (3600, 0)⟩,
  /- chem.cti:1793  HNCO + OH <=> NH2 + CO2 -/
  .simple ⟨(3300000, 0), (15, 1), (3600, 0)⟩,
  /- chem.cti:1796  HNCO + M <=> NH + CO + M -/
  .simple ⟨(11800000000000000, 0), (0, 0), (84720, 0)⟩,
  /- chem.cti:1800  HCNO + H <=> H + HNCO -/
  .simple ⟨(2100000000000000, 0), (-69, 2), (2850, 0)⟩,
  /- chem.cti:1803  HCNO + H <=> OH + HCN -/
  .simple ⟨(270000000000, 0), (18, 2), (2120, 0)⟩,
  /- chem.cti:1806  HCNO + H <=> NH2 + CO -/
  .simple ⟨(170000000000000, 0), (-75, 2), (2890, 0)⟩,
  /- chem.cti:1809  HOCN + H <=> H + HNCO -/
  .simple ⟨(20000000, 0), (2, 0), (2000, 0)⟩,
  /- chem.cti:1812  HCCO + NO <=> HCNO + CO -/
  .simple ⟨(9000000000000, 0), (0, 0), (0, 0)⟩,
  /- chem.cti:1815  CH3 + N <=> H2CN + H -/
  .simple ⟨(610000000000000, 0), (-31, 2), (290, 0)⟩,
  /- chem.cti:1818  CH3 + N <=> HCN + H2 -/
  .simple ⟨(3700000000000, 0), (15, 2), (-90, 0)⟩,
  /- chem.cti:1821  NH3 + H <=> NH2 + H2 -/
  .simple ⟨(540000, 0), (24, 1), (9915, 0)⟩,
  /- chem.cti:1824  NH3 + OH <=> NH2 + H2O -/
  .simple ⟨(50000000, 0), (16, 1), (955, 0)⟩,
  /- chem.cti:1827  NH3 + O <=> NH2 + OH -/
  .simple ⟨(9400000, 0), (194, 2), (6460, 0)⟩,
  /- chem.cti:1830  NH + CO2 <=> HNO + CO -/
  .simple ⟨(10000000000000, 0), (0, 0), (14350, 0)⟩,
  /- chem.cti:1833  CN + NO2 <=> NCO + NO -/
  .simple ⟨(6160000000000000, 0), (-752, 3), (345, 0)⟩,
  /- chem.cti:1836  NCO + NO2 <=> N2O + CO2 -/
  .simple ⟨(3250000000000, 0), (0, 0), (-705, 0)⟩,
  /- chem.cti:1839  N + CO2 <=> NO + CO -/
  .simple ⟨(3000000000000, 0), (0, 0), (11300, 0)⟩,
  /- chem.cti:1842  O + CH3 => H + H2 + CO -/
  .simple ⟨(33700000000000, 0), (0, 0), (0, 0)⟩,
  /- chem.cti:1845  O + C2H4 <=> H + CH2CHO -/
  .simple ⟨(6700000, 0), (183, 2), (220, 0)⟩,
  /- chem.cti:1848  O + C2H5 <=> H + CH3CHO -/
  .simple ⟨(109600000000000, 0), (0, 0), (0, 0)⟩,
  /- chem.cti:1851  OH + HO2 <=> O2 + H2O -/
  .simple ⟨(5000000000000000, 0), (0, 0), (17330, 0)⟩,
  /- chem.cti:1855  OH + CH3 => H2 + CH2O -/
  .simple ⟨(8000000000, 0), (5, 1), (-1755, 0)⟩,
  /- chem.cti:1858  CH + H2 (+ M) <=> CH3 (+ M) -/
  .falloff ⟨(1970000000000, 0), (43, 2), (-370, 0)⟩ ⟨(48200000000000000000000000, 0), (-28, 1), (590, 0)⟩ (some ⟨(578, 3), (122, 0), (2535, 0), some (9365, 0)⟩),
  /- chem.cti:1865  CH2 + O2 => 2 H + CO2 -/
  .simple ⟨(5800000000000, 0), (0, 0), (1500, 0)⟩,
  /- chem.cti:1868  CH2 + O2 <=> O + CH2O -/
  .simple ⟨(2400000000000, 0), (0, 0), (1500, 0)⟩,
  /- chem.cti:1871  CH2 + CH2 => 2 H + C2H2 -/
  .simple ⟨(200000000000000, 0), (0, 0), (10989, 0)⟩,
  /- chem.cti:1874  CH2(S) + H2O => H2 + CH2O -/
  .simple ⟨(68200000000, 0), (25, 2), (-935, 0)⟩,
  /- chem.cti:1877  C2H3 + O2 <=> O + CH2CHO -/
  .simple ⟨(303000000000, 0), (29, 2), (11, 0)⟩,
  /- chem.cti:1880  C2H3 + O2 <=> HO2 + C2H2 -/
  .simple ⟨(1337000, 0), (161, 2), (-384, 0)⟩,
  /- chem.cti:1883  O + CH3CHO <=> OH + CH2CHO -/
  .simple ⟨(2920000000000, 0), (0, 0), (1808, 0)⟩,
  /- chem.cti:1886  O + CH3CHO => OH + CH3 + CO -/
  .simple ⟨(2920000000000, 0), (0, 0), (1808, 0)⟩,
  /- chem.cti:1889  O2 + CH3CHO => HO2 + CH3 + CO -/
  .simple ⟨(30100000000000, 0), (0, 0), (39150, 0)⟩,
  /- chem.cti:1892  H + CH3CHO <=> CH2CHO + H2 -/
  .simple ⟨(2050000000, 0), (116, 2), (2405, 0)⟩,
  /- chem.cti:1895  H + CH3CHO => CH3 + H2 + CO -/
  .simple ⟨(2050000000, 0), (116, 2), (2405, 0)⟩,
  /- chem.cti:1898  OH + CH3CHO => CH3 + H2O + CO -/
  .simple ⟨(23430000000, 0), (73, 2), (-1113, 0)⟩,
  /- chem.cti:1901  HO2 + CH3CHO => CH3 + H2O2 + CO -/
  .simple ⟨(3010000000000, 0), (0, 0), (11923, 0)⟩,
  /- chem.cti:1904  CH3 + CH3CHO => CH3 + CH4 + CO -/
  .simple ⟨(2720000, 0), (177, 2), (5920, 0)⟩,
  /- chem.cti:1907  H + CH2CO (+ M) <=> CH2CHO (+ M) -/
  .falloff ⟨(486500000000, 0), (422, 3), (-1755, 0)⟩ ⟨(1012000000000000000000000000000000000000000, 0), (-763, 2), (3854, 0)⟩ (some ⟨(465, 3), (201, 0), (1773, 0), some (5333, 0)⟩),
  /- chem.cti:1914  O + CH2CHO => H + CH2 + CO2 -/
  .simple ⟨(150000000000000, 0), (0, 0), (0, 0)⟩,
  /- chem.cti:1917  O2 + CH2CHO => OH + CO + CH2O -/
  .simple ⟨(18100000000, 0), (0, 0), (0, 0)⟩,
  /- chem.cti:1920  O2 + CH2CHO => OH + 2 HCO -/
  .simple ⟨(23500000000, 0), (0, 0), (0, 0)⟩,
  /- chem.cti:1923  H + CH2CHO <=> CH3 + HCO -/
  .simple ⟨(22000000000000, 0), (0, 0), (0, 0)⟩,
  /- chem.cti:1926  H + CH2CHO <=> CH2CO + H2 -/
  .simple ⟨(11000000000000, 0), (0, 0), (0, 0)⟩,
  /- chem.cti:1929  OH + CH2CHO <=> H2O + CH2CO -/
  .simple ⟨(12000000000000, 0), (0, 0), (0, 0)⟩,
  /- chem.cti:1932  OH + CH2CHO <=> HCO + CH2OH -/
  .simple ⟨(30100000000000, 0), (0, 0), (0, 0)⟩,
  /- chem.cti:1935  CH3 + C2H5 (+ M) <=> C3H8 (+ M) -/
  .falloff ⟨(9430000000000, 0), (0, 0), (0, 0)⟩ ⟨(271000000000000000000000000000000000000000000000000000000000000000000000000, 0), (-1682, 2), (13065, 0)⟩ (some ⟨(1527, 4), (291, 0), (2742, 0), some (7748, 0)⟩),
  /- chem.cti:1942  O + C3H8 <=> OH + C3H7 -/
  .simple ⟨(193000, 0), (268, 2), (3716, 0)⟩,
  /- chem.cti:1945  H + C3H8 <=> C3H7 + H2 -/
  .simple ⟨(1320000, 0), (254, 2), (6756, 0)⟩,
  /- chem.cti:1948  OH + C3H8 <=> C3H7 + H2O -/
  .simple ⟨(31600000, 0), (18, 1), (934, 0)⟩,
  /- chem.cti:1951  C3H7 + H2O2 <=> HO2 + C3H8 -/
  .simple ⟨(378, 0), (272, 2), (1500, 0)⟩,
  /- chem.cti:1954  CH3 + C3H8 <=> C3H7 + CH4 -/
  .simple ⟨(903, 3), (365, 2), (7154, 0)⟩,
  /- chem.cti:1957  CH3 + C2H4 (+ M) <=> C3H7 (+ M) -/
  .falloff ⟨(2550000, 0), (16, 1), (5700, 0)⟩ ⟨(3000000000000000000000000000000000000000000000000000000000000000, 0), (-146, 1), (18170, 0)⟩ (some ⟨(1894, 4), (277, 0), (8748, 0), some (7891, 0)⟩),
  /- chem.cti:1964  O + C3H7 <=> C2H5 + CH2O -/
  .simple ⟨(96400000000000, 0), (0, 0), (0, 0)⟩,
  /- chem.cti:1967  H + C3H7 (+ M) <=> C3H8 (+ M) -/
  .falloff ⟨(36130000000000, 0), (0, 0), (0, 0)⟩ ⟨(44200000000000000000000000000000000000000000000000000000000000, 0), (-13545, 3), (11357, 0)⟩ (some ⟨(315, 3), (369, 0), (3285, 0), some (6667, 0)⟩),
  /- chem.cti:1974  H + C3H7 <=> CH3 + C2H5 -/
  .simple ⟨(4060000, 0), (219, 2), (890, 0)⟩,
  /- chem.cti:1977  OH + C3H7 <=> C2H5 + CH2OH -/
  .simple ⟨(24100000000000, 0), (0, 0), (0, 0)⟩,
  /- chem.cti:1980  HO2 + C3H7 <=> O2 + C3H8 -/
  .simple ⟨(25500000000, 0), (255, 3), (-943, 0)⟩,
  /- chem.cti:1983  HO2 + C3H7 => OH + C2H5 + CH2O -/
  .simple ⟨(24100000000000, 0), (0, 0), (0, 0)⟩,
  /- chem.cti:1986  CH3 + C3H7 <=> 2 C2H5 -/
  .simple ⟨(19270000000000, 0), (-32, 2), (0, 0)⟩]

end DLB.Mech.Gri30
