/- Generated by tools/gen_mechanisms.py from utilities/mechanisms/drm19/chem.cti. Do not edit. -/
import Verif.Spec.RateLaw
set_option autoImplicit false

namespace DLB.Mech.Drm19
open DLB

/-- The rate laws of the reactions, utilities/mechanisms/drm19/chem.cti:368-655 -/
def laws : List RateLaw := [
  /- chem.cti:368  O + H + M <=> OH + M -/
  .simple ⟨(500000000000000000, 0), (-1, 0), (0, 0)⟩,
  /- chem.cti:372  O + H2 <=> H + OH -/
  .simple ⟨(50000, 0), (267, 2), (6290, 0)⟩,
  /- chem.cti:375  O + HO2 <=> OH + O2 -/
  .simple ⟨(20000000000000, 0), (0, 0), (0, 0)⟩,
  /- chem.cti:378  O + CH2 <=> H + HCO -/
  .simple ⟨(80000000000000, 0), (0, 0), (0, 0)⟩,
  /- chem.cti:381  O + CH2(S) <=> H + HCO -/
  .simple ⟨(15000000000000, 0), (0, 0), (0, 0)⟩,
  /- chem.cti:384  O + CH3 <=> H + CH2O -/
  .simple ⟨(84300000000000, 0), (0, 0), (0, 0)⟩,
  /- chem.cti:387  O + CH4 <=> OH + CH3 -/
  .simple ⟨(1020000000, 0), (15, 1), (8600, 0)⟩,
  /- chem.cti:390  O + CO + M <=> CO2 + M -/
  .simple ⟨(602000000000000, 0), (0, 0), (3000, 0)⟩,
  /- chem.cti:394  O + HCO <=> OH + CO -/
  .simple ⟨(30000000000000, 0), (0, 0), (0, 0)⟩,
  /- chem.cti:397  O + HCO <=> H + CO2 -/
  .simple ⟨(30000000000000, 0), (0, 0), (0, 0)⟩,
  /- chem.cti:400  O + CH2O <=> OH + HCO -/
  .simple ⟨(39000000000000, 0), (0, 0), (3540, 0)⟩,
  /- chem.cti:403  O + C2H4 <=> CH3 + HCO -/
  .simple ⟨(19200000, 0), (183, 2), (220, 0)⟩,
  /- chem.cti:406  O + C2H5 <=> CH3 + CH2O -/
  .simple ⟨(132000000000000, 0), (0, 0), (0, 0)⟩,
  /- chem.cti:409  O + C2H6 <=> OH + C2H5 -/
  .simple ⟨(89800000, 0), (192, 2), (5690, 0)⟩,
  /- chem.cti:412  O2 + CO <=> O + CO2 -/
  .simple ⟨(2500000000000, 0), (0, 0), (47800, 0)⟩,
  /- chem.cti:415  O2 + CH2O <=> HO2 + HCO -/
  .simple ⟨(100000000000000, 0), (0, 0), (40000, 0)⟩,
  /- chem.cti:418  H + O2 + M <=> HO2 + M -/
  .simple ⟨(2800000000000000000, 0), (-86, 2), (0, 0)⟩,
  /- chem.cti:422  H + 2 O2 <=> HO2 + O2 -/
  .simple ⟨(300000000000000000000, 0), (-172, 2), (0, 0)⟩,
  /- chem.cti:425  H + O2 + H2O <=> HO2 + H2O -/
  .simple ⟨(9380000000000000000, 0), (-76, 2), (0, 0)⟩,
  /- chem.cti:428  H + O2 + N2 <=> HO2 + N2 -/
  .simple ⟨(375000000000000000000, 0), (-172, 2), (0, 0)⟩,
  /- chem.cti:431  H + O2 + AR <=> HO2 + AR -/
  .simple ⟨(700000000000000000, 0), (-8, 1), (0, 0)⟩,
  /- chem.cti:434  H + O2 <=> O + OH -/
  .simple ⟨(83000000000000, 0), (0, 0), (14413, 0)⟩,
  /- chem.cti:437  2 H + M <=> H2 + M -/
  .simple ⟨(1000000000000000000, 0), (-1, 0), (0, 0)⟩,
  /- chem.cti:441  2 H + H2 <=> 2 H2 -/
  .simple ⟨(90000000000000000, 0), (-6, 1), (0, 0)⟩,
  /- chem.cti:444  2 H + H2O <=> H2 + H2O -/
  .simple ⟨(60000000000000000000, 0), (-125, 2), (0, 0)⟩,
  /- chem.cti:447  2 H + CO2 <=> H2 + CO2 -/
  .simple ⟨(550000000000000000000, 0), (-2, 0), (0, 0)⟩,
  /- chem.cti:450  H + OH + M <=> H2O + M -/
  .simple ⟨(22000000000000000000000, 0), (-2, 0), (0, 0)⟩,
  /- chem.cti:454  H + HO2 <=> O2 + H2 -/
  .simple ⟨(28000000000000, 0), (0, 0), (1068, 0)⟩,
  /- chem.cti:457  H + HO2 <=> 2 OH -/
  .simple ⟨(134000000000000, 0), (0, 0), (635, 0)⟩,
  /- chem.cti:460  H + CH2 (+ M) <=> CH3 (+ M) -/
  .falloff ⟨(25000000000000000, 0), (-8, 1), (0, 0)⟩ ⟨(3200000000000000000000000000, 0), (-314, 2), (1230, 0)⟩ (some ⟨(68, 2), (78, 0), (1995, 0), some (5590, 0)⟩),
  /- chem.cti:467  H + CH3 (+ M) <=> CH4 (+ M) -/
  .falloff ⟨(12700000000000000, 0), (-63, 2), (383, 0)⟩ ⟨(2477000000000000000000000000000000, 0), (-476, 2), (2440, 0)⟩ (some ⟨(783, 3), (74, 0), (2941, 0), some (6964, 0)⟩),
  /- chem.cti:474  H + CH4 <=> CH3 + H2 -/
  .simple ⟨(660000000, 0), (162, 2), (10840, 0)⟩,
  /- chem.cti:477  H + HCO (+ M) <=> CH2O (+ M) -/
  .falloff ⟨(1090000000000, 0), (48, 2), (-260, 0)⟩ ⟨(1350000000000000000000000, 0), (-257, 2), (1425, 0)⟩ (some ⟨(7824, 4), (271, 0), (2755, 0), some (6570, 0)⟩),
  /- chem.cti:484  H + HCO <=> H2 + CO -/
  .simple ⟨(73400000000000, 0), (0, 0), (0, 0)⟩,
  /- chem.cti:487  H + CH2O (+ M) <=> CH3O (+ M) -/
  .falloff ⟨(540000000000, 0), (454, 3), (2600, 0)⟩ ⟨(2200000000000000000000000000000, 0), (-48, 1), (5560, 0)⟩ (some ⟨(758, 3), (94, 0), (1555, 0), some (4200, 0)⟩),
  /- chem.cti:494  H + CH2O <=> HCO + H2 -/
  .simple ⟨(23000000000, 0), (105, 2), (3275, 0)⟩,
  /- chem.cti:497  H + CH3O <=> OH + CH3 -/
  .simple ⟨(32000000000000, 0), (0, 0), (0, 0)⟩,
  /- chem.cti:500  H + C2H4 (+ M) <=> C2H5 (+ M) -/
  .falloff ⟨(1080000000000, 0), (454, 3), (1820, 0)⟩ ⟨(1200000000000000000000000000000000000000000, 0), (-762, 2), (6970, 0)⟩ (some ⟨(9753, 4), (210, 0), (984, 0), some (4374, 0)⟩),
  /- chem.cti:507  H + C2H5 (+ M) <=> C2H6 (+ M) -/
  .falloff ⟨(521000000000000000, 0), (-99, 2), (1580, 0)⟩ ⟨(199000000000000000000000000000000000000000, 0), (-708, 2), (6685, 0)⟩ (some ⟨(8422, 4), (125, 0), (2219, 0), some (6882, 0)⟩),
  /- chem.cti:514  H + C2H6 <=> C2H5 + H2 -/
  .simple ⟨(115000000, 0), (19, 1), (7530, 0)⟩,
  /- chem.cti:517  H2 + CO (+ M) <=> CH2O (+ M) -/
  .falloff ⟨(43000000, 0), (15, 1), (79600, 0)⟩ ⟨(5070000000000000000000000000, 0), (-342, 2), (84350, 0)⟩ (some ⟨(932, 3), (197, 0), (1540, 0), some (10300, 0)⟩),
  /- chem.cti:524  OH + H2 <=> H + H2O -/
  .simple ⟨(216000000, 0), (151, 2), (3430, 0)⟩,
  /- chem.cti:527  2 OH <=> O + H2O -/
  .simple ⟨(35700, 0), (24, 1), (-2110, 0)⟩,
  /- chem.cti:530  OH + HO2 <=> O2 + H2O -/
  .simple ⟨(29000000000000, 0), (0, 0), (-500, 0)⟩,
  /- chem.cti:533  OH + CH2 <=> H + CH2O -/
  .simple ⟨(20000000000000, 0), (0, 0), (0, 0)⟩,
  /- chem.cti:536  OH + CH2(S) <=> H + CH2O -/
  .simple ⟨(30000000000000, 0), (0, 0), (0, 0)⟩,
  /- chem.cti:539  OH + CH3 <=> CH2 + H2O -/
  .simple ⟨(56000000, 0), (16, 1), (5420, 0)⟩,
  /- chem.cti:542  OH + CH3 <=> CH2(S) + H2O -/
  .simple ⟨(25010000000000, 0), (0, 0), (0, 0)⟩,
  /- chem.cti:545  OH + CH4 <=> CH3 + H2O -/
  .simple ⟨(100000000, 0), (16, 1), (3120, 0)⟩,
  /- chem.cti:548  OH + CO <=> H + CO2 -/
  .simple ⟨(47600000, 0), (1228, 3), (70, 0)⟩,
  /- chem.cti:551  OH + HCO <=> H2O + CO -/
  .simple ⟨(50000000000000, 0), (0, 0), (0, 0)⟩,
  /- chem.cti:554  OH + CH2O <=> HCO + H2O -/
  .simple ⟨(3430000000, 0), (118, 2), (-447, 0)⟩,
  /- chem.cti:557  OH + C2H6 <=> C2H5 + H2O -/
  .simple ⟨(3540000, 0), (212, 2), (870, 0)⟩,
  /- chem.cti:560  HO2 + CH2 <=> OH + CH2O -/
  .simple ⟨(20000000000000, 0), (0, 0), (0, 0)⟩,
  /- chem.cti:563  HO2 + CH3 <=> O2 + CH4 -/
  .simple ⟨(1000000000000, 0), (0, 0), (0, 0)⟩,
  /- chem.cti:566  HO2 + CH3 <=> OH + CH3O -/
  .simple ⟨(20000000000000, 0), (0, 0), (0, 0)⟩,
  /- chem.cti:569  HO2 + CO <=> OH + CO2 -/
  .simple ⟨(150000000000000, 0), (0, 0), (23600, 0)⟩,
  /- chem.cti:572  CH2 + O2 <=> OH + HCO -/
  .simple ⟨(13200000000000, 0), (0, 0), (1500, 0)⟩,
  /- chem.cti:575  CH2 + H2 <=> H + CH3 -/
  .simple ⟨(500000, 0), (2, 0), (7230, 0)⟩,
  /- chem.cti:578  CH2 + CH3 <=> H + C2H4 -/
  .simple ⟨(40000000000000, 0), (0, 0), (0, 0)⟩,
  /- chem.cti:581  CH2 + CH4 <=> 2 CH3 -/
  .simple ⟨(2460000, 0), (2, 0), (8270, 0)⟩,
  /- chem.cti:584  CH2(S) + N2 <=> CH2 + N2 -/
  .simple ⟨(15000000000000, 0), (0, 0), (600, 0)⟩,
  /- chem.cti:587  CH2(S) + AR <=> CH2 + AR -/
  .simple ⟨(9000000000000, 0), (0, 0), (600, 0)⟩,
  /- chem.cti:590  CH2(S) + O2 <=> H + OH + CO -/
  .simple ⟨(28000000000000, 0), (0, 0), (0, 0)⟩,
  /- chem.cti:593  CH2(S) + O2 <=> CO + H2O -/
  .simple ⟨(12000000000000, 0), (0, 0), (0, 0)⟩,
  /- chem.cti:596  CH2(S) + H2 <=> CH3 + H -/
  .simple ⟨(70000000000000, 0), (0, 0), (0, 0)⟩,
  /- chem.cti:599  CH2(S) + H2O <=> CH2 + H2O -/
  .simple ⟨(30000000000000, 0), (0, 0), (0, 0)⟩,
  /- chem.cti:602  CH2(S) + CH3 <=> H + C2H4 -/
  .simple ⟨(12000000000000, 0), (0, 0), (-570, 0)⟩,
  /- chem.cti:605  CH2(S) + CH4 <=> 2 CH3 -/
  .simple ⟨(16000000000000, 0), (0, 0), (-570, 0)⟩,
  /- chem.cti:608  CH2(S) + CO <=> CH2 + CO -/
  .simple ⟨(9000000000000, 0), (0, 0), (0, 0)⟩,
  /- chem.cti:611  CH2(S) + CO2 <=> CH2 + CO2 -/
  .simple ⟨(7000000000000, 0), (0, 0), (0, 0)⟩,
  /- chem.cti:614  CH2(S) + CO2 <=> CO + CH2O -/
  .simple ⟨(14000000000000, 0), (0, 0), (0, 0)⟩,
  /- chem.cti:617  CH3 + O2 <=> O + CH3O -/
  .simple ⟨(26750000000000, 0), (0, 0), (28800, 0)⟩,
  /- chem.cti:620  CH3 + O2 <=> OH + CH2O -/
  .simple ⟨(36000000000, 0), (0, 0), (8940, 0)⟩,
  /- chem.cti:623  2 CH3 (+ M) <=> C2H6 (+ M) -/
  .falloff ⟨(21200000000000000, 0), (-97, 2), (620, 0)⟩ ⟨(177000000000000000000000000000000000000000000000000, 0), (-967, 2), (6220, 0)⟩ (some ⟨(5325, 4), (151, 0), (1038, 0), some (4970, 0)⟩),
  /- chem.cti:630  2 CH3 <=> H + C2H5 -/
  .simple ⟨(4990000000000, 0), (1, 1), (10600, 0)⟩,
  /- chem.cti:633  CH3 + HCO <=> CH4 + CO -/
  .simple ⟨(26480000000000, 0), (0, 0), (0, 0)⟩,
  /- chem.cti:636  CH3 + CH2O <=> HCO + CH4 -/
  .simple ⟨(3320, 0), (281, 2), (5860, 0)⟩,
  /- chem.cti:639  CH3 + C2H6 <=> C2H5 + CH4 -/
  .simple ⟨(6140000, 0), (174, 2), (10450, 0)⟩,
  /- chem.cti:642  HCO + H2O <=> H + CO + H2O -/
  .simple ⟨(2244000000000000000, 0), (-1, 0), (17000, 0)⟩,
  /- chem.cti:645  HCO + M <=> H + CO + M -/
  .simple ⟨(187000000000000000, 0), (-1, 0), (17000, 0)⟩,
  /- chem.cti:649  HCO + O2 <=> HO2 + CO -/
  .simple ⟨(7600000000000, 0), (0, 0), (400, 0)⟩,
  /- chem.cti:652  CH3O + O2 <=> HO2 + CH2O -/
  .simple ⟨(428, 15), (76, 1), (-3530, 0)⟩,
  /- chem.cti:655  C2H5 + O2 <=> HO2 + C2H4 -/
  .simple ⟨(840000000000, 0), (0, 0), (3875, 0)⟩]

end DLB.Mech.Drm19
