/- Generated by tools/gen_mechanisms.py from utilities/mechanisms/yao/{chem.cti,lib/src/mechanism.h,foam/*}. Do not edit. -/
import Verif.Spec.Mechanism
set_option autoImplicit false

namespace DLB.Mech.Yao
open DLB

/-- Species in the order of utilities/mechanisms/yao/lib/src/mechanism.h -/
def names : List String := ["AR", "H", "O", "OH", "HO2", "H2", "H2O", "H2O2", "O2", "CH2", "CH2*", "CH3", "CH4", "HCO", "CH2O", "CH3O", "CO", "CO2", "C2H2", "C2H3", "C2H4", "C2H5", "C2H6", "CH2CHO", "aC3H5", "C3H6", "nC3H7", "C2H3CHO", "C4H7", "C4H81", "pC4H9", "C5H9", "C5H10", "PXC5H11", "C6H12", "PXC6H13", "C7H14", "PXC7H15", "C8H16", "PXC8H17", "C9H18", "PXC9H19", "C10H20", "PXC10H21", "NC12H26", "PXC12H25", "SXC12H25", "S3XC12H25", "C12H24", "C12H25O2", "C12OOH", "O2C12H24OOH", "OC12H23OOH", "N2"]

/-- Species in the order of utilities/mechanisms/yao/chem.cti:5 -/
def ctiNames : List String := ["N2", "AR", "H", "O", "OH", "HO2", "H2", "H2O", "H2O2", "O2", "CH2", "CH2*", "CH3", "CH4", "HCO", "CH2O", "CH3O", "CO", "CO2", "C2H2", "C2H3", "C2H4", "C2H5", "C2H6", "CH2CHO", "aC3H5", "C3H6", "nC3H7", "C2H3CHO", "C4H7", "C4H81", "pC4H9", "C5H9", "C5H10", "PXC5H11", "C6H12", "PXC6H13", "C7H14", "PXC7H15", "C8H16", "PXC8H17", "C9H18", "PXC9H19", "C10H20", "PXC10H21", "NC12H26", "PXC12H25", "SXC12H25", "S3XC12H25", "C12H24", "C12H25O2", "C12OOH", "O2C12H24OOH", "OC12H23OOH"]

/-- Species in the order of utilities/mechanisms/yao/foam/species.foam -/
def foamNames : List String := ["AR", "H", "O", "OH", "HO2", "H2", "H2O", "H2O2", "O2", "CH2", "CH2*", "CH3", "CH4", "HCO", "CH2O", "CH3O", "CO", "CO2", "C2H2", "C2H3", "C2H4", "C2H5", "C2H6", "CH2CHO", "aC3H5", "C3H6", "nC3H7", "C2H3CHO", "C4H7", "C4H81", "pC4H9", "C5H9", "C5H10", "PXC5H11", "C6H12", "PXC6H13", "C7H14", "PXC7H15", "C8H16", "PXC8H17", "C9H18", "PXC9H19", "C10H20", "PXC10H21", "NC12H26", "PXC12H25", "SXC12H25", "S3XC12H25", "C12H24", "C12H25O2", "C12OOH", "O2C12H24OOH", "OC12H23OOH", "N2"]

/-- Elements, utilities/mechanisms/yao/chem.cti -/
def elements : List String := ["O", "H", "C", "N", "Ar"]

/-- Number of atoms of each of the `elements` in each species (order of `names`),
utilities/mechanisms/yao/chem.cti:27-875 -/
def atoms : List (List Nat) := [
  [0, 0, 0, 0, 1],
  [0, 1, 0, 0, 0],
  [1, 0, 0, 0, 0],
  [1, 1, 0, 0, 0],
  [2, 1, 0, 0, 0],
  [0, 2, 0, 0, 0],
  [1, 2, 0, 0, 0],
  [2, 2, 0, 0, 0],
  [2, 0, 0, 0, 0],
  [0, 2, 1, 0, 0],
  [0, 2, 1, 0, 0],
  [0, 3, 1, 0, 0],
  [0, 4, 1, 0, 0],
  [1, 1, 1, 0, 0],
  [1, 2, 1, 0, 0],
  [1, 3, 1, 0, 0],
  [1, 0, 1, 0, 0],
  [2, 0, 1, 0, 0],
  [0, 2, 2, 0, 0],
  [0, 3, 2, 0, 0],
  [0, 4, 2, 0, 0],
  [0, 5, 2, 0, 0],
  [0, 6, 2, 0, 0],
  [1, 3, 2, 0, 0],
  [0, 5, 3, 0, 0],
  [0, 6, 3, 0, 0],
  [0, 7, 3, 0, 0],
  [1, 4, 3, 0, 0],
  [0, 7, 4, 0, 0],
  [0, 8, 4, 0, 0],
  [0, 9, 4, 0, 0],
  [0, 9, 5, 0, 0],
  [0, 10, 5, 0, 0],
  [0, 11, 5, 0, 0],
  [0, 12, 6, 0, 0],
  [0, 13, 6, 0, 0],
  [0, 14, 7, 0, 0],
  [0, 15, 7, 0, 0],
  [0, 16, 8, 0, 0],
  [0, 17, 8, 0, 0],
  [0, 18, 9, 0, 0],
  [0, 19, 9, 0, 0],
  [0, 20, 10, 0, 0],
  [0, 21, 10, 0, 0],
  [0, 26, 12, 0, 0],
  [0, 25, 12, 0, 0],
  [0, 25, 12, 0, 0],
  [0, 25, 12, 0, 0],
  [0, 24, 12, 0, 0],
  [2, 25, 12, 0, 0],
  [2, 25, 12, 0, 0],
  [4, 25, 12, 0, 0],
  [3, 24, 12, 0, 0],
  [0, 0, 0, 2, 0]]

/-- Number of atoms of each of the `elements` in each species (order of `names`),
utilities/mechanisms/yao/foam/thermo.foam -/
def foamAtoms : List (List Nat) := [
  [0, 0, 0, 0, 1],
  [0, 1, 0, 0, 0],
  [1, 0, 0, 0, 0],
  [1, 1, 0, 0, 0],
  [2, 1, 0, 0, 0],
  [0, 2, 0, 0, 0],
  [1, 2, 0, 0, 0],
  [2, 2, 0, 0, 0],
  [2, 0, 0, 0, 0],
  [0, 2, 1, 0, 0],
  [0, 2, 1, 0, 0],
  [0, 3, 1, 0, 0],
  [0, 4, 1, 0, 0],
  [1, 1, 1, 0, 0],
  [1, 2, 1, 0, 0],
  [1, 3, 1, 0, 0],
  [1, 0, 1, 0, 0],
  [2, 0, 1, 0, 0],
  [0, 2, 2, 0, 0],
  [0, 3, 2, 0, 0],
  [0, 4, 2, 0, 0],
  [0, 5, 2, 0, 0],
  [0, 6, 2, 0, 0],
  [1, 3, 2, 0, 0],
  [0, 5, 3, 0, 0],
  [0, 6, 3, 0, 0],
  [0, 7, 3, 0, 0],
  [1, 4, 3, 0, 0],
  [0, 7, 4, 0, 0],
  [0, 8, 4, 0, 0],
  [0, 9, 4, 0, 0],
  [0, 9, 5, 0, 0],
  [0, 10, 5, 0, 0],
  [0, 11, 5, 0, 0],
  [0, 12, 6, 0, 0],
  [0, 13, 6, 0, 0],
  [0, 14, 7, 0, 0],
  [0, 15, 7, 0, 0],
  [0, 16, 8, 0, 0],
  [0, 17, 8, 0, 0],
  [0, 18, 9, 0, 0],
  [0, 19, 9, 0, 0],
  [0, 20, 10, 0, 0],
  [0, 21, 10, 0, 0],
  [0, 26, 12, 0, 0],
  [0, 25, 12, 0, 0],
  [0, 25, 12, 0, 0],
  [0, 25, 12, 0, 0],
  [0, 24, 12, 0, 0],
  [2, 25, 12, 0, 0],
  [2, 25, 12, 0, 0],
  [4, 25, 12, 0, 0],
  [3, 24, 12, 0, 0],
  [0, 0, 0, 2, 0]]

/-- molWeight of each species (order of `names`) as mantissa and decimal exponent,
utilities/mechanisms/yao/foam/thermo.foam -/
def foamWeights : List (Nat × Nat) := [
  (39948, 3), (100794, 5), (159994, 4), (1700734, 5), (3300674, 5), (201588, 5), (1801528, 5), (3401468, 5), (319988, 4), (14026879999999998, 15), (14026879999999998, 15), (1503482, 5), (1604276, 5), (2901834, 5), (3002628, 5), (31034219999999998, 15), (28010399999999997, 15), (440098, 4), (26037879999999998, 15), (2704582, 5), (28053759999999997, 15), (290617, 4), (3006964, 5), (4304522, 5), (410727, 4), (4208064, 5), (4308858, 5), (5606416, 5), (55099579999999996, 15), (56107519999999994, 15), (5711546, 5), (6912646, 5), (701344, 4), (7114233999999999, 14), (8416128, 5), (8516922, 5), (9818816, 5), (991961, 4), (11221503999999999, 14), (11322297999999999, 14), (12624192, 5), (12724985999999998, 14), (1402688, 4), (14127674, 5), (17033844, 5), (1693305, 4), (1693305, 4), (1693305, 4), (16832256, 5), (2013293, 4), (2013293, 4), (2333281, 4), (21632076, 5), (2801348, 5)]

/-- The reactions, utilities/mechanisms/yao/chem.cti:896-1833 -/
def reactions : List Reaction := [
  /- chem.cti:896  H + O2 <=> OH + O -/
  ⟨[1, 8], [3, 2], true, .elementary⟩,
  /- chem.cti:899  O + H2 <=> H + OH -/
  ⟨[2, 5], [1, 3], true, .elementary⟩,
  /- chem.cti:902  OH + H2 <=> H2O + H -/
  ⟨[3, 5], [6, 1], true, .elementary⟩,
  /- chem.cti:905  OH + OH <=> O + H2O -/
  ⟨[3, 3], [2, 6], true, .elementary⟩,
  /- chem.cti:908  H + O2 (+ M) <=> HO2 (+ M) -/
  ⟨[1, 8], [4], true, (.falloff [(6, 1189, 2), (17, 218, 2), (16, 109, 2), (8, 85, 2), (0, 4, 1)])⟩,
  /- chem.cti:915  HO2 + H <=> OH + OH -/
  ⟨[4, 1], [3, 3], true, .elementary⟩,
  /- chem.cti:918  H2 + O2 <=> HO2 + H -/
  ⟨[5, 8], [4, 1], true, .elementary⟩,
  /- chem.cti:921  HO2 + OH <=> H2O + O2 -/
  ⟨[4, 3], [6, 8], true, .elementary⟩,
  /- chem.cti:924  HO2 + H <=> O + H2O -/
  ⟨[4, 1], [2, 6], true, .elementary⟩,
  /- chem.cti:927  HO2 + O <=> OH + O2 -/
  ⟨[4, 2], [3, 8], true, .elementary⟩,
  /- chem.cti:930  HO2 + HO2 <=> O2 + H2O2 -/
  ⟨[4, 4], [8, 7], true, .elementary⟩,
  /- chem.cti:934  HO2 + HO2 <=> O2 + H2O2 -/
  ⟨[4, 4], [8, 7], true, .elementary⟩,
  /- chem.cti:938  H2O2 + H <=> OH + H2O -/
  ⟨[7, 1], [3, 6], true, .elementary⟩,
  /- chem.cti:941  H2O2 + H <=> HO2 + H2 -/
  ⟨[7, 1], [4, 5], true, .elementary⟩,
  /- chem.cti:944  H2O2 + O <=> OH + HO2 -/
  ⟨[7, 2], [3, 4], true, .elementary⟩,
  /- chem.cti:947  H2O2 + OH <=> HO2 + H2O -/
  ⟨[7, 3], [4, 6], true, .elementary⟩,
  /- chem.cti:951  H2O2 + OH <=> HO2 + H2O -/
  ⟨[7, 3], [4, 6], true, .elementary⟩,
  /- chem.cti:955  OH + OH (+ M) <=> H2O2 (+ M) -/
  ⟨[3, 3], [7], true, (.falloff [(5, 2, 0), (6, 6, 0), (17, 36, 1), (16, 175, 2), (0, 7, 1)])⟩,
  /- chem.cti:962  H + H + M <=> H2 + M -/
  ⟨[1, 1], [5], true, (.thirdBody [(5, 0, 0), (6, 0, 0), (17, 0, 0), (0, 63, 2)])⟩,
  /- chem.cti:966  H + OH + M <=> H2O + M -/
  ⟨[1, 3], [6], true, (.thirdBody [(5, 2, 0), (6, 63, 1), (17, 36, 1), (16, 175, 2), (0, 38, 2)])⟩,
  /- chem.cti:970  O + O + M <=> O2 + M -/
  ⟨[2, 2], [8], true, (.thirdBody [(5, 24, 1), (6, 154, 1), (17, 36, 1), (16, 175, 2), (0, 83, 2)])⟩,
  /- chem.cti:974  H + H + H2 <=> H2 + H2 -/
  ⟨[1, 1, 5], [5, 5], true, .elementary⟩,
  /- chem.cti:977  H + H + H2O <=> H2 + H2O -/
  ⟨[1, 1, 6], [5, 6], true, .elementary⟩,
  /- chem.cti:980  H + H + CO2 <=> H2 + CO2 -/
  ⟨[1, 1, 17], [5, 17], true, .elementary⟩,
  /- chem.cti:983  O + H + M <=> OH + M -/
  ⟨[2, 1], [3], true, (.thirdBody [(5, 2, 0), (6, 12, 0), (17, 36, 1), (16, 175, 2), (0, 7, 1)])⟩,
  /- chem.cti:987  CO + OH <=> CO2 + H -/
  ⟨[16, 3], [17, 1], true, .elementary⟩,
  /- chem.cti:991  CO + OH <=> CO2 + H -/
  ⟨[16, 3], [17, 1], true, .elementary⟩,
  /- chem.cti:995  CO + HO2 <=> CO2 + OH -/
  ⟨[16, 4], [17, 3], true, .elementary⟩,
  /- chem.cti:998  CO + O (+ M) <=> CO2 (+ M) -/
  ⟨[16, 2], [17], true, (.falloff [(5, 2, 0), (6, 12, 0), (17, 36, 1), (16, 175, 2), (0, 7, 1)])⟩,
  /- chem.cti:1004  CO + O2 <=> CO2 + O -/
  ⟨[16, 8], [17, 2], true, .elementary⟩,
  /- chem.cti:1007  HCO + M <=> CO + H + M -/
  ⟨[13], [16, 1], true, (.thirdBody [(5, 2, 0), (6, 0, 0), (17, 36, 1), (16, 175, 2)])⟩,
  /- chem.cti:1011  HCO + H <=> CO + H2 -/
  ⟨[13, 1], [16, 5], true, .elementary⟩,
  /- chem.cti:1014  HCO + O <=> CO + OH -/
  ⟨[13, 2], [16, 3], true, .elementary⟩,
  /- chem.cti:1017  HCO + O <=> CO2 + H -/
  ⟨[13, 2], [17, 1], true, .elementary⟩,
  /- chem.cti:1020  HCO + OH <=> CO + H2O -/
  ⟨[13, 3], [16, 6], true, .elementary⟩,
  /- chem.cti:1023  HCO + O2 <=> CO + HO2 -/
  ⟨[13, 8], [16, 4], true, .elementary⟩,
  /- chem.cti:1026  HCO + H2O <=> CO + H + H2O -/
  ⟨[13, 6], [16, 1, 6], true, .elementary⟩,
  /- chem.cti:1029  CO + H2 (+ M) <=> CH2O (+ M) -/
  ⟨[16, 5], [14], true, (.falloff [(17, 2, 0), (16, 15, 1), (5, 2, 0), (6, 6, 0), (0, 7, 1), (12, 2, 0), (22, 3, 0)])⟩,
  /- chem.cti:1036  HCO + H (+ M) <=> CH2O (+ M) -/
  ⟨[13, 1], [14], true, (.falloff [(17, 2, 0), (16, 15, 1), (5, 2, 0), (6, 6, 0), (0, 7, 1), (12, 2, 0), (22, 3, 0)])⟩,
  /- chem.cti:1043  CH2 + H (+ M) <=> CH3 (+ M) -/
  ⟨[9, 1], [11], true, (.falloff [(17, 2, 0), (16, 15, 1), (5, 2, 0), (6, 6, 0), (0, 7, 1), (12, 2, 0), (22, 3, 0)])⟩,
  /- chem.cti:1050  CH2 + O <=> HCO + H -/
  ⟨[9, 2], [13, 1], true, .elementary⟩,
  /- chem.cti:1053  CH2 + OH <=> CH2O + H -/
  ⟨[9, 3], [14, 1], true, .elementary⟩,
  /- chem.cti:1056  CH2 + H2 <=> H + CH3 -/
  ⟨[9, 5], [1, 11], true, .elementary⟩,
  /- chem.cti:1059  CH2 + O2 <=> HCO + OH -/
  ⟨[9, 8], [13, 3], true, .elementary⟩,
  /- chem.cti:1062  CH2 + O2 <=> CO2 + H + H -/
  ⟨[9, 8], [17, 1, 1], true, .elementary⟩,
  /- chem.cti:1065  CH2 + HO2 <=> CH2O + OH -/
  ⟨[9, 4], [14, 3], true, .elementary⟩,
  /- chem.cti:1068  CH2 + CH2 <=> C2H2 + H2 -/
  ⟨[9, 9], [18, 5], true, .elementary⟩,
  /- chem.cti:1071  CH2* + N2 <=> CH2 + N2 -/
  ⟨[10, 53], [9, 53], true, .elementary⟩,
  /- chem.cti:1074  CH2* + AR <=> CH2 + AR -/
  ⟨[10, 0], [9, 0], true, .elementary⟩,
  /- chem.cti:1077  CH2* + O <=> CO + H2 -/
  ⟨[10, 2], [16, 5], true, .elementary⟩,
  /- chem.cti:1080  CH2* + O <=> HCO + H -/
  ⟨[10, 2], [13, 1], true, .elementary⟩,
  /- chem.cti:1083  CH2* + OH <=> CH2O + H -/
  ⟨[10, 3], [14, 1], true, .elementary⟩,
  /- chem.cti:1086  CH2* + H2 <=> CH3 + H -/
  ⟨[10, 5], [11, 1], true, .elementary⟩,
  /- chem.cti:1089  CH2* + O2 <=> H + OH + CO -/
  ⟨[10, 8], [1, 3, 16], true, .elementary⟩,
  /- chem.cti:1092  CH2* + O2 <=> CO + H2O -/
  ⟨[10, 8], [16, 6], true, .elementary⟩,
  /- chem.cti:1095  CH2* + H2O <=> CH2 + H2O -/
  ⟨[10, 6], [9, 6], true, .elementary⟩,
  /- chem.cti:1098  CH2* + CO <=> CH2 + CO -/
  ⟨[10, 16], [9, 16], true, .elementary⟩,
  /- chem.cti:1101  CH2* + CO2 <=> CH2 + CO2 -/
  ⟨[10, 17], [9, 17], true, .elementary⟩,
  /- chem.cti:1104  CH2* + CO2 <=> CH2O + CO -/
  ⟨[10, 17], [14, 16], true, .elementary⟩,
  /- chem.cti:1107  CH2O + H (+ M) <=> CH3O (+ M) -/
  ⟨[14, 1], [15], true, (.falloff [(17, 2, 0), (16, 15, 1), (5, 2, 0), (6, 6, 0), (12, 2, 0), (22, 3, 0)])⟩,
  /- chem.cti:1114  CH2O + H <=> HCO + H2 -/
  ⟨[14, 1], [13, 5], true, .elementary⟩,
  /- chem.cti:1117  CH2O + O <=> HCO + OH -/
  ⟨[14, 2], [13, 3], true, .elementary⟩,
  /- chem.cti:1120  CH2O + OH <=> HCO + H2O -/
  ⟨[14, 3], [13, 6], true, .elementary⟩,
  /- chem.cti:1123  CH2O + O2 <=> HCO + HO2 -/
  ⟨[14, 8], [13, 4], true, .elementary⟩,
  /- chem.cti:1126  CH2O + HO2 <=> HCO + H2O2 -/
  ⟨[14, 4], [13, 7], true, .elementary⟩,
  /- chem.cti:1129  CH3 + H (+ M) <=> CH4 (+ M) -/
  ⟨[11, 1], [12], true, (.falloff [(17, 2, 0), (16, 15, 1), (5, 2, 0), (6, 6, 0), (0, 7, 1), (12, 2, 0), (22, 3, 0)])⟩,
  /- chem.cti:1136  CH3 + O <=> CH2O + H -/
  ⟨[11, 2], [14, 1], true, .elementary⟩,
  /- chem.cti:1139  CH3 + OH <=> CH2 + H2O -/
  ⟨[11, 3], [9, 6], true, .elementary⟩,
  /- chem.cti:1142  CH3 + OH <=> CH2* + H2O -/
  ⟨[11, 3], [10, 6], true, .elementary⟩,
  /- chem.cti:1145  CH3 + O2 <=> O + CH3O -/
  ⟨[11, 8], [2, 15], true, .elementary⟩,
  /- chem.cti:1148  CH3 + O2 <=> OH + CH2O -/
  ⟨[11, 8], [3, 14], true, .elementary⟩,
  /- chem.cti:1151  CH3 + HO2 <=> CH4 + O2 -/
  ⟨[11, 4], [12, 8], true, .elementary⟩,
  /- chem.cti:1154  CH3 + HO2 <=> CH3O + OH -/
  ⟨[11, 4], [15, 3], true, .elementary⟩,
  /- chem.cti:1157  CH3 + H2O2 <=> CH4 + HO2 -/
  ⟨[11, 7], [12, 4], true, .elementary⟩,
  /- chem.cti:1160  CH3 + HCO <=> CH4 + CO -/
  ⟨[11, 13], [12, 16], true, .elementary⟩,
  /- chem.cti:1163  CH3 + CH2O <=> CH4 + HCO -/
  ⟨[11, 14], [12, 13], true, .elementary⟩,
  /- chem.cti:1166  CH3 + CH2 <=> C2H4 + H -/
  ⟨[11, 9], [20, 1], true, .elementary⟩,
  /- chem.cti:1169  CH3 + CH2* <=> C2H4 + H -/
  ⟨[11, 10], [20, 1], true, .elementary⟩,
  /- chem.cti:1172  CH3 + CH3 (+ M) <=> C2H6 (+ M) -/
  ⟨[11, 11], [22], true, (.falloff [(17, 2, 0), (16, 15, 1), (5, 2, 0), (6, 6, 0), (0, 7, 1), (12, 2, 0), (22, 3, 0)])⟩,
  /- chem.cti:1179  CH3 + CH3 <=> H + C2H5 -/
  ⟨[11, 11], [1, 21], true, .elementary⟩,
  /- chem.cti:1182  CH3O + H <=> CH2O + H2 -/
  ⟨[15, 1], [14, 5], true, .elementary⟩,
  /- chem.cti:1185  CH3O + H <=> CH3 + OH -/
  ⟨[15, 1], [11, 3], true, .elementary⟩,
  /- chem.cti:1188  CH3O + H <=> CH2* + H2O -/
  ⟨[15, 1], [10, 6], true, .elementary⟩,
  /- chem.cti:1191  CH3O + O <=> CH2O + OH -/
  ⟨[15, 2], [14, 3], true, .elementary⟩,
  /- chem.cti:1194  CH3O + OH <=> CH2O + H2O -/
  ⟨[15, 3], [14, 6], true, .elementary⟩,
  /- chem.cti:1197  CH3O + O2 <=> CH2O + HO2 -/
  ⟨[15, 8], [14, 4], true, .elementary⟩,
  /- chem.cti:1200  CH4 + H <=> CH3 + H2 -/
  ⟨[12, 1], [11, 5], true, .elementary⟩,
  /- chem.cti:1203  CH4 + O <=> CH3 + OH -/
  ⟨[12, 2], [11, 3], true, .elementary⟩,
  /- chem.cti:1206  CH4 + OH <=> CH3 + H2O -/
  ⟨[12, 3], [11, 6], true, .elementary⟩,
  /- chem.cti:1209  CH4 + CH2 <=> CH3 + CH3 -/
  ⟨[12, 9], [11, 11], true, .elementary⟩,
  /- chem.cti:1212  CH4 + CH2* <=> CH3 + CH3 -/
  ⟨[12, 10], [11, 11], true, .elementary⟩,
  /- chem.cti:1215  C2H3 (+ M) <=> C2H2 + H (+ M) -/
  ⟨[19], [18, 1], true, (.falloff [(17, 2, 0), (16, 15, 1), (5, 2, 0), (6, 6, 0), (0, 7, 1), (12, 2, 0), (22, 3, 0), (20, 3, 0), (18, 3, 0)])⟩,
  /- chem.cti:1222  C2H2 + O <=> CH2 + CO -/
  ⟨[18, 2], [9, 16], true, .elementary⟩,
  /- chem.cti:1225  C2H2 + OH <=> CH3 + CO -/
  ⟨[18, 3], [11, 16], true, .elementary⟩,
  /- chem.cti:1228  C2H2 + HCO <=> C2H3 + CO -/
  ⟨[18, 13], [19, 16], true, .elementary⟩,
  /- chem.cti:1231  C2H2 + CH3 <=> aC3H5 -/
  ⟨[18, 11], [24], true, .elementary⟩,
  /- chem.cti:1235  C2H3 + H (+ M) <=> C2H4 (+ M) -/
  ⟨[19, 1], [20], true, (.falloff [(17, 2, 0), (16, 15, 1), (5, 2, 0), (6, 6, 0), (0, 7, 1), (12, 2, 0), (22, 3, 0), (20, 3, 0), (18, 3, 0)])⟩,
  /- chem.cti:1242  C2H3 + H <=> C2H2 + H2 -/
  ⟨[19, 1], [18, 5], true, .elementary⟩,
  /- chem.cti:1245  C2H3 + O <=> CH3 + CO -/
  ⟨[19, 2], [11, 16], true, .elementary⟩,
  /- chem.cti:1248  C2H3 + OH <=> C2H2 + H2O -/
  ⟨[19, 3], [18, 6], true, .elementary⟩,
  /- chem.cti:1251  C2H3 + O2 <=> C2H2 + HO2 -/
  ⟨[19, 8], [18, 4], true, .elementary⟩,
  /- chem.cti:1254  C2H3 + O2 <=> CH2CHO + O -/
  ⟨[19, 8], [23, 2], true, .elementary⟩,
  /- chem.cti:1257  C2H3 + O2 <=> HCO + CH2O -/
  ⟨[19, 8], [13, 14], true, .elementary⟩,
  /- chem.cti:1260  C2H3 + HO2 <=> CH2CHO + OH -/
  ⟨[19, 4], [23, 3], true, .elementary⟩,
  /- chem.cti:1263  C2H3 + H2O2 <=> C2H4 + HO2 -/
  ⟨[19, 7], [20, 4], true, .elementary⟩,
  /- chem.cti:1266  C2H3 + HCO <=> C2H4 + CO -/
  ⟨[19, 13], [20, 16], true, .elementary⟩,
  /- chem.cti:1269  C2H3 + HCO <=> C2H3CHO -/
  ⟨[19, 13], [27], true, .elementary⟩,
  /- chem.cti:1272  C2H3 + CH3 <=> C2H2 + CH4 -/
  ⟨[19, 11], [18, 12], true, .elementary⟩,
  /- chem.cti:1275  C2H3 + CH3 (+ M) <=> C3H6 (+ M) -/
  ⟨[19, 11], [25], true, (.falloff [(17, 2, 0), (16, 15, 1), (5, 2, 0), (6, 6, 0), (0, 7, 1), (12, 2, 0), (22, 3, 0), (20, 3, 0), (18, 3, 0)])⟩,
  /- chem.cti:1282  C2H3 + CH3 <=> aC3H5 + H -/
  ⟨[19, 11], [24, 1], true, .elementary⟩,
  /- chem.cti:1285  C2H3 + C2H3 <=> C2H2 + C2H4 -/
  ⟨[19, 19], [18, 20], true, .elementary⟩,
  /- chem.cti:1288  CH2CHO <=> CH3 + CO -/
  ⟨[23], [11, 16], true, .elementary⟩,
  /- chem.cti:1291  CH2CHO + H <=> CH3 + HCO -/
  ⟨[23, 1], [11, 13], true, .elementary⟩,
  /- chem.cti:1294  CH2CHO + O2 <=> CH2O + CO + OH -/
  ⟨[23, 8], [14, 16, 3], true, .elementary⟩,
  /- chem.cti:1298  C2H4 + H (+ M) <=> C2H5 (+ M) -/
  ⟨[20, 1], [21], true, (.falloff [(17, 2, 0), (16, 15, 1), (5, 2, 0), (6, 6, 0), (0, 7, 1), (12, 2, 0), (22, 3, 0)])⟩,
  /- chem.cti:1305  C2H4 + H <=> C2H3 + H2 -/
  ⟨[20, 1], [19, 5], true, .elementary⟩,
  /- chem.cti:1308  C2H4 + O <=> C2H3 + OH -/
  ⟨[20, 2], [19, 3], true, .elementary⟩,
  /- chem.cti:1311  C2H4 + O <=> CH3 + HCO -/
  ⟨[20, 2], [11, 13], true, .elementary⟩,
  /- chem.cti:1314  C2H4 + O <=> CH2 + CH2O -/
  ⟨[20, 2], [9, 14], true, .elementary⟩,
  /- chem.cti:1317  C2H4 + OH <=> C2H3 + H2O -/
  ⟨[20, 3], [19, 6], true, .elementary⟩,
  /- chem.cti:1320  C2H4 + HCO <=> C2H5 + CO -/
  ⟨[20, 13], [21, 16], true, .elementary⟩,
  /- chem.cti:1323  C2H4 + CH2 <=> aC3H5 + H -/
  ⟨[20, 9], [24, 1], true, .elementary⟩,
  /- chem.cti:1326  C2H4 + CH2* <=> aC3H5 + H -/
  ⟨[20, 10], [24, 1], true, .elementary⟩,
  /- chem.cti:1329  C2H4 + CH3 <=> C2H3 + CH4 -/
  ⟨[20, 11], [19, 12], true, .elementary⟩,
  /- chem.cti:1332  nC3H7 <=> CH3 + C2H4 -/
  ⟨[26], [11, 20], true, .elementary⟩,
  /- chem.cti:1335  C2H4 + O2 <=> C2H3 + HO2 -/
  ⟨[20, 8], [19, 4], true, .elementary⟩,
  /- chem.cti:1338  C2H4 + C2H3 <=> C4H7 -/
  ⟨[20, 19], [28], true, .elementary⟩,
  /- chem.cti:1342  C2H5 + H (+ M) <=> C2H6 (+ M) -/
  ⟨[21, 1], [22], true, (.falloff [(17, 2, 0), (16, 15, 1), (5, 2, 0), (6, 6, 0), (0, 7, 1), (12, 2, 0), (22, 3, 0)])⟩,
  /- chem.cti:1349  C2H5 + H <=> C2H4 + H2 -/
  ⟨[21, 1], [20, 5], true, .elementary⟩,
  /- chem.cti:1352  C2H5 + O <=> CH3 + CH2O -/
  ⟨[21, 2], [11, 14], true, .elementary⟩,
  /- chem.cti:1355  C2H5 + O2 <=> C2H4 + HO2 -/
  ⟨[21, 8], [20, 4], true, .elementary⟩,
  /- chem.cti:1358  C2H5 + HO2 <=> C2H6 + O2 -/
  ⟨[21, 4], [22, 8], true, .elementary⟩,
  /- chem.cti:1361  C2H5 + HO2 <=> C2H4 + H2O2 -/
  ⟨[21, 4], [20, 7], true, .elementary⟩,
  /- chem.cti:1364  C2H5 + HO2 <=> CH3 + CH2O + OH -/
  ⟨[21, 4], [11, 14, 3], true, .elementary⟩,
  /- chem.cti:1367  C2H5 + H2O2 <=> C2H6 + HO2 -/
  ⟨[21, 7], [22, 4], true, .elementary⟩,
  /- chem.cti:1370  C2H5 + C2H3 (+ M) <=> C4H81 (+ M) -/
  ⟨[21, 19], [29], true, (.falloff [(17, 2, 0), (16, 15, 1), (5, 2, 0), (6, 6, 0), (0, 7, 1), (12, 2, 0), (22, 3, 0)])⟩,
  /- chem.cti:1377  C2H5 + C2H3 <=> aC3H5 + CH3 -/
  ⟨[21, 19], [24, 11], true, .elementary⟩,
  /- chem.cti:1381  C2H6 + H <=> C2H5 + H2 -/
  ⟨[22, 1], [21, 5], true, .elementary⟩,
  /- chem.cti:1384  C2H6 + O <=> C2H5 + OH -/
  ⟨[22, 2], [21, 3], true, .elementary⟩,
  /- chem.cti:1387  C2H6 + OH <=> C2H5 + H2O -/
  ⟨[22, 3], [21, 6], true, .elementary⟩,
  /- chem.cti:1390  C2H6 + CH2* <=> C2H5 + CH3 -/
  ⟨[22, 10], [21, 11], true, .elementary⟩,
  /- chem.cti:1393  C2H6 + CH3 <=> C2H5 + CH4 -/
  ⟨[22, 11], [21, 12], true, .elementary⟩,
  /- chem.cti:1397  aC3H5 + H (+ M) <=> C3H6 (+ M) -/
  ⟨[24, 1], [25], true, (.falloff [(17, 2, 0), (16, 15, 1), (5, 2, 0), (6, 6, 0), (0, 7, 1), (12, 2, 0), (22, 3, 0)])⟩,
  /- chem.cti:1404  aC3H5 + O <=> C2H3CHO + H -/
  ⟨[24, 2], [27, 1], true, .elementary⟩,
  /- chem.cti:1407  aC3H5 + OH <=> C2H3CHO + H + H -/
  ⟨[24, 3], [27, 1, 1], true, .elementary⟩,
  /- chem.cti:1410  aC3H5 + O2 <=> C2H3CHO + OH -/
  ⟨[24, 8], [27, 3], true, .elementary⟩,
  /- chem.cti:1413  aC3H5 + HO2 <=> C3H6 + O2 -/
  ⟨[24, 4], [25, 8], true, .elementary⟩,
  /- chem.cti:1416  aC3H5 + HO2 <=> OH + C2H3 + CH2O -/
  ⟨[24, 4], [3, 19, 14], true, .elementary⟩,
  /- chem.cti:1419  aC3H5 + HCO <=> C3H6 + CO -/
  ⟨[24, 13], [25, 16], true, .elementary⟩,
  /- chem.cti:1422  aC3H5 + CH3 (+ M) <=> C4H81 (+ M) -/
  ⟨[24, 11], [29], true, (.falloff [(17, 2, 0), (16, 15, 1), (5, 2, 0), (6, 6, 0), (0, 7, 1), (12, 2, 0), (22, 3, 0)])⟩,
  /- chem.cti:1430  C3H6 + H (+ M) <=> nC3H7 (+ M) -/
  ⟨[25, 1], [26], true, (.falloff [(17, 2, 0), (16, 15, 1), (5, 2, 0), (6, 6, 0), (0, 7, 1), (12, 2, 0), (22, 3, 0)])⟩,
  /- chem.cti:1437  C3H6 + H <=> C2H4 + CH3 -/
  ⟨[25, 1], [20, 11], true, .elementary⟩,
  /- chem.cti:1440  C3H6 + H <=> aC3H5 + H2 -/
  ⟨[25, 1], [24, 5], true, .elementary⟩,
  /- chem.cti:1443  C3H6 + O <=> C2H3CHO + H + H -/
  ⟨[25, 2], [27, 1, 1], true, .elementary⟩,
  /- chem.cti:1446  C3H6 + O <=> C2H5 + HCO -/
  ⟨[25, 2], [21, 13], true, .elementary⟩,
  /- chem.cti:1449  C3H6 + O <=> aC3H5 + OH -/
  ⟨[25, 2], [24, 3], true, .elementary⟩,
  /- chem.cti:1452  C3H6 + OH <=> aC3H5 + H2O -/
  ⟨[25, 3], [24, 6], true, .elementary⟩,
  /- chem.cti:1455  C3H6 + HO2 <=> aC3H5 + H2O2 -/
  ⟨[25, 4], [24, 7], true, .elementary⟩,
  /- chem.cti:1458  C3H6 + CH3 <=> aC3H5 + CH4 -/
  ⟨[25, 11], [24, 12], true, .elementary⟩,
  /- chem.cti:1462  C2H3CHO + H <=> C2H4 + HCO -/
  ⟨[27, 1], [20, 13], true, .elementary⟩,
  /- chem.cti:1465  C2H3CHO + O <=> C2H3 + OH + CO -/
  ⟨[27, 2], [19, 3, 16], true, .elementary⟩,
  /- chem.cti:1468  C2H3CHO + OH <=> C2H3 + H2O + CO -/
  ⟨[27, 3], [19, 6, 16], true, .elementary⟩,
  /- chem.cti:1472  nC3H7 + H <=> C2H5 + CH3 -/
  ⟨[26, 1], [21, 11], true, .elementary⟩,
  /- chem.cti:1475  nC3H7 + H <=> C3H6 + H2 -/
  ⟨[26, 1], [25, 5], true, .elementary⟩,
  /- chem.cti:1478  nC3H7 + O <=> C2H5 + CH2O -/
  ⟨[26, 2], [21, 14], true, .elementary⟩,
  /- chem.cti:1481  nC3H7 + OH <=> C3H6 + H2O -/
  ⟨[26, 3], [25, 6], true, .elementary⟩,
  /- chem.cti:1484  nC3H7 + O2 <=> C3H6 + HO2 -/
  ⟨[26, 8], [25, 4], true, .elementary⟩,
  /- chem.cti:1487  nC3H7 + HO2 <=> C2H5 + OH + CH2O -/
  ⟨[26, 4], [21, 3, 14], true, .elementary⟩,
  /- chem.cti:1490  nC3H7 + CH3 <=> CH4 + C3H6 -/
  ⟨[26, 11], [12, 25], true, .elementary⟩,
  /- chem.cti:1494  C4H7 + H (+ M) <=> C4H81 (+ M) -/
  ⟨[28, 1], [29], true, (.falloff [(17, 2, 0), (16, 15, 1), (5, 2, 0), (6, 6, 0), (0, 7, 1), (12, 2, 0), (22, 3, 0)])⟩,
  /- chem.cti:1501  C4H7 + H <=> CH3 + aC3H5 -/
  ⟨[28, 1], [11, 24], true, .elementary⟩,
  /- chem.cti:1504  C4H7 + HO2 <=> CH2O + OH + aC3H5 -/
  ⟨[28, 4], [14, 3, 24], true, .elementary⟩,
  /- chem.cti:1507  C4H7 + HCO <=> C4H81 + CO -/
  ⟨[28, 13], [29, 16], true, .elementary⟩,
  /- chem.cti:1511  C4H81 + H (+ M) <=> pC4H9 (+ M) -/
  ⟨[29, 1], [30], true, (.falloff [(17, 2, 0), (16, 15, 1), (5, 2, 0), (6, 6, 0), (0, 7, 1), (12, 2, 0), (22, 3, 0)])⟩,
  /- chem.cti:1518  C4H81 + H <=> C2H4 + C2H5 -/
  ⟨[29, 1], [20, 21], true, .elementary⟩,
  /- chem.cti:1521  C4H81 + H <=> C3H6 + CH3 -/
  ⟨[29, 1], [25, 11], true, .elementary⟩,
  /- chem.cti:1524  C4H81 + H <=> C4H7 + H2 -/
  ⟨[29, 1], [28, 5], true, .elementary⟩,
  /- chem.cti:1527  C4H81 + O <=> nC3H7 + HCO -/
  ⟨[29, 2], [26, 13], true, .elementary⟩,
  /- chem.cti:1530  C4H81 + O <=> C4H7 + OH -/
  ⟨[29, 2], [28, 3], true, .elementary⟩,
  /- chem.cti:1534  C4H81 + O <=> C4H7 + OH -/
  ⟨[29, 2], [28, 3], true, .elementary⟩,
  /- chem.cti:1538  C4H81 + OH <=> C4H7 + H2O -/
  ⟨[29, 3], [28, 6], true, .elementary⟩,
  /- chem.cti:1541  C4H81 + O2 <=> C4H7 + HO2 -/
  ⟨[29, 8], [28, 4], true, .elementary⟩,
  /- chem.cti:1544  C4H81 + HO2 <=> C4H7 + H2O2 -/
  ⟨[29, 4], [28, 7], true, .elementary⟩,
  /- chem.cti:1547  C4H81 + CH3 <=> C4H7 + CH4 -/
  ⟨[29, 11], [28, 12], true, .elementary⟩,
  /- chem.cti:1552  pC4H9 + H <=> C2H5 + C2H5 -/
  ⟨[30, 1], [21, 21], true, .elementary⟩,
  /- chem.cti:1555  pC4H9 + H <=> C4H81 + H2 -/
  ⟨[30, 1], [29, 5], true, .elementary⟩,
  /- chem.cti:1558  pC4H9 + O <=> nC3H7 + CH2O -/
  ⟨[30, 2], [26, 14], true, .elementary⟩,
  /- chem.cti:1561  pC4H9 + OH <=> C4H81 + H2O -/
  ⟨[30, 3], [29, 6], true, .elementary⟩,
  /- chem.cti:1564  pC4H9 + O2 <=> C4H81 + HO2 -/
  ⟨[30, 8], [29, 4], true, .elementary⟩,
  /- chem.cti:1567  pC4H9 + HO2 <=> nC3H7 + OH + CH2O -/
  ⟨[30, 4], [26, 3, 14], true, .elementary⟩,
  /- chem.cti:1570  pC4H9 + CH3 <=> C4H81 + CH4 -/
  ⟨[30, 11], [29, 12], true, .elementary⟩,
  /- chem.cti:1576  C5H9 => aC3H5 + C2H4 -/
  ⟨[31], [24, 20], false, .elementary⟩,
  /- chem.cti:1579  C5H9 => C2H3 + C3H6 -/
  ⟨[31], [19, 25], false, .elementary⟩,
  /- chem.cti:1582  C5H10 + H (+ M) <=> PXC5H11 (+ M) -/
  ⟨[32, 1], [33], true, (.falloff [(17, 2, 0), (16, 15, 1), (5, 2, 0), (6, 6, 0), (0, 7, 1), (12, 2, 0), (22, 3, 0)])⟩,
  /- chem.cti:1589  C5H10 + H <=> C2H4 + nC3H7 -/
  ⟨[32, 1], [20, 26], true, .elementary⟩,
  /- chem.cti:1592  C5H10 + H <=> C3H6 + C2H5 -/
  ⟨[32, 1], [25, 21], true, .elementary⟩,
  /- chem.cti:1595  C2H4 + nC3H7 <=> PXC5H11 -/
  ⟨[20, 26], [33], true, .elementary⟩,
  /- chem.cti:1598  C6H12 + H (+ M) <=> PXC6H13 (+ M) -/
  ⟨[34, 1], [35], true, (.falloff [(17, 2, 0), (16, 15, 1), (5, 2, 0), (6, 6, 0), (0, 7, 1), (12, 2, 0), (22, 3, 0)])⟩,
  /- chem.cti:1605  C6H12 + H <=> C2H4 + pC4H9 -/
  ⟨[34, 1], [20, 30], true, .elementary⟩,
  /- chem.cti:1608  C6H12 + H <=> C3H6 + nC3H7 -/
  ⟨[34, 1], [25, 26], true, .elementary⟩,
  /- chem.cti:1611  C2H4 + pC4H9 <=> PXC6H13 -/
  ⟨[20, 30], [35], true, .elementary⟩,
  /- chem.cti:1614  C7H14 + H (+ M) <=> PXC7H15 (+ M) -/
  ⟨[36, 1], [37], true, (.falloff [(17, 2, 0), (16, 15, 1), (5, 2, 0), (6, 6, 0), (0, 7, 1), (12, 2, 0), (22, 3, 0)])⟩,
  /- chem.cti:1621  C7H14 + H <=> C2H4 + PXC5H11 -/
  ⟨[36, 1], [20, 33], true, .elementary⟩,
  /- chem.cti:1624  C7H14 + H <=> C3H6 + pC4H9 -/
  ⟨[36, 1], [25, 30], true, .elementary⟩,
  /- chem.cti:1627  C2H4 + PXC5H11 <=> PXC7H15 -/
  ⟨[20, 33], [37], true, .elementary⟩,
  /- chem.cti:1630  C8H16 + H (+ M) <=> PXC8H17 (+ M) -/
  ⟨[38, 1], [39], true, (.falloff [(17, 2, 0), (16, 15, 1), (5, 2, 0), (6, 6, 0), (0, 7, 1), (12, 2, 0), (22, 3, 0)])⟩,
  /- chem.cti:1637  C8H16 + H <=> C2H4 + PXC6H13 -/
  ⟨[38, 1], [20, 35], true, .elementary⟩,
  /- chem.cti:1640  C8H16 + H <=> C3H6 + PXC5H11 -/
  ⟨[38, 1], [25, 33], true, .elementary⟩,
  /- chem.cti:1643  C2H4 + PXC6H13 <=> PXC8H17 -/
  ⟨[20, 35], [39], true, .elementary⟩,
  /- chem.cti:1646  C9H18 + H (+ M) <=> PXC9H19 (+ M) -/
  ⟨[40, 1], [41], true, (.falloff [(17, 2, 0), (16, 15, 1), (5, 2, 0), (6, 6, 0), (0, 7, 1), (12, 2, 0), (22, 3, 0)])⟩,
  /- chem.cti:1653  C9H18 + H <=> C2H4 + PXC7H15 -/
  ⟨[40, 1], [20, 37], true, .elementary⟩,
  /- chem.cti:1656  C9H18 + H <=> C3H6 + PXC6H13 -/
  ⟨[40, 1], [25, 35], true, .elementary⟩,
  /- chem.cti:1659  C2H4 + PXC7H15 <=> PXC9H19 -/
  ⟨[20, 37], [41], true, .elementary⟩,
  /- chem.cti:1662  C10H20 + H (+ M) <=> PXC10H21 (+ M) -/
  ⟨[42, 1], [43], true, (.falloff [(17, 2, 0), (16, 15, 1), (5, 2, 0), (6, 6, 0), (0, 7, 1), (12, 2, 0), (22, 3, 0)])⟩,
  /- chem.cti:1669  C10H20 + H <=> C2H4 + PXC8H17 -/
  ⟨[42, 1], [20, 39], true, .elementary⟩,
  /- chem.cti:1672  C10H20 + H <=> C3H6 + PXC7H15 -/
  ⟨[42, 1], [25, 37], true, .elementary⟩,
  /- chem.cti:1675  C2H4 + PXC8H17 <=> PXC10H21 -/
  ⟨[20, 39], [43], true, .elementary⟩,
  /- chem.cti:1678  C12H24 <=> PXC7H15 + C5H9 -/
  ⟨[48], [37, 31], true, .elementary⟩,
  /- chem.cti:1681  C2H4 + PXC10H21 <=> PXC12H25 -/
  ⟨[20, 43], [45], true, .elementary⟩,
  /- chem.cti:1684  PXC12H25 <=> S3XC12H25 -/
  ⟨[45], [47], true, .elementary⟩,
  /- chem.cti:1687  C3H6 + PXC9H19 <=> SXC12H25 -/
  ⟨[25, 41], [46], true, .elementary⟩,
  /- chem.cti:1690  C4H81 + PXC8H17 <=> SXC12H25 -/
  ⟨[29, 39], [46], true, .elementary⟩,
  /- chem.cti:1693  C5H10 + PXC7H15 <=> S3XC12H25 -/
  ⟨[32, 37], [47], true, .elementary⟩,
  /- chem.cti:1696  C10H20 + C2H5 <=> S3XC12H25 -/
  ⟨[42, 21], [47], true, .elementary⟩,
  /- chem.cti:1699  C6H12 + PXC6H13 <=> S3XC12H25 -/
  ⟨[34, 35], [47], true, .elementary⟩,
  /- chem.cti:1702  C9H18 + nC3H7 <=> S3XC12H25 -/
  ⟨[40, 26], [47], true, .elementary⟩,
  /- chem.cti:1705  C7H14 + PXC5H11 <=> S3XC12H25 -/
  ⟨[36, 33], [47], true, .elementary⟩,
  /- chem.cti:1708  C8H16 + pC4H9 <=> S3XC12H25 -/
  ⟨[38, 30], [47], true, .elementary⟩,
  /- chem.cti:1712  PXC10H21 + C2H5 <=> NC12H26 -/
  ⟨[43, 21], [44], true, .elementary⟩,
  /- chem.cti:1715  PXC9H19 + nC3H7 <=> NC12H26 -/
  ⟨[41, 26], [44], true, .elementary⟩,
  /- chem.cti:1718  PXC8H17 + pC4H9 <=> NC12H26 -/
  ⟨[39, 30], [44], true, .elementary⟩,
  /- chem.cti:1721  PXC7H15 + PXC5H11 <=> NC12H26 -/
  ⟨[37, 33], [44], true, .elementary⟩,
  /- chem.cti:1724  PXC6H13 + PXC6H13 <=> NC12H26 -/
  ⟨[35, 35], [44], true, .elementary⟩,
  /- chem.cti:1727  NC12H26 + H <=> PXC12H25 + H2 -/
  ⟨[44, 1], [45, 5], true, .elementary⟩,
  /- chem.cti:1730  NC12H26 + H <=> SXC12H25 + H2 -/
  ⟨[44, 1], [46, 5], true, .elementary⟩,
  /- chem.cti:1733  NC12H26 + H <=> S3XC12H25 + H2 -/
  ⟨[44, 1], [47, 5], true, .elementary⟩,
  /- chem.cti:1736  NC12H26 + O <=> PXC12H25 + OH -/
  ⟨[44, 2], [45, 3], true, .elementary⟩,
  /- chem.cti:1739  NC12H26 + O <=> SXC12H25 + OH -/
  ⟨[44, 2], [46, 3], true, .elementary⟩,
  /- chem.cti:1742  NC12H26 + O <=> S3XC12H25 + OH -/
  ⟨[44, 2], [47, 3], true, .elementary⟩,
  /- chem.cti:1745  NC12H26 + OH <=> PXC12H25 + H2O -/
  ⟨[44, 3], [45, 6], true, .elementary⟩,
  /- chem.cti:1748  NC12H26 + OH <=> SXC12H25 + H2O -/
  ⟨[44, 3], [46, 6], true, .elementary⟩,
  /- chem.cti:1751  NC12H26 + OH <=> S3XC12H25 + H2O -/
  ⟨[44, 3], [47, 6], true, .elementary⟩,
  /- chem.cti:1754  NC12H26 + O2 <=> PXC12H25 + HO2 -/
  ⟨[44, 8], [45, 4], true, .elementary⟩,
  /- chem.cti:1757  NC12H26 + O2 <=> SXC12H25 + HO2 -/
  ⟨[44, 8], [46, 4], true, .elementary⟩,
  /- chem.cti:1760  NC12H26 + O2 <=> S3XC12H25 + HO2 -/
  ⟨[44, 8], [47, 4], true, .elementary⟩,
  /- chem.cti:1763  NC12H26 + HO2 <=> PXC12H25 + H2O2 -/
  ⟨[44, 4], [45, 7], true, .elementary⟩,
  /- chem.cti:1766  NC12H26 + HO2 <=> SXC12H25 + H2O2 -/
  ⟨[44, 4], [46, 7], true, .elementary⟩,
  /- chem.cti:1769  NC12H26 + HO2 <=> S3XC12H25 + H2O2 -/
  ⟨[44, 4], [47, 7], true, .elementary⟩,
  /- chem.cti:1772  NC12H26 + CH3 <=> PXC12H25 + CH4 -/
  ⟨[44, 11], [45, 12], true, .elementary⟩,
  /- chem.cti:1775  NC12H26 + CH3 <=> SXC12H25 + CH4 -/
  ⟨[44, 11], [46, 12], true, .elementary⟩,
  /- chem.cti:1778  NC12H26 + CH3 <=> S3XC12H25 + CH4 -/
  ⟨[44, 11], [47, 12], true, .elementary⟩,
  /- chem.cti:1782  PXC12H25 + O2 => C12H25O2 -/
  ⟨[45, 8], [49], false, .elementary⟩,
  /- chem.cti:1785  C12H25O2 => PXC12H25 + O2 -/
  ⟨[49], [45, 8], false, .elementary⟩,
  /- chem.cti:1788  SXC12H25 + O2 => C12H25O2 -/
  ⟨[46, 8], [49], false, .elementary⟩,
  /- chem.cti:1791  C12H25O2 => SXC12H25 + O2 -/
  ⟨[49], [46, 8], false, .elementary⟩,
  /- chem.cti:1794  S3XC12H25 + O2 => C12H25O2 -/
  ⟨[47, 8], [49], false, .elementary⟩,
  /- chem.cti:1797  C12H25O2 => S3XC12H25 + O2 -/
  ⟨[49], [47, 8], false, .elementary⟩,
  /- chem.cti:1800  C12H25O2 => C12OOH -/
  ⟨[49], [50], false, .elementary⟩,
  /- chem.cti:1803  C12OOH => C12H25O2 -/
  ⟨[50], [49], false, .elementary⟩,
  /- chem.cti:1806  PXC12H25 + O2 => C12H24 + HO2 -/
  ⟨[45, 8], [48, 4], false, .elementary⟩,
  /- chem.cti:1809  C12H24 + HO2 => PXC12H25 + O2 -/
  ⟨[48, 4], [45, 8], false, .elementary⟩,
  /- chem.cti:1812  SXC12H25 + O2 => C12H24 + HO2 -/
  ⟨[46, 8], [48, 4], false, .elementary⟩,
  /- chem.cti:1815  C12H24 + HO2 => SXC12H25 + O2 -/
  ⟨[48, 4], [46, 8], false, .elementary⟩,
  /- chem.cti:1818  S3XC12H25 + O2 => C12H24 + HO2 -/
  ⟨[47, 8], [48, 4], false, .elementary⟩,
  /- chem.cti:1821  C12H24 + HO2 => S3XC12H25 + O2 -/
  ⟨[48, 4], [47, 8], false, .elementary⟩,
  /- chem.cti:1824  C12OOH + O2 => O2C12H24OOH -/
  ⟨[50, 8], [51], false, .elementary⟩,
  /- chem.cti:1827  O2C12H24OOH => C12OOH + O2 -/
  ⟨[51], [50, 8], false, .elementary⟩,
  /- chem.cti:1830  O2C12H24OOH <=> OC12H23OOH + OH -/
  ⟨[51], [52, 3], true, .elementary⟩,
  /- chem.cti:1833  OC12H23OOH => 3 C2H4 + C2H5 + 2 CH2CHO + OH -/
  ⟨[52], [20, 20, 20, 21, 23, 23, 3], false, .elementary⟩]

/-- utilities/mechanisms/yao/lib/src/mechanism.h -/
def nsp : Nat := 54

/-- utilities/mechanisms/yao/lib/src/mechanism.h -/
def nFwd : Nat := 269

/-- utilities/mechanisms/yao/lib/src/mechanism.h -/
def nRev : Nat := 250

/-- utilities/mechanisms/yao/lib/src/mechanism.h -/
def nPresMod : Nat := 31

end DLB.Mech.Yao
