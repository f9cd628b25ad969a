/- Generated by tools/gen_mechanisms.py from utilities/mechanisms/gri30/{chem.cti,lib/src/mechanism.h,foam/*}. Do not edit. -/
import Verif.Spec.Mechanism
set_option autoImplicit false

namespace DLB.Mech.Gri30
open DLB

/-- Species in the order of utilities/mechanisms/gri30/lib/src/mechanism.h -/
def names : List String := ["H2", "H", "O", "O2", "OH", "H2O", "HO2", "H2O2", "C", "CH", "CH2", "CH2(S)", "CH3", "CH4", "CO", "CO2", "HCO", "CH2O", "CH2OH", "CH3O", "CH3OH", "C2H", "C2H2", "C2H3", "C2H4", "C2H5", "C2H6", "HCCO", "CH2CO", "HCCOH", "N", "NH", "NH2", "NH3", "NNH", "NO", "NO2", "N2O", "HNO", "CN", "HCN", "H2CN", "HCNN", "HCNO", "HOCN", "HNCO", "NCO", "AR", "C3H7", "C3H8", "CH2CHO", "CH3CHO", "N2"]

/-- Species in the order of utilities/mechanisms/gri30/chem.cti:13 -/
def ctiNames : List String := ["H2", "H", "O", "O2", "OH", "H2O", "HO2", "H2O2", "C", "CH", "CH2", "CH2(S)", "CH3", "CH4", "CO", "CO2", "HCO", "CH2O", "CH2OH", "CH3O", "CH3OH", "C2H", "C2H2", "C2H3", "C2H4", "C2H5", "C2H6", "HCCO", "CH2CO", "HCCOH", "N", "NH", "NH2", "NH3", "NNH", "NO", "NO2", "N2O", "HNO", "CN", "HCN", "H2CN", "HCNN", "HCNO", "HOCN", "HNCO", "NCO", "N2", "AR", "C3H7", "C3H8", "CH2CHO", "CH3CHO"]

/-- Species in the order of utilities/mechanisms/gri30/foam/species.foam -/
def foamNames : List String := ["H2", "H", "O", "O2", "OH", "H2O", "HO2", "H2O2", "C", "CH", "CH2", "CH2(S)", "CH3", "CH4", "CO", "CO2", "HCO", "CH2O", "CH2OH", "CH3O", "CH3OH", "C2H", "C2H2", "C2H3", "C2H4", "C2H5", "C2H6", "HCCO", "CH2CO", "HCCOH", "N", "NH", "NH2", "NH3", "NNH", "NO", "NO2", "N2O", "HNO", "CN", "HCN", "H2CN", "HCNN", "HCNO", "HOCN", "HNCO", "NCO", "AR", "C3H7", "C3H8", "CH2CHO", "CH3CHO", "N2"]

/-- Elements, utilities/mechanisms/gri30/chem.cti -/
def elements : List String := ["O", "H", "C", "N", "Ar"]

/-- Number of atoms of each of the `elements` in each species (order of `names`),
utilities/mechanisms/gri30/chem.cti:29-862 -/
def atoms : List (List Nat) := [
  [0, 2, 0, 0, 0],
  [0, 1, 0, 0, 0],
  [1, 0, 0, 0, 0],
  [2, 0, 0, 0, 0],
  [1, 1, 0, 0, 0],
  [1, 2, 0, 0, 0],
  [2, 1, 0, 0, 0],
  [2, 2, 0, 0, 0],
  [0, 0, 1, 0, 0],
  [0, 1, 1, 0, 0],
  [0, 2, 1, 0, 0],
  [0, 2, 1, 0, 0],
  [0, 3, 1, 0, 0],
  [0, 4, 1, 0, 0],
  [1, 0, 1, 0, 0],
  [2, 0, 1, 0, 0],
  [1, 1, 1, 0, 0],
  [1, 2, 1, 0, 0],
  [1, 3, 1, 0, 0],
  [1, 3, 1, 0, 0],
  [1, 4, 1, 0, 0],
  [0, 1, 2, 0, 0],
  [0, 2, 2, 0, 0],
  [0, 3, 2, 0, 0],
  [0, 4, 2, 0, 0],
  [0, 5, 2, 0, 0],
  [0, 6, 2, 0, 0],
  [1, 1, 2, 0, 0],
  [1, 2, 2, 0, 0],
  [1, 2, 2, 0, 0],
  [0, 0, 0, 1, 0],
  [0, 1, 0, 1, 0],
  [0, 2, 0, 1, 0],
  [0, 3, 0, 1, 0],
  [0, 1, 0, 2, 0],
  [1, 0, 0, 1, 0],
  [2, 0, 0, 1, 0],
  [1, 0, 0, 2, 0],
  [1, 1, 0, 1, 0],
  [0, 0, 1, 1, 0],
  [0, 1, 1, 1, 0],
  [0, 2, 1, 1, 0],
  [0, 1, 1, 2, 0],
  [1, 1, 1, 1, 0],
  [1, 1, 1, 1, 0],
  [1, 1, 1, 1, 0],
  [1, 0, 1, 1, 0],
  [0, 0, 0, 0, 1],
  [0, 7, 3, 0, 0],
  [0, 8, 3, 0, 0],
  [1, 3, 2, 0, 0],
  [1, 4, 2, 0, 0],
  [0, 0, 0, 2, 0]]

/-- Number of atoms of each of the `elements` in each species (order of `names`),
utilities/mechanisms/gri30/foam/thermo.foam -/
def foamAtoms : List (List Nat) := [
  [0, 2, 0, 0, 0],
  [0, 1, 0, 0, 0],
  [1, 0, 0, 0, 0],
  [2, 0, 0, 0, 0],
  [1, 1, 0, 0, 0],
  [1, 2, 0, 0, 0],
  [2, 1, 0, 0, 0],
  [2, 2, 0, 0, 0],
  [0, 0, 1, 0, 0],
  [0, 1, 1, 0, 0],
  [0, 2, 1, 0, 0],
  [0, 2, 1, 0, 0],
  [0, 3, 1, 0, 0],
  [0, 4, 1, 0, 0],
  [1, 0, 1, 0, 0],
  [2, 0, 1, 0, 0],
  [1, 1, 1, 0, 0],
  [1, 2, 1, 0, 0],
  [1, 3, 1, 0, 0],
  [1, 3, 1, 0, 0],
  [1, 4, 1, 0, 0],
  [0, 1, 2, 0, 0],
  [0, 2, 2, 0, 0],
  [0, 3, 2, 0, 0],
  [0, 4, 2, 0, 0],
  [0, 5, 2, 0, 0],
  [0, 6, 2, 0, 0],
  [1, 1, 2, 0, 0],
  [1, 2, 2, 0, 0],
  [1, 2, 2, 0, 0],
  [0, 0, 0, 1, 0],
  [0, 1, 0, 1, 0],
  [0, 2, 0, 1, 0],
  [0, 3, 0, 1, 0],
  [0, 1, 0, 2, 0],
  [1, 0, 0, 1, 0],
  [2, 0, 0, 1, 0],
  [1, 0, 0, 2, 0],
  [1, 1, 0, 1, 0],
  [0, 0, 1, 1, 0],
  [0, 1, 1, 1, 0],
  [0, 2, 1, 1, 0],
  [0, 1, 1, 2, 0],
  [1, 1, 1, 1, 0],
  [1, 1, 1, 1, 0],
  [1, 1, 1, 1, 0],
  [1, 0, 1, 1, 0],
  [0, 0, 0, 0, 1],
  [0, 7, 3, 0, 0],
  [0, 8, 3, 0, 0],
  [1, 3, 2, 0, 0],
  [1, 4, 2, 0, 0],
  [0, 0, 0, 2, 0]]

/-- molWeight of each species (order of `names`) as mantissa and decimal exponent,
utilities/mechanisms/gri30/foam/thermo.foam -/
def foamWeights : List (Nat × Nat) := [
  (201588, 5), (100794, 5), (159994, 4), (319988, 4), (1700734, 5), (1801528, 5), (3300674, 5), (3401468, 5), (12011, 3), (13018939999999999, 15), (14026879999999998, 15), (14026879999999998, 15), (1503482, 5), (1604276, 5), (28010399999999997, 15), (440098, 4), (2901834, 5), (3002628, 5), (31034219999999998, 15), (31034219999999998, 15), (32042159999999996, 15), (2502994, 5), (26037879999999998, 15), (2704582, 5), (28053759999999997, 15), (290617, 4), (3006964, 5), (4102934, 5), (42037279999999996, 15), (42037279999999996, 15), (1400674, 5), (1501468, 5), (1602262, 5), (1703056, 5), (29021420000000003, 15), (30006140000000002, 15), (46005539999999996, 15), (4401288, 5), (3101408, 5), (2601774, 5), (2702568, 5), (2803362, 5), (4103242, 5), (4302508, 5), (4302508, 5), (4302508, 5), (4201714, 5), (39948, 3), (4308858, 5), (4409652, 5), (4304522, 5), (4405316, 5), (2801348, 5)]

/-- The reactions, utilities/mechanisms/gri30/chem.cti:883-1986 -/
def reactions : List Reaction := [
  /- chem.cti:883  2 O + M <=> O2 + M -/
  ⟨[2, 2], [3], true, (.thirdBody [(47, 83, 2), (26, 3, 0), (13, 2, 0), (14, 175, 2), (15, 36, 1), (0, 24, 1), (5, 154, 1)])⟩,
  /- chem.cti:887  O + H + M <=> OH + M -/
  ⟨[2, 1], [4], true, (.thirdBody [(47, 7, 1), (26, 3, 0), (13, 2, 0), (14, 15, 1), (15, 2, 0), (0, 2, 0), (5, 6, 0)])⟩,
  /- chem.cti:891  O + H2 <=> H + OH -/
  ⟨[2, 0], [1, 4], true, .elementary⟩,
  /- chem.cti:894  O + HO2 <=> OH + O2 -/
  ⟨[2, 6], [4, 3], true, .elementary⟩,
  /- chem.cti:897  O + H2O2 <=> OH + HO2 -/
  ⟨[2, 7], [4, 6], true, .elementary⟩,
  /- chem.cti:900  O + CH <=> H + CO -/
  ⟨[2, 9], [1, 14], true, .elementary⟩,
  /- chem.cti:903  O + CH2 <=> H + HCO -/
  ⟨[2, 10], [1, 16], true, .elementary⟩,
  /- chem.cti:906  O + CH2(S) <=> H2 + CO -/
  ⟨[2, 11], [0, 14], true, .elementary⟩,
  /- chem.cti:909  O + CH2(S) <=> H + HCO -/
  ⟨[2, 11], [1, 16], true, .elementary⟩,
  /- chem.cti:912  O + CH3 <=> H + CH2O -/
  ⟨[2, 12], [1, 17], true, .elementary⟩,
  /- chem.cti:915  O + CH4 <=> OH + CH3 -/
  ⟨[2, 13], [4, 12], true, .elementary⟩,
  /- chem.cti:918  O + CO (+ M) <=> CO2 (+ M) -/
  ⟨[2, 14], [15], true, (.falloff [(47, 5, 1), (26, 3, 0), (13, 2, 0), (14, 15, 1), (15, 35, 1), (0, 2, 0), (5, 6, 0), (3, 6, 0)])⟩,
  /- chem.cti:924  O + HCO <=> OH + CO -/
  ⟨[2, 16], [4, 14], true, .elementary⟩,
  /- chem.cti:927  O + HCO <=> H + CO2 -/
  ⟨[2, 16], [1, 15], true, .elementary⟩,
  /- chem.cti:930  O + CH2O <=> OH + HCO -/
  ⟨[2, 17], [4, 16], true, .elementary⟩,
  /- chem.cti:933  O + CH2OH <=> OH + CH2O -/
  ⟨[2, 18], [4, 17], true, .elementary⟩,
  /- chem.cti:936  O + CH3O <=> OH + CH2O -/
  ⟨[2, 19], [4, 17], true, .elementary⟩,
  /- chem.cti:939  O + CH3OH <=> OH + CH2OH -/
  ⟨[2, 20], [4, 18], true, .elementary⟩,
  /- chem.cti:942  O + CH3OH <=> OH + CH3O -/
  ⟨[2, 20], [4, 19], true, .elementary⟩,
  /- chem.cti:945  O + C2H <=> CH + CO -/
  ⟨[2, 21], [9, 14], true, .elementary⟩,
  /- chem.cti:948  O + C2H2 <=> H + HCCO -/
  ⟨[2, 22], [1, 27], true, .elementary⟩,
  /- chem.cti:951  O + C2H2 <=> OH + C2H -/
  ⟨[2, 22], [4, 21], true, .elementary⟩,
  /- chem.cti:954  O + C2H2 <=> CO + CH2 -/
  ⟨[2, 22], [14, 10], true, .elementary⟩,
  /- chem.cti:957  O + C2H3 <=> H + CH2CO -/
  ⟨[2, 23], [1, 28], true, .elementary⟩,
  /- chem.cti:960  O + C2H4 <=> CH3 + HCO -/
  ⟨[2, 24], [12, 16], true, .elementary⟩,
  /- chem.cti:963  O + C2H5 <=> CH3 + CH2O -/
  ⟨[2, 25], [12, 17], true, .elementary⟩,
  /- chem.cti:966  O + C2H6 <=> OH + C2H5 -/
  ⟨[2, 26], [4, 25], true, .elementary⟩,
  /- chem.cti:969  O + HCCO <=> H + 2 CO -/
  ⟨[2, 27], [1, 14, 14], true, .elementary⟩,
  /- chem.cti:972  O + CH2CO <=> OH + HCCO -/
  ⟨[2, 28], [4, 27], true, .elementary⟩,
  /- chem.cti:975  O + CH2CO <=> CH2 + CO2 -/
  ⟨[2, 28], [10, 15], true, .elementary⟩,
  /- chem.cti:978  O2 + CO <=> O + CO2 -/
  ⟨[3, 14], [2, 15], true, .elementary⟩,
  /- chem.cti:981  O2 + CH2O <=> HO2 + HCO -/
  ⟨[3, 17], [6, 16], true, .elementary⟩,
  /- chem.cti:984  H + O2 + M <=> HO2 + M -/
  ⟨[1, 3], [6], true, (.thirdBody [(47, 0, 0), (26, 15, 1), (14, 75, 2), (15, 15, 1), (5, 0, 0), (52, 0, 0), (3, 0, 0)])⟩,
  /- chem.cti:988  H + 2 O2 <=> HO2 + O2 -/
  ⟨[1, 3, 3], [6, 3], true, .elementary⟩,
  /- chem.cti:991  H + O2 + H2O <=> HO2 + H2O -/
  ⟨[1, 3, 5], [6, 5], true, .elementary⟩,
  /- chem.cti:994  H + O2 + N2 <=> HO2 + N2 -/
  ⟨[1, 3, 52], [6, 52], true, .elementary⟩,
  /- chem.cti:997  H + O2 + AR <=> HO2 + AR -/
  ⟨[1, 3, 47], [6, 47], true, .elementary⟩,
  /- chem.cti:1000  H + O2 <=> O + OH -/
  ⟨[1, 3], [2, 4], true, .elementary⟩,
  /- chem.cti:1003  2 H + M <=> H2 + M -/
  ⟨[1, 1], [0], true, (.thirdBody [(47, 63, 2), (26, 3, 0), (13, 2, 0), (15, 0, 0), (0, 0, 0), (5, 0, 0)])⟩,
  /- chem.cti:1007  2 H + H2 <=> 2 H2 -/
  ⟨[1, 1, 0], [0, 0], true, .elementary⟩,
  /- chem.cti:1010  2 H + H2O <=> H2 + H2O -/
  ⟨[1, 1, 5], [0, 5], true, .elementary⟩,
  /- chem.cti:1013  2 H + CO2 <=> H2 + CO2 -/
  ⟨[1, 1, 15], [0, 15], true, .elementary⟩,
  /- chem.cti:1016  H + OH + M <=> H2O + M -/
  ⟨[1, 4], [5], true, (.thirdBody [(47, 38, 2), (26, 3, 0), (13, 2, 0), (0, 73, 2), (5, 365, 2)])⟩,
  /- chem.cti:1020  H + HO2 <=> O + H2O -/
  ⟨[1, 6], [2, 5], true, .elementary⟩,
  /- chem.cti:1023  H + HO2 <=> O2 + H2 -/
  ⟨[1, 6], [3, 0], true, .elementary⟩,
  /- chem.cti:1026  H + HO2 <=> 2 OH -/
  ⟨[1, 6], [4, 4], true, .elementary⟩,
  /- chem.cti:1029  H + H2O2 <=> HO2 + H2 -/
  ⟨[1, 7], [6, 0], true, .elementary⟩,
  /- chem.cti:1032  H + H2O2 <=> OH + H2O -/
  ⟨[1, 7], [4, 5], true, .elementary⟩,
  /- chem.cti:1035  H + CH <=> C + H2 -/
  ⟨[1, 9], [8, 0], true, .elementary⟩,
  /- chem.cti:1038  H + CH2 (+ M) <=> CH3 (+ M) -/
  ⟨[1, 10], [12], true, (.falloff [(47, 7, 1), (26, 3, 0), (13, 2, 0), (14, 15, 1), (15, 2, 0), (0, 2, 0), (5, 6, 0)])⟩,
  /- chem.cti:1045  H + CH2(S) <=> CH + H2 -/
  ⟨[1, 11], [9, 0], true, .elementary⟩,
  /- chem.cti:1048  H + CH3 (+ M) <=> CH4 (+ M) -/
  ⟨[1, 12], [13], true, (.falloff [(47, 7, 1), (26, 3, 0), (13, 3, 0), (14, 15, 1), (15, 2, 0), (0, 2, 0), (5, 6, 0)])⟩,
  /- chem.cti:1055  H + CH4 <=> CH3 + H2 -/
  ⟨[1, 13], [12, 0], true, .elementary⟩,
  /- chem.cti:1058  H + HCO (+ M) <=> CH2O (+ M) -/
  ⟨[1, 16], [17], true, (.falloff [(47, 7, 1), (26, 3, 0), (13, 2, 0), (14, 15, 1), (15, 2, 0), (0, 2, 0), (5, 6, 0)])⟩,
  /- chem.cti:1065  H + HCO <=> H2 + CO -/
  ⟨[1, 16], [0, 14], true, .elementary⟩,
  /- chem.cti:1068  H + CH2O (+ M) <=> CH2OH (+ M) -/
  ⟨[1, 17], [18], true, (.falloff [(26, 3, 0), (13, 2, 0), (14, 15, 1), (15, 2, 0), (0, 2, 0), (5, 6, 0)])⟩,
  /- chem.cti:1075  H + CH2O (+ M) <=> CH3O (+ M) -/
  ⟨[1, 17], [19], true, (.falloff [(26, 3, 0), (13, 2, 0), (14, 15, 1), (15, 2, 0), (0, 2, 0), (5, 6, 0)])⟩,
  /- chem.cti:1082  H + CH2O <=> HCO + H2 -/
  ⟨[1, 17], [16, 0], true, .elementary⟩,
  /- chem.cti:1085  H + CH2OH (+ M) <=> CH3OH (+ M) -/
  ⟨[1, 18], [20], true, (.falloff [(26, 3, 0), (13, 2, 0), (14, 15, 1), (15, 2, 0), (0, 2, 0), (5, 6, 0)])⟩,
  /- chem.cti:1092  H + CH2OH <=> H2 + CH2O -/
  ⟨[1, 18], [0, 17], true, .elementary⟩,
  /- chem.cti:1095  H + CH2OH <=> OH + CH3 -/
  ⟨[1, 18], [4, 12], true, .elementary⟩,
  /- chem.cti:1098  H + CH2OH <=> CH2(S) + H2O -/
  ⟨[1, 18], [11, 5], true, .elementary⟩,
  /- chem.cti:1101  H + CH3O (+ M) <=> CH3OH (+ M) -/
  ⟨[1, 19], [20], true, (.falloff [(26, 3, 0), (13, 2, 0), (14, 15, 1), (15, 2, 0), (0, 2, 0), (5, 6, 0)])⟩,
  /- chem.cti:1108  H + CH3O <=> H + CH2OH -/
  ⟨[1, 19], [1, 18], true, .elementary⟩,
  /- chem.cti:1111  H + CH3O <=> H2 + CH2O -/
  ⟨[1, 19], [0, 17], true, .elementary⟩,
  /- chem.cti:1114  H + CH3O <=> OH + CH3 -/
  ⟨[1, 19], [4, 12], true, .elementary⟩,
  /- chem.cti:1117  H + CH3O <=> CH2(S) + H2O -/
  ⟨[1, 19], [11, 5], true, .elementary⟩,
  /- chem.cti:1120  H + CH3OH <=> CH2OH + H2 -/
  ⟨[1, 20], [18, 0], true, .elementary⟩,
  /- chem.cti:1123  H + CH3OH <=> CH3O + H2 -/
  ⟨[1, 20], [19, 0], true, .elementary⟩,
  /- chem.cti:1126  H + C2H (+ M) <=> C2H2 (+ M) -/
  ⟨[1, 21], [22], true, (.falloff [(47, 7, 1), (26, 3, 0), (13, 2, 0), (14, 15, 1), (15, 2, 0), (0, 2, 0), (5, 6, 0)])⟩,
  /- chem.cti:1133  H + C2H2 (+ M) <=> C2H3 (+ M) -/
  ⟨[1, 22], [23], true, (.falloff [(47, 7, 1), (26, 3, 0), (13, 2, 0), (14, 15, 1), (15, 2, 0), (0, 2, 0), (5, 6, 0)])⟩,
  /- chem.cti:1140  H + C2H3 (+ M) <=> C2H4 (+ M) -/
  ⟨[1, 23], [24], true, (.falloff [(47, 7, 1), (26, 3, 0), (13, 2, 0), (14, 15, 1), (15, 2, 0), (0, 2, 0), (5, 6, 0)])⟩,
  /- chem.cti:1147  H + C2H3 <=> H2 + C2H2 -/
  ⟨[1, 23], [0, 22], true, .elementary⟩,
  /- chem.cti:1150  H + C2H4 (+ M) <=> C2H5 (+ M) -/
  ⟨[1, 24], [25], true, (.falloff [(47, 7, 1), (26, 3, 0), (13, 2, 0), (14, 15, 1), (15, 2, 0), (0, 2, 0), (5, 6, 0)])⟩,
  /- chem.cti:1157  H + C2H4 <=> C2H3 + H2 -/
  ⟨[1, 24], [23, 0], true, .elementary⟩,
  /- chem.cti:1160  H + C2H5 (+ M) <=> C2H6 (+ M) -/
  ⟨[1, 25], [26], true, (.falloff [(47, 7, 1), (26, 3, 0), (13, 2, 0), (14, 15, 1), (15, 2, 0), (0, 2, 0), (5, 6, 0)])⟩,
  /- chem.cti:1167  H + C2H5 <=> H2 + C2H4 -/
  ⟨[1, 25], [0, 24], true, .elementary⟩,
  /- chem.cti:1170  H + C2H6 <=> C2H5 + H2 -/
  ⟨[1, 26], [25, 0], true, .elementary⟩,
  /- chem.cti:1173  H + HCCO <=> CH2(S) + CO -/
  ⟨[1, 27], [11, 14], true, .elementary⟩,
  /- chem.cti:1176  H + CH2CO <=> HCCO + H2 -/
  ⟨[1, 28], [27, 0], true, .elementary⟩,
  /- chem.cti:1179  H + CH2CO <=> CH3 + CO -/
  ⟨[1, 28], [12, 14], true, .elementary⟩,
  /- chem.cti:1182  H + HCCOH <=> H + CH2CO -/
  ⟨[1, 29], [1, 28], true, .elementary⟩,
  /- chem.cti:1185  H2 + CO (+ M) <=> CH2O (+ M) -/
  ⟨[0, 14], [17], true, (.falloff [(47, 7, 1), (26, 3, 0), (13, 2, 0), (14, 15, 1), (15, 2, 0), (0, 2, 0), (5, 6, 0)])⟩,
  /- chem.cti:1192  OH + H2 <=> H + H2O -/
  ⟨[4, 0], [1, 5], true, .elementary⟩,
  /- chem.cti:1195  2 OH (+ M) <=> H2O2 (+ M) -/
  ⟨[4, 4], [7], true, (.falloff [(47, 7, 1), (26, 3, 0), (13, 2, 0), (14, 15, 1), (15, 2, 0), (0, 2, 0), (5, 6, 0)])⟩,
  /- chem.cti:1202  2 OH <=> O + H2O -/
  ⟨[4, 4], [2, 5], true, .elementary⟩,
  /- chem.cti:1205  OH + HO2 <=> O2 + H2O -/
  ⟨[4, 6], [3, 5], true, .elementary⟩,
  /- chem.cti:1209  OH + H2O2 <=> HO2 + H2O -/
  ⟨[4, 7], [6, 5], true, .elementary⟩,
  /- chem.cti:1213  OH + H2O2 <=> HO2 + H2O -/
  ⟨[4, 7], [6, 5], true, .elementary⟩,
  /- chem.cti:1217  OH + C <=> H + CO -/
  ⟨[4, 8], [1, 14], true, .elementary⟩,
  /- chem.cti:1220  OH + CH <=> H + HCO -/
  ⟨[4, 9], [1, 16], true, .elementary⟩,
  /- chem.cti:1223  OH + CH2 <=> H + CH2O -/
  ⟨[4, 10], [1, 17], true, .elementary⟩,
  /- chem.cti:1226  OH + CH2 <=> CH + H2O -/
  ⟨[4, 10], [9, 5], true, .elementary⟩,
  /- chem.cti:1229  OH + CH2(S) <=> H + CH2O -/
  ⟨[4, 11], [1, 17], true, .elementary⟩,
  /- chem.cti:1232  OH + CH3 (+ M) <=> CH3OH (+ M) -/
  ⟨[4, 12], [20], true, (.falloff [(26, 3, 0), (13, 2, 0), (14, 15, 1), (15, 2, 0), (0, 2, 0), (5, 6, 0)])⟩,
  /- chem.cti:1239  OH + CH3 <=> CH2 + H2O -/
  ⟨[4, 12], [10, 5], true, .elementary⟩,
  /- chem.cti:1242  OH + CH3 <=> CH2(S) + H2O -/
  ⟨[4, 12], [11, 5], true, .elementary⟩,
  /- chem.cti:1245  OH + CH4 <=> CH3 + H2O -/
  ⟨[4, 13], [12, 5], true, .elementary⟩,
  /- chem.cti:1248  OH + CO <=> H + CO2 -/
  ⟨[4, 14], [1, 15], true, .elementary⟩,
  /- chem.cti:1251  OH + HCO <=> H2O + CO -/
  ⟨[4, 16], [5, 14], true, .elementary⟩,
  /- chem.cti:1254  OH + CH2O <=> HCO + H2O -/
  ⟨[4, 17], [16, 5], true, .elementary⟩,
  /- chem.cti:1257  OH + CH2OH <=> H2O + CH2O -/
  ⟨[4, 18], [5, 17], true, .elementary⟩,
  /- chem.cti:1260  OH + CH3O <=> H2O + CH2O -/
  ⟨[4, 19], [5, 17], true, .elementary⟩,
  /- chem.cti:1263  OH + CH3OH <=> CH2OH + H2O -/
  ⟨[4, 20], [18, 5], true, .elementary⟩,
  /- chem.cti:1266  OH + CH3OH <=> CH3O + H2O -/
  ⟨[4, 20], [19, 5], true, .elementary⟩,
  /- chem.cti:1269  OH + C2H <=> H + HCCO -/
  ⟨[4, 21], [1, 27], true, .elementary⟩,
  /- chem.cti:1272  OH + C2H2 <=> H + CH2CO -/
  ⟨[4, 22], [1, 28], true, .elementary⟩,
  /- chem.cti:1275  OH + C2H2 <=> H + HCCOH -/
  ⟨[4, 22], [1, 29], true, .elementary⟩,
  /- chem.cti:1278  OH + C2H2 <=> C2H + H2O -/
  ⟨[4, 22], [21, 5], true, .elementary⟩,
  /- chem.cti:1281  OH + C2H2 <=> CH3 + CO -/
  ⟨[4, 22], [12, 14], true, .elementary⟩,
  /- chem.cti:1284  OH + C2H3 <=> H2O + C2H2 -/
  ⟨[4, 23], [5, 22], true, .elementary⟩,
  /- chem.cti:1287  OH + C2H4 <=> C2H3 + H2O -/
  ⟨[4, 24], [23, 5], true, .elementary⟩,
  /- chem.cti:1290  OH + C2H6 <=> C2H5 + H2O -/
  ⟨[4, 26], [25, 5], true, .elementary⟩,
  /- chem.cti:1293  OH + CH2CO <=> HCCO + H2O -/
  ⟨[4, 28], [27, 5], true, .elementary⟩,
  /- chem.cti:1296  2 HO2 <=> O2 + H2O2 -/
  ⟨[6, 6], [3, 7], true, .elementary⟩,
  /- chem.cti:1300  2 HO2 <=> O2 + H2O2 -/
  ⟨[6, 6], [3, 7], true, .elementary⟩,
  /- chem.cti:1304  HO2 + CH2 <=> OH + CH2O -/
  ⟨[6, 10], [4, 17], true, .elementary⟩,
  /- chem.cti:1307  HO2 + CH3 <=> O2 + CH4 -/
  ⟨[6, 12], [3, 13], true, .elementary⟩,
  /- chem.cti:1310  HO2 + CH3 <=> OH + CH3O -/
  ⟨[6, 12], [4, 19], true, .elementary⟩,
  /- chem.cti:1313  HO2 + CO <=> OH + CO2 -/
  ⟨[6, 14], [4, 15], true, .elementary⟩,
  /- chem.cti:1316  HO2 + CH2O <=> HCO + H2O2 -/
  ⟨[6, 17], [16, 7], true, .elementary⟩,
  /- chem.cti:1319  C + O2 <=> O + CO -/
  ⟨[8, 3], [2, 14], true, .elementary⟩,
  /- chem.cti:1322  C + CH2 <=> H + C2H -/
  ⟨[8, 10], [1, 21], true, .elementary⟩,
  /- chem.cti:1325  C + CH3 <=> H + C2H2 -/
  ⟨[8, 12], [1, 22], true, .elementary⟩,
  /- chem.cti:1328  CH + O2 <=> O + HCO -/
  ⟨[9, 3], [2, 16], true, .elementary⟩,
  /- chem.cti:1331  CH + H2 <=> H + CH2 -/
  ⟨[9, 0], [1, 10], true, .elementary⟩,
  /- chem.cti:1334  CH + H2O <=> H + CH2O -/
  ⟨[9, 5], [1, 17], true, .elementary⟩,
  /- chem.cti:1337  CH + CH2 <=> H + C2H2 -/
  ⟨[9, 10], [1, 22], true, .elementary⟩,
  /- chem.cti:1340  CH + CH3 <=> H + C2H3 -/
  ⟨[9, 12], [1, 23], true, .elementary⟩,
  /- chem.cti:1343  CH + CH4 <=> H + C2H4 -/
  ⟨[9, 13], [1, 24], true, .elementary⟩,
  /- chem.cti:1346  CH + CO (+ M) <=> HCCO (+ M) -/
  ⟨[9, 14], [27], true, (.falloff [(47, 7, 1), (26, 3, 0), (13, 2, 0), (14, 15, 1), (15, 2, 0), (0, 2, 0), (5, 6, 0)])⟩,
  /- chem.cti:1353  CH + CO2 <=> HCO + CO -/
  ⟨[9, 15], [16, 14], true, .elementary⟩,
  /- chem.cti:1356  CH + CH2O <=> H + CH2CO -/
  ⟨[9, 17], [1, 28], true, .elementary⟩,
  /- chem.cti:1359  CH + HCCO <=> CO + C2H2 -/
  ⟨[9, 27], [14, 22], true, .elementary⟩,
  /- chem.cti:1362  CH2 + O2 => OH + H + CO -/
  ⟨[10, 3], [4, 1, 14], false, .elementary⟩,
  /- chem.cti:1365  CH2 + H2 <=> H + CH3 -/
  ⟨[10, 0], [1, 12], true, .elementary⟩,
  /- chem.cti:1368  2 CH2 <=> H2 + C2H2 -/
  ⟨[10, 10], [0, 22], true, .elementary⟩,
  /- chem.cti:1371  CH2 + CH3 <=> H + C2H4 -/
  ⟨[10, 12], [1, 24], true, .elementary⟩,
  /- chem.cti:1374  CH2 + CH4 <=> 2 CH3 -/
  ⟨[10, 13], [12, 12], true, .elementary⟩,
  /- chem.cti:1377  CH2 + CO (+ M) <=> CH2CO (+ M) -/
  ⟨[10, 14], [28], true, (.falloff [(47, 7, 1), (26, 3, 0), (13, 2, 0), (14, 15, 1), (15, 2, 0), (0, 2, 0), (5, 6, 0)])⟩,
  /- chem.cti:1384  CH2 + HCCO <=> C2H3 + CO -/
  ⟨[10, 27], [23, 14], true, .elementary⟩,
  /- chem.cti:1387  CH2(S) + N2 <=> CH2 + N2 -/
  ⟨[11, 52], [10, 52], true, .elementary⟩,
  /- chem.cti:1390  CH2(S) + AR <=> CH2 + AR -/
  ⟨[11, 47], [10, 47], true, .elementary⟩,
  /- chem.cti:1393  CH2(S) + O2 <=> H + OH + CO -/
  ⟨[11, 3], [1, 4, 14], true, .elementary⟩,
  /- chem.cti:1396  CH2(S) + O2 <=> CO + H2O -/
  ⟨[11, 3], [14, 5], true, .elementary⟩,
  /- chem.cti:1399  CH2(S) + H2 <=> CH3 + H -/
  ⟨[11, 0], [12, 1], true, .elementary⟩,
  /- chem.cti:1402  CH2(S) + H2O (+ M) <=> CH3OH (+ M) -/
  ⟨[11, 5], [20], true, (.falloff [(26, 3, 0), (13, 2, 0), (14, 15, 1), (15, 2, 0), (0, 2, 0), (5, 6, 0)])⟩,
  /- chem.cti:1409  CH2(S) + H2O <=> CH2 + H2O -/
  ⟨[11, 5], [10, 5], true, .elementary⟩,
  /- chem.cti:1412  CH2(S) + CH3 <=> H + C2H4 -/
  ⟨[11, 12], [1, 24], true, .elementary⟩,
  /- chem.cti:1415  CH2(S) + CH4 <=> 2 CH3 -/
  ⟨[11, 13], [12, 12], true, .elementary⟩,
  /- chem.cti:1418  CH2(S) + CO <=> CH2 + CO -/
  ⟨[11, 14], [10, 14], true, .elementary⟩,
  /- chem.cti:1421  CH2(S) + CO2 <=> CH2 + CO2 -/
  ⟨[11, 15], [10, 15], true, .elementary⟩,
  /- chem.cti:1424  CH2(S) + CO2 <=> CO + CH2O -/
  ⟨[11, 15], [14, 17], true, .elementary⟩,
  /- chem.cti:1427  CH2(S) + C2H6 <=> CH3 + C2H5 -/
  ⟨[11, 26], [12, 25], true, .elementary⟩,
  /- chem.cti:1430  CH3 + O2 <=> O + CH3O -/
  ⟨[12, 3], [2, 19], true, .elementary⟩,
  /- chem.cti:1433  CH3 + O2 <=> OH + CH2O -/
  ⟨[12, 3], [4, 17], true, .elementary⟩,
  /- chem.cti:1436  CH3 + H2O2 <=> HO2 + CH4 -/
  ⟨[12, 7], [6, 13], true, .elementary⟩,
  /- chem.cti:1439  2 CH3 (+ M) <=> C2H6 (+ M) -/
  ⟨[12, 12], [26], true, (.falloff [(47, 7, 1), (26, 3, 0), (13, 2, 0), (14, 15, 1), (15, 2, 0), (0, 2, 0), (5, 6, 0)])⟩,
  /- chem.cti:1446  2 CH3 <=> H + C2H5 -/
  ⟨[12, 12], [1, 25], true, .elementary⟩,
  /- chem.cti:1449  CH3 + HCO <=> CH4 + CO -/
  ⟨[12, 16], [13, 14], true, .elementary⟩,
  /- chem.cti:1452  CH3 + CH2O <=> HCO + CH4 -/
  ⟨[12, 17], [16, 13], true, .elementary⟩,
  /- chem.cti:1455  CH3 + CH3OH <=> CH2OH + CH4 -/
  ⟨[12, 20], [18, 13], true, .elementary⟩,
  /- chem.cti:1458  CH3 + CH3OH <=> CH3O + CH4 -/
  ⟨[12, 20], [19, 13], true, .elementary⟩,
  /- chem.cti:1461  CH3 + C2H4 <=> C2H3 + CH4 -/
  ⟨[12, 24], [23, 13], true, .elementary⟩,
  /- chem.cti:1464  CH3 + C2H6 <=> C2H5 + CH4 -/
  ⟨[12, 26], [25, 13], true, .elementary⟩,
  /- chem.cti:1467  HCO + H2O <=> H + CO + H2O -/
  ⟨[16, 5], [1, 14, 5], true, .elementary⟩,
  /- chem.cti:1470  HCO + M <=> H + CO + M -/
  ⟨[16], [1, 14], true, (.thirdBody [(26, 3, 0), (13, 2, 0), (14, 15, 1), (15, 2, 0), (0, 2, 0), (5, 0, 0)])⟩,
  /- chem.cti:1474  HCO + O2 <=> HO2 + CO -/
  ⟨[16, 3], [6, 14], true, .elementary⟩,
  /- chem.cti:1477  CH2OH + O2 <=> HO2 + CH2O -/
  ⟨[18, 3], [6, 17], true, .elementary⟩,
  /- chem.cti:1480  CH3O + O2 <=> HO2 + CH2O -/
  ⟨[19, 3], [6, 17], true, .elementary⟩,
  /- chem.cti:1483  C2H + O2 <=> HCO + CO -/
  ⟨[21, 3], [16, 14], true, .elementary⟩,
  /- chem.cti:1486  C2H + H2 <=> H + C2H2 -/
  ⟨[21, 0], [1, 22], true, .elementary⟩,
  /- chem.cti:1489  C2H3 + O2 <=> HCO + CH2O -/
  ⟨[23, 3], [16, 17], true, .elementary⟩,
  /- chem.cti:1492  C2H4 (+ M) <=> H2 + C2H2 (+ M) -/
  ⟨[24], [0, 22], true, (.falloff [(47, 7, 1), (26, 3, 0), (13, 2, 0), (14, 15, 1), (15, 2, 0), (0, 2, 0), (5, 6, 0)])⟩,
  /- chem.cti:1499  C2H5 + O2 <=> HO2 + C2H4 -/
  ⟨[25, 3], [6, 24], true, .elementary⟩,
  /- chem.cti:1502  HCCO + O2 <=> OH + 2 CO -/
  ⟨[27, 3], [4, 14, 14], true, .elementary⟩,
  /- chem.cti:1505  2 HCCO <=> 2 CO + C2H2 -/
  ⟨[27, 27], [14, 14, 22], true, .elementary⟩,
  /- chem.cti:1508  N + NO <=> N2 + O -/
  ⟨[30, 35], [52, 2], true, .elementary⟩,
  /- chem.cti:1511  N + O2 <=> NO + O -/
  ⟨[30, 3], [35, 2], true, .elementary⟩,
  /- chem.cti:1514  N + OH <=> NO + H -/
  ⟨[30, 4], [35, 1], true, .elementary⟩,
  /- chem.cti:1517  N2O + O <=> N2 + O2 -/
  ⟨[37, 2], [52, 3], true, .elementary⟩,
  /- chem.cti:1520  N2O + O <=> 2 NO -/
  ⟨[37, 2], [35, 35], true, .elementary⟩,
  /- chem.cti:1523  N2O + H <=> N2 + OH -/
  ⟨[37, 1], [52, 4], true, .elementary⟩,
  /- chem.cti:1526  N2O + OH <=> N2 + HO2 -/
  ⟨[37, 4], [52, 6], true, .elementary⟩,
  /- chem.cti:1529  N2O (+ M) <=> N2 + O (+ M) -/
  ⟨[37], [52, 2], true, (.falloff [(47, 625, 3), (26, 3, 0), (13, 2, 0), (14, 15, 1), (15, 2, 0), (0, 2, 0), (5, 6, 0)])⟩,
  /- chem.cti:1535  HO2 + NO <=> NO2 + OH -/
  ⟨[6, 35], [36, 4], true, .elementary⟩,
  /- chem.cti:1538  NO + O + M <=> NO2 + M -/
  ⟨[35, 2], [36], true, (.thirdBody [(47, 7, 1), (26, 3, 0), (13, 2, 0), (14, 15, 1), (15, 2, 0), (0, 2, 0), (5, 6, 0)])⟩,
  /- chem.cti:1542  NO2 + O <=> NO + O2 -/
  ⟨[36, 2], [35, 3], true, .elementary⟩,
  /- chem.cti:1545  NO2 + H <=> NO + OH -/
  ⟨[36, 1], [35, 4], true, .elementary⟩,
  /- chem.cti:1548  NH + O <=> NO + H -/
  ⟨[31, 2], [35, 1], true, .elementary⟩,
  /- chem.cti:1551  NH + H <=> N + H2 -/
  ⟨[31, 1], [30, 0], true, .elementary⟩,
  /- chem.cti:1554  NH + OH <=> HNO + H -/
  ⟨[31, 4], [38, 1], true, .elementary⟩,
  /- chem.cti:1557  NH + OH <=> N + H2O -/
  ⟨[31, 4], [30, 5], true, .elementary⟩,
  /- chem.cti:1560  NH + O2 <=> HNO + O -/
  ⟨[31, 3], [38, 2], true, .elementary⟩,
  /- chem.cti:1563  NH + O2 <=> NO + OH -/
  ⟨[31, 3], [35, 4], true, .elementary⟩,
  /- chem.cti:1566  NH + N <=> N2 + H -/
  ⟨[31, 30], [52, 1], true, .elementary⟩,
  /- chem.cti:1569  NH + H2O <=> HNO + H2 -/
  ⟨[31, 5], [38, 0], true, .elementary⟩,
  /- chem.cti:1572  NH + NO <=> N2 + OH -/
  ⟨[31, 35], [52, 4], true, .elementary⟩,
  /- chem.cti:1575  NH + NO <=> N2O + H -/
  ⟨[31, 35], [37, 1], true, .elementary⟩,
  /- chem.cti:1578  NH2 + O <=> OH + NH -/
  ⟨[32, 2], [4, 31], true, .elementary⟩,
  /- chem.cti:1581  NH2 + O <=> H + HNO -/
  ⟨[32, 2], [1, 38], true, .elementary⟩,
  /- chem.cti:1584  NH2 + H <=> NH + H2 -/
  ⟨[32, 1], [31, 0], true, .elementary⟩,
  /- chem.cti:1587  NH2 + OH <=> NH + H2O -/
  ⟨[32, 4], [31, 5], true, .elementary⟩,
  /- chem.cti:1590  NNH <=> N2 + H -/
  ⟨[34], [52, 1], true, .elementary⟩,
  /- chem.cti:1593  NNH + M <=> N2 + H + M -/
  ⟨[34], [52, 1], true, (.thirdBody [(47, 7, 1), (26, 3, 0), (13, 2, 0), (14, 15, 1), (15, 2, 0), (0, 2, 0), (5, 6, 0)])⟩,
  /- chem.cti:1597  NNH + O2 <=> HO2 + N2 -/
  ⟨[34, 3], [6, 52], true, .elementary⟩,
  /- chem.cti:1600  NNH + O <=> OH + N2 -/
  ⟨[34, 2], [4, 52], true, .elementary⟩,
  /- chem.cti:1603  NNH + O <=> NH + NO -/
  ⟨[34, 2], [31, 35], true, .elementary⟩,
  /- chem.cti:1606  NNH + H <=> H2 + N2 -/
  ⟨[34, 1], [0, 52], true, .elementary⟩,
  /- chem.cti:1609  NNH + OH <=> H2O + N2 -/
  ⟨[34, 4], [5, 52], true, .elementary⟩,
  /- chem.cti:1612  NNH + CH3 <=> CH4 + N2 -/
  ⟨[34, 12], [13, 52], true, .elementary⟩,
  /- chem.cti:1615  H + NO + M <=> HNO + M -/
  ⟨[1, 35], [38], true, (.thirdBody [(47, 7, 1), (26, 3, 0), (13, 2, 0), (14, 15, 1), (15, 2, 0), (0, 2, 0), (5, 6, 0)])⟩,
  /- chem.cti:1619  HNO + O <=> NO + OH -/
  ⟨[38, 2], [35, 4], true, .elementary⟩,
  /- chem.cti:1622  HNO + H <=> H2 + NO -/
  ⟨[38, 1], [0, 35], true, .elementary⟩,
  /- chem.cti:1625  HNO + OH <=> NO + H2O -/
  ⟨[38, 4], [35, 5], true, .elementary⟩,
  /- chem.cti:1628  HNO + O2 <=> HO2 + NO -/
  ⟨[38, 3], [6, 35], true, .elementary⟩,
  /- chem.cti:1631  CN + O <=> CO + N -/
  ⟨[39, 2], [14, 30], true, .elementary⟩,
  /- chem.cti:1634  CN + OH <=> NCO + H -/
  ⟨[39, 4], [46, 1], true, .elementary⟩,
  /- chem.cti:1637  CN + H2O <=> HCN + OH -/
  ⟨[39, 5], [40, 4], true, .elementary⟩,
  /- chem.cti:1640  CN + O2 <=> NCO + O -/
  ⟨[39, 3], [46, 2], true, .elementary⟩,
  /- chem.cti:1643  CN + H2 <=> HCN + H -/
  ⟨[39, 0], [40, 1], true, .elementary⟩,
  /- chem.cti:1646  NCO + O <=> NO + CO -/
  ⟨[46, 2], [35, 14], true, .elementary⟩,
  /- chem.cti:1649  NCO + H <=> NH + CO -/
  ⟨[46, 1], [31, 14], true, .elementary⟩,
  /- chem.cti:1652  NCO + OH <=> NO + H + CO -/
  ⟨[46, 4], [35, 1, 14], true, .elementary⟩,
  /- chem.cti:1655  NCO + N <=> N2 + CO -/
  ⟨[46, 30], [52, 14], true, .elementary⟩,
  /- chem.cti:1658  NCO + O2 <=> NO + CO2 -/
  ⟨[46, 3], [35, 15], true, .elementary⟩,
  /- chem.cti:1661  NCO + M <=> N + CO + M -/
  ⟨[46], [30, 14], true, (.thirdBody [(47, 7, 1), (26, 3, 0), (13, 2, 0), (14, 15, 1), (15, 2, 0), (0, 2, 0), (5, 6, 0)])⟩,
  /- chem.cti:1665  NCO + NO <=> N2O + CO -/
  ⟨[46, 35], [37, 14], true, .elementary⟩,
  /- chem.cti:1668  NCO + NO <=> N2 + CO2 -/
  ⟨[46, 35], [52, 15], true, .elementary⟩,
  /- chem.cti:1671  HCN + M <=> H + CN + M -/
  ⟨[40], [1, 39], true, (.thirdBody [(47, 7, 1), (26, 3, 0), (13, 2, 0), (14, 15, 1), (15, 2, 0), (0, 2, 0), (5, 6, 0)])⟩,
  /- chem.cti:1675  HCN + O <=> NCO + H -/
  ⟨[40, 2], [46, 1], true, .elementary⟩,
  /- chem.cti:1678  HCN + O <=> NH + CO -/
  ⟨[40, 2], [31, 14], true, .elementary⟩,
  /- chem.cti:1681  HCN + O <=> CN + OH -/
  ⟨[40, 2], [39, 4], true, .elementary⟩,
  /- chem.cti:1684  HCN + OH <=> HOCN + H -/
  ⟨[40, 4], [44, 1], true, .elementary⟩,
  /- chem.cti:1687  HCN + OH <=> HNCO + H -/
  ⟨[40, 4], [45, 1], true, .elementary⟩,
  /- chem.cti:1690  HCN + OH <=> NH2 + CO -/
  ⟨[40, 4], [32, 14], true, .elementary⟩,
  /- chem.cti:1693  H + HCN (+ M) <=> H2CN (+ M) -/
  ⟨[1, 40], [41], true, (.falloff [(47, 7, 1), (26, 3, 0), (13, 2, 0), (14, 15, 1), (15, 2, 0), (0, 2, 0), (5, 6, 0)])⟩,
  /- chem.cti:1699  H2CN + N <=> N2 + CH2 -/
  ⟨[41, 30], [52, 10], true, .elementary⟩,
  /- chem.cti:1702  C + N2 <=> CN + N -/
  ⟨[8, 52], [39, 30], true, .elementary⟩,
  /- chem.cti:1705  CH + N2 <=> HCN + N -/
  ⟨[9, 52], [40, 30], true, .elementary⟩,
  /- chem.cti:1708  CH + N2 (+ M) <=> HCNN (+ M) -/
  ⟨[9, 52], [42], true, (.falloff [(47, 1, 0), (26, 3, 0), (13, 2, 0), (14, 15, 1), (15, 2, 0), (0, 2, 0), (5, 6, 0)])⟩,
  /- chem.cti:1715  CH2 + N2 <=> HCN + NH -/
  ⟨[10, 52], [40, 31], true, .elementary⟩,
  /- chem.cti:1718  CH2(S) + N2 <=> NH + HCN -/
  ⟨[11, 52], [31, 40], true, .elementary⟩,
  /- chem.cti:1721  C + NO <=> CN + O -/
  ⟨[8, 35], [39, 2], true, .elementary⟩,
  /- chem.cti:1724  C + NO <=> CO + N -/
  ⟨[8, 35], [14, 30], true, .elementary⟩,
  /- chem.cti:1727  CH + NO <=> HCN + O -/
  ⟨[9, 35], [40, 2], true, .elementary⟩,
  /- chem.cti:1730  CH + NO <=> H + NCO -/
  ⟨[9, 35], [1, 46], true, .elementary⟩,
  /- chem.cti:1733  CH + NO <=> N + HCO -/
  ⟨[9, 35], [30, 16], true, .elementary⟩,
  /- chem.cti:1736  CH2 + NO <=> H + HNCO -/
  ⟨[10, 35], [1, 45], true, .elementary⟩,
  /- chem.cti:1739  CH2 + NO <=> OH + HCN -/
  ⟨[10, 35], [4, 40], true, .elementary⟩,
  /- chem.cti:1742  CH2 + NO <=> H + HCNO -/
  ⟨[10, 35], [1, 43], true, .elementary⟩,
  /- chem.cti:1745  CH2(S) + NO <=> H + HNCO -/
  ⟨[11, 35], [1, 45], true, .elementary⟩,
  /- chem.cti:1748  CH2(S) + NO <=> OH + HCN -/
  ⟨[11, 35], [4, 40], true, .elementary⟩,
  /- chem.cti:1751  CH2(S) + NO <=> H + HCNO -/
  ⟨[11, 35], [1, 43], true, .elementary⟩,
  /- chem.cti:1754  CH3 + NO <=> HCN + H2O -/
  ⟨[12, 35], [40, 5], true, .elementary⟩,
  /- chem.cti:1757  CH3 + NO <=> H2CN + OH -/
  ⟨[12, 35], [41, 4], true, .elementary⟩,
  /- chem.cti:1760  HCNN + O <=> CO + H + N2 -/
  ⟨[42, 2], [14, 1, 52], true, .elementary⟩,
  /- chem.cti:1763  HCNN + O <=> HCN + NO -/
  ⟨[42, 2], [40, 35], true, .elementary⟩,
  /- chem.cti:1766  HCNN + O2 <=> O + HCO + N2 -/
  ⟨[42, 3], [2, 16, 52], true, .elementary⟩,
  /- chem.cti:1769  HCNN + OH <=> H + HCO + N2 -/
  ⟨[42, 4], [1, 16, 52], true, .elementary⟩,
  /- chem.cti:1772  HCNN + H <=> CH2 + N2 -/
  ⟨[42, 1], [10, 52], true, .elementary⟩,
  /- chem.cti:1775  HNCO + O <=> NH + CO2 -/
  ⟨[45, 2], [31, 15], true, .elementary⟩,
  /- chem.cti:1778  HNCO + O <=> HNO + CO -/
  ⟨[45, 2], [38, 14], true, .elementary⟩,
  /- chem.cti:1781  HNCO + O <=> NCO + OH -/
  ⟨[45, 2], [46, 4], true, .elementary⟩,
  /- chem.cti:1784  HNCO + H <=> NH2 + CO -/
  ⟨[45, 1], [32, 14], true, .elementary⟩,
  /- chem.cti:1787  HNCO + H <=> H2 + NCO -/
  ⟨[45, 1], [0, 46], true, .elementary⟩,
  /- chem.cti:1790  HNCO + OH <=> NCO + H2O -/
  ⟨[45, 4], [46, 5], true, .elementary⟩,
  /- chem.cti:1793  HNCO + OH <=> NH2 + CO2 -/
  ⟨[45, 4], [32, 15], true, .elementary⟩,
  /- chem.cti:1796  HNCO + M <=> NH + CO + M -/
  ⟨[45], [31, 14], true, (.thirdBody [(47, 7, 1), (26, 3, 0), (13, 2, 0), (14, 15, 1), (15, 2, 0), (0, 2, 0), (5, 6, 0)])⟩,
  /- chem.cti:1800  HCNO + H <=> H + HNCO -/
  ⟨[43, 1], [1, 45], true, .elementary⟩,
  /- chem.cti:1803  HCNO + H <=> OH + HCN -/
  ⟨[43, 1], [4, 40], true, .elementary⟩,
  /- chem.cti:1806  HCNO + H <=> NH2 + CO -/
  ⟨[43, 1], [32, 14], true, .elementary⟩,
  /- chem.cti:1809  HOCN + H <=> H + HNCO -/
  ⟨[44, 1], [1, 45], true, .elementary⟩,
  /- chem.cti:1812  HCCO + NO <=> HCNO + CO -/
  ⟨[27, 35], [43, 14], true, .elementary⟩,
  /- chem.cti:1815  CH3 + N <=> H2CN + H -/
  ⟨[12, 30], [41, 1], true, .elementary⟩,
  /- chem.cti:1818  CH3 + N <=> HCN + H2 -/
  ⟨[12, 30], [40, 0], true, .elementary⟩,
  /- chem.cti:1821  NH3 + H <=> NH2 + H2 -/
  ⟨[33, 1], [32, 0], true, .elementary⟩,
  /- chem.cti:1824  NH3 + OH <=> NH2 + H2O -/
  ⟨[33, 4], [32, 5], true, .elementary⟩,
  /- chem.cti:1827  NH3 + O <=> NH2 + OH -/
  ⟨[33, 2], [32, 4], true, .elementary⟩,
  /- chem.cti:1830  NH + CO2 <=> HNO + CO -/
  ⟨[31, 15], [38, 14], true, .elementary⟩,
  /- chem.cti:1833  CN + NO2 <=> NCO + NO -/
  ⟨[39, 36], [46, 35], true, .elementary⟩,
  /- chem.cti:1836  NCO + NO2 <=> N2O + CO2 -/
  ⟨[46, 36], [37, 15], true, .elementary⟩,
  /- chem.cti:1839  N + CO2 <=> NO + CO -/
  ⟨[30, 15], [35, 14], true, .elementary⟩,
  /- chem.cti:1842  O + CH3 => H + H2 + CO -/
  ⟨[2, 12], [1, 0, 14], false, .elementary⟩,
  /- chem.cti:1845  O + C2H4 <=> H + CH2CHO -/
  ⟨[2, 24], [1, 50], true, .elementary⟩,
  /- chem.cti:1848  O + C2H5 <=> H + CH3CHO -/
  ⟨[2, 25], [1, 51], true, .elementary⟩,
  /- chem.cti:1851  OH + HO2 <=> O2 + H2O -/
  ⟨[4, 6], [3, 5], true, .elementary⟩,
  /- chem.cti:1855  OH + CH3 => H2 + CH2O -/
  ⟨[4, 12], [0, 17], false, .elementary⟩,
  /- chem.cti:1858  CH + H2 (+ M) <=> CH3 (+ M) -/
  ⟨[9, 0], [12], true, (.falloff [(47, 7, 1), (26, 3, 0), (13, 2, 0), (14, 15, 1), (15, 2, 0), (0, 2, 0), (5, 6, 0)])⟩,
  /- chem.cti:1865  CH2 + O2 => 2 H + CO2 -/
  ⟨[10, 3], [1, 1, 15], false, .elementary⟩,
  /- chem.cti:1868  CH2 + O2 <=> O + CH2O -/
  ⟨[10, 3], [2, 17], true, .elementary⟩,
  /- chem.cti:1871  CH2 + CH2 => 2 H + C2H2 -/
  ⟨[10, 10], [1, 1, 22], false, .elementary⟩,
  /- chem.cti:1874  CH2(S) + H2O => H2 + CH2O -/
  ⟨[11, 5], [0, 17], false, .elementary⟩,
  /- chem.cti:1877  C2H3 + O2 <=> O + CH2CHO -/
  ⟨[23, 3], [2, 50], true, .elementary⟩,
  /- chem.cti:1880  C2H3 + O2 <=> HO2 + C2H2 -/
  ⟨[23, 3], [6, 22], true, .elementary⟩,
  /- chem.cti:1883  O + CH3CHO <=> OH + CH2CHO -/
  ⟨[2, 51], [4, 50], true, .elementary⟩,
  /- chem.cti:1886  O + CH3CHO => OH + CH3 + CO -/
  ⟨[2, 51], [4, 12, 14], false, .elementary⟩,
  /- chem.cti:1889  O2 + CH3CHO => HO2 + CH3 + CO -/
  ⟨[3, 51], [6, 12, 14], false, .elementary⟩,
  /- chem.cti:1892  H + CH3CHO <=> CH2CHO + H2 -/
  ⟨[1, 51], [50, 0], true, .elementary⟩,
  /- chem.cti:1895  H + CH3CHO => CH3 + H2 + CO -/
  ⟨[1, 51], [12, 0, 14], false, .elementary⟩,
  /- chem.cti:1898  OH + CH3CHO => CH3 + H2O + CO -/
  ⟨[4, 51], [12, 5, 14], false, .elementary⟩,
  /- chem.cti:1901  HO2 + CH3CHO => CH3 + H2O2 + CO -/
  ⟨[6, 51], [12, 7, 14], false, .elementary⟩,
  /- chem.cti:1904  CH3 + CH3CHO => CH3 + CH4 + CO -/
  ⟨[12, 51], [12, 13, 14], false, .elementary⟩,
  /- chem.cti:1907  H + CH2CO (+ M) <=> CH2CHO (+ M) -/
  ⟨[1, 28], [50], true, (.falloff [(47, 7, 1), (26, 3, 0), (13, 2, 0), (14, 15, 1), (15, 2, 0), (0, 2, 0), (5, 6, 0)])⟩,
  /- chem.cti:1914  O + CH2CHO => H + CH2 + CO2 -/
  ⟨[2, 50], [1, 10, 15], false, .elementary⟩,
  /- chem.cti:1917  O2 + CH2CHO => OH + CO + CH2O -/
  ⟨[3, 50], [4, 14, 17], false, .elementary⟩,
  /- chem.cti:1920  O2 + CH2CHO => OH + 2 HCO -/
  ⟨[3, 50], [4, 16, 16], false, .elementary⟩,
  /- chem.cti:1923  H + CH2CHO <=> CH3 + HCO -/
  ⟨[1, 50], [12, 16], true, .elementary⟩,
  /- chem.cti:1926  H + CH2CHO <=> CH2CO + H2 -/
  ⟨[1, 50], [28, 0], true, .elementary⟩,
  /- chem.cti:1929  OH + CH2CHO <=> H2O + CH2CO -/
  ⟨[4, 50], [5, 28], true, .elementary⟩,
  /- chem.cti:1932  OH + CH2CHO <=> HCO + CH2OH -/
  ⟨[4, 50], [16, 18], true, .elementary⟩,
  /- chem.cti:1935  CH3 + C2H5 (+ M) <=> C3H8 (+ M) -/
  ⟨[12, 25], [49], true, (.falloff [(47, 7, 1), (26, 3, 0), (13, 2, 0), (14, 15, 1), (15, 2, 0), (0, 2, 0), (5, 6, 0)])⟩,
  /- chem.cti:1942  O + C3H8 <=> OH + C3H7 -/
  ⟨[2, 49], [4, 48], true, .elementary⟩,
  /- chem.cti:1945  H + C3H8 <=> C3H7 + H2 -/
  ⟨[1, 49], [48, 0], true, .elementary⟩,
  /- chem.cti:1948  OH + C3H8 <=> C3H7 + H2O -/
  ⟨[4, 49], [48, 5], true, .elementary⟩,
  /- chem.cti:1951  C3H7 + H2O2 <=> HO2 + C3H8 -/
  ⟨[48, 7], [6, 49], true, .elementary⟩,
  /- chem.cti:1954  CH3 + C3H8 <=> C3H7 + CH4 -/
  ⟨[12, 49], [48, 13], true, .elementary⟩,
  /- chem.cti:1957  CH3 + C2H4 (+ M) <=> C3H7 (+ M) -/
  ⟨[12, 24], [48], true, (.falloff [(47, 7, 1), (26, 3, 0), (13, 2, 0), (14, 15, 1), (15, 2, 0), (0, 2, 0), (5, 6, 0)])⟩,
  /- chem.cti:1964  O + C3H7 <=> C2H5 + CH2O -/
  ⟨[2, 48], [25, 17], true, .elementary⟩,
  /- chem.cti:1967  H + C3H7 (+ M) <=> C3H8 (+ M) -/
  ⟨[1, 48], [49], true, (.falloff [(47, 7, 1), (26, 3, 0), (13, 2, 0), (14, 15, 1), (15, 2, 0), (0, 2, 0), (5, 6, 0)])⟩,
  /- chem.cti:1974  H + C3H7 <=> CH3 + C2H5 -/
  ⟨[1, 48], [12, 25], true, .elementary⟩,
  /- chem.cti:1977  OH + C3H7 <=> C2H5 + CH2OH -/
  ⟨[4, 48], [25, 18], true, .elementary⟩,
  /- chem.cti:1980  HO2 + C3H7 <=> O2 + C3H8 -/
  ⟨[6, 48], [3, 49], true, .elementary⟩,
  /- chem.cti:1983  HO2 + C3H7 => OH + C2H5 + CH2O -/
  ⟨[6, 48], [4, 25, 17], false, .elementary⟩,
  /- chem.cti:1986  CH3 + C3H7 <=> 2 C2H5 -/
  ⟨[12, 48], [25, 25], true, .elementary⟩]

/-- utilities/mechanisms/gri30/lib/src/mechanism.h -/
def nsp : Nat := 53

/-- utilities/mechanisms/gri30/lib/src/mechanism.h -/
def nFwd : Nat := 325

/-- utilities/mechanisms/gri30/lib/src/mechanism.h -/
def nRev : Nat := 309

/-- utilities/mechanisms/gri30/lib/src/mechanism.h -/
def nPresMod : Nat := 41

end DLB.Mech.Gri30
