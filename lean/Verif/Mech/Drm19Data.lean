/- Generated by tools/gen_mechanisms.py from utilities/mechanisms/drm19/{chem.cti,lib/src/mechanism.h,foam/*}. Do not edit. -/
import Verif.Spec.Mechanism
set_option autoImplicit false

namespace DLB.Mech.Drm19
open DLB

/-- Species in the order of utilities/mechanisms/drm19/lib/src/mechanism.h -/
def names : List String := ["H2", "H", "O", "O2", "OH", "H2O", "HO2", "CH2", "CH2(S)", "CH3", "CH4", "CO", "CO2", "HCO", "CH2O", "CH3O", "C2H4", "C2H5", "C2H6", "AR", "N2"]

/-- Species in the order of utilities/mechanisms/drm19/chem.cti:16 -/
def ctiNames : List String := ["H2", "H", "O", "O2", "OH", "H2O", "HO2", "CH2", "CH2(S)", "CH3", "CH4", "CO", "CO2", "HCO", "CH2O", "CH3O", "C2H4", "C2H5", "C2H6", "N2", "AR"]

/-- Species in the order of utilities/mechanisms/drm19/foam/species.foam -/
def foamNames : List String := ["H2", "H", "O", "O2", "OH", "H2O", "HO2", "CH2", "CH2(S)", "CH3", "CH4", "CO", "CO2", "HCO", "CH2O", "CH3O", "C2H4", "C2H5", "C2H6", "AR", "N2"]

/-- Elements, utilities/mechanisms/drm19/chem.cti -/
def elements : List String := ["O", "H", "C", "N", "Ar"]

/-- Number of atoms of each of the `elements` in each species (order of `names`),
utilities/mechanisms/drm19/chem.cti:27-348 -/
def atoms : List (List Nat) := [
  [0, 2, 0, 0, 0],
  [0, 1, 0, 0, 0],
  [1, 0, 0, 0, 0],
  [2, 0, 0, 0, 0],
  [1, 1, 0, 0, 0],
  [1, 2, 0, 0, 0],
  [2, 1, 0, 0, 0],
  [0, 2, 1, 0, 0],
  [0, 2, 1, 0, 0],
  [0, 3, 1, 0, 0],
  [0, 4, 1, 0, 0],
  [1, 0, 1, 0, 0],
  [2, 0, 1, 0, 0],
  [1, 1, 1, 0, 0],
  [1, 2, 1, 0, 0],
  [1, 3, 1, 0, 0],
  [0, 4, 2, 0, 0],
  [0, 5, 2, 0, 0],
  [0, 6, 2, 0, 0],
  [0, 0, 0, 0, 1],
  [0, 0, 0, 2, 0]]

/-- Number of atoms of each of the `elements` in each species (order of `names`),
utilities/mechanisms/drm19/foam/thermo.foam -/
def foamAtoms : List (List Nat) := [
  [0, 2, 0, 0, 0],
  [0, 1, 0, 0, 0],
  [1, 0, 0, 0, 0],
  [2, 0, 0, 0, 0],
  [1, 1, 0, 0, 0],
  [1, 2, 0, 0, 0],
  [2, 1, 0, 0, 0],
  [0, 2, 1, 0, 0],
  [0, 2, 1, 0, 0],
  [0, 3, 1, 0, 0],
  [0, 4, 1, 0, 0],
  [1, 0, 1, 0, 0],
  [2, 0, 1, 0, 0],
  [1, 1, 1, 0, 0],
  [1, 2, 1, 0, 0],
  [1, 3, 1, 0, 0],
  [0, 4, 2, 0, 0],
  [0, 5, 2, 0, 0],
  [0, 6, 2, 0, 0],
  [0, 0, 0, 0, 1],
  [0, 0, 0, 2, 0]]

/-- molWeight of each species (order of `names`) as mantissa and decimal exponent,
utilities/mechanisms/drm19/foam/thermo.foam -/
def foamWeights : List (Nat × Nat) := [
  (201588, 5), (100794, 5), (159994, 4), (319988, 4), (1700734, 5), (1801528, 5), (3300674, 5), (14026879999999998, 15), (14026879999999998, 15), (1503482, 5), (1604276, 5), (28010399999999997, 15), (440098, 4), (2901834, 5), (3002628, 5), (31034219999999998, 15), (28053759999999997, 15), (290617, 4), (3006964, 5), (39948, 3), (2801348, 5)]

/-- The reactions, utilities/mechanisms/drm19/chem.cti:368-655 -/
def reactions : List Reaction := [
  /- chem.cti:368  O + H + M <=> OH + M -/
  ⟨[2, 1], [4], true, (.thirdBody [(19, 7, 1), (18, 3, 0), (10, 2, 0), (11, 15, 1), (12, 2, 0), (0, 2, 0), (5, 6, 0)])⟩,
  /- chem.cti:372  O + H2 <=> H + OH -/
  ⟨[2, 0], [1, 4], true, .elementary⟩,
  /- chem.cti:375  O + HO2 <=> OH + O2 -/
  ⟨[2, 6], [4, 3], true, .elementary⟩,
  /- chem.cti:378  O + CH2 <=> H + HCO -/
  ⟨[2, 7], [1, 13], true, .elementary⟩,
  /- chem.cti:381  O + CH2(S) <=> H + HCO -/
  ⟨[2, 8], [1, 13], true, .elementary⟩,
  /- chem.cti:384  O + CH3 <=> H + CH2O -/
  ⟨[2, 9], [1, 14], true, .elementary⟩,
  /- chem.cti:387  O + CH4 <=> OH + CH3 -/
  ⟨[2, 10], [4, 9], true, .elementary⟩,
  /- chem.cti:390  O + CO + M <=> CO2 + M -/
  ⟨[2, 11], [12], true, (.thirdBody [(19, 5, 1), (18, 3, 0), (10, 2, 0), (11, 15, 1), (12, 35, 1), (0, 2, 0), (5, 6, 0), (3, 6, 0)])⟩,
  /- chem.cti:394  O + HCO <=> OH + CO -/
  ⟨[2, 13], [4, 11], true, .elementary⟩,
  /- chem.cti:397  O + HCO <=> H + CO2 -/
  ⟨[2, 13], [1, 12], true, .elementary⟩,
  /- chem.cti:400  O + CH2O <=> OH + HCO -/
  ⟨[2, 14], [4, 13], true, .elementary⟩,
  /- chem.cti:403  O + C2H4 <=> CH3 + HCO -/
  ⟨[2, 16], [9, 13], true, .elementary⟩,
  /- chem.cti:406  O + C2H5 <=> CH3 + CH2O -/
  ⟨[2, 17], [9, 14], true, .elementary⟩,
  /- chem.cti:409  O + C2H6 <=> OH + C2H5 -/
  ⟨[2, 18], [4, 17], true, .elementary⟩,
  /- chem.cti:412  O2 + CO <=> O + CO2 -/
  ⟨[3, 11], [2, 12], true, .elementary⟩,
  /- chem.cti:415  O2 + CH2O <=> HO2 + HCO -/
  ⟨[3, 14], [6, 13], true, .elementary⟩,
  /- chem.cti:418  H + O2 + M <=> HO2 + M -/
  ⟨[1, 3], [6], true, (.thirdBody [(19, 0, 0), (18, 15, 1), (11, 75, 2), (12, 15, 1), (5, 0, 0), (20, 0, 0), (3, 0, 0)])⟩,
  /- chem.cti:422  H + 2 O2 <=> HO2 + O2 -/
  ⟨[1, 3, 3], [6, 3], true, .elementary⟩,
  /- chem.cti:425  H + O2 + H2O <=> HO2 + H2O -/
  ⟨[1, 3, 5], [6, 5], true, .elementary⟩,
  /- chem.cti:428  H + O2 + N2 <=> HO2 + N2 -/
  ⟨[1, 3, 20], [6, 20], true, .elementary⟩,
  /- chem.cti:431  H + O2 + AR <=> HO2 + AR -/
  ⟨[1, 3, 19], [6, 19], true, .elementary⟩,
  /- chem.cti:434  H + O2 <=> O + OH -/
  ⟨[1, 3], [2, 4], true, .elementary⟩,
  /- chem.cti:437  2 H + M <=> H2 + M -/
  ⟨[1, 1], [0], true, (.thirdBody [(19, 63, 2), (18, 3, 0), (10, 2, 0), (12, 0, 0), (0, 0, 0), (5, 0, 0)])⟩,
  /- chem.cti:441  2 H + H2 <=> 2 H2 -/
  ⟨[1, 1, 0], [0, 0], true, .elementary⟩,
  /- chem.cti:444  2 H + H2O <=> H2 + H2O -/
  ⟨[1, 1, 5], [0, 5], true, .elementary⟩,
  /- chem.cti:447  2 H + CO2 <=> H2 + CO2 -/
  ⟨[1, 1, 12], [0, 12], true, .elementary⟩,
  /- chem.cti:450  H + OH + M <=> H2O + M -/
  ⟨[1, 4], [5], true, (.thirdBody [(19, 38, 2), (18, 3, 0), (10, 2, 0), (0, 73, 2), (5, 365, 2)])⟩,
  /- chem.cti:454  H + HO2 <=> O2 + H2 -/
  ⟨[1, 6], [3, 0], true, .elementary⟩,
  /- chem.cti:457  H + HO2 <=> 2 OH -/
  ⟨[1, 6], [4, 4], true, .elementary⟩,
  /- chem.cti:460  H + CH2 (+ M) <=> CH3 (+ M) -/
  ⟨[1, 7], [9], true, (.falloff [(19, 7, 1), (18, 3, 0), (10, 2, 0), (11, 15, 1), (12, 2, 0), (0, 2, 0), (5, 6, 0)])⟩,
  /- chem.cti:467  H + CH3 (+ M) <=> CH4 (+ M) -/
  ⟨[1, 9], [10], true, (.falloff [(19, 7, 1), (18, 3, 0), (10, 2, 0), (11, 15, 1), (12, 2, 0), (0, 2, 0), (5, 6, 0)])⟩,
  /- chem.cti:474  H + CH4 <=> CH3 + H2 -/
  ⟨[1, 10], [9, 0], true, .elementary⟩,
  /- chem.cti:477  H + HCO (+ M) <=> CH2O (+ M) -/
  ⟨[1, 13], [14], true, (.falloff [(19, 7, 1), (18, 3, 0), (10, 2, 0), (11, 15, 1), (12, 2, 0), (0, 2, 0), (5, 6, 0)])⟩,
  /- chem.cti:484  H + HCO <=> H2 + CO -/
  ⟨[1, 13], [0, 11], true, .elementary⟩,
  /- chem.cti:487  H + CH2O (+ M) <=> CH3O (+ M) -/
  ⟨[1, 14], [15], true, (.falloff [(18, 3, 0), (10, 2, 0), (11, 15, 1), (12, 2, 0), (0, 2, 0), (5, 6, 0)])⟩,
  /- chem.cti:494  H + CH2O <=> HCO + H2 -/
  ⟨[1, 14], [13, 0], true, .elementary⟩,
  /- chem.cti:497  H + CH3O <=> OH + CH3 -/
  ⟨[1, 15], [4, 9], true, .elementary⟩,
  /- chem.cti:500  H + C2H4 (+ M) <=> C2H5 (+ M) -/
  ⟨[1, 16], [17], true, (.falloff [(19, 7, 1), (18, 3, 0), (10, 2, 0), (11, 15, 1), (12, 2, 0), (0, 2, 0), (5, 6, 0)])⟩,
  /- chem.cti:507  H + C2H5 (+ M) <=> C2H6 (+ M) -/
  ⟨[1, 17], [18], true, (.falloff [(19, 7, 1), (18, 3, 0), (10, 2, 0), (11, 15, 1), (12, 2, 0), (0, 2, 0), (5, 6, 0)])⟩,
  /- chem.cti:514  H + C2H6 <=> C2H5 + H2 -/
  ⟨[1, 18], [17, 0], true, .elementary⟩,
  /- chem.cti:517  H2 + CO (+ M) <=> CH2O (+ M) -/
  ⟨[0, 11], [14], true, (.falloff [(19, 7, 1), (18, 3, 0), (10, 2, 0), (11, 15, 1), (12, 2, 0), (0, 2, 0), (5, 6, 0)])⟩,
  /- chem.cti:524  OH + H2 <=> H + H2O -/
  ⟨[4, 0], [1, 5], true, .elementary⟩,
  /- chem.cti:527  2 OH <=> O + H2O -/
  ⟨[4, 4], [2, 5], true, .elementary⟩,
  /- chem.cti:530  OH + HO2 <=> O2 + H2O -/
  ⟨[4, 6], [3, 5], true, .elementary⟩,
  /- chem.cti:533  OH + CH2 <=> H + CH2O -/
  ⟨[4, 7], [1, 14], true, .elementary⟩,
  /- chem.cti:536  OH + CH2(S) <=> H + CH2O -/
  ⟨[4, 8], [1, 14], true, .elementary⟩,
  /- chem.cti:539  OH + CH3 <=> CH2 + H2O -/
  ⟨[4, 9], [7, 5], true, .elementary⟩,
  /- chem.cti:542  OH + CH3 <=> CH2(S) + H2O -/
  ⟨[4, 9], [8, 5], true, .elementary⟩,
  /- chem.cti:545  OH + CH4 <=> CH3 + H2O -/
  ⟨[4, 10], [9, 5], true, .elementary⟩,
  /- chem.cti:548  OH + CO <=> H + CO2 -/
  ⟨[4, 11], [1, 12], true, .elementary⟩,
  /- chem.cti:551  OH + HCO <=> H2O + CO -/
  ⟨[4, 13], [5, 11], true, .elementary⟩,
  /- chem.cti:554  OH + CH2O <=> HCO + H2O -/
  ⟨[4, 14], [13, 5], true, .elementary⟩,
  /- chem.cti:557  OH + C2H6 <=> C2H5 + H2O -/
  ⟨[4, 18], [17, 5], true, .elementary⟩,
  /- chem.cti:560  HO2 + CH2 <=> OH + CH2O -/
  ⟨[6, 7], [4, 14], true, .elementary⟩,
  /- chem.cti:563  HO2 + CH3 <=> O2 + CH4 -/
  ⟨[6, 9], [3, 10], true, .elementary⟩,
  /- chem.cti:566  HO2 + CH3 <=> OH + CH3O -/
  ⟨[6, 9], [4, 15], true, .elementary⟩,
  /- chem.cti:569  HO2 + CO <=> OH + CO2 -/
  ⟨[6, 11], [4, 12], true, .elementary⟩,
  /- chem.cti:572  CH2 + O2 <=> OH + HCO -/
  ⟨[7, 3], [4, 13], true, .elementary⟩,
  /- chem.cti:575  CH2 + H2 <=> H + CH3 -/
  ⟨[7, 0], [1, 9], true, .elementary⟩,
  /- chem.cti:578  CH2 + CH3 <=> H + C2H4 -/
  ⟨[7, 9], [1, 16], true, .elementary⟩,
  /- chem.cti:581  CH2 + CH4 <=> 2 CH3 -/
  ⟨[7, 10], [9, 9], true, .elementary⟩,
  /- chem.cti:584  CH2(S) + N2 <=> CH2 + N2 -/
  ⟨[8, 20], [7, 20], true, .elementary⟩,
  /- chem.cti:587  CH2(S) + AR <=> CH2 + AR -/
  ⟨[8, 19], [7, 19], true, .elementary⟩,
  /- chem.cti:590  CH2(S) + O2 <=> H + OH + CO -/
  ⟨[8, 3], [1, 4, 11], true, .elementary⟩,
  /- chem.cti:593  CH2(S) + O2 <=> CO + H2O -/
  ⟨[8, 3], [11, 5], true, .elementary⟩,
  /- chem.cti:596  CH2(S) + H2 <=> CH3 + H -/
  ⟨[8, 0], [9, 1], true, .elementary⟩,
  /- chem.cti:599  CH2(S) + H2O <=> CH2 + H2O -/
  ⟨[8, 5], [7, 5], true, .elementary⟩,
  /- chem.cti:602  CH2(S) + CH3 <=> H + C2H4 -/
  ⟨[8, 9], [1, 16], true, .elementary⟩,
  /- chem.cti:605  CH2(S) + CH4 <=> 2 CH3 -/
  ⟨[8, 10], [9, 9], true, .elementary⟩,
  /- chem.cti:608  CH2(S) + CO <=> CH2 + CO -/
  ⟨[8, 11], [7, 11], true, .elementary⟩,
  /- chem.cti:611  CH2(S) + CO2 <=> CH2 + CO2 -/
  ⟨[8, 12], [7, 12], true, .elementary⟩,
  /- chem.cti:614  CH2(S) + CO2 <=> CO + CH2O -/
  ⟨[8, 12], [11, 14], true, .elementary⟩,
  /- chem.cti:617  CH3 + O2 <=> O + CH3O -/
  ⟨[9, 3], [2, 15], true, .elementary⟩,
  /- chem.cti:620  CH3 + O2 <=> OH + CH2O -/
  ⟨[9, 3], [4, 14], true, .elementary⟩,
  /- chem.cti:623  2 CH3 (+ M) <=> C2H6 (+ M) -/
  ⟨[9, 9], [18], true, (.falloff [(19, 7, 1), (18, 3, 0), (10, 2, 0), (11, 15, 1), (12, 2, 0), (0, 2, 0), (5, 6, 0)])⟩,
  /- chem.cti:630  2 CH3 <=> H + C2H5 -/
  ⟨[9, 9], [1, 17], true, .elementary⟩,
  /- chem.cti:633  CH3 + HCO <=> CH4 + CO -/
  ⟨[9, 13], [10, 11], true, .elementary⟩,
  /- chem.cti:636  CH3 + CH2O <=> HCO + CH4 -/
  ⟨[9, 14], [13, 10], true, .elementary⟩,
  /- chem.cti:639  CH3 + C2H6 <=> C2H5 + CH4 -/
  ⟨[9, 18], [17, 10], true, .elementary⟩,
  /- chem.cti:642  HCO + H2O <=> H + CO + H2O -/
  ⟨[13, 5], [1, 11, 5], true, .elementary⟩,
  /- chem.cti:645  HCO + M <=> H + CO + M -/
  ⟨[13], [1, 11], true, (.thirdBody [(18, 3, 0), (10, 2, 0), (11, 15, 1), (12, 2, 0), (0, 2, 0), (5, 0, 0)])⟩,
  /- chem.cti:649  HCO + O2 <=> HO2 + CO -/
  ⟨[13, 3], [6, 11], true, .elementary⟩,
  /- chem.cti:652  CH3O + O2 <=> HO2 + CH2O -/
  ⟨[15, 3], [6, 14], true, .elementary⟩,
  /- chem.cti:655  C2H5 + O2 <=> HO2 + C2H4 -/
  ⟨[17, 3], [6, 16], true, .elementary⟩]

/-- utilities/mechanisms/drm19/lib/src/mechanism.h -/
def nsp : Nat := 21

/-- utilities/mechanisms/drm19/lib/src/mechanism.h -/
def nFwd : Nat := 84

/-- utilities/mechanisms/drm19/lib/src/mechanism.h -/
def nRev : Nat := 84

/-- utilities/mechanisms/drm19/lib/src/mechanism.h -/
def nPresMod : Nat := 14

end DLB.Mech.Drm19
