import Verif.Mech.All
import Mathlib.Algebra.Order.Group.Abs
/-
The three shipped mechanisms with their descriptions.
-/
set_option autoImplicit false

namespace DLB

/-- A shipped mechanism: the sources of its library and what chem.cti and foam/{species,thermo}.foam say.
utilities/mechanisms/<name>/chem.cti: drm19:1-655, gri30:1-1986, yao:1-1833. -/
structure Package where
  mech : Mech
  names : List String
  ctiNames : List String
  foamNames : List String
  elements : List String
  atoms : List (List Nat)
  foamAtoms : List (List Nat)
  foamWeights : List (Nat × Nat)
  reactions : List Reaction
  nasa : List Nasa
  foamNasa : List Nasa
  laws : List RateLaw

namespace Package

/-- Number of species.  utilities/mechanisms/<name>/chem.cti: drm19:1-655, gri30:1-1986, yao:1-1833.
-/
abbrev nsp (D : Package) : Nat := D.mech.nsp

/-- Number of atoms of element `e` in species `s`, chem.cti.  utilities/mechanisms/<name>/chem.cti:
drm19:1-655, gri30:1-1986, yao:1-1833. -/
def atomCount (D : Package) (s e : Nat) : Nat := (D.atoms.getD s []).getD e 0

/-- Molecular weight of species `s` in units of 10^-5 kg/kmol.
utilities/mechanisms/<name>/chem.cti: drm19:1-655, gri30:1-1986, yao:1-1833. -/
def weight5 (D : Package) (s : Nat) : Nat := molWeight5 D.elements (D.atoms.getD s [])

/-- Molecular weight of species `s` in kg/kmol.  utilities/mechanisms/<name>/chem.cti: drm19:1-655,
gri30:1-1986, yao:1-1833. -/
def molWeight {K : Type} [Field K] (D : Package) (s : Nat) : K := (D.weight5 s : K) / 10 ^ 5

/-- Thermodynamic polynomials of species `s`, chem.cti.  utilities/mechanisms/<name>/chem.cti:
drm19:1-655, gri30:1-1986, yao:1-1833. -/
def fit (D : Package) (s : Nat) : Nasa := D.nasa.getD s ⟨(0, 0), [], []⟩

/-- Thermodynamic polynomials of species `s`, foam/thermo.foam.  drm19:1-668, gri30:1-1708,
yao:1-1730. -/
def foamFit (D : Package) (s : Nat) : Nasa := D.foamNasa.getD s ⟨(0, 0), [], []⟩

/-- Rate law of reaction number `k`, chem.cti.  utilities/mechanisms/<name>/chem.cti: drm19:1-655,
gri30:1-1986, yao:1-1833. -/
def law (D : Package) (k : Nat) : RateLaw := D.laws.getD k (.simple ⟨(0, 0), (0, 0), (0, 0)⟩)

end Package

/-- `w` are the molecular weights and `r` their reciprocals, up to the rounding of the literals.
For the literals in utilities/mechanisms/<name>/lib/src/mass_mole.c: drm19:8-61, gri30:8-129,
yao:8-132. -/
def CloseWeights {K : Type} [Field K] [LinearOrder K] (D : Package) (w r : Nat → K) : Prop :=
  ∀ i, i < D.nsp → |w i - D.molWeight i| ≤ D.molWeight i / 10 ^ 15 ∧ |r i * D.molWeight i - 1| ≤ 1 / 10 ^ 15

/-- /repo/utilities/mechanisms/drm19.  lib/src/*.c, chem.cti:1-655, foam/species.foam:1-24,
foam/thermo.foam:1-668. -/
def drm19 : Package where
  mech := Mech.drm19
  names := Mech.Drm19.names
  ctiNames := Mech.Drm19.ctiNames
  foamNames := Mech.Drm19.foamNames
  elements := Mech.Drm19.elements
  atoms := Mech.Drm19.atoms
  foamAtoms := Mech.Drm19.foamAtoms
  foamWeights := Mech.Drm19.foamWeights
  reactions := Mech.Drm19.reactions
  nasa := Mech.Drm19.nasa
  foamNasa := Mech.Drm19.foamNasa
  laws := Mech.Drm19.laws

/-- /repo/utilities/mechanisms/gri30.  lib/src/*.c, chem.cti:1-1986, foam/species.foam:1-56,
foam/thermo.foam:1-1708. -/
def gri30 : Package where
  mech := Mech.gri30
  names := Mech.Gri30.names
  ctiNames := Mech.Gri30.ctiNames
  foamNames := Mech.Gri30.foamNames
  elements := Mech.Gri30.elements
  atoms := Mech.Gri30.atoms
  foamAtoms := Mech.Gri30.foamAtoms
  foamWeights := Mech.Gri30.foamWeights
  reactions := Mech.Gri30.reactions
  nasa := Mech.Gri30.nasa
  foamNasa := Mech.Gri30.foamNasa
  laws := Mech.Gri30.laws

/-- /repo/utilities/mechanisms/yao.  lib/src/*.c, chem.cti:1-1833, foam/species.foam:1-57,
foam/thermo.foam:1-1730. -/
def yao : Package where
  mech := Mech.yao
  names := Mech.Yao.names
  ctiNames := Mech.Yao.ctiNames
  foamNames := Mech.Yao.foamNames
  elements := Mech.Yao.elements
  atoms := Mech.Yao.atoms
  foamAtoms := Mech.Yao.foamAtoms
  foamWeights := Mech.Yao.foamWeights
  reactions := Mech.Yao.reactions
  nasa := Mech.Yao.nasa
  foamNasa := Mech.Yao.foamNasa
  laws := Mech.Yao.laws

/-- The mechanisms in /repo/utilities/mechanisms.  utilities/mechanisms/<name>/chem.cti:
drm19:1-655, gri30:1-1986, yao:1-1833. -/
def shipped : List Package := [drm19, gri30, yao]

end DLB
