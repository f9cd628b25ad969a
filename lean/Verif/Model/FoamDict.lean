import Verif.Model.RefMap
import Verif.Model.Shipped
/-
The dictionary `mixtureFractionProperties` of a case that includes `foam/thermo.foam` of a shipped mechanism, as the tutorials do.
-/
set_option autoImplicit false

namespace DLB

variable {K : Type} [Field K]

/-- Number of atoms of the element `el` in species `s`: sub-dictionary `elements` in foam/thermo.foam.
utilities/mechanisms/<name>/foam/thermo.foam: drm19:1-668, gri30:1-1708, yao:1-1730. -/
def Package.foamCount (D : Package) (el : String) (s : Nat) : Nat :=
  (D.foamAtoms.getD s []).getD (D.elements.idxOf el) 0

/-- `molWeight` of species `s` in foam/thermo.foam.  utilities/mechanisms/<name>/foam/thermo.foam:
drm19:1-668, gri30:1-1708, yao:1-1730. -/
def Package.foamWeight (D : Package) (s : Nat) : K :=
  ((D.foamWeights.getD s (0, 0)).1 : K) / 10 ^ (D.foamWeights.getD s (0, 0)).2

/-- The dictionary with the species of foam/species.foam, the weights and elements of foam/thermo.foam, and the given streams.
An element that is not named is written as zero, which mixtureFraction.C:42-49 treats alike. -/
def Package.mixFracDict (D : Package) (oxidizer fuel : String → Option K) : MixFracDict K where
  species := D.foamNames
  W name := D.foamWeight (D.foamNames.idxOf name)
  elements name :=
    if name ∈ D.foamNames then
      let s := D.foamNames.idxOf name
      some ⟨some (D.foamCount "C" s), some (D.foamCount "H" s), some (D.foamCount "O" s)⟩
    else none
  oxidizer := oxidizer
  fuel := fuel

/-- tutorials/multicomponentFluid/shearlayer_DLB/constant/chemistryProperties:18-35 (and the same lines of shearlayer_DLB_pyJac). -/
def tutorialRefmapping : RefMapDict K where
  active := some true
  tolerance := some (1 / 10 ^ 4)
  deltaT := none
  mixFrac := some (yao.mixFracDict
    (fun s => if s = "N2" then some (77 / 100) else if s = "O2" then some (23 / 100) else none)
    (fun s => if s = "NC12H26" then some 1 else none))

end DLB
