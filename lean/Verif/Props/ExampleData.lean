import Verif.Model.Exact
import Verif.Model.World
import Mathlib.Data.List.Sort
/-
Concrete data used by the examples that accompany the property theorems.
-/
set_option autoImplicit false

namespace DLB.Example

/-- A concrete sort (insertion sort by value). -/
def sort (l : List (ChemistryLoad ℚ)) : List (ChemistryLoad ℚ) :=
  l.insertionSort (fun a b => a.value ≤ b.value)

theorem sort_perm (l : List (ChemistryLoad ℚ)) : (sort l).Perm l :=
  List.perm_insertionSort _ l

/-- A problem with the given measured time and cell. -/
def prob (t : ℚ) (cell : Nat) : ChemistryProblem ℚ :=
  { c := [1 / 2, 1 / 2], Ti := 300 + cell, pi := 100000, rhoi := 1, deltaTChem := 1 / 1000,
    deltaT := 1 / 100, cpuTime := t, cellid := cell }

/-- Three ranks with loads 7, 2 and 0. -/
def problems : Fin 3 → List (ChemistryProblem ℚ)
  | 0 => [prob 1 0, prob 1 1, prob 1 2, prob 1 3, prob 3 4]
  | 1 => [prob 2 0]
  | 2 => [prob 0 0]

end DLB.Example
