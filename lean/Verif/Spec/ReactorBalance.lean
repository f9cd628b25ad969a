import Verif.Spec.SecondLaw
/-
What the reactor conserves: enthalpy and atoms.  SI units with kmol.
-/
set_option autoImplicit false

namespace DLB
noncomputable section
namespace Chemistry
variable (X : Chemistry)

/-- Enthalpy of the mixture per mass. -/
def mixtureEnthalpy (T : ℝ) (Y : Nat → ℝ) : ℝ := ∑ i ∈ Finset.range X.nsp, Y i * X.enthalpy T i

/-- Atoms of an element (`atoms i` of them in a molecule of species `i`) in the mixture, per mass. -/
def atomsPerMass (atoms : Nat → Nat) (Y : Nat → ℝ) : ℝ := ∑ i ∈ Finset.range X.nsp, atoms i * (Y i / X.weight i)

end Chemistry
end
end DLB
