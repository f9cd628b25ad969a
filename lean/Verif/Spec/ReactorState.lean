import Verif.Spec.Jacobian
/-
The reactor as a system of differential equations for the state vector of the integrator: temperature, mass fractions of all species but the
last, pressure.
-/
set_option autoImplicit false

namespace DLB

/-- The composition in a state of temperature, mass fractions of all species but the last, and pressure. -/
noncomputable def stateComposition {m : Nat} (z : Fin (m + 2) → ℝ) : Nat → ℝ :=
  complement m fun k => if h : k < m then z ⟨k + 1, by omega⟩ else 0

namespace Chemistry
variable (X : Chemistry)

/-- The rate of change of such a state in the reactor at constant pressure. -/
noncomputable def stateRate {m : Nat} (z : Fin (m + 2) → ℝ) (i : Fin (m + 2)) : ℝ :=
  if i.val = 0 then X.dTdt (z 0) (z (Fin.last (m + 1))) (stateComposition z)
  else if i.val = m + 1 then 0
  else X.dYdt (z 0) (z (Fin.last (m + 1))) (stateComposition z) (i.val - 1)

/-- Sum of the absolute values of the terms of the rate of change of entry `i` of a state (temperature, mass fractions of all species but the
last, pressure). -/
noncomputable def stateTerms {m : Nat} (z : Fin (m + 2) → ℝ) (i : Fin (m + 2)) : ℝ :=
  if i.val = 0 then X.dTdtTerms (z 0) (z (Fin.last (m + 1))) (stateComposition z)
  else if i.val = m + 1 then 0
  else X.dYdtTerms (z 0) (z (Fin.last (m + 1))) (stateComposition z) (i.val - 1)

/-- Sizes of the terms of the derivative of the rate of change of entry `i` of a state by entry `j`, which is not the pressure. -/
noncomputable def stateSlopeTerms {m : Nat} (z : Fin (m + 2) → ℝ) (i j : Fin (m + 2)) : ℝ :=
  if i.val = m + 1 then 0
  else if i.val = 0 then
    if j.val = 0 then X.dTdtSlopeTerms (z 0) (z (Fin.last (m + 1))) (stateComposition z)
    else X.dTdtByTerms (z 0) (z (Fin.last (m + 1))) (stateComposition z) (j.val - 1)
  else
    if j.val = 0 then X.dYdtTerms (z 0) (z (Fin.last (m + 1))) (stateComposition z) (i.val - 1) / z 0
    else X.dYdtByTerms (z 0) (z (Fin.last (m + 1))) (stateComposition z) (i.val - 1) (j.val - 1)

/-- States at which the rate of change is defined: from 200 K to 5000 K, positive pressure, no negative mass fraction, no reaction at the
pole of Troe's formula. -/
structure Admissible {m : Nat} (z : Fin (m + 2) → ℝ) : Prop where
  temperature : 200 ≤ z 0 ∧ z 0 ≤ 5000
  pressure : 0 < z (Fin.last (m + 1))
  fractions : ∀ i, i < m + 1 → 0 ≤ stateComposition z i
  poles : X.AwayFromPoles (z 0) (X.concentrations (z 0) (z (Fin.last (m + 1))) (stateComposition z))

/-- States at which it is differentiable. -/
structure Smooth {m : Nat} (z : Fin (m + 2) → ℝ) : Prop extends X.Admissible z where
  fits : X.BetweenFits (z 0)
  cutOff : X.AboveCutOff (z 0) (X.concentrations (z 0) (z (Fin.last (m + 1))) (stateComposition z))

end Chemistry
end DLB
