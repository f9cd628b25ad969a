import Verif.Spec.Convergence
import Verif.Spec.ReactorState
/-
Solutions of the reactor, and how smooth the reactor is around them.
-/
set_option autoImplicit false

namespace DLB
open Spec

/-- No mass fraction of the state (temperature, mass fractions of all species but the last, pressure) is
negative. -/
def NonNegative {m : Nat} (z : Fin (m + 2) → ℝ) : Prop := ∀ i : Fin m, 0 ≤ z i.castSucc.succ

/-- States inside the domain of the reactor: admissible, between 200 K and 5000 K but at no temperature at
which the thermodynamic polynomials change, and the last species is present. -/
structure Chemistry.Interior {m : Nat} (X : Chemistry) (z : Fin (m + 2) → ℝ) : Prop extends X.Admissible z where
  inside : 200 < z 0 ∧ z 0 < 5000
  fits : X.BetweenFits (z 0)
  last : 0 < stateComposition z m

/-- States inside the domain in which all species are present, and no reduced pressure in a Troe formula is so small
that the formula uses `10^-300` in its place. -/
structure Chemistry.AllPresent {m : Nat} (X : Chemistry) (z : Fin (m + 2) → ℝ) : Prop extends X.Interior z where
  present : ∀ i, i < m → 0 < stateComposition z i
  cutOff : X.AboveCutOff (z 0) (X.concentrations (z 0) (z (Fin.last (m + 1))) (stateComposition z))

/-- `φ` is a solution of the reactor up to time `b`, and up to a distance `ρ` from it, as far as no mass
fraction is negative, the states are admissible, the terms of the rates of change add up to at most
`S`, and the rates are bounded by `B` and Lipschitz continuous with the constant `Λ`. -/
structure Chemistry.Tube {m : Nat} (X : Chemistry) (φ : ℝ → Fin (m + 2) → ℝ) (b ρ B Λ S : ℝ) : Prop where
  solves : SolvesOn (fun _ => X.stateRate) φ 0 b
  admissible : ∀ t z, Spec.Near φ 0 b ρ t z → NonNegative z → X.Admissible z
  terms : ∀ t z, Spec.Near φ 0 b ρ t z → NonNegative z → ∀ i, X.stateTerms z i ≤ S
  bound : ∀ t z, Spec.Near φ 0 b ρ t z → NonNegative z → ‖X.stateRate z‖ ≤ B
  lipschitz : ∀ t z t' z', Spec.Near φ 0 b ρ t z → Spec.Near φ 0 b ρ t' z' → NonNegative z → NonNegative z' →
    ‖X.stateRate z - X.stateRate z'‖ ≤ Λ * ‖z - z'‖
  nonNegative : ∀ t ∈ Set.Icc 0 b, NonNegative (φ t)

end DLB
