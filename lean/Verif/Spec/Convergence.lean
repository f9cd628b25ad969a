import Mathlib.Analysis.Calculus.Deriv.Basic
import Mathlib.Analysis.Normed.Group.Constructions
import Mathlib.Analysis.Normed.Module.Basic
/-
What it means for a function to solve the equations, and how smooth the equations are around it.
`‖v‖` is the largest magnitude of the entries of `v`.
-/
set_option autoImplicit false

namespace DLB.Spec

variable {N : Nat}

/-- `φ` solves `y' = f(t, y)` on the interval from `a` to `b`. -/
def SolvesOn (f : ℝ → (Fin N → ℝ) → Fin N → ℝ) (φ : ℝ → Fin N → ℝ) (a b : ℝ) : Prop :=
  ∀ t ∈ Set.Icc a b, HasDerivWithinAt φ (f t (φ t)) (Set.Icc a b) t

/-- The states of interest: those at a distance of at most `ρ` from `φ`, at times from `a` to `b`. -/
def Near (φ : ℝ → Fin N → ℝ) (a b ρ t : ℝ) (z : Fin N → ℝ) : Prop :=
  t ∈ Set.Icc a b ∧ ‖z - φ t‖ ≤ ρ

/-- Near `φ` the right-hand side is bounded by `B`, and Lipschitz continuous with the constants `Λ`
in the state and `M` in time. -/
structure LipschitzNear (f : ℝ → (Fin N → ℝ) → Fin N → ℝ) (φ : ℝ → Fin N → ℝ) (a b ρ B Λ M : ℝ) :
    Prop where
  bound : ∀ t z, Near φ a b ρ t z → ‖f t z‖ ≤ B
  lipschitz : ∀ t z t' z', Near φ a b ρ t z → Near φ a b ρ t' z' →
    ‖f t z - f t' z'‖ ≤ Λ * ‖z - z'‖ + M * |t - t'|

/-- The absolute values in every row of the matrix add up to at most `L`. -/
def RowsAtMost (J : Fin N → Fin N → ℝ) (L : ℝ) : Prop := ∀ i, ∑ j, |J i j| ≤ L

/-- Near `φ` the right-hand side `f` has the derivatives `D` in the state and `g` in time, up to
errors bounded by `Q` times the square of the distance; `D` is bounded by `Λ`, and the second time
derivative of a solution, `D f + g`, is Lipschitz continuous in the state with the constant `Λ₂`. -/
structure SmoothNear (f : ℝ → (Fin N → ℝ) → Fin N → ℝ)
    (D : ℝ → (Fin N → ℝ) → (Fin N → ℝ) →ₗ[ℝ] (Fin N → ℝ)) (g : ℝ → (Fin N → ℝ) → Fin N → ℝ)
    (φ : ℝ → Fin N → ℝ) (a b ρ Λ Λ₂ Q : ℝ) : Prop where
  taylor : ∀ t z t' z', Near φ a b ρ t z → Near φ a b ρ t' z' →
    ‖f t' z' - f t z - D t z (z' - z) - (t' - t) • g t z‖ ≤ Q * (‖z' - z‖ + |t' - t|) ^ 2
  derivative : ∀ t z v, Near φ a b ρ t z → ‖D t z v‖ ≤ Λ * ‖v‖
  second : ∀ t z z', Near φ a b ρ t z → Near φ a b ρ t z' →
    ‖(D t z (f t z) + g t z) - (D t z' (f t z') + g t z')‖ ≤ Λ₂ * ‖z - z'‖

end DLB.Spec
