import Verif.Spec.RateLaw
import Verif.Spec.Mechanism
import Mathlib.Analysis.SpecialFunctions.Pow.Real
/-
Textbook chemical kinetics over the reals, independent of pyJac: Arrhenius' law, equilibrium constants from
thermodynamics, falloff with Troe's broadening.  SI units with kmol.
-/
set_option autoImplicit false

namespace DLB

noncomputable section

namespace Arrhenius

/-- Activation temperature `E / R` in kelvin: `E` is in cal/mol, one calorie is 4.184 J. -/
def temperature (k : Arrhenius) : ℝ := SDec.val k.E * 4184 / gasR

/-- Rate coefficient of a reaction of the given order: `A T^b exp(-E / (R T))`, converted from cm^3/mol to m^3/kmol, a
factor of 1/1000 for every order beyond the first. -/
def coefficient (k : Arrhenius) (order : Nat) (T : ℝ) : ℝ :=
  SDec.val k.A / 1000 ^ (order - 1) * T ^ (SDec.val k.b : ℝ) * Real.exp (-(k.temperature / T))

end Arrhenius

/-- The order of a reaction; a third body counts as a reactant. -/
def Reaction.order (r : Reaction) : Nat :=
  r.reactants.length + match r.kind with
    | .thirdBody _ => 1
    | _ => 0

/-- Molar entropy over gas constant at standard pressure:
`a_0 ln T + a_1 T + a_2 T^2 / 2 + a_3 T^3 / 3 + a_4 T^4 / 4 + a_6`. -/
def sOverR (a : List SDec) (T : ℝ) : ℝ :=
  nasaCoeff a 0 * Real.log T + nasaCoeff a 1 * T + nasaCoeff a 2 * T ^ 2 / 2 + nasaCoeff a 3 * T ^ 3 / 3 +
    nasaCoeff a 4 * T ^ 4 / 4 + nasaCoeff a 6

/-- Molar Gibbs energy over `R T` at standard pressure: `h / (R T) - s / R`. -/
def gOverRT (a : List SDec) (T : ℝ) : ℝ := hOverR a T / T - sOverR a T

/-- Sum of the absolute values of the terms of `gOverRT`, and of `ln T`. -/
def gTerms (a : List SDec) (T : ℝ) : ℝ :=
  |nasaCoeff a 6| + |nasaCoeff a 0| + (|nasaCoeff a 0| + 1) * |Real.log T| + |nasaCoeff a 1| * T / 2 + |nasaCoeff a 2| * T ^ 2 / 6 +
    |nasaCoeff a 3| * T ^ 3 / 12 + |nasaCoeff a 4| * T ^ 4 / 20 + |nasaCoeff a 5| / T

/-- Standard pressure, one atmosphere, in Pa. -/
def standardPressure : ℝ := 101325

/-- Change of the number of molecules in a reaction. -/
def Reaction.molecules (r : Reaction) : Int := (r.products.length : Int) - r.reactants.length

/-- Equilibrium constant in concentrations: `exp(-sum of nu_i G_i / (R T)) (p0 / (R T))^(sum of nu_i)`; `fit i` are the polynomials of
species `i < nsp`. -/
def equilibriumConstant (nsp : Nat) (fit : Nat → Nasa) (r : Reaction) (T : ℝ) : ℝ :=
  Real.exp (-∑ i ∈ Finset.range nsp, (r.net i : ℝ) * gOverRT ((fit i).at T) T) *
    (standardPressure / (gasR * T)) ^ r.molecules

/-- `sum of |nu_i|` times the terms of the Gibbs energies. -/
def gibbsTerms (nsp : Nat) (fit : Nat → Nasa) (r : Reaction) (T : ℝ) : ℝ :=
  ∑ i ∈ Finset.range nsp, |(r.net i : ℝ)| * gTerms ((fit i).at T) T

/-- Logarithm to the base 10. -/
def lg (x : ℝ) : ℝ := Real.log x / Real.log 10

namespace Troe

/-- Broadening at the centre of the falloff: `(1 - A) exp(-T / T3) + A exp(-T / T1) + exp(-T2 / T)`, the last term only if `T2` is given. -/
def centre (t : Troe) (T : ℝ) : ℝ :=
  (1 - SDec.val t.A) * Real.exp (-(T / SDec.val t.T3)) + SDec.val t.A * Real.exp (-(T / SDec.val t.T1)) +
    match t.T2 with
    | some d => Real.exp (-(SDec.val d / T))
    | none => 0

/-- Troe's broadening factor at the reduced pressure `Pr`, with the centre `Fc`:
`lg F = lg Fc / (1 + ((lg Pr + c) / (n - 0.14 (lg Pr + c)))^2)`, `c = -0.4 - 0.67 lg Fc`, `n = 0.75 - 1.27 lg Fc`. -/
def factor (Fc Pr : ℝ) : ℝ :=
  let c := -(4 / 10) - 67 / 100 * lg Fc
  let n := 75 / 100 - 127 / 100 * lg Fc
  (10 : ℝ) ^ (lg Fc / (1 + ((lg Pr + c) / (n - 14 / 100 * (lg Pr + c))) ^ 2))

end Troe

end
end DLB
