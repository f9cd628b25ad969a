import Verif.Spec.Kinetics
/-
The homogeneous reactor at constant pressure, written from a chemical mechanism alone, independent of pyJac: the right-hand side
of the equations for mass fractions and temperature.  SI units with kmol.
-/
set_option autoImplicit false

namespace DLB

noncomputable section

/-- The value of `lg Pr` at which the denominator `n - 0.14 (lg Pr + c)` of Troe's formula vanishes. -/
def Troe.pole (Fc : ℝ) : ℝ :=
  (75 / 100 - 127 / 100 * lg Fc) * (100 / 14) - (-(4 / 10) - 67 / 100 * lg Fc)

/-- What a mechanism file gives: the number of species, the reactions, their rate laws (by number of the reaction), the thermodynamic
polynomials and the molecular weights of the species. -/
structure Chemistry where
  nsp : Nat
  reactions : List Reaction
  law : Nat → RateLaw
  fit : Nat → Nasa
  weight : Nat → ℝ

namespace Chemistry
variable (X : Chemistry)

/-- Rate coefficient of a reaction (in the limit of high pressure). -/
def coefficient (n : Numbered) (T : ℝ) : ℝ := (X.law n.k).high.coefficient n.r.order T

/-- Forward rate: the rate coefficient times the concentrations of the reactants. -/
def forward (n : Numbered) (T : ℝ) (C : Nat → ℝ) : ℝ := X.coefficient n T * (n.r.reactants.map C).prod

/-- Reverse rate: forward coefficient over equilibrium constant times the concentrations of the products; zero if irreversible. -/
def reverse (n : Numbered) (T : ℝ) (C : Nat → ℝ) : ℝ :=
  if n.r.reversible then X.coefficient n T / equilibriumConstant X.nsp X.fit n.r T * (n.r.products.map C).prod else 0

/-- Reduced pressure `k0 [M] / kInf` of a falloff reaction. -/
def reducedPressure (n : Numbered) (kInf k0 : Arrhenius) (eff : List (Nat × Nat × Nat)) (T : ℝ) (C : Nat → ℝ) : ℝ :=
  k0.coefficient (n.r.reactants.length + 1) T * thirdBody X.nsp eff C / kInf.coefficient n.r.reactants.length T

/-- Factor by which third bodies and the pressure modify the rate: 1, the concentration of third bodies, or `F Pr / (1 + Pr)` with
`F = 1` (Lindemann) or Troe's factor, in which `Pr` is at least 10^-300 (as in Cantera). -/
def modification (n : Numbered) (T : ℝ) (C : Nat → ℝ) : ℝ := match n.r.kind, X.law n.k with
  | .elementary, _ => 1
  | .thirdBody eff, _ => thirdBody X.nsp eff C
  | .falloff eff, .falloff kInf k0 none =>
    X.reducedPressure n kInf k0 eff T C / (1 + X.reducedPressure n kInf k0 eff T C)
  | .falloff eff, .falloff kInf k0 (some t) =>
    Troe.factor (t.centre T) (max (X.reducedPressure n kInf k0 eff T C) (1 / 10 ^ 300)) *
      X.reducedPressure n kInf k0 eff T C / (1 + X.reducedPressure n kInf k0 eff T C)
  | .falloff _, .simple _ => 0

/-- No falloff reaction with Troe's parameters is at the pole of the denominator `n - 0.14 (lg Pr + c)`, by a margin of 10^-9 in `lg Pr`. -/
def AwayFromPoles (T : ℝ) (C : Nat → ℝ) : Prop :=
  ∀ n ∈ number X.reactions, ∀ eff kInf k0 t, n.r.kind = .falloff eff → X.law n.k = .falloff kInf k0 (some t) →
    1 / 10 ^ 9 < |lg (max (X.reducedPressure n kInf k0 eff T C) (1 / 10 ^ 300)) - Troe.pole (t.centre T)|

/-- Molar production rate of species `i`: stoichiometric coefficients times net rates of the reactions. -/
def production (T : ℝ) (C : Nat → ℝ) (i : Nat) : ℝ :=
  ((number X.reactions).map fun n => (n.r.net i : ℝ) * ((X.forward n T C - X.reverse n T C) * X.modification n T C)).sum

/-- The same with absolute values, forward and reverse rates added: the total turnover of species `i`. -/
def turnover (T : ℝ) (C : Nat → ℝ) (i : Nat) : ℝ :=
  ((number X.reactions).map fun n => |(n.r.net i : ℝ)| * ((X.forward n T C + X.reverse n T C) * X.modification n T C)).sum

/-- Density of the ideal gas: `p / (R T sum of Y_i / W_i)`. -/
def density (T p : ℝ) (Y : Nat → ℝ) : ℝ := p / (gasR * T * ∑ i ∈ Finset.range X.nsp, Y i / X.weight i)

/-- Molar concentrations: `rho Y_i / W_i`. -/
def concentrations (T p : ℝ) (Y : Nat → ℝ) (i : Nat) : ℝ := X.density T p Y * Y i / X.weight i

/-- Heat capacity at constant pressure per mass of species `i`. -/
def cp (T : ℝ) (i : Nat) : ℝ := gasR / X.weight i * cpOverR ((X.fit i).at T) T

/-- Enthalpy per mass of species `i`. -/
def enthalpy (T : ℝ) (i : Nat) : ℝ := gasR / X.weight i * hOverR ((X.fit i).at T) T

/-- Sum of the absolute values of the terms of the enthalpy. -/
def enthalpyTerms (T : ℝ) (i : Nat) : ℝ := gasR / X.weight i * hTerms ((X.fit i).at T) T

/-- Rate of change of the mass fraction of species `i`. -/
def dYdt (T p : ℝ) (Y : Nat → ℝ) (i : Nat) : ℝ :=
  X.production T (X.concentrations T p Y) i * X.weight i / X.density T p Y

/-- Turnover in terms of the mass fraction. -/
def dYdtTerms (T p : ℝ) (Y : Nat → ℝ) (i : Nat) : ℝ :=
  X.turnover T (X.concentrations T p Y) i * X.weight i / X.density T p Y

/-- Rate of change of the temperature at constant pressure and enthalpy. -/
def dTdt (T p : ℝ) (Y : Nat → ℝ) : ℝ :=
  -(∑ i ∈ Finset.range X.nsp, X.enthalpy T i * X.dYdt T p Y i) / ∑ i ∈ Finset.range X.nsp, X.cp T i * Y i

/-- The same with absolute values. -/
def dTdtTerms (T p : ℝ) (Y : Nat → ℝ) : ℝ :=
  (∑ i ∈ Finset.range X.nsp, X.enthalpyTerms T i * X.dYdtTerms T p Y i) / ∑ i ∈ Finset.range X.nsp, X.cp T i * Y i

end Chemistry
end
end DLB
