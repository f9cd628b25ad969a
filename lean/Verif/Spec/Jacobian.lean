import Verif.Spec.Reactor
/-
Where the right-hand side of the reactor is differentiable, and the sizes of the terms of its derivatives.
-/
set_option autoImplicit false

namespace DLB

namespace Chemistry
variable (X : Chemistry)

/-- The reduced pressures of falloff reactions with Troe's parameters are above the value 10^-300 at which they are cut off in
Troe's formula. -/
def AboveCutOff (T : ℝ) (C : Nat → ℝ) : Prop :=
  ∀ n ∈ number X.reactions, ∀ eff kInf k0 t, n.r.kind = .falloff eff → X.law n.k = .falloff kInf k0 (some t) →
    1 / 10 ^ 300 < X.reducedPressure n kInf k0 eff T C

/-- The temperature is none at which the thermodynamic polynomials change. -/
def BetweenFits (T : ℝ) : Prop := ∀ i, i < X.nsp → T ≠ ((X.fit i).tMid.1 : ℝ) / 10 ^ (X.fit i).tMid.2

/-- The contribution of a reaction to the rate of change of the mass fraction of species `i`. -/
noncomputable def dYdtFrom (n : Numbered) (T p : ℝ) (Y : Nat → ℝ) (i : Nat) : ℝ :=
  n.r.net i * ((X.forward n T (X.concentrations T p Y) - X.reverse n T (X.concentrations T p Y)) *
    X.modification n T (X.concentrations T p Y)) * X.weight i / X.density T p Y

/-- The derivative of the product of the concentrations of the species in a list by the concentration of species `j`. -/
noncomputable def productBy (l : List Nat) (C : Nat → ℝ) (j : Nat) : ℝ := l.count j * ((l.erase j).map C).prod

/-- The factor by which third bodies and the pressure modify the rate, per concentration of third bodies; zero if these do not enter. -/
noncomputable def modificationPer (n : Numbered) (T : ℝ) (C : Nat → ℝ) : ℝ := match n.r.kind with
  | .elementary => 0
  | .thirdBody _ => 1
  | .falloff eff => X.modification n T C / thirdBody X.nsp eff C

/-- The efficiency of species `i` as a third body of a reaction; zero if third bodies do not enter. -/
noncomputable def efficiencyOf (r : Reaction) (i : Nat) : ℝ := match r.kind with
  | .elementary => 0
  | .thirdBody eff => efficiency eff i
  | .falloff eff => efficiency eff i

/-- Sizes of the terms of the derivative of the rate of change of the mass fraction of species `i` by the mass fraction of species `j`,
that of the last species being one minus the others: by the density; by the concentrations of reactants and products; by the concentration of
third bodies. -/
noncomputable def dYdtByTerms (T p : ℝ) (Y : Nat → ℝ) (i j : Nat) : ℝ :=
  (1 / X.weight j + 1 / X.weight (X.nsp - 1)) / (∑ k ∈ Finset.range X.nsp, Y k / X.weight k) * X.dYdtTerms T p Y i +
  ((number X.reactions).map fun n => |(n.r.net i : ℝ)| * X.weight i *
    (X.modification n T (X.concentrations T p Y) * (X.coefficient n T *
        (productBy n.r.reactants (X.concentrations T p Y) j / X.weight j +
          productBy n.r.reactants (X.concentrations T p Y) (X.nsp - 1) / X.weight (X.nsp - 1)) +
      X.coefficient n T / equilibriumConstant X.nsp X.fit n.r T *
        (productBy n.r.products (X.concentrations T p Y) j / X.weight j +
          productBy n.r.products (X.concentrations T p Y) (X.nsp - 1) / X.weight (X.nsp - 1))) +
    X.modificationPer n T (X.concentrations T p Y) *
      ((efficiencyOf n.r j / X.weight j + efficiencyOf n.r (X.nsp - 1) / X.weight (X.nsp - 1)) *
        (X.forward n T (X.concentrations T p Y) + X.reverse n T (X.concentrations T p Y))))).sum

/-- Sum of the absolute values of the terms of the derivative of the heat capacity of species `i` by the temperature. -/
noncomputable def cpSlopeTerms (T : ℝ) (i : Nat) : ℝ :=
  let a := (X.fit i).at T
  gasR / X.weight i * (|nasaCoeff a 1| + |2 * nasaCoeff a 2 * T| + |3 * nasaCoeff a 3 * T ^ 2| + |4 * nasaCoeff a 4 * T ^ 3|)

/-- Mean heat capacity. -/
noncomputable def meanCp (T : ℝ) (Y : Nat → ℝ) : ℝ := ∑ i ∈ Finset.range X.nsp, X.cp T i * Y i

/-- Sizes of the terms of the derivative of the rate of change of the temperature by the mass fraction of species `j`, that of the last
species being one minus the others: by the rates of change of the mass fractions and by the mean heat capacity. -/
noncomputable def dTdtByTerms (T p : ℝ) (Y : Nat → ℝ) (j : Nat) : ℝ :=
  ∑ i ∈ Finset.range X.nsp, X.enthalpyTerms T i * (X.dYdtByTerms T p Y i j / X.meanCp T Y +
    X.dYdtTerms T p Y i * (X.cp T j + X.cp T (X.nsp - 1)) / X.meanCp T Y ^ 2)

/-- Sizes of the terms of the derivative of the rate of change of the temperature by the temperature: by the rates of change of the
mass fractions, by the enthalpies and by the mean heat capacity. -/
noncomputable def dTdtSlopeTerms (T p : ℝ) (Y : Nat → ℝ) : ℝ :=
  ∑ i ∈ Finset.range X.nsp, (X.enthalpyTerms T i * (X.dYdtTerms T p Y i / T) / X.meanCp T Y + X.cp T i * X.dYdtTerms T p Y i / X.meanCp T Y +
    X.enthalpyTerms T i * X.dYdtTerms T p Y i * (∑ k ∈ Finset.range X.nsp, Y k * X.cpSlopeTerms T k) / X.meanCp T Y ^ 2)

end Chemistry
end DLB
