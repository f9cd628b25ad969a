import Verif.Spec.Reactor
/-
Reactions as OpenFOAM's reaction files write them (units: m, s, kmol, K), and their forward rates.
-/
set_option autoImplicit false

namespace DLB

/-- `A`, `beta`, `Ta`: the rate coefficient `A T^beta exp(-Ta / T)`. -/
structure FoamRate where
  A : SDec
  beta : SDec
  Ta : SDec
  deriving DecidableEq, Repr

/-- The coefficients of Troe's broadening. -/
structure FoamTroe where
  alpha : SDec
  Tsss : SDec
  Ts : SDec
  Tss : SDec
  deriving DecidableEq, Repr

/-- The entries of a reaction by its type: `ArrheniusReaction`, `ThirdBodyArrhenius`, and `ArrheniusLindemannFallOffReaction` (no broadening)
or `ArrheniusTroeFallOffReaction`.  The last list has the third body efficiencies `m * 10^(-e)`. -/
inductive FoamLaw where
  | arrhenius (k : FoamRate)
  | thirdBody (k : FoamRate) (eff : List (Nat × Nat × Nat))
  | falloff (k0 kInf : FoamRate) (F : Option FoamTroe) (eff : List (Nat × Nat × Nat))
  deriving DecidableEq, Repr

/-- The third body efficiencies of a reaction that has them. -/
def FoamLaw.efficiencies : FoamLaw → Option (List (Nat × Nat × Nat))
  | .arrhenius _ => none
  | .thirdBody _ eff => some eff
  | .falloff _ _ _ eff => some eff

/-- A reaction: species numbers of reactants and products (with multiplicity). -/
structure FoamReaction where
  reactants : List Nat
  products : List Nat
  reversible : Bool
  law : FoamLaw
  deriving DecidableEq, Repr

noncomputable section

/-- `A T^beta exp(-Ta / T)`. -/
def FoamRate.coefficient (k : FoamRate) (T : ℝ) : ℝ :=
  SDec.val k.A * T ^ (SDec.val k.beta : ℝ) * Real.exp (-(SDec.val k.Ta / T))

/-- `(1 - alpha) exp(-T / Tsss) + alpha exp(-T / Ts) + exp(-Tss / T)`. -/
def FoamTroe.centre (t : FoamTroe) (T : ℝ) : ℝ :=
  (1 - SDec.val t.alpha) * Real.exp (-(T / SDec.val t.Tsss)) + SDec.val t.alpha * Real.exp (-(T / SDec.val t.Ts)) +
    Real.exp (-(SDec.val t.Tss / T))

namespace FoamReaction

/-- Reduced pressure `k0 [M] / kInf`. -/
def reducedPressure (nsp : Nat) (k0 kInf : FoamRate) (eff : List (Nat × Nat × Nat)) (T : ℝ) (C : Nat → ℝ) : ℝ :=
  k0.coefficient T * DLB.thirdBody nsp eff C / kInf.coefficient T

/-- The reaction has Troe's broadening and is at the pole of its formula. -/
def AtPole (f : FoamReaction) (nsp : Nat) (T : ℝ) (C : Nat → ℝ) : Prop :=
  match f.law with
  | .falloff k0 kInf (some t) eff =>
    lg (max (reducedPressure nsp k0 kInf eff T C) (1 / 10 ^ 300)) = Troe.pole (t.centre T)
  | _ => False

/-- The forward rate of progress at the temperature `T` and the concentrations `C` of `nsp` species. In Troe's factor the reduced pressure is at
least 10^-300, as for chem.cti. -/
def rate (f : FoamReaction) (nsp : Nat) (T : ℝ) (C : Nat → ℝ) : ℝ :=
  (match f.law with
    | .arrhenius k => k.coefficient T
    | .thirdBody k eff => k.coefficient T * DLB.thirdBody nsp eff C
    | .falloff k0 kInf none eff =>
      kInf.coefficient T * (reducedPressure nsp k0 kInf eff T C / (1 + reducedPressure nsp k0 kInf eff T C))
    | .falloff k0 kInf (some t) eff =>
      kInf.coefficient T * (reducedPressure nsp k0 kInf eff T C / (1 + reducedPressure nsp k0 kInf eff T C)) *
        Troe.factor (t.centre T) (max (reducedPressure nsp k0 kInf eff T C) (1 / 10 ^ 300))) *
    (f.reactants.map C).prod

end FoamReaction
end
end DLB
