import Verif.Spec.Reactor
/-
Chemical potentials, affinities and the entropy of a mixture of ideal gases, from the thermodynamic data of a mechanism.  SI units with kmol.
-/
set_option autoImplicit false

namespace DLB

noncomputable section

namespace Chemistry
variable (X : Chemistry)

/-- Chemical potential of species `i` over `R T`: `g_i(T) / (R T) + ln(p_i / p0)` with the partial pressure `p_i = C_i R T`. -/
def potential (T : ℝ) (C : Nat → ℝ) (i : Nat) : ℝ :=
  gOverRT ((X.fit i).at T) T + Real.log (C i * (gasR * T) / standardPressure)

/-- Affinity of a reaction over `R T`: `- sum of nu_i mu_i / (R T)`. -/
def affinity (n : Numbered) (T : ℝ) (C : Nat → ℝ) : ℝ := -∑ i ∈ Finset.range X.nsp, (n.r.net i : ℝ) * X.potential T C i

/-- Mole fractions: `(Y_i / W_i) / (sum of Y_j / W_j)`. -/
def moleFraction (Y : Nat → ℝ) (i : Nat) : ℝ := Y i / X.weight i / ∑ j ∈ Finset.range X.nsp, Y j / X.weight j

/-- Partial entropy of species `i` per mass: `R / W_i (s_i(T) / R - ln(x_i p / p0))`. -/
def partialEntropy (T p : ℝ) (Y : Nat → ℝ) (i : Nat) : ℝ :=
  gasR / X.weight i * (sOverR ((X.fit i).at T) T - Real.log (X.moleFraction Y i * p / standardPressure))

/-- Entropy of the mixture per mass. -/
def entropy (T p : ℝ) (Y : Nat → ℝ) : ℝ := ∑ i ∈ Finset.range X.nsp, Y i * X.partialEntropy T p Y i

/-- Heat capacity of the mixture per mass, at constant pressure. -/
def mixtureCp (T : ℝ) (Y : Nat → ℝ) : ℝ := ∑ i ∈ Finset.range X.nsp, X.cp T i * Y i

end Chemistry
end
end DLB
