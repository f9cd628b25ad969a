import Mathlib.Algebra.Field.Defs
import Mathlib.Order.Defs.LinearOrder
import Mathlib.Algebra.BigOperators.Group.Finset.Basic
/-
What a chemical mechanism means, independent of pyJac: reactions, stoichiometry, rates of
progress and production rates (textbook definitions).
-/
set_option autoImplicit false

namespace DLB

/-- Elementary reactions, reactions with a third body and falloff reactions.  The list gives the third
body efficiencies `m * 10^(-e)` of the species that have one; all other species have efficiency 1. -/
inductive ReactionKind where
  | elementary
  | thirdBody (eff : List (Nat × Nat × Nat))
  | falloff (eff : List (Nat × Nat × Nat))
  deriving DecidableEq, Repr

/-- A reaction: species numbers of reactants and products (with multiplicity). -/
structure Reaction where
  reactants : List Nat
  products : List Nat
  reversible : Bool
  kind : ReactionKind
  deriving DecidableEq, Repr

namespace Reaction

/-- Net stoichiometric coefficient of species `s`. -/
def net (r : Reaction) (s : Nat) : Int := (r.products.count s : Int) - (r.reactants.count s : Int)

/-- Does the pressure modify the rate of the reaction? -/
def modified (r : Reaction) : Bool := decide (r.kind ≠ .elementary)

end Reaction

/-- A reaction with its number among all reactions, among the reversible reactions and among the reactions with
a pressure modification. -/
structure Numbered where
  r : Reaction
  k : Nat
  j : Nat
  p : Nat
  deriving DecidableEq, Repr

/-- Number the reactions of a mechanism, starting from `k`, `j` and `p`. -/
def numberFrom : List Reaction → Nat → Nat → Nat → List Numbered
  | [], _, _, _ => []
  | r :: rs, k, j, p =>
    ⟨r, k, j, p⟩ :: numberFrom rs (k + 1) (if r.reversible then j + 1 else j) (if r.modified then p + 1 else p)

/-- Number the reactions of a mechanism. -/
def number (rs : List Reaction) : List Numbered := numberFrom rs 0 0 0

variable {K : Type} [Field K]

/-- Net rate of progress of a reaction: (forward - reverse) times the pressure modification, if any. -/
def Numbered.progress (n : Numbered) (fwd rev pm : Nat → K) : K :=
  (if n.r.reversible then fwd n.k - rev n.j else fwd n.k) * (if n.r.modified then pm n.p else 1)

/-- Molar production rate of species `s`: sum over the reactions of net coefficient times rate of progress. -/
def productionRate (rs : List Reaction) (fwd rev pm : Nat → K) (s : Nat) : K :=
  ((number rs).map fun n => (n.r.net s : K) * n.progress fwd rev pm).sum

/-- Third body efficiency of species `i` as a decimal number; 1 if not listed. -/
def effDec (eff : List (Nat × Nat × Nat)) (i : Nat) : Nat × Nat :=
  match eff.find? (fun x => decide (x.1 = i)) with
  | some x => x.2
  | none => (1, 0)

/-- Third body efficiency of species `i`. -/
def efficiency (eff : List (Nat × Nat × Nat)) (i : Nat) : K :=
  ((effDec eff i).1 : K) / 10 ^ (effDec eff i).2

/-- Effective third body concentration: sum of the concentrations weighted with the efficiencies. -/
def thirdBody (nsp : Nat) (eff : List (Nat × Nat × Nat)) (C : Nat → K) : K :=
  ∑ i ∈ Finset.range nsp, efficiency eff i * C i

/-- How a pressure modification `f` must depend on the concentrations `C` with total concentration `total`: the third body
concentration; for falloff reactions `F Pr / (1 + Pr)` with the reduced pressure `Pr` proportional to the third body concentration and a positive
broadening factor `F`. -/
def PressureFactor [LinearOrder K] (nsp : Nat) (total : K) : ReactionKind → ((Nat → K) → K) → Prop
  | .elementary, _ => True
  | .thirdBody eff, f => ∀ C, ∑ i ∈ Finset.range nsp, C i = total → f C = thirdBody nsp eff C
  | .falloff eff, f => ∃ κ, 0 < κ ∧ ∃ F : (Nat → K) → K, (∀ C, 0 < F C) ∧
      ∀ C, ∑ i ∈ Finset.range nsp, C i = total →
        f C = F C * (κ * thirdBody nsp eff C) / (1 + κ * thirdBody nsp eff C)

/-- Forward and reverse rates of progress and pressure modifications of the reactions `rs` as they must be for the concentrations
`C`: law of mass action, third bodies and falloff. -/
structure RatesAt [LinearOrder K] (rs : List Reaction) (nsp : Nat) (C fwd rev pm : Nat → K) : Prop where
  forward : ∀ n ∈ number rs, ∃ kf, 0 < kf ∧ fwd n.k = kf * (n.r.reactants.map C).prod
  reverse : ∀ n ∈ number rs, n.r.reversible = true → ∃ kr, 0 < kr ∧ rev n.j = kr * (n.r.products.map C).prod
  third : ∀ n ∈ number rs, ∀ eff, n.r.kind = .thirdBody eff → pm n.p = thirdBody nsp eff C
  falloff : ∀ n ∈ number rs, ∀ eff, n.r.kind = .falloff eff → ∃ κ F, 0 < κ ∧ 0 < F ∧
    pm n.p = F * (κ * thirdBody nsp eff C) / (1 + κ * thirdBody nsp eff C)

/-- A composition of `n + 1` species of which the first `n` fractions are given; the last one is the complement to one. -/
def complement (n : Nat) (y : Nat → K) (i : Nat) : K :=
  if i = n then 1 - ∑ j ∈ Finset.range n, y j else y i

/-- The universal gas constant in J/(kmol K). -/
def gasR : K := (83144621 : K) / 10 ^ 4

/-- Atomic weights in units of 10^-5 kg/kmol. -/
def atomicWeight5 : String → Nat
  | "O" => 1599940
  | "H" => 100794
  | "C" => 1201100
  | "N" => 1400674
  | "Ar" => 3994800
  | _ => 0

/-- Molecular weight in units of 10^-5 kg/kmol of a molecule with the given numbers of atoms of the elements. -/
def molWeight5 (elements : List String) (atoms : List Nat) : Nat :=
  (List.zipWith (fun a e => a * atomicWeight5 e) atoms elements).sum

end DLB
