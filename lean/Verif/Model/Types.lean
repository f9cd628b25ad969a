import Verif.Model.Basic
/-
The three message types of the load balancer.
-/
set_option autoImplicit false

namespace DLB

/-- ChemistryLoad.H:43-82.  `label rank` is modelled by `Nat` (it is always
`Pstream::myProcNo()`, LoadBalancerBase.C:49). -/
structure ChemistryLoad (S : Type) where
  rank : Nat
  value : S
  deriving Repr, DecidableEq

/-- ChemistryLoad.H:74-77 `operator<`, the order `std::sort` uses. -/
def ChemistryLoad.lt {S : Type} [LT S] (a b : ChemistryLoad S) : Prop := a.value < b.value

/-- ChemistryProblem.H:41-69.  `label cellid` is modelled by `Nat` (it is always a
cell index, loadBalancedChemistryModel.C:377). -/
structure ChemistryProblem (S : Type) where
  c : List S
  Ti : S
  pi : S
  rhoi : S
  deltaTChem : S
  deltaT : S
  cpuTime : S
  cellid : Nat
  deriving Repr, DecidableEq

/-- ChemistrySolution.H:41-66. -/
structure ChemistrySolution (S : Type) where
  rr : List S
  deltaTChem : S
  cpuTime : S
  cellid : Nat
  rhoi : S
  deriving Repr, DecidableEq

/-- LoadBalancer.H:61-65 `Operation`. -/
structure Operation (S : Type) where
  src : Nat
  dst : Nat
  value : S
  deriving Repr, DecidableEq

/-- LoadBalancerBase.H:58-64 `BalancerState`.  Counts are `label`, modelled by `Int`
so that a wrong subtraction would show up as a negative number. -/
structure BalancerState where
  sources : List Nat
  destinations : List Nat
  nProblems : List Int
  nRemaining : Int
  deriving Repr, DecidableEq

end DLB
