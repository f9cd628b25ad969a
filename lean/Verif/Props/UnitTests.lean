import Verif.Model.Binary64
import Verif.Model.Serial
import Verif.Props.RoundedMixture
/-
The checks of the repository's unit tests (tests/unittests/*.C), on the model, with doubles where the tests use them.  These are not proofs of
properties but evidence that the model follows the code; what the tests sample, the theorems of the other files prove for all inputs.

Not repeated: tests on random data (their checks are the theorems C04, C20) and tests of the constructors.
-/
set_option autoImplicit false

namespace DLB.UnitTests

/-- The lambda `sum_upto` of testAlgorithms.C:17-21, with the sum as its state. -/
def sumUpto {S : Type} [Add S] [LE S] [DecidableLE S] (max : S) (sum i : S) : Bool × S := (decide (sum + i ≤ max), sum + i)

/-- testAlgorithms.C:11-57, integers, forward and reverse. -/
example : [4, 11, 19, 1000].map (fun max => countWhile (sumUpto max) 0 [1, 10, 3, 5]) = [1, 2, 4, 4] ∧
    [5, 7, 18, 1000].map (fun max => countWhile (sumUpto max) 0 [1, 10, 3, 5].reverse) = [1, 1, 3, 4] := by decide

/-- A problem with the given time; the other entries do not matter. -/
def timed (t : ℚ) : ChemistryProblem (Fl binary64) := ⟨[], 0, 0, 0, 0, 0, Example.d64 t, 0⟩

/-- The lambda of testAlgorithms.C:76-79. -/
def timeUpto (max : Fl binary64) (sum : Fl binary64) (p : ChemistryProblem (Fl binary64)) : Bool × Fl binary64 := sumUpto max sum p.cpuTime

/-- testAlgorithms.C:60-148, problems, forward and reverse. -/
example : [4, 11, 19, 1000].map (fun max => countWhile (timeUpto (Example.d64 max)) 0 ([1, 10, 3, 5].map timed)) = [1, 2, 4, 4] ∧
    [5, 7, 18, 1000].map (fun max => countWhile (timeUpto (Example.d64 max)) 0 ([1, 10, 3, 5].map timed).reverse) = [1, 1, 3, 4] := by
  decide +kernel

/-- testLoadBalancer.C:33-48: the loads with the least and the largest value. -/
example : (getMin [⟨1, Example.d64 1⟩, ⟨2, Example.d64 2⟩, ⟨3, Example.d64 3⟩]).toOption.map (fun l => (l.rank, l.value.val)) = some (1, 1) ∧
    (getMax [⟨1, Example.d64 1⟩, ⟨2, Example.d64 2⟩, ⟨3, Example.d64 3⟩]).toOption.map (fun l => (l.rank, l.value.val)) = some (3, 3) := by
  decide +kernel

/-- testLoadBalancer.C:50-77: three problems of one second each. -/
example : timesToProblemCounts [Example.d64 (11 / 10), Example.d64 (11 / 10)] (List.replicate 3 (timed 1)) = [1, 1] ∧
    timesToProblemCounts [Example.d64 (21 / 10), Example.d64 (9 / 10)] (List.replicate 3 (timed 1)) = [2, 0] := by
  decide +kernel

/-- testChemistryLoad.C:32-66: a load that is sent arrives. -/
example : (getLoad (putLoad (⟨43, Example.d64 (1433531 / 1000000)⟩ : ChemistryLoad (Fl binary64)))).toOption.map
    (fun r => (r.1.rank, r.1.value.val, r.2.length)) = some (43, (Example.d64 (1433531 / 1000000)).val, 0) := by
  decide +kernel

/-- testLoadBalancerBase.C:10-30,72-111: problems that are sent arrive, in order. -/
example :
    let problems : List (ChemistryProblem ℚ) := (List.range 10).map fun i => ⟨List.replicate 10 (801 / 25), 13, 54, 0, 3 / 10, 0, 0, i⟩
    (getList getProblem (putList putProblem problems)).toOption.map Prod.fst = some problems := by
  decide +kernel

end DLB.UnitTests
