import Verif.Lemmas.JacobGroups
import Verif.Lemmas.JacobLastN
import Verif.Lemmas.CheckGri30JacobT
/-
Kernel check of the statements of `eval_jacob` of gri30 from which the first entry comes.
-/
set_option autoImplicit false
set_option maxRecDepth 100000
set_option maxHeartbeats 2000000

namespace DLB

theorem gri30_cpAvg : cpAvgOk 52 Mech.Gri30.jacobSlice = true := by decide +kernel

theorem gri30_last : groupsOk gri30 52 gri30Weights true Mech.Gri30.jacobSlice.last [] = true := by decide +kernel

theorem gri30_lastFirst : onlyFirst Mech.Gri30.jacobSlice.last = true := by decide +kernel

/-- `J_nplusone` starts at zero. -/
theorem gri30_startN : (Mech.Gri30.jacobSlice.pre.map CStmt.target).contains (.var .jN) = true := by decide +kernel

/-- The last assignment to `J_nplusone` is that for reaction 260. -/
theorem gri30_lastN : lastNOk gri30 52 gri30Weights 260 Mech.Gri30.jacobSlice.parts = true := by decide +kernel

end DLB
