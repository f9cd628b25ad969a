import Verif.Lemmas.JacobGroups
import Verif.Lemmas.CheckYaoJacobT
/-
Kernel check of the statements of `eval_jacob` of yao from which the first entry comes.
-/
set_option autoImplicit false
set_option maxRecDepth 100000
set_option maxHeartbeats 2000000

namespace DLB

theorem yao_cpAvg : cpAvgOk 53 Mech.Yao.jacobSlice = true := by decide +kernel

theorem yao_last : groupsOk yao 53 yaoWeights false Mech.Yao.jacobSlice.last [] = true := by decide +kernel

theorem yao_lastFirst : onlyFirst Mech.Yao.jacobSlice.last = true := by decide +kernel

/-- Nitrogen is changed by no reaction of yao. -/
theorem yao_inert : (number yao.reactions).all (fun n => n.r.net 53 == 0) = true := by decide +kernel

end DLB
