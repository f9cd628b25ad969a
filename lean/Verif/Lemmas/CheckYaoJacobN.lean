import Verif.Lemmas.JacobDomain
import Verif.Lemmas.CheckYaoJacob
/-
Kernel check of the sizes of the quantities in the derivatives of yao and of the statements of `eval_jacob` before the reactions.
-/
set_option autoImplicit false
set_option maxRecDepth 100000
set_option maxHeartbeats 2000000

namespace DLB

theorem yao_jacobSizes : sizesOk yao = true := by decide +kernel

theorem yao_db : dbOk yao Mech.Yao.jacobSlice = true := by decide +kernel

theorem yao_rowT : ((List.range 53).all fun k => afterOk Mech.Yao.jacobSlice (k + 1)) = true := by decide +kernel

theorem yao_lastActs : lastActs yao 53 = true := by decide +kernel

theorem yao_noMid : noMid yao 1200 = true := by decide +kernel

end DLB
