import Verif.Lemmas.JacobDomain
import Verif.Lemmas.CheckGri30Jacob
/-
Kernel check of the sizes of the quantities in the derivatives of gri30 and of the statements of `eval_jacob` before the reactions.
-/
set_option autoImplicit false
set_option maxRecDepth 100000
set_option maxHeartbeats 2000000

namespace DLB

theorem gri30_jacobSizes : sizesOk gri30 = true := by decide +kernel

theorem gri30_db : dbOk gri30 Mech.Gri30.jacobSlice = true := by decide +kernel

theorem gri30_rowT : ((List.range 52).all fun k => afterOk Mech.Gri30.jacobSlice (k + 1)) = true := by decide +kernel

theorem gri30_lastActs : lastActs gri30 52 = true := by decide +kernel

theorem gri30_noMid : noMid gri30 1200 = true := by decide +kernel

end DLB
