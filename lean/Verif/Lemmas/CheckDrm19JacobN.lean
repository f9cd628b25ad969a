import Verif.Lemmas.JacobDomain
import Verif.Lemmas.CheckDrm19Jacob
/-
Kernel check of the sizes of the quantities in the derivatives of drm19 and of the statements of `eval_jacob` before and after the
reactions.
-/
set_option autoImplicit false
set_option maxRecDepth 100000
set_option maxHeartbeats 2000000

namespace DLB

theorem drm19_jacobSizes : sizesOk drm19 = true := by decide +kernel

theorem drm19_db : dbOk drm19 Mech.Drm19.jacob = true := by decide +kernel

theorem drm19_rowT : ((List.range 20).all fun k => afterOk Mech.Drm19.jacob (k + 1)) = true := by decide +kernel

theorem drm19_lastActs : lastActs drm19 20 = true := by decide +kernel

theorem drm19_noMid : noMid drm19 1200 = true := by decide +kernel

end DLB
