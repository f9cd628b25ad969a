import Verif.Lemmas.JacobEnd
import Verif.Lemmas.CheckDrm19JacobT
/-
Kernel check of the statements of `eval_jacob` of drm19 after the reactions.
-/
set_option autoImplicit false
set_option maxRecDepth 100000
set_option maxHeartbeats 2000000

namespace DLB

theorem drm19_cpAvgFirst : onlyFirst Mech.Drm19.jacob.cpAvg = true := by decide +kernel

theorem drm19_lastFirst : onlyFirst Mech.Drm19.jacob.last = true := by decide +kernel

theorem drm19_endStart : endStartOk Mech.Drm19.jacob = true := by decide +kernel

theorem drm19_endRows : endOk drm19.nsp drm19Weights (endPairs drm19.nsp) Mech.Drm19.jacob.endRows.flatten = true := by decide +kernel

/-- The last two species take no part in any reaction in net. -/
theorem drm19_inert : ((number drm19.reactions).all fun n => decide (n.r.net 19 = 0) && decide (n.r.net 20 = 0)) = true := by decide +kernel

end DLB
