import Verif.Lemmas.JacobLast
import Verif.Lemmas.CheckDrm19JacobT
/-
Kernel check of the statements of `eval_jacob` of drm19 for the first entry of the result.
-/
set_option autoImplicit false
set_option maxRecDepth 100000
set_option maxHeartbeats 2000000

namespace DLB

theorem drm19_cpAvg : cpAvgOk 20 Mech.Drm19.jacob = true := by decide +kernel

theorem drm19_last : lastOk drm19 20 drm19Weights Mech.Drm19.jacob = true := by decide +kernel

end DLB
