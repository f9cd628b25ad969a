import Verif.Lemmas.JacobCalls
import Verif.Lemmas.CheckDrm19
import Verif.Mech.Drm19JacobSrc
/-
`eval_jacob` of drm19 reads nothing that is uninitialised or outside of an array.
-/
set_option autoImplicit false
set_option maxRecDepth 100000

namespace DLB

theorem drm19_jacobSafe : checkJacobSafe drm19.mech Mech.Drm19.jacob = true := by decide +kernel

theorem drm19_jacobCpAvg : Mech.Drm19.jacob.cpAvg = jacobCpAvgT 20 := by decide +kernel

end DLB
