import Verif.Lemmas.RateBounds
/-
The check of the rate laws of the mechanism drm19, evaluated by the kernel.
-/
set_option autoImplicit false
set_option maxRecDepth 100000
set_option maxHeartbeats 2000000

namespace DLB

theorem drm19_laws : LawsChecked drm19 where
  rates := by decide +kernel
  pres := by decide +kernel

theorem drm19_bounds : boundsOk drm19 = true := by decide +kernel

end DLB
