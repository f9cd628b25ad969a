import Verif.Lemmas.RateBounds
/-
The check of the rate laws of the mechanism gri30, evaluated by the kernel.
-/
set_option autoImplicit false
set_option maxRecDepth 100000
set_option maxHeartbeats 2000000

namespace DLB

theorem gri30_laws : LawsChecked gri30 where
  rates := by decide +kernel
  pres := by decide +kernel

theorem gri30_bounds : boundsOk gri30 = true := by decide +kernel

end DLB
