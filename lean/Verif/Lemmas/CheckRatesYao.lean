import Verif.Lemmas.RateBounds
/-
The check of the rate laws of the mechanism yao, evaluated by the kernel.
-/
set_option autoImplicit false
set_option maxRecDepth 100000
set_option maxHeartbeats 2000000

namespace DLB

theorem yao_laws : LawsChecked yao where
  rates := by decide +kernel
  pres := by decide +kernel

theorem yao_bounds : boundsOk yao = true := by decide +kernel

end DLB
