import Verif.Lemmas.MechanismMore
/-
The checks of the remaining functions of drm19, evaluated by the kernel.
-/
set_option autoImplicit false
set_option maxRecDepth 100000

namespace DLB

theorem drm19_more : MoreChecked drm19 drm19More where
  templates := by decide +kernel
  safe := by decide +kernel
  mayer := by decide +kernel

end DLB
