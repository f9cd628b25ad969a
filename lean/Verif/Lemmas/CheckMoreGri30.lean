import Verif.Lemmas.MechanismMore
/-
The checks of the remaining functions of gri30, evaluated by the kernel.
-/
set_option autoImplicit false
set_option maxRecDepth 100000

namespace DLB

theorem gri30_more : MoreChecked gri30 gri30More where
  templates := by decide +kernel
  safe := by decide +kernel
  mayer := by decide +kernel

end DLB
