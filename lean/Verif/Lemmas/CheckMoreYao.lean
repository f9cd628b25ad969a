import Verif.Lemmas.MechanismMore
/-
The checks of the remaining functions of yao, evaluated by the kernel.
-/
set_option autoImplicit false
set_option maxRecDepth 100000

namespace DLB

theorem yao_more : MoreChecked yao yaoMore where
  templates := by decide +kernel
  safe := by decide +kernel
  mayer := by decide +kernel

end DLB
