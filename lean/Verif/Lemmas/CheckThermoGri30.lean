import Verif.Lemmas.Thermo
/-
The checks of the thermodynamics of the mechanism gri30, evaluated by the kernel.
-/
set_option autoImplicit false
set_option maxRecDepth 100000

namespace DLB

theorem gri30_thermo : ThermoChecked gri30 where
  pieces := by decide +kernel
  fit := by decide +kernel
  positive := by decide +kernel
  jump := by decide +kernel
  foam := by decide +kernel

end DLB
