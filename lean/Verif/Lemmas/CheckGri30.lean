import Verif.Lemmas.MechChecks
/-
The checks of the mechanism gri30, evaluated by the kernel.
-/
set_option autoImplicit false
set_option maxRecDepth 100000

namespace DLB

theorem gri30_sizes : checkSizes gri30.mech gri30.reactions = true := by decide +kernel
theorem gri30_rates : checkRates gri30.mech gri30.reactions = true := by decide +kernel
theorem gri30_ratesSafe : checkRatesSafe gri30.mech = true := by decide +kernel
theorem gri30_presMod : checkPresMod gri30.mech gri30.reactions = true := by decide +kernel
theorem gri30_presSafe : checkPresSafe gri30.mech = true := by decide +kernel
theorem gri30_spec : checkSpec gri30.mech gri30.reactions = true := by decide +kernel
theorem gri30_specSafe : checkSpecSafe gri30.mech = true := by decide +kernel
theorem gri30_thermoSafe : checkThermoSafe gri30.mech = true := by decide +kernel
theorem gri30_templates : checkTemplates gri30.mech = true := by decide +kernel
theorem gri30_masks : checkMasks gri30.mech = true := by decide +kernel
theorem gri30_heat : checkHeat gri30.mech gri30.reactions = true := by decide +kernel
theorem gri30_balance : checkBalance gri30 = true := by decide +kernel
theorem gri30_weights : checkWeights gri30 = true := by decide +kernel
theorem gri30_names : checkNames gri30 = true := by decide +kernel

theorem gri30_checked : Checked gri30 where
  sizes := gri30_sizes
  rates := gri30_rates
  ratesSafe := gri30_ratesSafe
  presMod := gri30_presMod
  presSafe := gri30_presSafe
  spec := gri30_spec
  specSafe := gri30_specSafe
  thermoSafe := gri30_thermoSafe
  templates := gri30_templates
  masks := gri30_masks
  heat := gri30_heat
  balance := gri30_balance
  weights := gri30_weights
  names := gri30_names

end DLB
