import Verif.Lemmas.MechChecks
/-
The checks of the mechanism drm19, evaluated by the kernel.
-/
set_option autoImplicit false
set_option maxRecDepth 100000

namespace DLB

theorem drm19_sizes : checkSizes drm19.mech drm19.reactions = true := by decide +kernel
theorem drm19_rates : checkRates drm19.mech drm19.reactions = true := by decide +kernel
theorem drm19_ratesSafe : checkRatesSafe drm19.mech = true := by decide +kernel
theorem drm19_presMod : checkPresMod drm19.mech drm19.reactions = true := by decide +kernel
theorem drm19_presSafe : checkPresSafe drm19.mech = true := by decide +kernel
theorem drm19_spec : checkSpec drm19.mech drm19.reactions = true := by decide +kernel
theorem drm19_specSafe : checkSpecSafe drm19.mech = true := by decide +kernel
theorem drm19_thermoSafe : checkThermoSafe drm19.mech = true := by decide +kernel
theorem drm19_templates : checkTemplates drm19.mech = true := by decide +kernel
theorem drm19_masks : checkMasks drm19.mech = true := by decide +kernel
theorem drm19_heat : checkHeat drm19.mech drm19.reactions = true := by decide +kernel
theorem drm19_balance : checkBalance drm19 = true := by decide +kernel
theorem drm19_weights : checkWeights drm19 = true := by decide +kernel
theorem drm19_names : checkNames drm19 = true := by decide +kernel

theorem drm19_checked : Checked drm19 where
  sizes := drm19_sizes
  rates := drm19_rates
  ratesSafe := drm19_ratesSafe
  presMod := drm19_presMod
  presSafe := drm19_presSafe
  spec := drm19_spec
  specSafe := drm19_specSafe
  thermoSafe := drm19_thermoSafe
  templates := drm19_templates
  masks := drm19_masks
  heat := drm19_heat
  balance := drm19_balance
  weights := drm19_weights
  names := drm19_names

end DLB
