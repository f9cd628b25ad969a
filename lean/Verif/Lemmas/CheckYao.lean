import Verif.Lemmas.MechChecks
/-
The checks of the mechanism yao, evaluated by the kernel.
-/
set_option autoImplicit false
set_option maxRecDepth 100000

namespace DLB

theorem yao_sizes : checkSizes yao.mech yao.reactions = true := by decide +kernel
theorem yao_rates : checkRates yao.mech yao.reactions = true := by decide +kernel
theorem yao_ratesSafe : checkRatesSafe yao.mech = true := by decide +kernel
theorem yao_presMod : checkPresMod yao.mech yao.reactions = true := by decide +kernel
theorem yao_presSafe : checkPresSafe yao.mech = true := by decide +kernel
theorem yao_spec : checkSpec yao.mech yao.reactions = true := by decide +kernel
theorem yao_specSafe : checkSpecSafe yao.mech = true := by decide +kernel
theorem yao_thermoSafe : checkThermoSafe yao.mech = true := by decide +kernel
theorem yao_templates : checkTemplates yao.mech = true := by decide +kernel
theorem yao_masks : checkMasks yao.mech = true := by decide +kernel
theorem yao_heat : checkHeat yao.mech yao.reactions = true := by decide +kernel
theorem yao_balance : checkBalance yao = true := by decide +kernel
theorem yao_weights : checkWeights yao = true := by decide +kernel
theorem yao_names : checkNames yao = true := by decide +kernel

theorem yao_checked : Checked yao where
  sizes := yao_sizes
  rates := yao_rates
  ratesSafe := yao_ratesSafe
  presMod := yao_presMod
  presSafe := yao_presSafe
  spec := yao_spec
  specSafe := yao_specSafe
  thermoSafe := yao_thermoSafe
  templates := yao_templates
  masks := yao_masks
  heat := yao_heat
  balance := yao_balance
  weights := yao_weights
  names := yao_names

end DLB
