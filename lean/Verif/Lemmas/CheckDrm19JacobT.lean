import Verif.Lemmas.JacobParts
import Verif.Lemmas.CheckDrm19Jacob
/-
Kernel check of the statements of `eval_jacob` of drm19 that go through the reactions.
-/
set_option autoImplicit false
set_option maxRecDepth 100000
set_option maxHeartbeats 2000000

namespace DLB

/-- The molecular weights in units of 10^-5. -/
def drm19Weights : List Nat := [201588, 100794, 1599940, 3199880, 1700734, 1801528, 3300674, 1402688, 1402688, 1503482, 1604276, 2801040, 4400980,
  2901834, 3002628, 3103422, 2805376, 2906170, 3006964, 3994800, 2801348]

theorem drm19_weights5 : (List.range drm19.nsp).map drm19.weight5 = drm19Weights := by decide +kernel

theorem drm19_parts : partsOk drm19 drm19Weights Mech.Drm19.jacob.parts (number drm19.reactions) 0 = true := by decide +kernel

end DLB
