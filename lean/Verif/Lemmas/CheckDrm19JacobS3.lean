import Verif.Lemmas.JacobS
import Verif.Lemmas.CheckDrm19JacobT
/-
Kernel check of the statements of `eval_jacob` of drm19 that differentiate by the mass fractions: reactions 64 to 84.
-/
set_option autoImplicit false
set_option maxRecDepth 100000
set_option maxHeartbeats 2000000

namespace DLB

theorem drm19_sBlocks3 : sBlocksOk drm19 drm19Weights (((Mech.Drm19.jacob.parts.map JacobPart.blocks).flatten.drop 63).take 21)
    (((number drm19.reactions).drop 63).take 21) = true := by decide +kernel

end DLB
