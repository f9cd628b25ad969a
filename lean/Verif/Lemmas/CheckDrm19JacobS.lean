import Verif.Lemmas.CheckDrm19JacobS0
import Verif.Lemmas.CheckDrm19JacobS1
import Verif.Lemmas.CheckDrm19JacobS2
import Verif.Lemmas.CheckDrm19JacobS3
/-
The statements of `eval_jacob` of drm19 that differentiate by the mass fractions are as they should be.
-/
set_option autoImplicit false
set_option maxRecDepth 100000

namespace DLB

theorem drm19_sBlocks : sBlocksOk drm19 drm19Weights (Mech.Drm19.jacob.parts.map JacobPart.blocks).flatten (number drm19.reactions) = true := by
  have h0 := drm19_sBlocks0
  have h1 := drm19_sBlocks1
  have h2 := drm19_sBlocks2
  have h3 := drm19_sBlocks3
  have hn : ((number drm19.reactions).drop 84) = [] := by decide +kernel
  have hb : ((Mech.Drm19.jacob.parts.map JacobPart.blocks).flatten.drop 84).isEmpty = true := by decide +kernel
  have hb := List.isEmpty_iff.1 hb
  generalize (Mech.Drm19.jacob.parts.map JacobPart.blocks).flatten = bs at *
  generalize number drm19.reactions = ns at *
  rw [List.drop_zero, List.drop_zero] at h0
  refine sBlocks_take 21 h0 (sBlocks_take 21 h1 ?_)
  rw [List.drop_drop, List.drop_drop]
  refine sBlocks_take 21 h2 ?_
  rw [List.drop_drop, List.drop_drop]
  refine sBlocks_take 21 h3 ?_
  rw [List.drop_drop, List.drop_drop]
  rw [show 21 + 21 + 21 + 21 = 84 from rfl, hn, hb]
  rfl

end DLB
