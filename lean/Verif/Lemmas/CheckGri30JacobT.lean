import Verif.Lemmas.JacobSplit
import Verif.Lemmas.CheckGri30Jacob
/-
Kernel check of the statements of `eval_jacob` of gri30 that go through the reactions, as far as they are about the temperature.
-/
set_option autoImplicit false
set_option maxRecDepth 100000
set_option maxHeartbeats 2000000

namespace DLB

/-- The molecular weights in units of 10^-5. -/
def gri30Weights : List Nat := [201588, 100794, 1599940, 3199880, 1700734, 1801528, 3300674, 3401468, 1201100, 1301894, 1402688, 1402688, 1503482,
  1604276, 2801040, 4400980, 2901834, 3002628, 3103422, 3103422, 3204216, 2502994, 2603788, 2704582, 2805376, 2906170, 3006964, 4102934, 4203728,
  4203728, 1400674, 1501468, 1602262, 1703056, 2902142, 3000614, 4600554, 4401288, 3101408, 2601774, 2702568, 2803362, 4103242, 4302508, 4302508,
  4302508, 4201714, 3994800, 4308858, 4409652, 4304522, 4405316, 2801348]

theorem gri30_weights5 : (List.range gri30.nsp).map gri30.weight5 = gri30Weights := by decide +kernel

theorem gri30_part0 : partStep gri30 gri30Weights ⟨true, Mech.Gri30.jacob0Start, Mech.Gri30.jacob0Blocks⟩ 0 0 40 1073741246 = true := by
  decide +kernel

theorem gri30_part1 : partStep gri30 gri30Weights ⟨true, Mech.Gri30.jacob1Start, Mech.Gri30.jacob1Blocks⟩ 40 1073741246 80 1073741822 = true := by
  decide +kernel

theorem gri30_part2 : partStep gri30 gri30Weights ⟨true, Mech.Gri30.jacob2Start, Mech.Gri30.jacob2Blocks⟩ 80 1073741822 120 2147483646 = true := by
  decide +kernel

theorem gri30_part3 : partStep gri30 gri30Weights ⟨true, Mech.Gri30.jacob3Start, Mech.Gri30.jacob3Blocks⟩ 120 2147483646 160 2147483646 = true := by
  decide +kernel

theorem gri30_part4 : partStep gri30 gri30Weights ⟨true, Mech.Gri30.jacob4Start, Mech.Gri30.jacob4Blocks⟩ 160 2147483646 200 1047972020222 = true := by
  decide +kernel

theorem gri30_part5 : partStep gri30 gri30Weights ⟨true, Mech.Gri30.jacob5Start, Mech.Gri30.jacob5Blocks⟩ 200 1047972020222 240 255069517774846 = true := by
  decide +kernel

theorem gri30_part6 : partStep gri30 gri30Weights ⟨true, Mech.Gri30.jacob6Start, Mech.Gri30.jacob6Blocks⟩ 240 255069517774846 280 281474976710654 = true := by
  decide +kernel

theorem gri30_part7 : partStep gri30 gri30Weights ⟨true, Mech.Gri30.jacob7Start, Mech.Gri30.jacob7Blocks⟩ 280 281474976710654 320 8725724278030334 = true := by
  decide +kernel

theorem gri30_part8 : partStep gri30 gri30Weights ⟨false, Mech.Gri30.jacob8Start, Mech.Gri30.jacob8Blocks⟩ 320 8725724278030334 325 8725724278030334 = true := by
  decide +kernel

theorem gri30_parts : partsOk gri30 gri30Weights Mech.Gri30.jacobSlice.parts (number gri30.reactions) 0 = true :=
  partsOk_cons gri30_part0 <|
  partsOk_cons gri30_part1 <|
  partsOk_cons gri30_part2 <|
  partsOk_cons gri30_part3 <|
  partsOk_cons gri30_part4 <|
  partsOk_cons gri30_part5 <|
  partsOk_cons gri30_part6 <|
  partsOk_cons gri30_part7 <|
  partsOk_cons gri30_part8 <|
  (show partsOk gri30 gri30Weights [] ((number gri30.reactions).drop 325) 8725724278030334 = true by decide +kernel)

end DLB
