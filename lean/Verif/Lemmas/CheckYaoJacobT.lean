import Verif.Lemmas.JacobSplit
import Verif.Lemmas.CheckYaoJacob
/-
Kernel check of the statements of `eval_jacob` of yao that go through the reactions, as far as they are about the temperature.
-/
set_option autoImplicit false
set_option maxRecDepth 100000
set_option maxHeartbeats 2000000

namespace DLB

/-- The molecular weights in units of 10^-5. -/
def yaoWeights : List Nat := [3994800, 100794, 1599940, 1700734, 3300674, 201588, 1801528, 3401468, 3199880, 1402688, 1402688, 1503482,
  1604276, 2901834, 3002628, 3103422, 2801040, 4400980, 2603788, 2704582, 2805376, 2906170, 3006964, 4304522, 4107270, 4208064, 4308858,
  5606416, 5509958, 5610752, 5711546, 6912646, 7013440, 7114234, 8416128, 8516922, 9818816, 9919610, 11221504, 11322298, 12624192, 12724986,
  14026880, 14127674, 17033844, 16933050, 16933050, 16933050, 16832256, 20132930, 20132930, 23332810, 21632076, 2801348]

theorem yao_weights5 : (List.range yao.nsp).map yao.weight5 = yaoWeights := by decide +kernel

theorem yao_part0 : partStep yao yaoWeights ⟨true, Mech.Yao.jacob0Start, Mech.Yao.jacob0Blocks⟩ 0 0 40 448508 = true := by
  decide +kernel

theorem yao_part1 : partStep yao yaoWeights ⟨true, Mech.Yao.jacob1Start, Mech.Yao.jacob1Blocks⟩ 40 448508 80 15728636 = true := by
  decide +kernel

theorem yao_part2 : partStep yao yaoWeights ⟨true, Mech.Yao.jacob2Start, Mech.Yao.jacob2Blocks⟩ 80 15728636 120 402653180 = true := by
  decide +kernel

theorem yao_part3 : partStep yao yaoWeights ⟨true, Mech.Yao.jacob3Start, Mech.Yao.jacob3Blocks⟩ 120 402653180 160 2147483644 = true := by
  decide +kernel

theorem yao_part4 : partStep yao yaoWeights ⟨true, Mech.Yao.jacob4Start, Mech.Yao.jacob4Blocks⟩ 160 2147483644 200 137438953468 = true := by
  decide +kernel

theorem yao_part5 : partStep yao yaoWeights ⟨true, Mech.Yao.jacob5Start, Mech.Yao.jacob5Blocks⟩ 200 137438953468 240 1125899906842620 = true := by
  decide +kernel

theorem yao_part6 : partStep yao yaoWeights ⟨false, Mech.Yao.jacob6Start, Mech.Yao.jacob6Blocks⟩ 240 1125899906842620 269 18014398509481980 = true := by
  decide +kernel

theorem yao_parts : partsOk yao yaoWeights Mech.Yao.jacobSlice.parts (number yao.reactions) 0 = true :=
  partsOk_cons yao_part0 <|
  partsOk_cons yao_part1 <|
  partsOk_cons yao_part2 <|
  partsOk_cons yao_part3 <|
  partsOk_cons yao_part4 <|
  partsOk_cons yao_part5 <|
  partsOk_cons yao_part6 <|
  (show partsOk yao yaoWeights [] ((number yao.reactions).drop 269) 18014398509481980 = true by decide +kernel)

end DLB
