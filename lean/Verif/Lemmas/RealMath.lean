import Verif.Lemmas.MassAction
import Mathlib.Analysis.SpecialFunctions.Pow.Real
/-
The functions of `<math.h>` on the reals.
-/
set_option autoImplicit false

namespace DLB

/-- The functions of `<math.h>` on the reals. -/
noncomputable instance realCMath : CMath ℝ where
  exp := Real.exp
  log := Real.log
  log10 x := Real.log x / Real.log 10
  pow := Real.rpow
  fmax := max

/-- The laws hold for the reals. -/
theorem realCMathLaws : CMathLaws ℝ :=
  ⟨Real.exp_pos, fun _ x h => Real.rpow_pos_of_pos h x⟩

end DLB
