import Mathlib.Data.Int.Log
import Mathlib.Data.Rat.Floor
import Mathlib.Algebra.Order.Field.Rat
/-
The rounding of IEEE 754 binary64 (`double`), round to nearest, ties to even.
-/
set_option autoImplicit false

namespace DLB

/-- The nearest integer, the even one of two.  Arithmetic of the machine, no code of /repo: the type
`scalar` of OpenFOAM in all its files. -/
def roundEven (y : ℚ) : ℤ :=
  if y - ⌊y⌋ < 1 / 2 then ⌊y⌋
  else if 1 / 2 < y - ⌊y⌋ then ⌊y⌋ + 1
  else if ⌊y⌋ % 2 = 0 then ⌊y⌋ else ⌊y⌋ + 1

/-- Exponent of the unit in the last place of `x`: 53 bits, and not below `2^-1074`, the smallest
subnormal number.  Arithmetic of the machine, no code of /repo: the type `scalar` of OpenFOAM in all
its files. -/
def quantumExp (x : ℚ) : ℤ := max (Int.log 2 |x| - 52) (-1074)

/-- The double nearest to `x`.  There is no largest number: overflow is not modelled.  Arithmetic of
the machine, no code of /repo: the type `scalar` of OpenFOAM in all its files. -/
def rnd64 (x : ℚ) : ℚ := if x = 0 then 0 else roundEven (x / 2 ^ quantumExp x) * 2 ^ quantumExp x

end DLB
