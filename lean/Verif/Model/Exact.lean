import Verif.Model.Basic
import Mathlib.Algebra.Field.Defs
import Mathlib.Algebra.Order.Field.Rat
/-
Exact arithmetic: the constants of the code as elements of an arbitrary field.
-/
set_option autoImplicit false

namespace DLB

/-- The constants with their exact decimal values (OpenFOAM doubleScalar.H: `small` 1e-15,
`great` 1e15, `vGreat` 1e300; literals 0.01, 2, 0.5, 1, 1e-4). -/
instance exactConsts {K : Type} [Field K] : Consts K where
  SMALL := 1 / 10 ^ 15
  great := 10 ^ 15
  filterFrac := 1 / 100
  two := 2
  half := 1 / 2
  one := 1
  Ztol := 1 / 10 ^ 4
  vGreat := 10 ^ 300

end DLB
