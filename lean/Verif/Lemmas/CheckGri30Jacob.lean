import Verif.Lemmas.JacobCalls
import Verif.Lemmas.CheckGri30
import Verif.Mech.Gri30JacobSrc
/-
The slice of `eval_jacob` of gri30 reads nothing that is uninitialised or outside of an array.
-/
set_option autoImplicit false
set_option maxRecDepth 100000

namespace DLB

theorem gri30_jacobSafe : checkJacobSafe gri30.mech Mech.Gri30.jacobSlice = true := by decide +kernel

end DLB
