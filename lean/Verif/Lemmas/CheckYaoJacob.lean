import Verif.Lemmas.JacobCalls
import Verif.Lemmas.CheckYao
import Verif.Mech.YaoJacobSrc
/-
The slice of `eval_jacob` of yao reads nothing that is uninitialised or outside of an array.
-/
set_option autoImplicit false
set_option maxRecDepth 100000

namespace DLB

theorem yao_jacobSafe : checkJacobSafe yao.mech Mech.Yao.jacobSlice = true := by decide +kernel

end DLB
