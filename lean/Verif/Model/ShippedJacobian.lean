import Verif.Model.ShippedLib
import Verif.Mech.Drm19JacobSrc
/-
The `eval_jacob` of a shipped mechanism library behind the interface through which the chemistry model calls it.
-/
set_option autoImplicit false

namespace DLB

/-- The function `eval_jacob` as called at loadBalanced_pyJacChemistryModel.C:84,104: with a buffer of zeros. -/
def Package.evalJacob {S : Type} [Zero S] [Add S] [Sub S] [Mul S] [Div S] [Neg S] [OfScientific S] [CMath S] [LE S] [DecidableLE S]
    (D : Package) (J : JacobSrc) (m : Nat) (p : S) (y : Vec S (m + 2)) (k : Nat) : S :=
  ((D.mech.callJacob J p (fun j => if h : j < m + 2 then y ⟨j, h⟩ else 0) fun _ => some 0).bind fun σ => σ (.arr .jac k)).getD 0

/-- The drm19 library with its `eval_jacob`.  utilities/mechanisms/drm19/lib/src/jacob.c:3-170 and
dydt.c:7-76. -/
def drm19Lib {S : Type} [Zero S] [Add S] [Sub S] [Mul S] [Div S] [Neg S] [OfScientific S] [CMath S] [LE S] [DecidableLE S] : PyJacLib S 20 :=
  drm19.lib 20 (drm19.evalJacob Mech.Drm19.jacob 20)

end DLB
