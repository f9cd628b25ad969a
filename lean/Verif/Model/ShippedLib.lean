import Verif.Model.Shipped
import Verif.Model.PyJac
/-
A shipped mechanism library behind the interface through which the chemistry model calls it.
-/
set_option autoImplicit false

namespace DLB

/-- The functions `dydt` (dydt.h), `eval_h` (chem_utils.h) and `PYJAC_NSP` (mechanism.h) of
utilities/mechanisms/<name>/lib as called at loadBalanced_pyJacChemistryModel.C:57,65,144;
`eval_jacob` (jacob.h) is left open (see `Model/ShippedJacobian`).  The default value 0 is never used if `m + 1` is the number
of species: the functions set all their outputs (`C66_no_undefined_behaviour`). -/
def Package.lib {S : Type} [Zero S] [Add S] [Sub S] [Mul S] [Div S] [Neg S] [OfScientific S] [CMath S] [LE S] [DecidableLE S]
    (D : Package) (m : Nat) (evalJacob : S → Vec S (m + 2) → Nat → S) : PyJacLib S m where
  dydt p y := fun i =>
    ((D.mech.callDydt p (fun j => if h : j < m + 2 then y ⟨j, h⟩ else 0)).bind fun σ => σ (.arr .dy i.val)).getD 0
  evalJacob := evalJacob
  evalH T := fun i => ((D.mech.callH T).bind fun σ => σ (.arr .h i.val)).getD 0
  nsp := D.nsp

end DLB
