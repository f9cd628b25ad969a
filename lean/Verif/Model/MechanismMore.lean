import Verif.Model.Shipped
import Verif.Mech.Drm19More
import Verif.Mech.Gri30More
import Verif.Mech.YaoMore
/-
The functions of the mechanism libraries that the chemistry model does not call, but that a user of the library can.
-/
set_option autoImplicit false

namespace DLB

/-- Bodies of eval_conc_rho, eval_u, eval_cv (chem_utils.c) and sparse_multiplier (sparse_multiplier.c) in
/repo/utilities/mechanisms/<name>/lib/src. The arrays `u`, `cv` of eval_u, eval_cv are named `h`, `cp` here, and `A`, `Vm`, `w` of
sparse_multiplier are named `jac`, `y`, `dy`.  Functions with their lines: see the definitions
below. -/
structure MechMore where
  evalConcRho : List CStmt
  evalU : List CStmt
  evalCv : List CStmt
  sparseMultiplier : List CStmt

namespace MechMore

variable (E : MechMore) (M : Mech)
variable {S : Type} [Add S] [Sub S] [Mul S] [Div S] [Neg S] [OfScientific S] [CMath S]
  [LE S] [DecidableLE S]

/-- `eval_conc_rho(T, rho, y, &y_N, &mw_avg, &pres, conc)` of chem_utils.c; the outputs are read off the returned memory.
utilities/mechanisms/<name>/lib/src/chem_utils.c: drm19:55-96, gri30:107-200, yao:110-206. -/
def callEvalConcRho (T rho : S) (y : Nat → Option S) : Option (CMem S) :=
  execAll M.szS E.evalConcRho fun
    | .var .T => some T
    | .var .rho => some rho
    | .arr .y i => y i
    | _ => none

/-- `eval_u(T, u)` of chem_utils.c; `u` is called `h`.
utilities/mechanisms/<name>/lib/src/chem_utils.c: drm19:228-356, gri30:524-844, yao:536-862. -/
def callU (T : S) : Option (CMem S) :=
  execAll M.szS E.evalU fun
    | .var .T => some T
    | _ => none

/-- `eval_cv(T, cv)` of chem_utils.c; `cv` is called `cp`.
utilities/mechanisms/<name>/lib/src/chem_utils.c: drm19:358-486, gri30:846-1166, yao:864-1190. -/
def callCv (T : S) : Option (CMem S) :=
  execAll M.szS E.evalCv fun
    | .var .T => some T
    | _ => none

/-- `sparse_multiplier(A, Vm, w)` of sparse_multiplier.c for arrays of `NSP * NSP`, `NSP` and `NSP` entries that do not overlap;
`A`, `Vm`, `w` are called `jac`, `y`, `dy`.
utilities/mechanisms/<name>/lib/src/sparse_multiplier.c: drm19:3-25, gri30:3-57, yao:3-58. -/
def callSparseMultiplier (A Vm : Nat → S) : Option (CMem S) :=
  execAll M.szF E.sparseMultiplier fun
    | .arr .jac i => some (A i)
    | .arr .y i => some (Vm i)
    | _ => none

end MechMore

/-- /repo/utilities/mechanisms/drm19/lib/src.  chem_utils.c:55-96, 228-356, 358-486,
sparse_multiplier.c:3-25. -/
def drm19More : MechMore where
  evalConcRho := Mech.Drm19.evalConcRho
  evalU := Mech.Drm19.evalU
  evalCv := Mech.Drm19.evalCv
  sparseMultiplier := Mech.Drm19.sparseMultiplier

/-- /repo/utilities/mechanisms/gri30/lib/src.  chem_utils.c:107-200, 524-844, 846-1166,
sparse_multiplier.c:3-57. -/
def gri30More : MechMore where
  evalConcRho := Mech.Gri30.evalConcRho
  evalU := Mech.Gri30.evalU
  evalCv := Mech.Gri30.evalCv
  sparseMultiplier := Mech.Gri30.sparseMultiplier

/-- /repo/utilities/mechanisms/yao/lib/src.  chem_utils.c:110-206, 536-862, 864-1190,
sparse_multiplier.c:3-58. -/
def yaoMore : MechMore where
  evalConcRho := Mech.Yao.evalConcRho
  evalU := Mech.Yao.evalU
  evalCv := Mech.Yao.evalCv
  sparseMultiplier := Mech.Yao.sparseMultiplier

/-- The mechanisms in /repo/utilities/mechanisms, with these functions.  Sources as in `drm19More`,
`gri30More`, `yaoMore`. -/
def shippedMore : List (Package × MechMore) := [(drm19, drm19More), (gri30, gri30More), (yao, yaoMore)]

end DLB
