import Verif.Model.MechanismMore
import Verif.Lemmas.ThermoSound
/-
Checks of eval_conc_rho, eval_u, eval_cv and sparse_multiplier, and what they mean.
-/
set_option autoImplicit false
set_option linter.unusedSectionVars false

namespace DLB

/-- eval_conc_rho -/
def evalConcRhoT (n : Nat) (rs : List Dec) : List CStmt :=
  [.set (.var .yN) (.sub (.num 1 0) (sumReads .y n)),
   .set (.var .mwAvg) (sumExpr ((List.range n).map (fun i => .mul (.rd (.arr .y i)) (nth rs i).lit) ++
     [.mul (.rd (.var .yN)) (nth rs n).lit])),
   .set (.var .mwAvg) (.div (.num 1 0) (.rd (.var .mwAvg))),
   .set (.var .pres) (.div (.mul (.mul (.rd (.var .rho)) gasConstant) (.rd (.var .T))) (.rd (.var .mwAvg)))] ++
  (List.range n).map (fun i =>
    .set (.arr .C i) (.mul (.mul (.rd (.var .rho)) (.rd (.arr .y i))) (nth rs i).lit)) ++
  [.set (.arr .C n) (.mul (.mul (.rd (.var .rho)) (.rd (.var .yN))) (nth rs n).lit)]

/-- The terms of an entry of the product of matrix and vector. -/
def rowTerms (n i : Nat) : List CExpr := (List.range n).map fun j => .mul (.rd (.arr .jac (i + n * j))) (.rd (.arr .y j))

/-- sparse_multiplier -/
def sparseT (n : Nat) : List CStmt := (List.range n).map fun i => .set (.arr .dy i) (sumExpr (rowTerms n i))

/-- Inputs of eval_conc_rho. -/
def inpConcRho (nsp : Nat) : CLoc → Bool
  | .var .T => true
  | .var .rho => true
  | .arr .y i => decide (i < nsp - 1)
  | _ => false

/-- Inputs of sparse_multiplier. -/
def inpSparse (nsp : Nat) : CLoc → Bool
  | .arr .jac i => decide (i < nsp * nsp)
  | .arr .y i => decide (i < nsp)
  | _ => false

/-- The functions are instances of the templates. -/
def checkMoreTemplates (M : Mech) (E : MechMore) : Bool :=
  decide (E.evalConcRho = evalConcRhoT (M.nsp - 1) M.recips) && decide (E.sparseMultiplier = sparseT M.nsp) &&
  checkPieces .cp M.nsp E.evalCv && checkPieces .h M.nsp E.evalU

/-- No undefined behaviour. -/
def checkMoreSafe (M : Mech) (E : MechMore) : Bool :=
  safe M.szS (inpConcRho M.nsp) E.evalConcRho [] && assigns E.evalConcRho .C M.nsp &&
  (E.evalConcRho.map CStmt.target).contains (.var .yN) && (E.evalConcRho.map CStmt.target).contains (.var .pres) &&
  safe M.szS inpT E.evalCv [] && assigns E.evalCv .cp M.nsp &&
  safe M.szS inpT E.evalU [] && assigns E.evalU .h M.nsp &&
  safe M.szF (inpSparse M.nsp) E.sparseMultiplier [] && assigns E.sparseMultiplier .dy M.nsp

/-- Heat capacities differ by the gas constant, enthalpies and energies by the gas constant times the temperature. -/
def checkMayer (D : Package) (E : MechMore) : Bool :=
  (List.range D.nsp).all fun i =>
    let c := D.cpPiece i
    let h := D.hPiece i
    let cv := pieceAt E.evalCv i
    let u := pieceAt E.evalU i
    let W : Int := D.weight5 i
    decide (cv.tMid = c.tMid) && decide (u.tMid = h.tMid) &&
      QPoly.close W gas5 (c.low.add cv.low.neg) ([1, 0, 0, 0, 0], 0) &&
      QPoly.close W gas5 (c.high.add cv.high.neg) ([1, 0, 0, 0, 0], 0) &&
      QPoly.close W gas5 (h.low.add u.low.neg) ([0, 1, 0, 0, 0, 0], 0) &&
      QPoly.close W gas5 (h.high.add u.high.neg) ([0, 1, 0, 0, 0, 0], 0)

/-- All checks. -/
structure MoreChecked (D : Package) (E : MechMore) : Prop where
  templates : checkMoreTemplates D.mech E = true
  safe : checkMoreSafe D.mech E = true
  mayer : checkMayer D E = true

end DLB
