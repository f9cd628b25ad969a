import Verif.Model.World
import Verif.Model.PyJac
/-
The chemistry step with the solver objects as they are: every rank owns one solver object whose work
arrays survive from cell to cell and from step to step.  The functions below are those of
Model/ChemistryModel.lean and Model/World.lean with this data passed along; all other parts (creating
the problems, planning, exchanging, writing the rates) are used as they are there.
-/
set_option autoImplicit false

namespace DLB

variable {S Scr : Type}

/-- A chemistry model together with the solver object that its virtual
`solve(p, T, c, li, deltaT, subDeltaT)` uses.  `base` gives everything else; the field `integrate` of
`base` is not used by the functions below.  `integrate w p T c deltaT subDeltaT` runs the solver with
work arrays `w` and returns the work arrays it leaves behind.  loadBalancedChemistryModel.C:230-236
and ode_pyJac.C:50-117. -/
structure StatefulModel (S Scr : Type) where
  base : ChemModel S
  integrate : Scr → S → S → List S → S → S → Except Fault (Scr × IntegrateResult S)

/-- The model without memory: every integration starts from the work arrays `w`.  Not what the code
does: loadBalancedChemistryModel.C:230-236 keeps the solver object. -/
def StatefulModel.forgetful (M : StatefulModel S Scr) (w : Scr) : ChemModel S :=
  { M.base with integrate := fun p T c dt sub => (M.integrate w p T c dt sub).map Prod.snd }

section
variable [Zero S] [Add S] [Sub S] [Mul S] [Div S] [Neg S] [NatCast S]
variable [LT S] [DecidableLT S] [LE S] [DecidableLE S] [Consts S]

/-- loadBalancedChemistryModel.C:227-238, the sub-stepping loop. -/
def subStepLoopW
    (integrate : Scr → S → S → List S → S → S → Except Fault (Scr × IntegrateResult S)) :
    Nat → Scr → S → S → List S → S → S → Except Fault (Scr × List S × S)
  | fuel, w, p, T, c, dtChem, timeLeft =>
    if Consts.SMALL < timeLeft then
      match fuel with
      | 0 => .error .outOfFuel
      | fuel + 1 => do
        let (w, r) ← integrate w p T c timeLeft dtChem
        subStepLoopW integrate fuel w r.p r.T r.c r.subDeltaT (timeLeft - r.deltaT)
    else .ok (w, c, dtChem)

/-- loadBalancedChemistryModel.C:210-248 `solveSingle`. -/
def solveSingleW (M : StatefulModel S Scr) (w : Scr) (time : S) (problem : ChemistryProblem S) :
    Except Fault (Scr × ChemistrySolution S) := do
  let (w, c, dtChem) ← subStepLoopW M.integrate M.base.fuel w problem.pi problem.Ti problem.c
    problem.deltaTChem problem.deltaT
  if c.length = problem.c.length then
    .ok (w, { rr := List.zipWith (fun x x0 => (x - x0) * problem.rhoi / problem.deltaT) c problem.c
              deltaTChem := foamMin dtChem M.base.deltaTChemMax
              cpuTime := time
              cellid := problem.cellid
              rhoi := problem.rhoi })
  else .error .ub

/-- loadBalancedChemistryModel.C:318-333 `solveList`. -/
def solveListW (M : StatefulModel S Scr) (clk : Nat → S) :
    Nat → Scr → List (ChemistryProblem S) → Except Fault (Scr × List (ChemistrySolution S))
  | _, w, [] => .ok (w, [])
  | k, w, p :: ps => do
    let (w, s) ← solveSingleW M w (clk k) p
    let (w, ss) ← solveListW M clk (k + 1) w ps
    .ok (w, s :: ss)

/-- loadBalancedChemistryModel.C:300-315 `solveBuffer`. -/
def solveBufferW (M : StatefulModel S Scr) (clk : Nat → S) :
    Nat → Scr → List (List (ChemistryProblem S)) →
    Except Fault (Scr × List (List (ChemistrySolution S)))
  | _, w, [] => .ok (w, [])
  | k, w, p :: ps => do
    let (w, s) ← solveListW M clk k w p
    let (w, ss) ← solveBufferW M clk (k + p.length) w ps
    .ok (w, s :: ss)

/-- loadBalancedChemistryModel.C:410-445 `map`. -/
def mapProblemsW (M : StatefulModel S Scr) (nCells : Nat) (clk : Nat → S) (w : Scr)
    (F : RankFields S) (mapped solved : List (ChemistryProblem S)) :
    Except Fault (Scr × RankFields S × List (ChemistryProblem S)) :=
  match mapped with
  | [] => .ok (w, F, solved)
  | refProblem :: _ => do
    let (w, refSol) ← solveSingleW M w (clk 0) refProblem
    let rm ← writeAt nCells F.refMap refProblem.cellid 0
    let r ← mapLoop M.base nCells refProblem.Ti refSol mapped { F with refMap := rm } solved
    .ok (w, r)

/-- loadBalancedChemistryModel.C:337-407 `getProblems`. -/
def getProblemsW (M : StatefulModel S Scr) (fl : Flow S) (clk : Nat → S) (w : Scr)
    (F : RankFields S) : Except Fault (Scr × RankFields S × List (ChemistryProblem S)) := do
  let (refMap, solved, mapped) ← classifyCells M.base fl F 0 fl.nCells F.refMap [] []
  mapProblemsW M fl.nCells clk w { F with refMap := refMap } mapped solved

/-- loadBalancedChemistryModel.C:159-181 on all ranks, the active branch. -/
def solveBalancedW {n : Nat} (M : StatefulModel S Scr) (parRun : Bool)
    (sort : List (ChemistryLoad S) → List (ChemistryLoad S)) (clk : Fin n → Nat → S)
    (w : Fin n → Scr) (problems : Fin n → List (ChemistryProblem S)) :
    Except Fault ((Fin n → Scr) × (Fin n → List (List (ChemistrySolution S)))) := do
  let (st, split) ← splitProblems parRun sort problems
  let ownSol ← allRanks (fun r => solveListW M (clk r) 1 (w r) (split r).own)
  let guestSol ← allRanks (fun r =>
    solveBufferW M (clk r) (1 + (split r).own.length) (ownSol r).1 (split r).guests)
  let incoming ← unbalance parRun st (fun r => (guestSol r).2)
  .ok (fun r => (guestSol r).1, fun r => incoming r ++ [(ownSol r).2])

/-- loadBalancedChemistryModel.C:182-187 on all ranks, the inactive branch. -/
def solveUnbalancedW {n : Nat} (M : StatefulModel S Scr) (clk : Fin n → Nat → S)
    (w : Fin n → Scr) (problems : Fin n → List (ChemistryProblem S)) :
    Except Fault ((Fin n → Scr) × (Fin n → List (List (ChemistrySolution S)))) := do
  let sol ← allRanks (fun r => solveListW M (clk r) 1 (w r) (problems r))
  .ok (fun r => (sol r).1, fun r => [(sol r).2])

/-- loadBalancedChemistryModel.C:135-207 `solve<DeltaTType>` on all ranks: the work arrays left
behind, the new fields and the returned time step of every rank. -/
def solveWorldW {n : Nat} (M : StatefulModel S Scr) (parRun : Bool)
    (sort : List (ChemistryLoad S) → List (ChemistryLoad S)) (clk : Fin n → Nat → S)
    (flow : Fin n → Flow S) (w : Fin n → Scr) (F : Fin n → RankFields S) :
    Except Fault ((Fin n → Scr) × (Fin n → RankFields S × S)) :=
  if M.base.chemistry then do
    let pr ← allRanks (fun r => getProblemsW M (flow r) (clk r) (w r) (F r))
    let problems := fun r => (pr r).2.2
    let (w, incoming) ←
      if M.base.active then solveBalancedW M parRun sort clk (fun r => (pr r).1) problems
      else solveUnbalancedW M clk (fun r => (pr r).1) problems
    let res ← allRanks (fun r => updateReactionRates M.base (flow r).nCells (pr r).2.1 (incoming r))
    .ok (w, res)
  else .ok (w, fun r => (F r, Consts.great))

end

section
variable {m : Nat}
variable [Zero S] [Add S] [Sub S] [Mul S] [Div S] [Neg S] [NatCast S] [OfScientific S]
variable [LT S] [DecidableLT S] [LE S] [DecidableLE S] [BEq S] [Consts S] [MathOps S]

/-- The model a case with the repository's `ode_pyJac` solver and `seulex_LAPACK` integrator runs:
the virtual `solve` is `odePyJacSolve` with the extrapolation stepper on the equations of the pyJac
model.  loadBalancedChemistryModel.C:211-248, ode_pyJac.C:50-117, seulex_LAPACK.C:333-597. -/
def pyJacModel (base : ChemModel S) (L : PyJacLib S m)
    (linearSolve : (Nat → S) → Vec S (m + 2) → Vec S (m + 2)) (absTol relTol : Vec S (m + 2))
    (fuel maxSteps : Nat) : StatefulModel S (Scratch S (m + 1)) where
  base := base
  integrate := odePyJacSolve (m := m)
    (seulexIntegrator (pyJacEnv L linearSolve absTol relTol fuel) maxSteps)

end
end DLB
