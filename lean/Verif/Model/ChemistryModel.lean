import Verif.Model.LoadBalancer
import Verif.Model.RefMap
/-
loadBalancedChemistryModel.C, the parts executed by a single rank.
-/
set_option autoImplicit false

namespace DLB

variable {S : Type}

/-- What the reference arguments of the virtual function
`solve(p, T, c, li, deltaT, subDeltaT)` hold after the call
(loadBalancedChemistryModel.H:160-169). -/
structure IntegrateResult (S : Type) where
  p : S
  T : S
  c : List S
  deltaT : S
  subDeltaT : S

/-- The parts of a `loadBalancedChemistryModel` that do not change during a run:
* `chemistry`: the switch `chemistry_`;
* `nSpecie`, `deltaTChemMax`: members of OpenFOAM's `chemistryModel`;
* `integrate`: the virtual `solve(p, T, c, li, deltaT, subDeltaT)` called at
  loadBalancedChemistryModel.C:230-236 with `li = 0`; a deterministic function
  that may fail;
* `fuel`: bound on the number of iterations of the sub-stepping loop;
* `mapper`: the reference mapper;
* `active`: `balancer_.active()`. -/
structure ChemModel (S : Type) where
  chemistry : Bool
  nSpecie : Nat
  deltaTChemMax : S
  integrate : S → S → List S → S → S → Except Fault (IntegrateResult S)
  fuel : Nat
  mapper : RefMapper S
  active : Bool

/-- The old-time fields a rank reads in one step (loadBalancedChemistryModel.C:343-376)
and the time step of every cell (a `UniformField` or a `scalarField`). -/
structure Flow (S : Type) where
  nCells : Nat
  Y : Nat → Nat → S
  T : Nat → S
  p : Nat → S
  rho : Nat → S
  deltaT : Nat → S

/-- The fields a rank writes: `RR(j)[i]` (species `j`, cell `i`), `deltaTChem_`,
`cpuTimes_`, `refMap_` (values 0, 1, 2 only, modelled by `Nat`).
loadBalancedChemistryModel.H:73-80; written in loadBalancedChemistryModel.C:269, 385-392, 425-439,
455-457. -/
structure RankFields (S : Type) where
  RR : Nat → Nat → S
  deltaTChem : Nat → S
  cpuTimes : Nat → S
  refMap : Nat → Nat

section
variable [Zero S] [Add S] [Sub S] [Mul S] [Div S] [Neg S] [NatCast S]
variable [LT S] [DecidableLT S] [LE S] [DecidableLE S] [Consts S]

/-- loadBalancedChemistryModel.C:227-238, the sub-stepping loop, with at most `fuel`
iterations.  Arguments: pressure, temperature, composition, `deltaTChem`,
`timeLeft`; result: the updated composition and `deltaTChem`. -/
def subStepLoop
    (integrate : S → S → List S → S → S → Except Fault (IntegrateResult S)) :
    Nat → S → S → List S → S → S → Except Fault (List S × S)
  | fuel, p, T, c, dtChem, timeLeft =>
    if Consts.SMALL < timeLeft then
      match fuel with
      | 0 => .error .outOfFuel
      | fuel + 1 => do
        let r ← integrate p T c timeLeft dtChem
        subStepLoop integrate fuel r.p r.T r.c r.subDeltaT (timeLeft - r.deltaT)
    else .ok (c, dtChem)

/-- loadBalancedChemistryModel.C:210-248 `solveSingle`; `time` is what the clock
measures for this call.  The subtraction of fields of different size is
undefined. -/
def solveSingle (M : ChemModel S) (time : S) (problem : ChemistryProblem S) :
    Except Fault (ChemistrySolution S) := do
  let (c, dtChem) ← subStepLoop M.integrate M.fuel problem.pi problem.Ti problem.c
    problem.deltaTChem problem.deltaT
  if c.length = problem.c.length then
    .ok { rr := List.zipWith (fun x x0 => (x - x0) * problem.rhoi / problem.deltaT) c problem.c
          deltaTChem := foamMin dtChem M.deltaTChemMax
          cpuTime := time
          cellid := problem.cellid
          rhoi := problem.rhoi }
  else .error .ub

/-- loadBalancedChemistryModel.C:318-333 `solveList`.  `clk i` is the time the
rank's clock measures for its `i`-th call of `solveSingle` in this step; `k`
counts these calls. -/
def solveList (M : ChemModel S) (clk : Nat → S) :
    Nat → List (ChemistryProblem S) → Except Fault (List (ChemistrySolution S))
  | _, [] => .ok []
  | k, p :: ps => do
    let s ← solveSingle M (clk k) p
    let ss ← solveList M clk (k + 1) ps
    .ok (s :: ss)

/-- loadBalancedChemistryModel.C:300-315 `solveBuffer`. -/
def solveBuffer (M : ChemModel S) (clk : Nat → S) :
    Nat → List (List (ChemistryProblem S)) → Except Fault (List (List (ChemistrySolution S)))
  | _, [] => .ok []
  | k, p :: ps => do
    let s ← solveList M clk k p
    let ss ← solveBuffer M clk (k + p.length) ps
    .ok (s :: ss)

/-- loadBalancedChemistryModel.C:450-454: `RR(j)[i] = solution.rr[j]` for
`j = nSpecie-m, ..., nSpecie-1` (called with `j = 0`, `m = nSpecie`). -/
def writeRR (nCells : Nat) (rr : List S) (i : Nat) :
    Nat → Nat → (Nat → Nat → S) → Except Fault (Nat → Nat → S)
  | _, 0, RR => .ok RR
  | j, m + 1, RR => do
    let v ← getAt rr j
    let row ← writeAt nCells (RR j) i v
    writeRR nCells rr i (j + 1) m (fun j' => if j' = j then row else RR j')

/-- loadBalancedChemistryModel.C:447-458 `updateReactionRate(solution, i)`. -/
def updateReactionRate (M : ChemModel S) (nCells : Nat) (F : RankFields S)
    (solution : ChemistrySolution S) (i : Nat) : Except Fault (RankFields S) := do
  let RR ← writeRR nCells solution.rr i 0 M.nSpecie F.RR
  let dt ← writeAt nCells F.deltaTChem i (foamMin solution.deltaTChem M.deltaTChemMax)
  .ok { F with RR := RR, deltaTChem := dt }

/-- loadBalancedChemistryModel.C:261-270, the inner loop of `updateReactionRates`. -/
def updateList (M : ChemModel S) (nCells : Nat) :
    RankFields S → S → List (ChemistrySolution S) → Except Fault (RankFields S × S)
  | F, dtMin, [] => .ok (F, dtMin)
  | F, dtMin, s :: ss => do
    let F ← updateReactionRate M nCells F s s.cellid
    let dtMin := foamMin s.deltaTChem dtMin
    let cpu ← writeAt nCells F.cpuTimes s.cellid s.cpuTime
    updateList M nCells { F with cpuTimes := cpu } dtMin ss

/-- loadBalancedChemistryModel.C:259-271, the outer loop of `updateReactionRates`. -/
def updateBuffer (M : ChemModel S) (nCells : Nat) :
    RankFields S → S → List (List (ChemistrySolution S)) → Except Fault (RankFields S × S)
  | F, dtMin, [] => .ok (F, dtMin)
  | F, dtMin, a :: as => do
    let (F, dtMin) ← updateList M nCells F dtMin a
    updateBuffer M nCells F dtMin as

/-- loadBalancedChemistryModel.C:251-274 `updateReactionRates`. -/
def updateReactionRates (M : ChemModel S) (nCells : Nat) (F : RankFields S)
    (solutions : List (List (ChemistrySolution S))) : Except Fault (RankFields S × S) :=
  updateBuffer M nCells F Consts.great solutions

/-- loadBalancedChemistryModel.C:363-377: the problem of cell `celli`. -/
def cellProblem (M : ChemModel S) (fl : Flow S) (F : RankFields S) (celli : Nat) :
    ChemistryProblem S :=
  { c := (List.range M.nSpecie).map (fun i => fl.Y i celli)
    Ti := fl.T celli
    pi := fl.p celli
    rhoi := fl.rho celli
    deltaTChem := F.deltaTChem celli
    deltaT := fl.deltaT celli
    cpuTime := F.cpuTimes celli
    cellid := celli }

/-- loadBalancedChemistryModel.C:361-396, the loop over the cells `celli .. nCells-1`
(called with `celli = 0`, `m = nCells`).  Returns the new `refMap_`, the solved and
the mapped problems.  Simplification: `solved_problems` is pre-sized to the number
of cells, filled with a counter and truncated to it (lines 355, 389-390, 398); since the
counter never exceeds the cell index this is appending. -/
def classifyCells (M : ChemModel S) (fl : Flow S) (F : RankFields S) :
    Nat → Nat → (Nat → Nat) → List (ChemistryProblem S) → List (ChemistryProblem S) →
    Except Fault ((Nat → Nat) × List (ChemistryProblem S) × List (ChemistryProblem S))
  | _, 0, refMap, solved, mapped => .ok (refMap, solved, mapped)
  | celli, m + 1, refMap, solved, mapped => do
    let problem := cellProblem M fl F celli
    let b ← shouldMap M.mapper problem.c
    if b then do
      let refMap ← writeAt fl.nCells refMap celli 1
      classifyCells M fl F (celli + 1) m refMap solved (mapped ++ [problem])
    else do
      let refMap ← writeAt fl.nCells refMap celli 2
      classifyCells M fl F (celli + 1) m refMap (solved ++ [problem]) mapped

/-- loadBalancedChemistryModel.C:427-442, the loop of `map` over the mapped
problems. -/
def mapLoop (M : ChemModel S) (nCells : Nat) (refT : S) (refSol : ChemistrySolution S) :
    List (ChemistryProblem S) → RankFields S → List (ChemistryProblem S) →
    Except Fault (RankFields S × List (ChemistryProblem S))
  | [], F, solved => .ok (F, solved)
  | problem :: rest, F, solved =>
    if temperatureWithinRange M.mapper problem.Ti refT then do
      let F ← updateReactionRate M nCells F refSol problem.cellid
      let cpu ← writeAt nCells F.cpuTimes problem.cellid refSol.cpuTime
      mapLoop M nCells refT refSol rest { F with cpuTimes := cpu } solved
    else do
      let rm ← writeAt nCells F.refMap problem.cellid 2
      mapLoop M nCells refT refSol rest { F with refMap := rm } (solved ++ [problem])

/-- loadBalancedChemistryModel.C:410-445 `map`.  The reference problem is the first
mapped one; its solution takes clock reading 0 of the step. -/
def mapProblems (M : ChemModel S) (nCells : Nat) (clk : Nat → S) (F : RankFields S)
    (mapped solved : List (ChemistryProblem S)) :
    Except Fault (RankFields S × List (ChemistryProblem S)) :=
  match mapped with
  | [] => .ok (F, solved)
  | refProblem :: _ => do
    let refSol ← solveSingle M (clk 0) refProblem
    let rm ← writeAt nCells F.refMap refProblem.cellid 0
    mapLoop M nCells refProblem.Ti refSol mapped { F with refMap := rm } solved

/-- loadBalancedChemistryModel.C:337-407 `getProblems`. -/
def getProblems (M : ChemModel S) (fl : Flow S) (clk : Nat → S) (F : RankFields S) :
    Except Fault (RankFields S × List (ChemistryProblem S)) := do
  let (refMap, solved, mapped) ← classifyCells M fl F 0 fl.nCells F.refMap [] []
  mapProblems M fl.nCells clk { F with refMap := refMap } mapped solved

end
end DLB
