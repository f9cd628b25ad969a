import Verif.Model.Types
import Mathlib.Data.List.Basic
/-
What is written if `log` is on: the report of `printState` and the file `cpu_solve.out`, with the script that reads it.
-/
set_option autoImplicit false

namespace DLB

/-- What a rank prints about itself.  The words between the numbers are left out.
LoadBalancerBase.C:102-127. -/
inductive Report where
  | receiver (rank : Nat) (sources : List Nat) (own : Int)
  | sender (rank : Nat) (destinations : List Nat) (counts : List Int) (remaining : Int)
  | neither (rank : Nat) (own : Int)
  deriving Repr, DecidableEq

/-- LoadBalancerBase.C:102-127 `printState`. -/
def printState (rank : Nat) (st : BalancerState) : Report :=
  if 0 < st.sources.length then .receiver rank st.sources st.nRemaining
  else if 0 < st.destinations.length then .sender rank st.destinations st.nProblems st.nRemaining
  else .neither rank st.nRemaining

section Times
variable {S : Type} [Zero S] [Add S] [Sub S]

/-- `clockTime` of OpenFOAM: the wall clock, and its reading at the last increment.  Used in
loadBalancedChemistryModel.C:143-186. -/
structure Timer (S : Type) where
  wall : S
  last : S

/-- `clockTime::timeIncrement`: the time since the last call (loadBalancedChemistryModel.C:155-186). -/
def Timer.increment (t : Timer S) : S × Timer S := (t.wall - t.last, { t with last := t.wall })

/-- Something that takes the time `d` is run.  The work between two readings in
loadBalancedChemistryModel.C:155-186. -/
def Timer.run (t : Timer S) (d : S) : Timer S := { t with wall := t.wall + d }

/-- How long the functions that `solve` calls (loadBalancedChemistryModel.C:156-185) take, on one rank in one call; `solveList` is called
for the problems that stay, or for all if balancing is off.  That the calls of the clock themselves take time is left out. -/
structure Durations (S : Type) where
  getProblems : S
  updateState : S
  balance : S
  getRemaining : S
  solveList : S
  solveBuffer : S
  unbalance : S
  append : S

/-- loadBalancedChemistryModel.C:144-148: what `solve` measures. -/
structure PhaseTimes (S : Type) where
  getProblems : S
  updateState : S
  balance : S
  solveBuffer : S
  unbalance : S

/-- loadBalancedChemistryModel.C:143-187, the measurements of `solve` with chemistry on; `now` is the wall clock at the start. -/
def solveTimes (active : Bool) (now : S) (d : Durations S) : PhaseTimes S :=
  let t : Timer S := ⟨now, now⟩
  let (_, t) := t.increment
  let t := t.run d.getProblems
  let (tGetProblems, t) := t.increment
  if active then
    let (_, t) := t.increment
    let t := t.run d.updateState
    let (tUpdateState, t) := t.increment
    let (_, t) := t.increment
    let t := t.run d.balance
    let t := t.run d.getRemaining
    let (tBalance, t) := t.increment
    let (_, t) := t.increment
    let t := t.run d.solveList
    let t := t.run d.solveBuffer
    let (tSolveBuffer, t) := t.increment
    let (_, t) := t.increment
    let t := t.run d.unbalance
    let t := t.run d.append
    let (tUnbalance, _) := t.increment
    ⟨tGetProblems, tUpdateState, tBalance, tSolveBuffer, tUnbalance⟩
  else
    let (_, t) := t.increment
    let t := t.run d.solveList
    let (tSolveBuffer, _) := t.increment
    ⟨tGetProblems, 0, 0, tSolveBuffer, 0⟩

/-- `setw(22)`: the next field is padded on the left to 22 characters.  Used in
loadBalancedChemistryModel.C:195-202. -/
def setw22 (s : List Char) : List Char := List.replicate (22 - s.length) ' ' ++ s

/-- loadBalancedChemistryModel.C:69-75, the first line of `cpu_solve.out`. -/
def logHeader : List Char :=
  "                  time\t           getProblems\t           updateState\t               balance\t           solveBuffer\t             unbalance\t               rank ID\n".toList

/-- loadBalancedChemistryModel.C:195-203, a further line.  `text` is how numbers are written by the stream. -/
def logLine (text : S → List Char) (userTime : S) (t : PhaseTimes S) (rank : Nat) : List Char :=
  setw22 (text userTime) ++ '\t' :: (setw22 (text t.getProblems) ++ '\t' :: (setw22 (text t.updateState) ++ '\t' ::
    (setw22 (text t.balance) ++ '\t' :: (setw22 (text t.solveBuffer) ++ '\t' :: (setw22 (text t.unbalance) ++ '\t' ::
      (setw22 (Nat.toDigits 10 rank) ++ ['\n']))))))

/-- A call of `solve` on a rank: whether chemistry is on, the time of the simulation, the wall clock at the start, and the durations.
loadBalancedChemistryModel.C:137-207. -/
structure SolveCall (S : Type) where
  chemistry : Bool
  userTime : S
  now : S
  durations : Durations S

/-- What one call adds to the file (loadBalancedChemistryModel.C:150-153 and 189-204). -/
def logCall (text : S → List Char) (active : Bool) (rank : Nat) (c : SolveCall S) : List Char :=
  if !c.chemistry then [] else logLine text c.userTime (solveTimes active c.now c.durations) rank

/-- The file `cpu_solve.out` of a rank after a sequence of calls (loadBalancedChemistryModel.C:66-76 and 189-204; loadBalancedChemistryModelI.H:34-40):
no file if `log` is off. -/
def cpuSolveFile (text : S → List Char) (log active : Bool) (rank : Nat) (calls : List (SolveCall S)) : Option (List Char) :=
  if log then some (logHeader ++ calls.flatMap (logCall text active rank)) else none

end Times

/-! The script `tutorials/multicomponentFluid/shearlayer_DLB/solve_buffer.py` (the same in `shearlayer_DLB_pyJac`). -/

/-- Python's `str.isspace`, for ASCII.  Used in
tutorials/multicomponentFluid/shearlayer_DLB/solve_buffer.py:19-24. -/
def isSpace (c : Char) : Bool := c = ' ' || c = '\t' || c = '\n' || c = '\r' || c = '\x0b' || c = '\x0c'

/-- Python's `str.split()`; `cur` is the word being read.  Used in
tutorials/multicomponentFluid/shearlayer_DLB/solve_buffer.py:19-24. -/
def pySplit : List Char → List Char → List (List Char)
  | cur, [] => if cur = [] then [] else [cur]
  | cur, c :: cs => if isSpace c then (if cur = [] then pySplit [] cs else cur :: pySplit [] cs) else pySplit (cur ++ [c]) cs

/-- Python's `readlines()` (lines that end in `'\n'`); `cur` is the line being read.  Used in
tutorials/multicomponentFluid/shearlayer_DLB/solve_buffer.py:17. -/
def pyLines : List Char → List Char → List (List Char)
  | cur, [] => if cur = [] then [] else [cur]
  | cur, c :: cs => if c = '\n' then (cur ++ [c]) :: pyLines [] cs else pyLines (cur ++ [c]) cs

/-- solve_buffer.py:16-24, the column `i`: `readlines()[1:]` and `x.split()[i]`; `none` stands for an `IndexError`. -/
def readColumn (file : List Char) (i : Nat) : Option (List (List Char)) :=
  ((pyLines [] file).drop 1).mapM fun x => (pySplit [] x)[i]?

end DLB
