import Verif.Model.ChemistryModel
/-
Functional semantics of the parallel program: what all `n` ranks compute.
-/
set_option autoImplicit false

namespace DLB

variable {S : Type}

/-- Run one phase on all ranks; if a rank fails the run fails (`FatalError` aborts
the whole MPI job).  The calls on all ranks in loadBalancedChemistryModel.C:156-186. -/
def allRanks {α : Type} : {n : Nat} → (Fin n → Except Fault α) → Except Fault (Fin n → α)
  | 0, _ => .ok (fun i => i.elim0)
  | _ + 1, f => do
    let a ← f 0
    let rest ← allRanks (fun i => f i.succ)
    .ok (Fin.cases a rest)

/-- LoadBalancerBase.H:208-212: the messages a rank writes, as (destination, payload),
from loop index `i` on. -/
def sendAll {α : Type} (buf : Nat → Except Fault α) : Nat → List Nat →
    Except Fault (List (Nat × α))
  | _, [] => .ok []
  | i, d :: ds => do
    let m ← buf i
    let ms ← sendAll buf (i + 1) ds
    .ok ((d, m) :: ms)

/-- What is in the receive buffer for messages from one sender to rank `r` after
`finishedSends`, given all messages of that sender.  LoadBalancerBase.H:206-214. -/
def inboxFrom {α : Type} (r : Nat) (out : List (Nat × α)) : List α :=
  (out.filter (fun m => m.1 == r)).map (·.2)

/-- LoadBalancerBase.H:217-221: read one message from each source in turn.  `inbox s`
are the unread messages from rank `s`.  Reading from an empty buffer is a
`FatalIOError`.  Returns what was read and what is left. -/
def recvAll {α : Type} : (Nat → List α) → List Nat → Except Fault (List α × (Nat → List α))
  | inbox, [] => .ok ([], inbox)
  | inbox, s :: ss =>
    match inbox s with
    | [] => .error .fatal
    | m :: ms => do
      let (rest, left) ← recvAll (fun s' => if s' = s then ms else inbox s') ss
      .ok (m :: rest, left)

/-- LoadBalancerBase.H:194-225 `sendRecv` on all ranks.  `buf r i` is
`send_buffer[i]` on rank `r`.  A destination that is not a rank is an MPI error;
OpenFOAM's `PstreamBuffers` destructor raises a `FatalError` if a received
message was not read.  Without `parRun` nothing is exchanged. -/
def sendRecv {α : Type} {n : Nat} (parRun : Bool)
    (buf : Fin n → Nat → Except Fault α) (sources destinations : Fin n → List Nat) :
    Except Fault (Fin n → List α) :=
  if parRun then do
    let out ← allRanks (fun r : Fin n =>
      if (destinations r).all (· < n) then sendAll (buf r) 0 (destinations r)
      else .error .fatal)
    allRanks (fun r : Fin n => do
      let inbox : Nat → List α := fun s => if h : s < n then inboxFrom r (out ⟨s, h⟩) else []
      let (msgs, left) ← recvAll inbox (sources r)
      if (List.range n).all (fun s => (left s).isEmpty) then .ok msgs else .error .fatal)
  else .ok (fun _ => [])

/-- LoadBalancerBase.H:162-170 `balance` on all ranks. -/
def balance {α : Type} {n : Nat} (parRun : Bool) (st : Fin n → BalancerState)
    (values : Fin n → List α) : Except Fault (Fin n → List (List α)) :=
  sendRecv parRun (fun r i => sendBufferAt (values r) (st r).nProblems i)
    (fun r => (st r).sources) (fun r => (st r).destinations)

/-- LoadBalancerBase.H:172-178 `unbalance` on all ranks. -/
def unbalance {α : Type} {n : Nat} (parRun : Bool) (st : Fin n → BalancerState)
    (values : Fin n → List (List α)) : Except Fault (Fin n → List (List α)) :=
  sendRecv parRun (fun r i => getAt (values r) i)
    (fun r => (st r).destinations) (fun r => (st r).sources)

section
variable [Zero S] [Add S] [Sub S] [Mul S] [Div S] [Neg S] [NatCast S]
variable [LT S] [DecidableLT S] [LE S] [DecidableLE S] [Consts S]

/-- LoadBalancerBase.H:148-160 `allGather` of the loads: indexed by rank. -/
def gatherLoads {n : Nat} (problems : Fin n → List (ChemistryProblem S)) :
    List (ChemistryLoad S) :=
  List.ofFn (fun r : Fin n => computeLoad r.val (problems r))

/-- LoadBalancer.C:28-38 `updateState` on all ranks. -/
def updateStates {n : Nat} (sort : List (ChemistryLoad S) → List (ChemistryLoad S))
    (problems : Fin n → List (ChemistryProblem S)) : Except Fault (Fin n → BalancerState) :=
  allRanks (fun r => updateState sort (gatherLoads problems) r.val (problems r))

/-- What one rank of a balanced step solves: own remaining problems and guests.
loadBalancedChemistryModel.C:168-169. -/
structure Split (S : Type) where
  own : List (ChemistryProblem S)
  guests : List (List (ChemistryProblem S))

/-- loadBalancedChemistryModel.C:161-168 on all ranks: `updateState`, `balance`,
`getRemaining`. -/
def splitProblems {n : Nat} (parRun : Bool)
    (sort : List (ChemistryLoad S) → List (ChemistryLoad S))
    (problems : Fin n → List (ChemistryProblem S)) :
    Except Fault ((Fin n → BalancerState) × (Fin n → Split S)) := do
  let st ← updateStates sort problems
  let guests ← balance parRun st problems
  let own ← allRanks (fun r => getRemaining (st r) (problems r))
  .ok (st, fun r => ⟨own r, guests r⟩)

/-- loadBalancedChemistryModel.C:159-181 on all ranks, the active branch: from the
problems of every rank to the incoming solutions of every rank.  The first clock
reading of a step is reserved for the reference cell (`mapProblems`). -/
def solveBalanced {n : Nat} (M : ChemModel S) (parRun : Bool)
    (sort : List (ChemistryLoad S) → List (ChemistryLoad S)) (clk : Fin n → Nat → S)
    (problems : Fin n → List (ChemistryProblem S)) :
    Except Fault (Fin n → List (List (ChemistrySolution S))) := do
  let (st, split) ← splitProblems parRun sort problems
  let ownSol ← allRanks (fun r => solveList M (clk r) 1 (split r).own)
  let guestSol ← allRanks (fun r =>
    solveBuffer M (clk r) (1 + (split r).own.length) (split r).guests)
  let incoming ← unbalance parRun st guestSol
  .ok (fun r => incoming r ++ [ownSol r])

/-- loadBalancedChemistryModel.C:182-187 on all ranks, the inactive branch. -/
def solveUnbalanced {n : Nat} (M : ChemModel S) (clk : Fin n → Nat → S)
    (problems : Fin n → List (ChemistryProblem S)) :
    Except Fault (Fin n → List (List (ChemistrySolution S))) := do
  let sol ← allRanks (fun r => solveList M (clk r) 1 (problems r))
  .ok (fun r => [sol r])

/-- loadBalancedChemistryModel.C:135-207 `solve<DeltaTType>` on all ranks: the new
fields and the returned time step of every rank. -/
def solveWorld {n : Nat} (M : ChemModel S) (parRun : Bool)
    (sort : List (ChemistryLoad S) → List (ChemistryLoad S)) (clk : Fin n → Nat → S)
    (flow : Fin n → Flow S) (F : Fin n → RankFields S) :
    Except Fault (Fin n → RankFields S × S) :=
  if M.chemistry then do
    let pr ← allRanks (fun r => getProblems M (flow r) (clk r) (F r))
    let problems := fun r => (pr r).2
    let incoming ←
      if M.active then solveBalanced M parRun sort clk problems
      else solveUnbalanced M clk problems
    allRanks (fun r => updateReactionRates M (flow r).nCells (pr r).1 (incoming r))
  else .ok (fun r => (F r, Consts.great))

/-- loadBalancedChemistryModel.C:287-297 `solve(const scalar deltaT)` on all ranks:
uniform time step, return value limited to twice the time step. -/
def solveWorldUniform {n : Nat} (M : ChemModel S) (parRun : Bool)
    (sort : List (ChemistryLoad S) → List (ChemistryLoad S)) (clk : Fin n → Nat → S)
    (flow : Fin n → Flow S) (deltaT : S) (F : Fin n → RankFields S) :
    Except Fault (Fin n → RankFields S × S) := do
  let res ← solveWorld M parRun sort clk (fun r => { flow r with deltaT := fun _ => deltaT }) F
  .ok (fun r => ((res r).1, foamMin (res r).2 (Consts.two * deltaT)))

end
end DLB
