import Verif.Model.Types
/-
LoadBalancerBase.C, LoadBalancer.C, SendBuffer.H and algorithms_DLB.H.
-/
set_option autoImplicit false

namespace DLB

variable {S : Type}

/-- algorithms_DLB.H:52-68 `count_while`: the number of leading elements for which
the (stateful) predicate holds.  The lambda passed by the only caller captures
its accumulator by reference; that state is threaded explicitly here. -/
def countWhile {α σ : Type} (pred : σ → α → Bool × σ) (st : σ) : List α → Nat
  | [] => 0
  | x :: xs =>
    match pred st x with
    | (false, _) => 0
    | (true, st') => countWhile pred st' xs + 1

section Base

variable [Zero S] [Add S]

/-- LoadBalancerBase.C:41-50 `computeLoad` called on rank `rank`. -/
def computeLoad (rank : Nat) (problems : List (ChemistryProblem S)) : ChemistryLoad S :=
  ⟨rank, problems.foldl (fun sum p => sum + p.cpuTime) 0⟩

/-- LoadBalancerBase.C:52-59 `getMean`. -/
def getMean [Div S] [NatCast S] (loads : List (ChemistryLoad S)) : S :=
  loads.foldl (fun sum l => sum + l.value) 0 / (loads.length : S)

/-- `std::min_element` (first smallest element), as used by
LoadBalancerBase.C:60-67 `getMin`.  Dereferencing the result for an empty list is
undefined behaviour. -/
def getMin [LT S] [DecidableLT S] : List (ChemistryLoad S) → Except Fault (ChemistryLoad S)
  | [] => .error .ub
  | l :: ls => .ok (ls.foldl (fun best x => if x.value < best.value then x else best) l)

/-- `std::max_element` (first largest element), as used by
LoadBalancerBase.C:69-75 `getMax`. -/
def getMax [LT S] [DecidableLT S] : List (ChemistryLoad S) → Except Fault (ChemistryLoad S)
  | [] => .error .ub
  | l :: ls => .ok (ls.foldl (fun best x => if best.value < x.value then x else best) l)

/-- LoadBalancerBase.C:77-88 `rankToLoadIdx`. -/
def rankToLoadIdx (loads : List (ChemistryLoad S)) (rank : Nat) : Except Fault Nat :=
  go 0 loads
where
  /-- the loop of LoadBalancerBase.C:81-85 from index `i` on -/
  go (i : Nat) : List (ChemistryLoad S) → Except Fault Nat
    | [] => .error .thrown
    | l :: ls => if l.rank = rank then .ok i else go (i + 1) ls

end Base

/-- LoadBalancerBase.C:90-100 `validState` with `nProcs` ranks. -/
def validState (nProcs : Nat) (st : BalancerState) : Bool :=
  if nProcs < st.sources.length then false
  else if nProcs < st.destinations.length then false
  else true

/-! ### Planning: LoadBalancer.C:106-162 -/

/-- Local variables of the loop LoadBalancer.C:113-141.  Iterators are modelled by
indices into `loads`. -/
structure PlanState (S : Type) where
  loads : List (ChemistryLoad S)
  sender : Nat
  receiver : Nat
  operations : List (Operation S)

section Plan

variable [Zero S] [Add S] [Sub S] [Mul S] [Div S] [Neg S] [NatCast S]
variable [LT S] [DecidableLT S] [LE S] [DecidableLE S] [Consts S]

/-- LoadBalancer.C:120-141, body of the loop, executed by rank `me`.
Dereferencing an iterator outside of the list and moving `sender` before
`begin` are undefined behaviour. -/
def planStep (mean : S) (me : Nat) (st : PlanState S) : Except Fault (PlanState S) := do
  let s ← getAt st.loads st.sender
  let r ← getAt st.loads st.receiver
  let sendValue := stdMin (s.value - mean) (mean - r.value)
  let op : Operation S := ⟨s.rank, r.rank, sendValue⟩
  let operations :=
    if s.rank = me ∨ r.rank = me then st.operations ++ [op] else st.operations
  -- sender->value -= send_value; receiver->value += send_value;
  let loads := st.loads.modify st.sender (fun l => { l with value := l.value - sendValue })
  let loads := loads.modify st.receiver (fun l => { l with value := l.value + sendValue })
  let s' ← getAt loads st.sender
  if absS (s'.value - mean) < Consts.SMALL then
    if st.sender = 0 then .error .ub
    else .ok ⟨loads, st.sender - 1, st.receiver, operations⟩
  else
    .ok ⟨loads, st.sender, st.receiver + 1, operations⟩

/-- LoadBalancer.C:120-141, the loop, with at most `fuel` iterations. -/
def planLoop (mean : S) (me : Nat) : Nat → PlanState S → Except Fault (PlanState S)
  | 0, st => if st.sender = st.receiver then .ok st else .error .outOfFuel
  | fuel + 1, st =>
    if st.sender = st.receiver then .ok st
    else do
      let st' ← planStep mean me st
      planLoop mean me fuel st'

/-- LoadBalancer.C:111-141: mean, sort and loop of `getOperations`, executed by rank
`me`, where `sort` is the behaviour of `std::sort(loads.begin(), loads.end())`.  With
an empty list `loads.end() - 1` is undefined behaviour.  `fuel` bounds the number of
iterations of the loop. -/
def runPlan (sort : List (ChemistryLoad S) → List (ChemistryLoad S)) (fuel : Nat)
    (loads : List (ChemistryLoad S)) (me : Nat) : Except Fault (PlanState S) :=
  let globalMean := getMean loads
  let loads := sort loads
  if loads.length = 0 then .error .ub
  else planLoop globalMean me fuel ⟨loads, loads.length - 1, 0, []⟩

/-- LoadBalancer.C:106-162 `getOperations`, executed by rank `me`: `runPlan` followed by
the filter of lines 143-151.  The two `runtime_assert`s (lines 153-159) are compiled
out in optimised builds and are not part of the result; that they hold is stated as
theorems. -/
def getOperations (sort : List (ChemistryLoad S) → List (ChemistryLoad S)) (fuel : Nat)
    (loads : List (ChemistryLoad S)) (me : Nat) : Except Fault (List (Operation S)) := do
  let st ← runPlan sort fuel loads me
  .ok (st.operations.filter
    (fun op => decide (Consts.filterFrac * getMean loads < op.value)))

/-- LoadBalancer.C:164-181 `isSender`. -/
def isSender (operations : List (Operation S)) (rank : Nat) : Bool :=
  if operations.length = 0 then false
  else operations.all (fun op => op.src == rank)

/-- LoadBalancer.C:183-195 `isReceiver`. -/
def isReceiver (operations : List (Operation S)) (rank : Nat) : Bool :=
  operations.all (fun op => op.dst == rank)

/-- LoadBalancer.C:79-104 `timesToProblemCounts`.  The iterator `begin` is modelled
by the list of problems from that position on. -/
def timesToProblemCounts [Zero S] [Add S] [LE S] [DecidableLE S] :
    List S → List (ChemistryProblem S) → List Int
  | [], _ => []
  | time :: times, problems =>
    let count := countWhile
      (fun (sum : S) (p : ChemistryProblem S) =>
        let sum := sum + p.cpuTime
        (decide (sum ≤ time), sum)) 0 problems
    (count : Int) :: timesToProblemCounts times (problems.drop count)

/-- LoadBalancer.C:40-77 `operationsToInfo` for rank `me` (`myLoad` is only used
for its rank; the local variable `sum` is dead). -/
def operationsToInfo [Zero S] [Add S] [LE S] [DecidableLE S]
    (operations : List (Operation S)) (problems : List (ChemistryProblem S)) (me : Nat) :
    BalancerState :=
  if isSender operations me then
    let nProblems := timesToProblemCounts (operations.map (·.value)) problems
    { sources := []
      destinations := operations.map (·.dst)
      nProblems := nProblems
      nRemaining := problems.length - nProblems.foldl (· + ·) 0 }
  else
    { sources := operations.map (·.src)
      destinations := []
      nProblems := []
      nRemaining := problems.length }

/-- LoadBalancer.C:28-38 `updateState` on rank `me`, given the list `allLoads` that
`allGather` returned. -/
def updateState [Zero S] [Add S] [Sub S] [Mul S] [Div S] [Neg S] [NatCast S] [LT S]
    [DecidableLT S] [LE S] [DecidableLE S] [Consts S]
    (sort : List (ChemistryLoad S) → List (ChemistryLoad S))
    (allLoads : List (ChemistryLoad S)) (me : Nat) (problems : List (ChemistryProblem S)) :
    Except Fault BalancerState := do
  let operations ← getOperations sort allLoads.length allLoads me
  .ok (operationsToInfo operations problems me)

end Plan

/-! ### Slices -/

/-- SendBuffer.H:55-60 `operator[]`: the `i`-th block of `values`.
`counts.begin() + i` past the end and `counts[i]` out of range are undefined. -/
def sendBufferAt {α : Type} (values : List α) (counts : List Int) (i : Nat) :
    Except Fault (List α) :=
  if i ≤ counts.length then do
    let start := (counts.take i).foldl (· + ·) 0
    let size ← getAt counts i
    subList values size start
  else .error .ub

/-- LoadBalancerBase.H:138-145 `getRemaining`. -/
def getRemaining {α : Type} (st : BalancerState) (values : List α) :
    Except Fault (List α) :=
  subList values st.nRemaining (values.length - st.nRemaining)

end DLB
