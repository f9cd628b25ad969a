import Verif.Model.World
import Verif.Model.Serial
import Mathlib.Logic.Function.Basic
/-
The parallel program as it runs: one program per rank, each advancing at its own pace.

`Model/World.lean` says what all ranks compute, phase by phase.  Here every rank is a separate
program; any rank that can take a step may take the next one.  The communication operations are
those the code calls: `allGather` (LoadBalancerBase.H:148-160), writing to a `PstreamBuffers`
(LoadBalancerBase.H:208-212), `finishedSends` (LoadBalancerBase.H:214) and reading from it
(LoadBalancerBase.H:217-221).  Messages are streams of tokens (`Model/Serial.lean`).

Collective operations are matched in the order in which a rank calls them: a rank contributes to
its `e`-th collective operation and can go on as soon as all ranks have contributed to their
`e`-th one.  There is no barrier besides that: ranks may run ahead of each other, also from one
time step into the next.  This is the weakest synchronisation MPI gives for an
all-to-all operation; the trees of point-to-point messages used by `gatherList` and `scatterList`
inside OpenFOAM are not modelled.
-/
set_option autoImplicit false

namespace DLB

variable {S R : Type}

/-- A contribution to a collective operation.  Of LoadBalancerBase.H:148-160 (`gatherList`) and
LoadBalancerBase.H:214 (`finishedSends`). -/
inductive Post (S : Type) where
  | load (l : ChemistryLoad S)
  | msgs (out : List (Nat × List (Tok S)))

/-- The rest of the program of one rank, seen from its next communication operation.  The operations
are those of LoadBalancerBase.H:148-160 and 194-225. -/
inductive Prog (S R : Type) where
  /-- finished with a result -/
  | done (r : R)
  /-- terminated by an error -/
  | fail
  /-- write a message for rank `dst` into the send buffer: LoadBalancerBase.H:210-211 -/
  | send (dst : Nat) (m : List (Tok S)) (k : Prog S R)
  /-- `finishedSends`: LoadBalancerBase.H:214 -/
  | exchange (k : Prog S R)
  /-- read the message of rank `src`: LoadBalancerBase.H:219-220 -/
  | recv (src : Nat) (k : List (Tok S) → Prog S R)
  /-- end of the scope of the `PstreamBuffers`: LoadBalancerBase.H:222.  It is an error if not
  all messages have been read. -/
  | endRead (k : Prog S R)
  /-- `allGather` of a load: LoadBalancerBase.H:148-160 -/
  | gather (x : ChemistryLoad S) (k : List (ChemistryLoad S) → Prog S R)

/-- State of a rank.  Semantics of MPI and `Pstream`, for the operations in
LoadBalancerBase.H:148-160 and 194-225. -/
structure RankState (S R : Type) where
  prog : Prog S R
  /-- messages written since the last exchange -/
  outbox : List (Nat × List (Tok S))
  /-- messages received and not yet read, by sender -/
  inbox : Nat → List (List (Tok S))
  /-- whether this rank has contributed to the collective operation it is at -/
  posted : Bool
  /-- contributions to collective operations so far -/
  posts : List (Post S)

/-- State of the whole run.  Semantics of MPI and `Pstream`, for the operations in
LoadBalancerBase.H:148-160 and 194-225. -/
abbrev Config (S R : Type) (n : Nat) := Fin n → RankState S R

/-- The steps a rank can take without looking at the others.  Semantics of MPI and `Pstream`, for
the operations in LoadBalancerBase.H:148-160 and 194-225. -/
def localStep (n : Nat) (a : RankState S R) : Option (RankState S R) :=
  match a.prog with
  | .done _ => none
  | .fail => none
  | .send d m k =>
    some { a with
      prog := if d < n then k else .fail
      outbox := a.outbox ++ [(d, m)] }
  | .recv s k =>
    match a.inbox s with
    | [] => some { a with prog := .fail }
    | m :: ms => some { a with
        prog := k m
        inbox := fun s' => if s' = s then ms else a.inbox s' }
  | .endRead k =>
    if (List.range n).all (fun s => (a.inbox s).isEmpty) then
      some { a with prog := k, inbox := fun _ => [] }
    else some { a with prog := .fail }
  | .gather x _ =>
    if a.posted then none
    else some { a with posted := true, posts := a.posts ++ [.load x] }
  | .exchange _ =>
    if a.posted then none
    else some { a with posted := true, posts := a.posts ++ [.msgs a.outbox], outbox := [] }

/-- The contributions of all ranks to their `e`-th collective operation, once all are there.
LoadBalancerBase.H:156-157 and 214. -/
def collect {n : Nat} (c : Config S R n) (e : Nat) : Option (Fin n → Post S) :=
  if h : ∀ j, e < (c j).posts.length then some (fun j => (c j).posts[e]'(h j)) else none

/-- Completion of a collective operation by rank `me`.  Different collective operations meeting
each other are an error.  LoadBalancerBase.H:156-157 and 214. -/
def complete {n : Nat} (me : Fin n) (a : RankState S R) (f : Fin n → Post S) :
    RankState S R :=
  match a.prog with
  | .gather _ k =>
    match allRanks (fun j => match f j with
      | .load l => (.ok l : Except Fault _) | .msgs _ => .error .fatal) with
    | .ok loads => { a with prog := k (List.ofFn loads), posted := false }
    | .error _ => { a with prog := .fail }
  | .exchange k =>
    match allRanks (fun j => match f j with
      | .msgs o => (.ok o : Except Fault _) | .load _ => .error .fatal) with
    | .ok out => { a with
        prog := k
        posted := false
        inbox := fun s => if h : s < n then inboxFrom me.val (out ⟨s, h⟩) else [] }
    | .error _ => { a with prog := .fail }
  | _ => a

/-- Whether a rank has contributed to a collective operation and waits for the others.  Semantics of
MPI and `Pstream`, for the operations in LoadBalancerBase.H:148-160 and 194-225. -/
def waiting (a : RankState S R) : Bool :=
  match a.prog with
  | .gather _ _ => a.posted
  | .exchange _ => a.posted
  | _ => false

/-- The next step of rank `me`, if it can take one.  Semantics of MPI and `Pstream`, for the
operations in LoadBalancerBase.H:148-160 and 194-225. -/
def rankStep {n : Nat} (me : Fin n) (c : Config S R n) : Option (RankState S R) :=
  match localStep n (c me) with
  | some b => some b
  | none =>
    if waiting (c me) then
      (collect c ((c me).posts.length - 1)).map (complete me (c me))
    else none

/-- One step of the run: some rank takes its next step.  Semantics of MPI and `Pstream`, for the
operations in LoadBalancerBase.H:148-160 and 194-225. -/
def Step {n : Nat} (c c' : Config S R n) : Prop :=
  ∃ me b, rankStep me c = some b ∧ c' = Function.update c me b

/-- A run of `k` steps.  No code of /repo: sequences of `Step`, for the operations in
LoadBalancerBase.H:148-160 and 194-225. -/
inductive Steps {α : Type} (rel : α → α → Prop) : Nat → α → α → Prop where
  | refl (a : α) : Steps rel 0 a a
  | head {k : Nat} {a b c : α} : rel a b → Steps rel k b c → Steps rel (k + 1) a c

/-! ### The program of a rank -/

/-- LoadBalancerBase.H:208-212. -/
def sendLoop (buf : Nat → Except Fault (List (Tok S))) : Nat → List Nat → Prog S R → Prog S R
  | _, [], k => k
  | i, d :: ds, k =>
    match buf i with
    | .error _ => .fail
    | .ok m => .send d m (sendLoop buf (i + 1) ds k)

/-- LoadBalancerBase.H:217-221.  Data left in a message after reading it are an error. -/
def recvLoop {α : Type} (get : Reader S α) : List Nat → (List α → Prog S R) → Prog S R
  | [], k => k []
  | s :: ss, k => .recv s (fun m =>
      match get m with
      | .ok (x, []) => recvLoop get ss (fun xs => k (x :: xs))
      | _ => .fail)

/-- `send << send_buffer[i]`: the stream for element `i` of the send buffer.
LoadBalancerBase.H:211. -/
def encoded {α : Type} (put : α → List (Tok S)) (buf : Nat → Except Fault α) (i : Nat) :
    Except Fault (List (Tok S)) :=
  match buf i with
  | .ok x => .ok (put x)
  | .error e => .error e

/-- LoadBalancerBase.H:194-225 `sendRecv` on one rank, continuing with what was received. -/
def sendRecvProg {α : Type} (parRun : Bool) (put : α → List (Tok S)) (get : Reader S α)
    (buf : Nat → Except Fault α) (sources destinations : List Nat)
    (k : List α → Prog S R) : Prog S R :=
  if parRun then
    sendLoop (encoded put buf) 0 destinations
      (.exchange (recvLoop get sources (fun xs => .endRead (k xs))))
  else k []

/-- Continue with the result of a computation that needs no communication.  The code between the
operations, loadBalancedChemistryModel.C:155-186. -/
def localCompute {α : Type} (x : Except Fault α) (k : α → Prog S R) : Prog S R :=
  match x with
  | .ok a => k a
  | .error _ => .fail

section
variable [Zero S] [Add S] [Sub S] [Mul S] [Div S] [Neg S] [NatCast S]
variable [LT S] [DecidableLT S] [LE S] [DecidableLE S] [Consts S]

/-- loadBalancedChemistryModel.C:159-181 on rank `me`, the active branch. -/
def balancedProg (M : ChemModel S) (parRun : Bool)
    (sort : List (ChemistryLoad S) → List (ChemistryLoad S)) (clk : Nat → S) (me : Nat)
    (problems : List (ChemistryProblem S))
    (k : List (List (ChemistrySolution S)) → Prog S R) : Prog S R :=
  .gather (computeLoad me problems) fun loads =>
  localCompute (updateState sort loads me problems) fun st =>
  sendRecvProg parRun (putList putProblem) (getList getProblem)
    (fun i => sendBufferAt problems st.nProblems i) st.sources st.destinations fun guests =>
  localCompute (getRemaining st problems) fun own =>
  localCompute (solveList M clk 1 own) fun ownSol =>
  localCompute (solveBuffer M clk (1 + own.length) guests) fun guestSol =>
  sendRecvProg parRun (putList putSolution) (getList getSolution)
    (fun i => getAt guestSol i) st.destinations st.sources fun incoming =>
  k (incoming ++ [ownSol])

/-- loadBalancedChemistryModel.C:135-207 `solve<DeltaTType>` on rank `me`, continuing with the
new fields and the returned time step. -/
def stepProg (M : ChemModel S) (parRun : Bool)
    (sort : List (ChemistryLoad S) → List (ChemistryLoad S)) (clk : Nat → S) (flow : Flow S)
    (me : Nat) (F : RankFields S) (k : RankFields S × S → Prog S R) : Prog S R :=
  if M.chemistry then
    localCompute (getProblems M flow clk F) fun pr =>
    if M.active then
      balancedProg M parRun sort clk me pr.2 fun incoming =>
        localCompute (updateReactionRates M flow.nCells pr.1 incoming) k
    else
      localCompute (solveList M clk 1 pr.2) fun sol =>
        localCompute (updateReactionRates M flow.nCells pr.1 [sol]) k
  else k (F, Consts.great)

/-- The inputs of one time step on all ranks.  Arguments and fields of
loadBalancedChemistryModel.C:137-207. -/
structure StepInput (S : Type) (n : Nat) where
  model : ChemModel S
  clk : Fin n → Nat → S
  flow : Fin n → Flow S

/-- A sequence of time steps on rank `me`: fields are kept from one step to the next.  Calls of
loadBalancedChemistryModel.C:137-207 one after the other. -/
def historyProg {n : Nat} (parRun : Bool)
    (sort : List (ChemistryLoad S) → List (ChemistryLoad S)) (me : Fin n) :
    List (StepInput S n) → RankFields S → List (RankFields S × S) →
    Prog S (List (RankFields S × S))
  | [], _, acc => .done acc
  | i :: is, F, acc => stepProg i.model parRun sort (i.clk me) (i.flow me) me.val F fun res =>
      historyProg parRun sort me is res.1 (acc ++ [res])

/-- All ranks before the first step.  Before the first call of loadBalancedChemistryModel.C:137-207.
-/
def startConfig {n : Nat} (parRun : Bool)
    (sort : List (ChemistryLoad S) → List (ChemistryLoad S)) (inputs : List (StepInput S n))
    (F : Fin n → RankFields S) : Config S (List (RankFields S × S)) n :=
  fun me => ⟨historyProg parRun sort me inputs (F me) [], [], fun _ => [], false, []⟩

end
end DLB
