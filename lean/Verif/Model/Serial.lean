import Verif.Model.Types
/-
Serialisation: the stream operators of ChemistryLoad.H, ChemistryProblem.H and
ChemistrySolution.H, on top of OpenFOAM's stream operators for labels, scalars,
scalar fields and lists.

A binary `Pstream` is modelled as a list of tokens.  White space is not part of the
stream (`UOPstream::write(char)` drops it).
-/
set_option autoImplicit false

namespace DLB

variable {S : Type}

/-- What a binary OpenFOAM stream consists of: labels, scalars, the delimiters of lists,
and raw blocks of scalars.  Library code; used by ChemistryLoad.H:84-102, ChemistryProblem.H:71-101
and ChemistrySolution.H:68-88. -/
inductive Tok (S : Type) where
  | label (n : Nat)
  | scalar (x : S)
  | beginList
  | endList
  | block (xs : List S)
  deriving Repr, DecidableEq

/-- A reader consumes the beginning of a stream or fails (`FatalIOError`).  Library code; used by
ChemistryLoad.H:84-102, ChemistryProblem.H:71-101 and ChemistrySolution.H:68-88. -/
abbrev Reader (S α : Type) := List (Tok S) → Except Fault (α × List (Tok S))

/-- OpenFOAM `is >> label`.  Library code; used by ChemistryLoad.H:84-102, ChemistryProblem.H:71-101
and ChemistrySolution.H:68-88. -/
def getLabel : Reader S Nat
  | .label n :: ts => .ok (n, ts)
  | _ => .error .fatal

/-- OpenFOAM `is >> scalar`.  Library code; used by ChemistryLoad.H:84-102,
ChemistryProblem.H:71-101 and ChemistrySolution.H:68-88. -/
def getScalar : Reader S S
  | .scalar x :: ts => .ok (x, ts)
  | _ => .error .fatal

/-- OpenFOAM `os << scalarField`: `scalar` is a contiguous type, so in binary the size is
followed by one raw block, which is left out for size zero.  Library code; used by
ChemistryLoad.H:84-102, ChemistryProblem.H:71-101 and ChemistrySolution.H:68-88. -/
def putScalars (xs : List S) : List (Tok S) :=
  .label xs.length :: (if xs.length = 0 then [] else [.block xs])

/-- OpenFOAM `is >> scalarField`.  Library code; used by ChemistryLoad.H:84-102,
ChemistryProblem.H:71-101 and ChemistrySolution.H:68-88. -/
def getScalars : Reader S (List S)
  | .label n :: ts =>
    if n = 0 then .ok ([], ts)
    else
      match ts with
      | .block xs :: ts => if xs.length = n then .ok (xs, ts) else .error .fatal
      | _ => .error .fatal
  | _ => .error .fatal

/-- OpenFOAM `os << List<T>` for a type that is not contiguous: size and elements between
delimiters.  Library code; used by LoadBalancerBase.H:211, 220. -/
def putList {α : Type} (put : α → List (Tok S)) (xs : List α) : List (Tok S) :=
  .label xs.length :: .beginList :: (xs.flatMap put ++ [.endList])

/-- Read `n` elements in turn.  Library code; used by LoadBalancerBase.H:211, 220. -/
def getMany {α : Type} (get : Reader S α) : Nat → Reader S (List α)
  | 0, ts => .ok ([], ts)
  | n + 1, ts => do
    let (x, ts) ← get ts
    let (xs, ts) ← getMany get n ts
    .ok (x :: xs, ts)

/-- OpenFOAM `is >> List<T>` for a type that is not contiguous.  (The short form for uniform
lists, `n{x}`, is not written for such types and not modelled.)  Library code; used by
LoadBalancerBase.H:211, 220. -/
def getList {α : Type} (get : Reader S α) : Reader S (List α)
  | .label n :: .beginList :: ts => do
    let (xs, ts) ← getMany get n ts
    match ts with
    | .endList :: ts => .ok (xs, ts)
    | _ => .error .fatal
  | _ => .error .fatal

/-- ChemistryLoad.H:84-92. -/
def putLoad (l : ChemistryLoad S) : List (Tok S) := [.label l.rank, .scalar l.value]

/-- ChemistryLoad.H:94-102. -/
def getLoad : Reader S (ChemistryLoad S) := fun ts => do
  let (rank, ts) ← getLabel ts
  let (value, ts) ← getScalar ts
  .ok (⟨rank, value⟩, ts)

/-- ChemistryProblem.H:71-85. -/
def putProblem (p : ChemistryProblem S) : List (Tok S) :=
  putScalars p.c ++ [.scalar p.Ti, .scalar p.pi, .scalar p.rhoi, .scalar p.deltaTChem,
    .scalar p.deltaT, .scalar p.cpuTime, .label p.cellid]

/-- ChemistryProblem.H:87-101. -/
def getProblem : Reader S (ChemistryProblem S) := fun ts => do
  let (c, ts) ← getScalars ts
  let (Ti, ts) ← getScalar ts
  let (pi, ts) ← getScalar ts
  let (rhoi, ts) ← getScalar ts
  let (deltaTChem, ts) ← getScalar ts
  let (deltaT, ts) ← getScalar ts
  let (cpuTime, ts) ← getScalar ts
  let (cellid, ts) ← getLabel ts
  .ok (⟨c, Ti, pi, rhoi, deltaTChem, deltaT, cpuTime, cellid⟩, ts)

/-- ChemistrySolution.H:68-77. -/
def putSolution (s : ChemistrySolution S) : List (Tok S) :=
  putScalars s.rr ++ [.scalar s.deltaTChem, .scalar s.cpuTime, .label s.cellid, .scalar s.rhoi]

/-- ChemistrySolution.H:79-88. -/
def getSolution : Reader S (ChemistrySolution S) := fun ts => do
  let (rr, ts) ← getScalars ts
  let (deltaTChem, ts) ← getScalar ts
  let (cpuTime, ts) ← getScalar ts
  let (cellid, ts) ← getLabel ts
  let (rhoi, ts) ← getScalar ts
  .ok (⟨rr, deltaTChem, cpuTime, cellid, rhoi⟩, ts)

end DLB
