import Verif.Model.Mechanism
/-
`eval_jacob` of a shipped mechanism library (/repo/utilities/mechanisms/drm19/lib/src/jacob.c and jacobs/): the derivatives of the
right-hand side with respect to temperature and mass fractions.
-/
set_option autoImplicit false

namespace DLB

/-- One of the functions `eval_jacob_0`, `eval_jacob_1`, ... of jacobs/jacob_<k>.c that go through the reactions: the initialisations
of its local variables, and for each of its reactions the statements "partial wrt T" and "partial wrt species".
`takesM`: the function has the parameter `m` (it has no reaction with third bodies otherwise).
utilities/mechanisms/<name>/lib/src/jacobs/jacob_<k>.c, called from jacob.c: drm19:3-170,
gri30:3-371, yao:3-377. -/
structure JacobPart where
  takesM : Bool
  start : List CStmt
  blocks : List (List CStmt × List CStmt)

/-- The statements of such a function in order.
utilities/mechanisms/<name>/lib/src/jacobs/jacob_<k>.c, called from jacob.c: drm19:3-170,
gri30:3-371, yao:3-377. -/
def JacobPart.stmts (P : JacobPart) : List CStmt := P.start ++ (P.blocks.map fun b => b.1 ++ b.2).flatten

/-- The sources of `eval_jacob`: jacob.c up to the first call (`pre`, `dBdT`), the functions that go through the reactions (`parts`), jacob.c
up to the last call (`cpAvg`), the function with the remaining terms, by species (`endStart`, `endRows`), the end of jacob.c (`last`).
utilities/mechanisms/<name>/lib/src/jacob.c: drm19:3-170, gri30:3-371, yao:3-377. -/
structure JacobSrc where
  pre : List CStmt
  dBdT : List CStmt
  parts : List JacobPart
  cpAvg : List CStmt
  endStart : List CStmt
  endRows : List (List CStmt)
  last : List CStmt

namespace Mech
variable (M : Mech)

/-- Sizes of the arrays in `eval_jacob` (jacob.c:3-31,91-97): as elsewhere, but `spec_rates` has an entry for the last species; `y` has (at
least) `NSP` entries, `jac` has `NSP * NSP`. -/
def szJ : CSizes
  | .spRates => M.nsp
  | a => M.szF a

variable {S : Type} [Add S] [Sub S] [Mul S] [Div S] [Neg S] [OfScientific S] [CMath S]
  [LE S] [DecidableLE S]

/-- The memory in which one of the `eval_jacob_<k>` starts: its parameters; locals are uninitialised.
utilities/mechanisms/<name>/lib/src/jacobs/jacob_<k>.c, called from jacob.c: drm19:3-170,
gri30:3-371, yao:3-377. -/
def jacobPartMem (withM : Bool) (T pres m mwAvg rho : Option S) (conc fwd rev pm spec dBdT jac : Nat → Option S)
    (jN : Option S) : CMem S
  | .var .T => T
  | .var .pres => pres
  | .var .m => if withM then m else none
  | .var .mwAvg => mwAvg
  | .var .rho => rho
  | .arr .C i => conc i
  | .arr .fwd i => fwd i
  | .arr .rev i => rev i
  | .arr .presMod i => pm i
  | .arr .spRates i => spec i
  | .arr .dBdT i => dBdT i
  | .arr .jac i => jac i
  | .var .jN => jN
  | _ => none

/-- The calls of `eval_jacob_0`, `eval_jacob_1`, ... in order (jacob.c:79-81; gri30: jacob.c:156-164), each passing on the array `jac` and the
variable `J_nplusone` (which in gri30 some of the functions assign through a pointer; the other libraries do not have it). -/
def callJacobParts (mem : Bool → (Nat → Option S) → Option S → CMem S) :
    List JacobPart → (Nat → Option S) → Option S → Option ((Nat → Option S) × Option S)
  | [], jac, jN => some (jac, jN)
  | P :: Ps, jac, jN => do
    let σ ← execAll M.szJ P.stmts (mem P.takesM jac jN)
    callJacobParts mem Ps (fun i => σ (.arr .jac i)) (σ (.var .jN))

/-- `eval_jacob(t, pres, y, jac)` of jacob.c: `y[0]` is the temperature, `y[i+1]` the mass fraction of species `i`; `jac` holds what the
caller has put there.  Result: the memory in which `jac` can be read.
Simplifications: `t` is not used by the code; `spec_rates` is filled in completely by `eval_spec_rates` (`C66`), so that its initialisation
to zero and that the last entry is passed as `&spec_rates[NSP - 1]` in addition to the array are not represented.
utilities/mechanisms/<name>/lib/src/jacob.c: drm19:3-170, gri30:3-371, yao:3-377. -/
def callJacob (J : JacobSrc) (pres : S) (y : Nat → S) (jac : Nat → Option S) : Option (CMem S) := do
  let T := y 0
  let σc ← M.callEvalConc T pres (fun i => some (y (i + 1)))
  let conc := fun i => σc (.arr .C i)
  let σr ← M.callRxnRates T pres conc
  let fwd := fun i => σr (.arr .fwd i)
  let rev := fun i => σr (.arr .rev i)
  let σp ← M.callPresMod T pres conc
  let pm := fun i => σp (.arr .presMod i)
  let σs ← M.callSpecRates fwd rev pm
  let spec := fun i => σs (specLoc M.nsp i)
  let σd ← execAll M.szJ (J.pre ++ J.dBdT) fun
    | .var .T => some T
    | .var .pres => some pres
    | _ => none
  let (jac, jN) ← M.callJacobParts
    (fun withM jac jN => jacobPartMem withM (some T) (some pres) (σd (.var .m)) (σc (.var .mwAvg)) (σc (.var .rho)) conc fwd rev pm spec
      (fun i => σd (.arr .dBdT i)) jac jN) J.parts jac (σd (.var .jN))
  let σh ← M.callH T
  let σcp ← M.callCp T
  let σa ← execAll M.szJ J.cpAvg fun
    | .arr .y i => some (y i)
    | .var .yN => σc (.var .yN)
    | .arr .cp i => σcp (.arr .cp i)
    | .arr .jac i => jac i
    | _ => none
  let σe ← execAll M.szJ (J.endStart ++ J.endRows.flatten) fun
    | .var .mwAvg => σc (.var .mwAvg)
    | .var .rho => σc (.var .rho)
    | .var .cpAvg => σa (.var .cpAvg)
    | .arr .spRates i => spec i
    | .arr .h i => σh (.arr .h i)
    | .arr .cp i => σcp (.arr .cp i)
    | .arr .jac i => σa (.arr .jac i)
    | _ => none
  execAll M.szJ J.last fun
    | .var .T => some T
    | .arr .y i => some (y i)
    | .var .yN => σc (.var .yN)
    | .var .rho => σc (.var .rho)
    | .var .cpAvg => σa (.var .cpAvg)
    | .var .workTemp => σa (.var .workTemp)
    | .arr .spRates i => spec i
    | .arr .h i => σh (.arr .h i)
    | .arr .cp i => σcp (.arr .cp i)
    | .arr .jac i => σe (.arr .jac i)
    | .var .jN => jN
    | _ => none

end Mech
end DLB
