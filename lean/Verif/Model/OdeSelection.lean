import Verif.Model.Stateful
/-
From the sub-dictionary `odeCoeffs` of `constant/chemistryProperties` to the integrator: src/ODE_DLB/ODESolvers/ODESolver/ODESolverNew.C, the
constructor of ODESolver.C that reads the dictionary, and the constructor of ode_pyJac.C.
-/
set_option autoImplicit false

namespace DLB

variable {S : Type}

/-- The entries of `odeCoeffs` that the code reads; `none` for an entry that is not there.  Entries that are not a word or not a number, at which
OpenFOAM stops while reading, are not modelled.  ODESolver.C:62-70 and ode_pyJac.C:34. -/
structure OdeCoeffs (S : Type) where
  solver : Option String := none
  absTol : Option S := none
  relTol : Option S := none
  maxSteps : Option S := none

/-- What the constructors keep of the dictionary: the type that was selected and ODESolver.H:72-78 (`absTol_`, `relTol_`, `maxSteps_`). -/
structure OdeSolverObject (S : Type) (N : Nat) where
  type : String
  absTol : Vec S N
  relTol : Vec S N
  maxSteps : Int

/-- The conversion of a `scalar` to a `label` of 32 bits (OpenFOAM's default): truncation, undefined if the result is not representable.
ODESolver.C:69. -/
def toLabel [MathOps S] (x : S) : Except Fault Int :=
  let t := MathOps.toInt x
  if -2 ^ 31 ≤ t ∧ t < 2 ^ 31 then .ok t else .error .ub

/-- ODESolver.C:62-70, the constructor from a dictionary. -/
def odeSolverConstruct [Consts S] [NatCast S] [OfScientific S] [MathOps S] (type : String) (N : Nat) (dict : OdeCoeffs S) :
    Except Fault (OdeSolverObject S N) := do
  let maxSteps ← toLabel (dict.maxSteps.getD ((10000 : Nat) : S))
  .ok { type := type, absTol := fun _ => dict.absTol.getD Consts.SMALL, relTol := fun _ => dict.relTol.getD 1e-4, maxSteps := maxSteps }

/-- The constructor table of `ODESolver`: the types of OpenFOAM (`foam`) and seulex_LAPACK.C:35-37 with the type name of seulex_LAPACK.H:144. -/
def odeSolverTable (foam : List String) : List String := "seulex_LAPACK" :: foam

/-- ODESolverNew.C:31-55 `ODESolver::New`.  All constructors of the table begin with `odeSolverConstruct`; what those of OpenFOAM do besides is
not modelled. -/
def odeSolverNew [Consts S] [NatCast S] [OfScientific S] [MathOps S] (table : List String) (N : Nat) (dict : OdeCoeffs S) :
    Except Fault (OdeSolverObject S N) :=
  match dict.solver with
  | none => .error .fatal
  | some name => if name ∈ table then odeSolverConstruct name N dict else .error .fatal

/-- ode_pyJac.C:33-39, the constructor: `subDict` stops if there is no `odeCoeffs`. -/
def odePyJacConstruct [Consts S] [NatCast S] [OfScientific S] [MathOps S] (table : List String) (nEqns : Nat) (odeCoeffs : Option (OdeCoeffs S)) :
    Except Fault (OdeSolverObject S nEqns) :=
  match odeCoeffs with
  | none => .error .fatal
  | some dict => odeSolverNew table nEqns dict

section
variable {m : Nat}
variable [Zero S] [Add S] [Sub S] [Mul S] [Div S] [Neg S] [NatCast S] [OfScientific S]
variable [LT S] [DecidableLT S] [LE S] [DecidableLE S] [BEq S] [Consts S] [MathOps S]

/-- The chemistry model of a case: solver `ode_pyJac` with the integrator that `odeCoeffs` selects, for `seulex_LAPACK`.  The loop of
ODESolver.C:157 makes no iteration for a negative `maxSteps_`.  `none` for the integrators of OpenFOAM, which are not modelled. -/
def caseModel (base : ChemModel S) (L : PyJacLib S m) (linearSolve : (Nat → S) → Vec S (m + 2) → Vec S (m + 2)) (fuel : Nat)
    (table : List String) (odeCoeffs : Option (OdeCoeffs S)) : Except Fault (Option (StatefulModel S (Scratch S (m + 1)))) := do
  let o ← odePyJacConstruct table (m + 2) odeCoeffs
  .ok (if o.type = "seulex_LAPACK" then some (pyJacModel base L linearSolve o.absTol o.relTol fuel o.maxSteps.toNat) else none)

end

/-- tutorials/multicomponentFluid/shearlayer_DLB_pyJac/constant/chemistryProperties:53-58. -/
def tutorialOdeCoeffs [Div S] [NatCast S] : OdeCoeffs S where
  solver := some "seulex_LAPACK"
  absTol := some (((1 : Nat) : S) / ((10 ^ 8 : Nat) : S))
  relTol := some (((1 : Nat) : S) / ((10 ^ 5 : Nat) : S))

/-- tests/validation/pyjacTests/PSRTest/testCase/constant/chemistryProperties:28-33. -/
def validationOdeCoeffs [Div S] [NatCast S] : OdeCoeffs S where
  solver := some "seulex_LAPACK"
  absTol := some (((1 : Nat) : S) / ((10 ^ 12 : Nat) : S))
  relTol := some (((1 : Nat) : S) / ((10 ^ 12 : Nat) : S))

end DLB
