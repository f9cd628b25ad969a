import Verif.Model.Basic
/-
src/ODE_DLB/ODESolvers/ODESolver/ODESolver.C and ODESolver.H.

A `scalarField` of `N` entries is a function `Fin N → S`; that the sizes of all fields agree is
part of the type.  What `resize` does to the sizes is modelled separately at the end.
-/
set_option autoImplicit false

namespace DLB

variable {S : Type} {N : Nat}

/-- A field with one entry per equation.  `scalarField`, ODESolver.H:72, 75, 86-88. -/
abbrev Vec (S : Type) (N : Nat) := Fin N → S

/-- ODESolver.H:99-121 `stepState`. -/
structure StepState (S : Type) where
  forward : Bool
  dxTry : S
  dxDid : S
  first : Bool
  last : Bool
  reject : Bool
  prevReject : Bool

/-- ODESolver.H:111-120, the constructor. -/
def StepState.init [Zero S] [LT S] [DecidableLT S] (dx : S) : StepState S where
  forward := decide (0 < dx)
  dxTry := dx
  dxDid := 0
  first := true
  last := false
  reject := false
  prevReject := false

/-- ODESolver.C:41-57 `normalizeError`. -/
def normalizeError [Zero S] [Add S] [Mul S] [Div S] [Neg S] [LT S] [DecidableLT S]
    (absTol relTol y0 y err : Vec S N) : S :=
  (List.finRange N).foldl
    (fun maxErr i =>
      let tol := absTol i + relTol i * foamMax (absS (y0 i)) (absS (y i))
      foamMax maxErr (absS (err i) / tol)) 0

/-- The virtual function `solve(x, y, li, step)` of a stepper: from the mutable scratch data of
the stepper, `x`, `y` and `step` to their values after the call.  ODESolver.H:209-216. -/
abbrev Stepper (S : Type) (N : Nat) (Scr : Type) :=
  Scr → S → Vec S N → StepState S → Except Fault (Scr × S × Vec S N × StepState S)

/-- What the driver returns: scratch data, `y`, `dxTry`, and, for the statement of properties,
the final `x` and the number of completed steps.  ODESolver.C:145-202. -/
structure DriverResult (S : Type) (N : Nat) (Scr : Type) where
  scratch : Scr
  y : Vec S N
  dxTry : S
  x : S
  steps : Nat

section
variable [Zero S] [Add S] [Sub S] [Mul S] [LT S] [DecidableLT S] [LE S] [DecidableLE S]

/-- ODESolver.C:159-169: the step as handed to the stepper. -/
def driverPrepare (xStart xEnd x : S) (step : StepState S) : StepState S :=
  let step := { step with reject := false }
  if 0 < (x + step.dxTry - xEnd) * (x + step.dxTry - xStart) then
    { step with last := true, dxTry := xEnd - x }
  else step

/-- ODESolver.C:157-201, the loop of `solve(xStart, xEnd, ...)` and the error after it, from
iteration `nStep` on, with `left = maxSteps_ - nStep`. -/
def driverLoop {Scr : Type} (stepper : Stepper S N Scr) (xStart xEnd : S) :
    Nat → Nat → Scr → S → Vec S N → StepState S → Except Fault (DriverResult S N Scr)
  | 0, _, _, _, _, _ => .error .fatal
  | left + 1, nStep, scratch, x, y, step => do
    let dxTry0 := step.dxTry
    let (scratch, x, y, step) ← stepper scratch x y (driverPrepare xStart xEnd x step)
    if 0 ≤ (x - xEnd) * (xEnd - xStart) then
      let dxTry := if 0 < nStep ∧ step.last = true then dxTry0 else step.dxTry
      .ok ⟨scratch, y, dxTry, x, nStep + 1⟩
    else
      driverLoop stepper xStart xEnd left (nStep + 1) scratch x y
        { step with
          first := false
          prevReject := if step.reject then true else step.prevReject }

/-- ODESolver.C:145-202 `solve(xStart, xEnd, y, li, dxTry)`. -/
def driverSolve {Scr : Type} (stepper : Stepper S N Scr) (maxSteps : Nat) (scratch : Scr)
    (xStart xEnd : S) (y : Vec S N) (dxTry : S) : Except Fault (DriverResult S N Scr) :=
  driverLoop stepper xStart xEnd maxSteps 0 scratch xStart y (StepState.init dxTry)

end

/-! ### Sizes

`resizeField` (ODESolverI.H:49-60) makes a field a view of the first `n_` entries of its storage,
without reallocation.  The storage is never smaller than at construction. -/

/-- A `UList`: size and allocated entries.  ODESolverI.H:49-60. -/
structure Sized where
  size : Nat
  capacity : Nat
  deriving DecidableEq, Repr

/-- The sizes an `ODESolver` and a `seulex_LAPACK` keep: ODESolver.H:66-75 and
seulex_LAPACK.H:97-113.  Matrices are counted by their number of columns, which is also the number
of rows except for `table_`. -/
structure SolverSizes where
  maxN : Nat
  n : Nat
  absTol : Sized
  relTol : Sized
  table : Sized
  dfdx : Sized
  dfdy : Sized
  a : Sized
  pivotIndices : Sized
  y0 : Sized
  ySequence : Sized
  scale : Sized
  dy : Sized
  yTemp : Sized
  dydx : Sized
  deriving DecidableEq, Repr

/-- ODESolver.C:62-70 and seulex_LAPACK.C:52-72, the constructors. -/
def SolverSizes.construct (nEqns : Nat) : SolverSizes :=
  let s : Sized := ⟨nEqns, nEqns⟩
  { maxN := nEqns, n := nEqns, absTol := s, relTol := s, table := s, dfdx := s, dfdy := s, a := s,
    pivotIndices := s, y0 := s, ySequence := s, scale := s, dy := s, yTemp := s, dydx := s }

/-- ODESolverI.H:49-53 `resizeField` and ODESolverI.H:63-66 `resizeMatrix` (`shallowResize`). -/
def resizeField (n : Nat) (f : Sized) : Sized := { f with size := n }

/-- ODESolver.C:91-114 `ODESolver::resize`. -/
def SolverSizes.resizeBase (nEqns : Nat) (s : SolverSizes) : Except Fault (Bool × SolverSizes) :=
  if nEqns ≠ s.n then
    if s.maxN < nEqns then .error .fatal
    else
      .ok (true, { s with
        n := nEqns
        absTol := resizeField nEqns s.absTol
        relTol := resizeField nEqns s.relTol })
  else .ok (false, s)

/-- seulex_LAPACK.C:308-330 `seulex_LAPACK::resize`. -/
def SolverSizes.resize (nEqns : Nat) (s : SolverSizes) : Except Fault (Bool × SolverSizes) := do
  let (changed, s) ← s.resizeBase nEqns
  if changed then
    .ok (true, { s with
      table := resizeField s.n s.table
      dfdx := resizeField s.n s.dfdx
      dfdy := resizeField s.n s.dfdy
      a := resizeField s.n s.a
      pivotIndices := resizeField s.n s.pivotIndices
      y0 := resizeField s.n s.y0
      ySequence := resizeField s.n s.ySequence
      scale := resizeField s.n s.scale
      dy := resizeField s.n s.dy
      yTemp := resizeField s.n s.yTemp
      dydx := resizeField s.n s.dydx })
  else .ok (false, s)

end DLB
