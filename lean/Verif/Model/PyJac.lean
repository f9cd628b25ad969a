import Verif.Model.OdeSolver
import Verif.Model.ChemistryModel
import Verif.Model.Seulex
/-
The pyJac chemistry model
(src/thermophysicalModels/chemistryModel/chemistryModel/loadBalanced_pyJacChemistryModel) and the
ODE chemistry solver (chemistrySolver/ode_pyJac/ode_pyJac.C).

The number of species is `m + 1`; the state vector of the pyJac model has `m + 2` entries:
temperature, the first `m` mass fractions, pressure.
-/
set_option autoImplicit false

namespace DLB

variable {S : Type} {m : Nat}

/-- The functions of the pyJac library that the model calls.
* `dydt p y`: right-hand side for pressure `p` and the array `y` of temperature and all mass
  fractions (dydt.h); the output has `nSpecie` entries;
* `evalJacob p y`: the array of `nSpecie * nSpecie` entries written by `eval_jacob` (jacob.h);
* `evalH T`: species enthalpies (chem_utils.h);
* `nsp`: `PYJAC_NSP()`.  Called in loadBalanced_pyJacChemistryModel.C:51, 105, 143. -/
structure PyJacLib (S : Type) (m : Nat) where
  dydt : S → Vec S (m + 2) → Vec S (m + 1)
  evalJacob : S → Vec S (m + 2) → Nat → S
  evalH : S → Vec S (m + 1)
  nsp : Nat

/-- Position of species `i < m` in the state vector.  ode_pyJac.C:100, 111. -/
def speciesPos (i : Fin m) : Fin (m + 2) := ⟨i.val + 1, by omega⟩

/-- Position of the pressure: `c[nSpecie()]`.  ode_pyJac.C:96, 106. -/
def pressurePos (m : Nat) : Fin (m + 2) := Fin.last (m + 1)

section
variable [Zero S] [Add S] [Sub S] [Mul S] [Neg S] [OfScientific S] [LT S] [DecidableLT S]

/-- loadBalanced_pyJacChemistryModel.C:90-97 and :129-134: mass fractions of all species from the
state vector. -/
def modelComposition (y : Vec S (m + 2)) : Vec S (m + 1) :=
  let clipped : Fin m → S := fun i => foamMax (y (speciesPos i)) 0
  let csum := (List.finRange m).foldl (fun s i => s + clipped i) 0
  fun i => if h : i.val < m then clipped ⟨i.val, h⟩ else (1.0 : S) - csum

/-- loadBalanced_pyJacChemistryModel.C:98-103 and :136-140: the array handed to pyJac. -/
def toPyJac (T : S) (c : Vec S (m + 1)) : Vec S (m + 2) :=
  fun i => if h : i.val = 0 then T else c ⟨i.val - 1, by omega⟩

/-- loadBalanced_pyJacChemistryModel.C:120-147 `derivatives`. -/
def pyJacDerivatives (L : PyJacLib S m) (_t : S) (y : Vec S (m + 2)) : Vec S (m + 2) :=
  let dy := L.dydt (y (pressurePos m)) (toPyJac (y 0) (modelComposition y))
  fun i => if h : i.val < m + 1 then dy ⟨i.val, h⟩ else 0

/-- loadBalanced_pyJacChemistryModel.C:78-118 `jacobian` (the output `dcdt = Zero` is not used).
The counter `k` of line 106-110 is `j * nSpecie`. -/
def pyJacJacobian (L : PyJacLib S m) (_t : S) (y : Vec S (m + 2)) : Mat S (m + 2) :=
  let jac := L.evalJacob (y (pressurePos m)) (toPyJac (y 0) (modelComposition y))
  fun i j => if i.val < m + 1 ∧ j.val < m + 1 then jac (j.val * (m + 1) + i.val) else 0

/-- loadBalanced_pyJacChemistryModel.C:41-70, the constructor: the enthalpies of formation, zero if
chemistry is off (OpenFOAM's `scalarField(n)` is uninitialised; the values are not used then). -/
def pyJacConstruct (L : PyJacLib S m) (chemistry : Bool) : Except Fault (Vec S (m + 1)) :=
  let h := if chemistry then L.evalH (298.15 : S) else fun _ => 0
  if m + 1 = L.nsp then .ok h else .error .fatal

/-- loadBalanced_pyJacChemistryModel.C:149-172 `Qdot` in one cell; `rr i` is `RR(i)[celli]`. -/
def pyJacQdot (chemistry : Bool) (h rr : Vec S (m + 1)) : S :=
  if chemistry then (List.finRange (m + 1)).foldl (fun q i => q - h i * rr i) 0 else 0

/-- loadBalanced_pyJacChemistryModel.C:174-195 `tc`. -/
def pyJacTc : Except Fault S := .error .fatal

end

/-- `odeSolver_->solve(0, deltaT, cTp_, li, subDeltaT)`: scratch data, `deltaT`, `cTp_`,
`subDeltaT`.  ode_pyJac.C:80, 103. -/
abbrev Integrator (S : Type) (N : Nat) (Scr : Type) :=
  Scr → S → Vec S N → S → Except Fault (Scr × Vec S N × S)

section
variable [Zero S] [Add S] [Sub S] [Mul S] [OfScientific S] [LT S] [DecidableLT S]

/-- ode_pyJac.C:94-101: the state vector of the pyJac branch. -/
def packPyJac (p T : S) (c : Vec S (m + 1)) : Vec S (m + 2) :=
  fun i => if h0 : i.val = 0 then T else if h : i.val < m + 1 then c ⟨i.val - 1, by omega⟩ else p

/-- ode_pyJac.C:105-115: temperature, pressure and mass fractions of the pyJac branch. -/
def unpackPyJac (y : Vec S (m + 2)) : S × S × Vec S (m + 1) :=
  let clipped : Fin m → S := fun i => foamMax 0 (y (speciesPos i))
  let csum := (List.finRange m).foldl (fun s i => s + clipped i) 0
  (y (pressurePos m), y 0,
    fun i => if h : i.val < m then clipped ⟨i.val, h⟩ else (1.0 : S) - csum)

/-- ode_pyJac.C:93-116, the pyJac branch of `solve`.  The composition is checked to have
`nSpecie` entries.  (`resize()` at line 62 does nothing: the model does not reduce the
mechanism; `deltaT` is passed by value to the integrator and not changed.) -/
def odePyJacSolve {Scr : Type} (I : Integrator S (m + 2) Scr) (scr : Scr) (p T : S) (c : List S)
    (deltaT subDeltaT : S) : Except Fault (Scr × IntegrateResult S) :=
  if h : c.length = m + 1 then do
    let (scr, y, sub) ← I scr deltaT (packPyJac p T (fun i => c[i.val]'(by omega))) subDeltaT
    let u := unpackPyJac y
    .ok (scr, ⟨u.1, u.2.1, List.ofFn u.2.2, deltaT, sub⟩)
  else .error .ub

/-- ode_pyJac.C:71-88, the branch for models with `nSpecie + 2` equations. -/
def odeOriginalSolve {Scr : Type} {N : Nat} (I : Integrator S (N + 2) Scr) (scr : Scr) (p T : S)
    (c : List S) (deltaT subDeltaT : S) : Except Fault (Scr × IntegrateResult S) :=
  if h : c.length = N then do
    let y0 : Vec S (N + 2) := fun i =>
      if hi : i.val < N then c[i.val]'(by omega) else if i.val = N then T else p
    let (scr, y, sub) ← I scr deltaT y0 subDeltaT
    .ok (scr, ⟨y ⟨N + 1, by omega⟩, y ⟨N, by omega⟩,
      List.ofFn (fun i : Fin N => foamMax 0 (y ⟨i.val, by omega⟩)), deltaT, sub⟩)
  else .error .ub

end

section
variable [Zero S] [Add S] [Sub S] [Mul S] [Div S] [Neg S] [NatCast S] [OfScientific S]
variable [LT S] [DecidableLT S] [LE S] [DecidableLE S] [BEq S] [Consts S] [MathOps S]

/-- The driver with the extrapolation stepper as an integrator.  ODESolver.C:145-202 with
seulex_LAPACK.C:333-597. -/
def seulexIntegrator {n : Nat} (E : SeulexEnv S n) (maxSteps : Nat) :
    Integrator S (n + 1) (Scratch S n) := fun scr deltaT y sub => do
  let r ← driverSolve (seulexSolve E) maxSteps scr 0 deltaT y sub
  .ok (r.scratch, r.y, r.dxTry)

/-- The stepper for the pyJac model: equations from the pyJac model, tolerances as configured.
loadBalanced_pyJacChemistryModel.C:79-147 and ODESolver.C:62-70. -/
def pyJacEnv (L : PyJacLib S m) (linearSolve : (Nat → S) → Vec S (m + 2) → Vec S (m + 2))
    (absTol relTol : Vec S (m + 2)) (fuel : Nat) : SeulexEnv S (m + 1) where
  derivatives := pyJacDerivatives L
  jacobian := pyJacJacobian L
  linearSolve := linearSolve
  absTol := absTol
  relTol := relTol
  jacRedo := jacRedoOf relTol
  fuel := fuel

end
end DLB
