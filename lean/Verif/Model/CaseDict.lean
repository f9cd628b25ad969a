import Verif.Model.OdeSelection
import Verif.Model.FoamDict
/-
From `constant/chemistryProperties` to the model that a case runs: the constructors of loadBalancedChemistryModel.C, LoadBalancer.H,
mixtureFractionRefMapper.H, loadBalanced_pyJacChemistryModel.C and ode_pyJac.C, in this order.
-/
set_option autoImplicit false

namespace DLB

variable {S : Type} {m : Nat}

/-- The sub-dictionary `loadbalancing`; `none` for an entry that is not there.
LoadBalancer.H:69-75. -/
structure LoadBalancingDict where
  active : Option Bool := none
  log : Option Bool := none

/-- `constant/chemistryProperties`, as far as the code reads it; `none` for what is not there.  `chemistry`, `initialChemicalTimeStep` and
`maxChemicalTimeStep` are read by OpenFOAM (basicChemistryModel.C), which sets `deltaTChem` of all cells to the initial one and bounds it by
`great` if there is no maximum.  Read in loadBalancedChemistryModel.C:90-132 and ode_pyJac.C:31-37.
-/
structure ChemistryProperties (S : Type) where
  chemistry : Bool
  initialChemicalTimeStep : S
  maxChemicalTimeStep : Option S := none
  loadbalancing : Option LoadBalancingDict
  refmapping : Option (RefMapDict S)
  odeCoeffs : Option (OdeCoeffs S)

/-- What the constructors keep.  Members of the objects built in LoadBalancer.H:69-75,
mixtureFractionRefMapper.H:78-83, ode_pyJac.C:31-37 and loadBalanced_pyJacChemistryModel.C:35-71. -/
structure CaseSettings (S : Type) (m : Nat) where
  chemistry : Bool
  initialDeltaT : S
  maxDeltaT : S
  active : Bool
  log : Bool
  mapper : RefMapper S
  formation : Vec S (m + 1)
  integrator : OdeSolverObject S (m + 2)

section
variable [Zero S] [Add S] [Sub S] [Mul S] [Div S] [Neg S] [NatCast S] [OfScientific S]
variable [LT S] [DecidableLT S] [LE S] [DecidableLE S] [BEq S] [Consts S] [MathOps S]

/-- LoadBalancer.H:69-75, the constructor: `subDict` stops if there is no `loadbalancing`; balancing is on and the log off by default. -/
def balancerConstruct (d : Option LoadBalancingDict) : Except Fault (Bool × Bool) :=
  match d with
  | none => .error .fatal
  | some d => .ok (d.active.getD true, d.log.getD false)

/-- mixtureFractionRefMapper.H:80: `subDict` stops if there is no `refmapping`. -/
def mapperConstruct (d : Option (RefMapDict S)) : Except Fault (RefMapper S) :=
  match d with
  | none => .error .fatal
  | some d => refMapperConstruct d

/-- The constructors in their order: loadBalancedChemistryModel.C:33-77 (balancer, mapper), loadBalanced_pyJacChemistryModel.C:41-70,
ode_pyJac.C:33-39. -/
def caseConstruct (L : PyJacLib S m) (table : List String) (P : ChemistryProperties S) : Except Fault (CaseSettings S m) := do
  let b ← balancerConstruct P.loadbalancing
  let mapper ← mapperConstruct P.refmapping
  let h ← pyJacConstruct L P.chemistry
  let o ← odePyJacConstruct table (m + 2) P.odeCoeffs
  .ok { chemistry := P.chemistry, initialDeltaT := P.initialChemicalTimeStep, maxDeltaT := P.maxChemicalTimeStep.getD Consts.great
        active := b.1, log := b.2, mapper := mapper, formation := h, integrator := o }

/-- The model that the settings stand for, with `seulex_LAPACK`; `none` for the integrators of OpenFOAM, which are not modelled. `fuel` as
in `pyJacModel`; `integrate` of the base is not used by the models with work arrays.  It runs
loadBalancedChemistryModel.C:137-248 with ode_pyJac.C:50-117. -/
def CaseSettings.model (c : CaseSettings S m) (L : PyJacLib S m) (linearSolve : (Nat → S) → Vec S (m + 2) → Vec S (m + 2)) (fuel : Nat) :
    Option (StatefulModel S (Scratch S (m + 1))) :=
  if c.integrator.type = "seulex_LAPACK" then
    some (pyJacModel { chemistry := c.chemistry, nSpecie := m + 1, deltaTChemMax := c.maxDeltaT, integrate := fun _ _ _ _ _ => .error .fatal,
                       fuel := fuel, mapper := c.mapper, active := c.active }
      L linearSolve c.integrator.absTol c.integrator.relTol fuel c.integrator.maxSteps.toNat)
  else none

/-- The fields at the start: `RR` is zero, `deltaTChem` as the dictionary says (both OpenFOAM), loadBalancedChemistryModel.C:40-64 for the
other two. -/
def CaseSettings.startFields (c : CaseSettings S m) : RankFields S where
  RR _ _ := 0
  deltaTChem _ := c.initialDeltaT
  cpuTimes _ := 0
  refMap _ := 0

end

/-- tutorials/multicomponentFluid/shearlayer_DLB_pyJac/constant/chemistryProperties:1-63. -/
def tutorialProperties {K : Type} [Field K] : ChemistryProperties K where
  chemistry := true
  initialChemicalTimeStep := 1
  loadbalancing := some { active := some true, log := some true }
  refmapping := some tutorialRefmapping
  odeCoeffs := some tutorialOdeCoeffs

/-- tests/validation/pyjacTests/PSRTest/testCase/constant/chemistryProperties:1-45. -/
def validationProperties {K : Type} [Field K] : ChemistryProperties K where
  chemistry := true
  initialChemicalTimeStep := 10 ^ 30
  loadbalancing := some { log := some false }
  refmapping := some { active := none, tolerance := none, deltaT := none, mixFrac := none }
  odeCoeffs := some validationOdeCoeffs

end DLB
