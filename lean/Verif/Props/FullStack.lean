import Verif.Lemmas.Stateful
import Verif.Props.Step
import Verif.Props.Seulex
/-
C69: the whole chemistry step with the repository's integrator, whose solver objects keep their work
arrays from cell to cell and from step to step.
-/
set_option autoImplicit false
set_option linter.unusedSectionVars false

namespace DLB

section AnyArithmetic
variable {S Scr : Type} [Zero S] [Add S] [Sub S] [Mul S] [Div S] [Neg S] [NatCast S]
variable [LT S] [DecidableLT S] [LE S] [DecidableLE S] [Consts S]

/-- The run of `runSteps` with solver objects that keep their work arrays: rank `r` starts with
`w r`, and every step starts with what the previous one left. -/
def runStepsW {Ω : Type} {n : Nat} (M : StatefulModel S Scr) (parRun : Bool)
    (sort : List (ChemistryLoad S) → List (ChemistryLoad S))
    (flowOf : Ω → Fin n → Flow S) (advance : Ω → (Fin n → Visible S) → Ω)
    (clk : Nat → Fin n → Nat → S) (active : Nat → Bool) :
    Nat → Ω → (Fin n → Scr) → (Fin n → RankFields S) → Except Fault (List (Fin n → Visible S))
  | 0, _, _, _ => .ok []
  | k + 1, ω, w, F => do
    let (w, res) ← solveWorldW { M with base := { M.base with active := active k } } parRun sort
      (clk k) (flowOf ω) w F
    let rest ← runStepsW M parRun sort flowOf advance clk active k (advance ω (visible res)) w
      (fun r => (res r).1)
    .ok (visible res :: rest)

theorem runStepsW_eq {Ω : Type} {n : Nat} {M : StatefulModel S Scr} (hM : HistoryFree M) (w₀ : Scr)
    (parRun : Bool) (sort : List (ChemistryLoad S) → List (ChemistryLoad S))
    (flowOf : Ω → Fin n → Flow S) (advance : Ω → (Fin n → Visible S) → Ω)
    (clk : Nat → Fin n → Nat → S) (active : Nat → Bool) :
    ∀ (k : Nat) (ω : Ω) (w : Fin n → Scr) (F : Fin n → RankFields S),
    runStepsW M parRun sort flowOf advance clk active k ω w F
      = runSteps (M.forgetful w₀) parRun sort flowOf advance clk active k ω F
  | 0, _, _, _ => rfl
  | k + 1, ω, w, F => by
    unfold runStepsW runSteps
    have hM' : HistoryFree { M with base := { M.base with active := active k } } := hM
    have h := solveWorldW_eq hM' w₀ parRun sort (clk k) (flowOf ω) w F
    have h' : solveWorld { M.forgetful w₀ with active := active k } parRun sort (clk k) (flowOf ω) F
      = _ := h.symm
    rw [h']
    cases solveWorldW { M with base := { M.base with active := active k } } parRun sort (clk k)
        (flowOf ω) w F with
    | error e => rfl
    | ok r =>
      simp only [Except.map, bind, Except.bind]
      rw [runStepsW_eq hM w₀ parRun sort flowOf advance clk active k _ r.1]

end AnyArithmetic

section PyJac
variable {S : Type} {m : Nat}
variable [Zero S] [Add S] [Sub S] [Mul S] [Div S] [Neg S] [NatCast S] [OfScientific S]
variable [LT S] [DecidableLT S] [LE S] [DecidableLE S] [BEq S] [Consts S] [MathOps S]

/-- The repository's integrator gives results independent of its work arrays (from C46). -/
theorem pyJacModel_historyFree (base : ChemModel S) (L : PyJacLib S m)
    (linearSolve : (Nat → S) → Vec S (m + 2) → Vec S (m + 2)) (absTol relTol : Vec S (m + 2))
    (hrel : jacRedoOf relTol < ((2 : Nat) : S) * jacRedoOf relTol) (fuel maxSteps : Nat) :
    HistoryFree (pyJacModel base L linearSolve absTol relTol fuel maxSteps) := by
  intro w w' p T c dt sub
  have h1 := C46_cells_do_not_influence_each_other (m := m)
    (pyJacEnv L linearSolve absTol relTol fuel) hrel maxSteps w' [⟨p, T, c, dt, sub⟩] w
  have h2 := C46_cells_do_not_influence_each_other (m := m)
    (pyJacEnv L linearSolve absTol relTol fuel) hrel maxSteps w' [⟨p, T, c, dt, sub⟩] w'
  have h3 := h1.trans h2.symm
  simp only [pyJacModel]
  unfold integrateCells at h3
  generalize odePyJacSolve (m := m) (seulexIntegrator (pyJacEnv L linearSolve absTol relTol fuel)
    maxSteps) w p T c dt sub = r at h3
  generalize odePyJacSolve (m := m) (seulexIntegrator (pyJacEnv L linearSolve absTol relTol fuel)
    maxSteps) w' p T c dt sub = r' at h3
  rcases r with e | ⟨s, r⟩ <;> rcases r' with e' | ⟨s', r'⟩ <;>
    simp_all [integrateCells, Except.map, bind, Except.bind]

/-- **C69, one step, any arithmetic.** With the repository's integrator the step of all ranks computes,
failures included, what it would compute if every cell were integrated by a solver object of its own
with work arrays `w₀` that nobody used before: whatever the work arrays of the ranks contain. -/
theorem C69_solver_memory_has_no_effect {n : Nat} (base : ChemModel S) (L : PyJacLib S m)
    (linearSolve : (Nat → S) → Vec S (m + 2) → Vec S (m + 2)) (absTol relTol : Vec S (m + 2))
    (hrel : jacRedoOf relTol < ((2 : Nat) : S) * jacRedoOf relTol) (fuel maxSteps : Nat)
    (parRun : Bool) (sort : List (ChemistryLoad S) → List (ChemistryLoad S)) (clk : Fin n → Nat → S)
    (flow : Fin n → Flow S) (w : Fin n → Scratch S (m + 1)) (w₀ : Scratch S (m + 1))
    (F : Fin n → RankFields S) :
    (solveWorldW (pyJacModel base L linearSolve absTol relTol fuel maxSteps) parRun sort clk flow w
        F).map Prod.snd
      = solveWorld ((pyJacModel base L linearSolve absTol relTol fuel maxSteps).forgetful w₀) parRun
          sort clk flow F :=
  solveWorldW_eq (pyJacModel_historyFree base L linearSolve absTol relTol hrel fuel maxSteps) w₀
    parRun sort clk flow w F

/-- **C69, runs, any arithmetic.** Two runs of any length with the repository's integrator that start
from the same fields up to CPU times show the same results in every step on every rank, whatever the
balancer switch in each step (hence on which rank, and in which order, cells are integrated), the
clocks, the order of equal loads and the initial contents of the solvers' work arrays. -/
theorem C69_histories_agree {Ω : Type} {n : Nat} (hn : 0 < n) (base : ChemModel S) (L : PyJacLib S m)
    (linearSolve : (Nat → S) → Vec S (m + 2) → Vec S (m + 2)) (absTol relTol : Vec S (m + 2))
    (hrel : jacRedoOf relTol < ((2 : Nat) : S) * jacRedoOf relTol) (fuel maxSteps : Nat)
    (parRun : Bool) (hpar : parRun = true ∨ n = 1)
    (sort sort' : List (ChemistryLoad S) → List (ChemistryLoad S)) (hsort : ∀ l, (sort l).Perm l)
    (hsort' : ∀ l, (sort' l).Perm l)
    (flowOf : Ω → Fin n → Flow S) (advance : Ω → (Fin n → Visible S) → Ω)
    (clk clk' : Nat → Fin n → Nat → S) (active active' : Nat → Bool) (trace) (k : Nat) (ω : Ω)
    (w w' : Fin n → Scratch S (m + 1)) (F F' : Fin n → RankFields S)
    (hF : ∀ r, (F r).RR = (F' r).RR ∧ (F r).deltaTChem = (F' r).deltaTChem ∧
      (F r).refMap = (F' r).refMap) :
    runStepsW (pyJacModel base L linearSolve absTol relTol fuel maxSteps) parRun sort flowOf advance
        clk active k ω w F = .ok trace ↔
      runStepsW (pyJacModel base L linearSolve absTol relTol fuel maxSteps) parRun sort' flowOf
        advance clk' active' k ω w' F' = .ok trace := by
  have hM := pyJacModel_historyFree base L linearSolve absTol relTol hrel fuel maxSteps
  rw [runStepsW_eq hM (w ⟨0, hn⟩), runStepsW_eq hM (w ⟨0, hn⟩)]
  exact C09_histories_agree hn _ parRun hpar sort sort' hsort hsort' flowOf advance clk clk' active
    active' trace k ω F F' hF

end PyJac

section Exact
variable {K : Type} [Field K] [LinearOrder K] [IsStrictOrderedRing K] {m : Nat}

/-- **C69.** In exact arithmetic the condition on the tolerances is that all are positive. -/
theorem C69_positive_tolerances [MathOps K] {Ω : Type} {n : Nat} (hn : 0 < n) (base : ChemModel K)
    (L : PyJacLib K m) (linearSolve : (Nat → K) → Vec K (m + 2) → Vec K (m + 2))
    (absTol relTol : Vec K (m + 2)) (hrel : ∀ i, 0 < relTol i) (fuel maxSteps : Nat)
    (parRun : Bool) (hpar : parRun = true ∨ n = 1)
    (sort sort' : List (ChemistryLoad K) → List (ChemistryLoad K)) (hsort : ∀ l, (sort l).Perm l)
    (hsort' : ∀ l, (sort' l).Perm l)
    (flowOf : Ω → Fin n → Flow K) (advance : Ω → (Fin n → Visible K) → Ω)
    (clk clk' : Nat → Fin n → Nat → K) (active active' : Nat → Bool) (trace) (k : Nat) (ω : Ω)
    (w w' : Fin n → Scratch K (m + 1)) (F F' : Fin n → RankFields K)
    (hF : ∀ r, (F r).RR = (F' r).RR ∧ (F r).deltaTChem = (F' r).deltaTChem ∧
      (F r).refMap = (F' r).refMap) :
    runStepsW (pyJacModel base L linearSolve absTol relTol fuel maxSteps) parRun sort flowOf advance
        clk active k ω w F = .ok trace ↔
      runStepsW (pyJacModel base L linearSolve absTol relTol fuel maxSteps) parRun sort' flowOf
        advance clk' active' k ω w' F' = .ok trace := by
  refine C69_histories_agree hn base L linearSolve absTol relTol ?_ fuel maxSteps parRun hpar sort
    sort' hsort hsort' flowOf advance clk clk' active active' trace k ω w w' F F' hF
  have := jacRedoOf_pos hrel
  push_cast
  linarith

end Exact

/-! ### A case, and what happens with a zero relative tolerance

Two ranks, two species; the first species is produced at rate `T - 1000` in cells of temperature `T`
and the Jacobian entry reported for it is the temperature. -/

namespace Example

/-- A library with constant production in a cell. -/
def stackLib : PyJacLib ℚ 1 where
  dydt _ y := fun i => if i.val = 1 then (y 0 - 1000) / 10 else 0
  evalJacob _ y := fun k => if k = 3 then - y 0 else 0
  evalH _ := fun _ => 0
  nsp := 2

/-- A linear solver for diagonal matrices. -/
def stackSolve (a : Nat → ℚ) (b : Vec ℚ 3) : Vec ℚ 3 := fun i => b i / a (i.val * 3 + i.val)

/-- The model with relative tolerance `relTol`. -/
def stackModel (relTol : ℚ) : StatefulModel ℚ (Scratch ℚ 2) :=
  letI := ratMath
  pyJacModel
    { chemistry := true, nSpecie := 2, deltaTChemMax := 1, fuel := 3, active := true,
      integrate := fun _ _ _ _ _ => .error .fatal, mapper := ⟨false, 0, 0, ⟨[], 0, 1⟩⟩ }
    stackLib stackSolve (fun _ => 1) (fun _ => relTol) 10 10

/-- Rank 0 has four cells, rank 1 has one. -/
def stackFlow : Fin 2 → Flow ℚ
  | 0 => { nCells := 4, Y := fun j _ => if j = 0 then 1 / 4 else 3 / 4, T := fun i => 1001 + i,
           p := fun _ => 100000, rho := fun _ => 1, deltaT := fun _ => 1 / 100 }
  | 1 => { nCells := 1, Y := fun j _ => if j = 0 then 1 / 4 else 3 / 4, T := fun _ => 2000,
           p := fun _ => 100000, rho := fun _ => 1, deltaT := fun _ => 1 / 100 }

/-- The previous times make rank 0 busy and rank 1 idle. -/
def stackFields : Fin 2 → RankFields ℚ := fun r =>
  { RR := fun _ _ => 0, deltaTChem := fun _ => 1 / 100, cpuTimes := fun _ => if r = 0 then 1 else 0,
    refMap := fun _ => 0 }

/-- Work arrays left over with Jacobian entries `j`. -/
def stackScratch (j : ℚ) : Scratch ℚ 2 :=
  ⟨0, 0, fun _ _ => 0, fun _ _ => j, fun _ => 0, fun _ => 0⟩

/-- Rates of the first species on rank 0 after one step, rank `r` starting with `j r`. -/
def stackRates (relTol : ℚ) (active : Bool) (j : Fin 2 → ℚ) : Option (List ℚ) :=
  letI := ratMath
  let M := stackModel relTol
  (runStepsW { M with base := { M.base with active := active } } true sort
    (fun (_ : Unit) => stackFlow) (fun ω _ => ω) (fun _ _ _ => 1) (fun _ => active) 1 ()
    (fun r => stackScratch (j r)) stackFields).toOption.map
    (fun tr => tr.flatMap (fun v => [0, 1, 2, 3].map ((v 0).RR 0)))

end Example

/-- A case of C69: with balancing on, two cells of rank 0 are integrated by rank 1 (with other work
arrays); the rates are those of the run without balancing and with other work arrays. -/
example : Example.stackRates (1 / 10000) true (fun r => - r.val)
      = some [56050 / 1562501, 9350 / 130417, 56150 / 522503, 7025 / 49063] ∧
    Example.stackRates (1 / 10000) false (fun _ => 7)
      = some [56050 / 1562501, 9350 / 130417, 56150 / 522503, 7025 / 49063] := by
  constructor <;> decide +kernel

/-- **C69 fails for a zero relative tolerance.** In the run above with relative tolerance zero, and
rank 1 having left another Jacobian in its work arrays than rank 0, switching load balancing on
changes the reaction rates of the cells that are sent to rank 1. -/
theorem C69_zero_tolerance_balancing_changes_answer :
    Example.stackRates 0 false (fun r => - r.val) = some [1 / 10, 1 / 5, 3 / 10, 2 / 5] ∧
    Example.stackRates 0 true (fun r => - r.val)
      = some [6050 / 60501, 12100 / 60501, 3 / 10, 2 / 5] := by
  constructor <;> decide +kernel

end DLB
