import Verif.Lemmas.SeulexExact
import Verif.Model.PyJac
import Verif.Model.Exact
import Mathlib.Algebra.Order.Field.Basic
import Mathlib.Data.Rat.Cast.OfScientific
import Mathlib.Data.Fin.VecNotation
import Mathlib.Data.Nat.Sqrt
import Mathlib.Tactic.Ring
import Mathlib.Tactic.Linarith
import Mathlib.Tactic.FieldSimp
import Mathlib.Tactic.NormNum
import Mathlib.Tactic.NormNum.OfScientific
/-
C45, C46, C51: bounds, independence of the history, and the step sequence of the extrapolation
stepper.
-/
set_option autoImplicit false
set_option linter.unusedSectionVars false

namespace DLB

section AnyArithmetic
variable {S : Type} {n m : Nat}
variable [Zero S] [Add S] [Sub S] [Mul S] [Div S] [Neg S] [NatCast S] [OfScientific S]
variable [LT S] [DecidableLT S] [LE S] [DecidableLE S] [BEq S] [Consts S] [MathOps S]

/-! ### C45 -/

/-- **C45, one step.** For any arithmetic: a step that is the first one of an integration, or is
entered with a target column between 1 and 11, makes no access out of range and reads no
uninitialised coefficient; if it returns, the target column is again between 1 and 11.  (The only
other outcome is that no attempt is ever accepted.) -/
theorem C45_step_in_range (E : SeulexEnv S n) (scr : Scratch S n) (x : S) (y : Vec S (n + 1))
    (step : StepState S) (h : step.first = true ∨ (1 ≤ scr.kTarg ∧ scr.kTarg ≤ 11)) :
    seulexSolve E scr x y step = .error .outOfFuel ∨
      ∃ scr' x' y' step', seulexSolve E scr x y step = .ok (scr', x', y', step') ∧
        1 ≤ scr'.kTarg ∧ scr'.kTarg ≤ 11 := by
  have hs := seulexSolve_agree E scr scr x y step (Or.inr ⟨.refl _, h⟩)
  generalize seulexSolve E scr x y step = r at hs
  cases hs with
  | outOfFuel => exact Or.inl rfl
  | ok a b v h h1 h2 => exact Or.inr ⟨_, _, _, _, rfl, h1, h2⟩

/-- **C45, every integration.** For any arithmetic, any contents of the work arrays and any target
column left by earlier integrations, an integration never makes an access out of range; if it
returns, the target column is between 1 and 11. -/
theorem C45_integration_in_range (E : SeulexEnv S n) (maxSteps : Nat) (scr : Scratch S n)
    (xStart xEnd : S) (y : Vec S (n + 1)) (dxTry : S) :
    driverSolve (seulexSolve E) maxSteps scr xStart xEnd y dxTry ≠ .error .ub ∧
      ∀ r, driverSolve (seulexSolve E) maxSteps scr xStart xEnd y dxTry = .ok r →
        1 ≤ r.scratch.kTarg ∧ r.scratch.kTarg ≤ 11 := by
  have hs := driverLoop_agree E xStart xEnd maxSteps 0 scr scr xStart y (StepState.init dxTry)
    (Or.inr ⟨.refl _, Or.inl rfl⟩)
  unfold driverSolve
  generalize driverLoop (seulexSolve E) xStart xEnd maxSteps 0 scr xStart y (StepState.init dxTry)
    = r at hs
  cases hs with
  | error e he =>
    refine ⟨?_, by simp⟩
    rcases he with rfl | rfl <;> simp
  | ok a b y dx x steps h h1 h2 =>
    refine ⟨by simp, ?_⟩
    intro r hr
    cases hr
    exact ⟨h1, h2⟩

/-! ### C46 -/

/-- **C46, one integration, any arithmetic.** If twice the Jacobian threshold is above the threshold,
the outcome of an integration (failure, or solution, suggested step, end point and number of steps)
does not depend on what the work arrays contain at its start. -/
theorem C46_integration_ignores_history (E : SeulexEnv S n)
    (hE : E.jacRedo < ((2 : Nat) : S) * E.jacRedo) (maxSteps : Nat) (scr scr' : Scratch S n)
    (xStart xEnd : S) (y : Vec S (n + 1)) (dxTry : S) :
    (driverSolve (seulexSolve E) maxSteps scr xStart xEnd y dxTry).map
        (fun r => (r.y, r.dxTry, r.x, r.steps))
      = (driverSolve (seulexSolve E) maxSteps scr' xStart xEnd y dxTry).map
        (fun r => (r.y, r.dxTry, r.x, r.steps)) := by
  have hs := driverLoop_agree E xStart xEnd maxSteps 0 scr scr' xStart y (StepState.init dxTry)
    (Or.inl ⟨rfl, hE⟩)
  unfold driverSolve
  generalize driverLoop (seulexSolve E) xStart xEnd maxSteps 0 scr xStart y (StepState.init dxTry)
    = r at hs
  generalize driverLoop (seulexSolve E) xStart xEnd maxSteps 0 scr' xStart y (StepState.init dxTry)
    = r' at hs
  cases hs with
  | error e he => rfl
  | ok a b y dx x steps h h1 h2 => rfl

/-- The arguments with which the chemistry model asks for the integration of a cell. -/
structure CellCall (S : Type) where
  p : S
  T : S
  c : List S
  deltaT : S
  subDeltaT : S

/-- Integrate cells one after the other with one solver object: the work arrays are handed from
each call to the next.  The program ends with the first failure. -/
def integrateCells {N : Nat} {Scr : Type} (I : Integrator S (N + 2) Scr) :
    Scr → List (CellCall S) → Except Fault (List (IntegrateResult S))
  | _, [] => .ok []
  | scr, q :: qs => do
    let (scr, r) ← odePyJacSolve (m := N) I scr q.p q.T q.c q.deltaT q.subDeltaT
    let rs ← integrateCells I scr qs
    .ok (r :: rs)

theorem odePyJacSolve_congr {Scr : Type} (I : Integrator S (m + 2) Scr) (scr scr' : Scr)
    (h : ∀ dt y sub, (I scr dt y sub).map Prod.snd = (I scr' dt y sub).map Prod.snd) (p T : S)
    (c : List S) (dt sub : S) :
    (odePyJacSolve I scr p T c dt sub).map Prod.snd
      = (odePyJacSolve I scr' p T c dt sub).map Prod.snd := by
  unfold odePyJacSolve
  split
  · rename_i hc
    have := h dt (packPyJac p T (fun i : Fin (m + 1) => c[i.val]'(by omega))) sub
    generalize I scr dt (packPyJac p T (fun i : Fin (m + 1) => c[i.val]'(by omega))) sub = r at this
    generalize I scr' dt (packPyJac p T (fun i : Fin (m + 1) => c[i.val]'(by omega))) sub = r'
      at this
    rcases r with e | ⟨s, y, d⟩ <;> rcases r' with e' | ⟨s', y', d'⟩ <;>
      simp only [Except.map, Except.error.injEq, Except.ok.injEq, Prod.mk.injEq, reduceCtorEq]
        at this
    · rw [this]
    · obtain ⟨rfl, rfl⟩ := this
      rfl
  · rfl

/-- **C46, sequences of cells, any arithmetic.** If twice the Jacobian threshold is above the
threshold, integrating a list of cells one after the other with one solver gives, cell by cell, what
a solver with arbitrary other work arrays `scr'` gives for each cell alone; and the list fails
exactly if one of the cells alone fails. -/
theorem C46_cells_do_not_influence_each_other (E : SeulexEnv S (m + 1))
    (hE : E.jacRedo < ((2 : Nat) : S) * E.jacRedo) (maxSteps : Nat) (scr' : Scratch S (m + 1)) :
    ∀ (cells : List (CellCall S)) (scr : Scratch S (m + 1)),
      integrateCells (N := m) (seulexIntegrator E maxSteps) scr cells
        = cells.mapM (fun q => (odePyJacSolve (m := m) (seulexIntegrator E maxSteps) scr' q.p q.T q.c
            q.deltaT q.subDeltaT).map Prod.snd)
  | [], _ => rfl
  | q :: qs, scr => by
    have hc := odePyJacSolve_congr (m := m) (seulexIntegrator E maxSteps) scr scr' (by
      intro dt y sub
      have h := C46_integration_ignores_history E hE maxSteps scr scr' 0 dt y sub
      unfold seulexIntegrator
      generalize driverSolve (seulexSolve E) maxSteps scr 0 dt y sub = r at h
      generalize driverSolve (seulexSolve E) maxSteps scr' 0 dt y sub = r' at h
      rcases r with e | r <;> rcases r' with e' | r' <;>
        simp only [Except.map, Except.error.injEq, Except.ok.injEq, Prod.mk.injEq, reduceCtorEq]
          at h
      · rw [h]
      · simp only [bind, Except.bind, Except.map, h.1, h.2.1]) q.p q.T q.c q.deltaT q.subDeltaT
    rw [List.mapM_cons, ← hc]
    unfold integrateCells
    generalize odePyJacSolve (m := m) (seulexIntegrator E maxSteps) scr q.p q.T q.c q.deltaT
      q.subDeltaT = r
    rcases r with e | ⟨s, r⟩
    · rfl
    · simp only [Except.map, bind, Except.bind]
      rw [C46_cells_do_not_influence_each_other E hE maxSteps scr' qs s]
      rfl

end AnyArithmetic

/-! ### Exact arithmetic -/

section Exact
variable {K : Type} [Field K] [LinearOrder K] [IsStrictOrderedRing K] {n m : Nat}

theorem foldl_foamMin_pos {N : Nat} (f : Fin N → K) (hf : ∀ i, 0 < f i) :
    ∀ (l : List (Fin N)) (a : K), 0 < a → 0 < l.foldl (fun m i => foamMin (f i) m) a
  | [], _, ha => ha
  | i :: l, a, ha => by
    apply foldl_foamMin_pos f hf l
    unfold foamMin
    dsimp only
    split
    · exact hf i
    · exact ha

theorem jacRedoOf_pos {relTol : Vec K (n + 1)} (h : ∀ i, 0 < relTol i) : 0 < jacRedoOf relTol := by
  have h2 := foldl_foamMin_pos relTol h (List.finRange (n + 1)) (relTol 0) (h 0)
  unfold jacRedoOf
  unfold foamMin at h2 ⊢
  split
  · norm_num
  · exact h2

/-- **C46.** With the pyJac model and positive relative tolerances, in exact arithmetic, the result of
integrating a cell does not depend on the cells integrated before it. -/
theorem C46_positive_tolerances [MathOps K] (L : PyJacLib K m)
    (linearSolve : (Nat → K) → Vec K (m + 2) → Vec K (m + 2)) (absTol relTol : Vec K (m + 2))
    (fuel maxSteps : Nat) (hrel : ∀ i, 0 < relTol i) (scr scr' : Scratch K (m + 1))
    (cells : List (CellCall K)) :
    integrateCells (N := m) (seulexIntegrator (pyJacEnv L linearSolve absTol relTol fuel) maxSteps)
        scr cells
      = cells.mapM (fun q => (odePyJacSolve (m := m)
          (seulexIntegrator (pyJacEnv L linearSolve absTol relTol fuel) maxSteps) scr' q.p q.T q.c
          q.deltaT q.subDeltaT).map Prod.snd) := by
  apply C46_cells_do_not_influence_each_other
  have := jacRedoOf_pos hrel
  show jacRedoOf relTol < ((2 : Nat) : K) * jacRedoOf relTol
  push_cast
  linarith

/-! ### C51 -/

/-- **C51.** The numbers of sub-steps are 2, 3, 4, 6, 8, 12, ...: twice a power of two and three
times a power of two in turn, strictly increasing; each extrapolation coefficient of the table is
defined without dividing by zero, positive, and equal to `n_l / (n_k - n_l)`; the work estimates are
positive and strictly increasing. -/
theorem C51_step_sequence :
    (∀ i, nSeq (2 * i) = 2 ^ (i + 1) ∧ nSeq (2 * i + 1) = 3 * 2 ^ i) ∧ StrictMono nSeq ∧
    (∀ k l, l < k → k < 13 → ((nSeq l : Nat) : K) ≠ 0 ∧ (nSeq k : K) / (nSeq l : K) - 1 ≠ 0 ∧
      ∃ c : K, coeff k l = .ok c ∧ 0 < c ∧ c = (nSeq l : K) / ((nSeq k : K) - (nSeq l : K))) ∧
    StrictMono (cpu : Nat → K) ∧ (0 : K) < cpu 0 := by
  refine ⟨fun i => ⟨nSeq_even i, nSeq_odd i⟩, nSeq_strictMono, ?_, ?_, ?_⟩
  · intro k l hl hk
    have h1 : (0 : K) < (nSeq l : K) := by exact_mod_cast nSeq_pos l
    have h2 : (nSeq l : K) < (nSeq k : K) := by exact_mod_cast nSeq_strictMono hl
    have h3 : (0 : K) < (nSeq k : K) / (nSeq l : K) - 1 := by
      rw [sub_pos, one_lt_div h1]
      exact h2
    refine ⟨h1.ne', h3.ne', _, if_pos ⟨hk, hl⟩, ?_, ?_⟩
    · push_cast
      exact div_pos one_pos h3
    · push_cast
      have h4 : (nSeq k : K) - (nSeq l : K) ≠ 0 := by
        have : (0 : K) < (nSeq k : K) - (nSeq l : K) := by linarith
        exact this.ne'
      field_simp
  · apply strictMono_nat_of_lt_succ
    intro k
    have : (0 : K) ≤ ((nSeq (k + 1) - 1 : Nat) : K) := Nat.cast_nonneg _
    simp only [cpu]
    push_cast
    nlinarith
  · simp only [cpu, nSeq]
    push_cast
    norm_num

example : (List.range 13).map nSeq = [2, 3, 4, 6, 8, 12, 16, 24, 32, 48, 64, 96, 128] := by
  decide +kernel

end Exact

/-! ### C46 with a zero relative tolerance

One equation (a temperature) with the constant right-hand side 1.  The Jacobian reported by the
equations is 0.  The square root is exact on squares of rationals, which is all this run needs;
`pow` and `log10` only influence the suggested next step and the target order. -/

/-- Functions for concrete runs over the rationals. -/
@[instance_reducible] def ratMath : MathOps ℚ where
  sqrt q := (Nat.sqrt q.num.toNat : ℚ) / (Nat.sqrt q.den : ℚ)
  pow x _ := x
  log10 _ := -4
  toInt q := q.floor

/-- One equation `dT/dt = 1`; the linear solver divides. -/
def unitRate (relTol jacRedo : ℚ) : SeulexEnv ℚ 0 where
  derivatives _ _ := fun _ => 1
  jacobian _ _ := fun _ _ => 0
  linearSolve a b := fun _ => b 0 / a 0
  absTol := fun _ => 1
  relTol := fun _ => relTol
  jacRedo := jacRedo
  fuel := 10

/-- Work arrays whose Jacobian entry is `j`, everything else being zero. -/
def leftover (j : ℚ) : Scratch ℚ 0 := ⟨0, 0, fun _ _ => 0, fun _ _ => j, fun _ => 0, fun _ => 0⟩

/-- Temperature after integrating `unitRate` from 1000 over a time of 1/100 in one step. -/
def finalTemperature (relTol jacRedo j : ℚ) : Option ℚ :=
  letI := ratMath
  (driverSolve (seulexSolve (unitRate relTol jacRedo)) 1 (leftover j) 0 (1 / 100) (fun _ => 1000)
    (1 / 100)).toOption.map (fun r => r.y 0)

/-- **C46 fails for a zero relative tolerance.** With relative tolerance zero (so that the threshold
for a new Jacobian is zero) the Jacobian is not evaluated in the first step, and the temperature
after an integration depends on the Jacobian left by an earlier cell; with a positive one it does
not. -/
theorem C46_zero_tolerance_remembers :
    letI := ratMath
    jacRedoOf (fun _ : Fin 1 => (0 : ℚ)) = 0 ∧
    finalTemperature 0 0 0 = some (1000 + 1 / 100) ∧
    finalTemperature 0 0 (-1) ≠ finalTemperature 0 0 0 ∧
    (finalTemperature 0 0 (-1)).isSome = true ∧
    finalTemperature (1 / 10000) (1 / 10000) (-1) = finalTemperature (1 / 10000) (1 / 10000) 0 := by
  refine ⟨?_, ?_, ?_, ?_, ?_⟩ <;> decide +kernel

/-- A case of C45 and of C46 that returns: the run above from leftover data. -/
example : finalTemperature (1 / 10000) (1 / 10000) 7 = some (1000 + 1 / 100) := by decide +kernel

end DLB
