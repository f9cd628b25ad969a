import Verif.Props.SeulexIntegration
import Verif.Props.PyJac
/-
C70, C71: what an integration leaves unchanged: linear invariants of the equations, and states at
rest.
-/
set_option autoImplicit false
set_option linter.unusedSectionVars false

namespace DLB
open Spec

section Exact
variable {K : Type} [Field K] [LinearOrder K] [IsStrictOrderedRing K] {n m : Nat} [MathOps K]

/-! ### Loops -/

/-- If the increments computed along the sub-steps keep `Q`, so do the sub-steps. -/
theorem subSteps_keep {E : SeulexEnv K n} {J : Mat K (n + 1)} {x dx : K} {y scale : Vec K (n + 1)}
    {l : Nat} (Q : Vec K (n + 1) → Prop) (hy : Q y)
    (hkey : ∀ x z, Q z → Q (fun i => z i +
      E.linearSolve (systemArray J (dx / ((nSeq l : Nat) : K))) (E.derivatives x z) i)) :
    Q (subSteps E J x y dx scale l).y := by
  have loop : ∀ (left nn : Nat) (xnew : K) (yT dy : Vec K (n + 1)) (θ : K),
      Q (fun i => yT i + dy i) →
      Q (seulLoop E (systemArray J (dx / ((nSeq l : Nat) : K))) x (dx / ((nSeq l : Nat) : K)) l scale
        left nn xnew yT dy θ).y := by
    intro left
    induction left with
    | zero => intro nn xnew yT dy θ hd; simpa only [seulLoop] using hd
    | succ left ih =>
      intro nn xnew yT dy θ hd
      simp only [seulLoop]
      split
      · exact hd
      generalize (if nn = 1 ∧ l ≤ 1 then stabilityTheta E _ x _ scale _ _ else θ) = θ'
      split
      · exact hd
      · exact ih _ _ _ _ _ (hkey _ _ hd)
  exact loop _ _ _ _ _ _ (hkey _ _ hy)

/-- Extrapolation is linear. -/
theorem extrapolant_sum (h : Nat → K) (ℓ : Fin n → K) (r : Nat → Fin n → K) (a b : Nat) :
    ∑ i, ℓ i * extrapolant h (fun l => r l i) a b = extrapolant h (fun l => ∑ i, ℓ i * r l i) a b := by
  unfold extrapolant
  have : (fun l => ∑ i, ℓ i * r l i) = ∑ i, ℓ i • (fun l => r l i) := by
    funext l
    simp
  rw [this, map_sum, Polynomial.eval_finsetSum]
  refine Finset.sum_congr rfl fun i _ => ?_
  rw [map_smul, Polynomial.eval_smul, smul_eq_mul]

/-- What one step leaves unchanged: if the rows of the table have it, the step has it. -/
theorem seulexSolve_keep (hm : PowLaws K) {E : SeulexEnv K n} (ℓ : Vec K (n + 1))
    {scr scr' : Scratch K n} {x x' : K} {y y' : Vec K (n + 1)} {step step' : StepState K}
    (hT : step.first = true ∨ (1 ≤ scr.kTarg ∧ scr.kTarg ≤ 11)) (hdx : 0 < step.dxTry)
    (hfw : step.forward = true)
    (hrow : ∀ dx, 0 < dx → ∀ scale l,
      ∑ i, ℓ i * (subSteps E scr'.dfdy x y dx scale l).y i = ∑ i, ℓ i * y i)
    (h : seulexSolve E scr x y step = .ok (scr', x', y', step')) :
    ∑ i, ℓ i * y' i = ∑ i, ℓ i * y i := by
  obtain ⟨r, kopt, kT, d, hr, hk, hn, rfl, rfl, h1, h2, rfl⟩ := seulexSolve_inv h
  obtain ⟨t1, t2⟩ := startInner_kTarg (E := E) (y := y) hT
  obtain ⟨e, he, hre, hp⟩ := attempts_pos hm (by rw [absS_eq]; exact abs_pos.2 hdx.ne')
    (startInner_dxOpt hdx.ne') t1 t2 hr
  have hrpos : 0 < r.dx := by
    rw [hre, if_pos hfw]
    exact he
  obtain ⟨-, -, -, hy, -⟩ := attempts_tableau t1 t2 hrpos.ne' hr
  rw [h1] at hrow
  simp only [hy]
  rw [extrapolant_sum]
  simp only [hrow r.dx hrpos]
  exact extrapolant_const hrpos.ne' _ (Nat.zero_le _)

/-- What every step of an integration leaves unchanged, the integration does. -/
theorem driver_keep (hm : PowLaws K) {E : SeulexEnv K n} (hj : E.jacRedo < 2 * E.jacRedo)
    (Q : Vec K (n + 1) → Prop) {xStart xEnd : K} (hlt : xStart < xEnd)
    (hstep : ∀ scr scr' x x' y y' step step', (∃ x z, scr'.dfdy = E.jacobian x z) →
      (step.first = true ∨ (1 ≤ scr.kTarg ∧ scr.kTarg ≤ 11)) → 0 < step.dxTry →
      step.forward = true →
      seulexSolve E scr x y step = .ok (scr', x', y', step') → Q y → Q y')
    {maxSteps : Nat} {scr : Scratch K n} {y : Vec K (n + 1)} {dxTry : K} (hpos : 0 < dxTry)
    {r : DriverResult K (n + 1) (Scratch K n)}
    (h : driverSolve (seulexSolve E) maxSteps scr xStart xEnd y dxTry = .ok r) (hy : Q y) :
    Q r.y := by
  have hj' : E.jacRedo < ((2 : Nat) : K) * E.jacRedo := by exact_mod_cast hj
  have hch := (driverLoop_chain hlt
    (fun scr _ _ step => Running E scr step) (fun a b => Q a.2 → Q b.2) (by
      intro scr x y step scr' x' y' step' hI hx hx' hst
      obtain ⟨a1, a2, a3⟩ := running_step hm hj' hI hx hx' hst
      obtain ⟨-, -, p1, -⟩ := driverPrepare_spec hx hx' step hI.dxTry
      have pf : (driverPrepare xStart xEnd x step).first = step.first := by
        unfold driverPrepare; dsimp only; split <;> rfl
      have pw : (driverPrepare xStart xEnd x step).forward = true := by
        rw [← hI.forward]; unfold driverPrepare; dsimp only; split <;> rfl
      exact ⟨a1, hstep _ _ _ _ _ _ _ _ a2 (by rw [pf]; exact hI.order) p1 pw hst, a3⟩)
    maxSteps 0 scr xStart y _ r (running_start _ scr hpos) le_rfl hlt h).1
  have : ∀ a b : K × Vec K (n + 1), Chain (fun a b : K × Vec K (n + 1) => Q a.2 → Q b.2) a b →
      Q a.2 → Q b.2 := by
    intro a b h
    induction h with
    | one h => exact h
    | cons h _ ih => exact fun ha => ih (h ha)
  exact this _ _ hch hy

/-! ### C70 -/

/-- The linear solver satisfies the combination `ℓ` of the equations of the systems
`(I/h - J) x = b` that occur in integrations. -/
def SolvesCombination (E : SeulexEnv K n) (ℓ : Vec K (n + 1)) : Prop :=
  ∀ x z h b, 0 < h → ℓ ⬝ᵥ ((1 / h) • (1 : Matrix (Fin (n + 1)) (Fin (n + 1)) K)
    - Matrix.of (E.jacobian x z)).mulVec (E.linearSolve (systemArray (E.jacobian x z) h) b) = ℓ ⬝ᵥ b

/-- It does if it solves regular systems and the systems are regular. -/
theorem solvesCombination_of_regular {E : SeulexEnv K n} (hE : LapackContract (n + 1) E.linearSolve)
    (hreg : ∀ x z h, 0 < h → Regular (E.jacobian x z) h) (ℓ : Vec K (n + 1)) :
    SolvesCombination E ℓ := by
  intro x z h b hh
  have h1 := hE (systemArray (E.jacobian x z) h) b (regular_systemArray (hreg x z h hh))
  rw [columnMajor_systemArray_eq] at h1
  rw [h1]

/-- Combinations of the right-hand side and of the rows of the Jacobian that vanish give
combinations of the increments that vanish. -/
theorem increment_zero {E : SeulexEnv K n} {ℓ : Vec K (n + 1)} (hs : SolvesCombination E ℓ)
    (hf : ∀ x y, ∑ i, ℓ i * E.derivatives x y i = 0)
    (hJ : ∀ x y j, ∑ i, ℓ i * E.jacobian x y i j = 0) {h : K} (hh : 0 < h) (xj : K)
    (zj : Vec K (n + 1)) (x : K) (z : Vec K (n + 1)) :
    ∑ i, ℓ i * E.linearSolve (systemArray (E.jacobian xj zj) h) (E.derivatives x z) i = 0 := by
  have := hs xj zj h (E.derivatives x z) hh
  rw [show ℓ ⬝ᵥ E.derivatives x z = 0 from hf x z, Matrix.sub_mulVec, dotProduct_sub,
    Matrix.dotProduct_mulVec ℓ (Matrix.of (E.jacobian xj zj)),
    show Matrix.vecMul ℓ (Matrix.of (E.jacobian xj zj)) = 0 from funext fun j => hJ xj zj j,
    zero_dotProduct, sub_zero, Matrix.smul_mulVec, Matrix.one_mulVec, dotProduct_smul,
    smul_eq_mul] at this
  exact (mul_eq_zero.1 this).resolve_left (one_div_pos.2 hh).ne'

/-- **C70.** If a combination `ℓ` of the equations has zero right-hand side in every state, and the
Jacobian's columns have the same property (as those of the exact derivative do), an integration that
returns has not changed the value of `ℓ`, whatever steps it took or rejected. -/
theorem C70_linear_invariants_are_kept (hm : PowLaws K) (E : SeulexEnv K n)
    (hj : E.jacRedo < 2 * E.jacRedo) (ℓ : Vec K (n + 1))
    (hs : SolvesCombination E ℓ)
    (hf : ∀ x y, ∑ i, ℓ i * E.derivatives x y i = 0)
    (hJ : ∀ x y j, ∑ i, ℓ i * E.jacobian x y i j = 0) (maxSteps : Nat) (scr : Scratch K n)
    (xStart xEnd : K) (hlt : xStart < xEnd) (y : Vec K (n + 1)) (dxTry : K) (hpos : 0 < dxTry)
    (r : DriverResult K (n + 1) (Scratch K n))
    (h : driverSolve (seulexSolve E) maxSteps scr xStart xEnd y dxTry = .ok r) :
    ∑ i, ℓ i * r.y i = ∑ i, ℓ i * y i := by
  refine driver_keep hm hj (fun z => ∑ i, ℓ i * z i = ∑ i, ℓ i * y i) hlt ?_ hpos h rfl
  intro scr scr' x x' z z' step step' hjac hT hdx hfw hst hz
  rw [← hz]
  refine seulexSolve_keep hm ℓ hT hdx hfw ?_ hst
  intro dx hdx' scale l
  refine subSteps_keep (fun w => ∑ i, ℓ i * w i = ∑ i, ℓ i * z i) rfl ?_
  intro x w hw
  have hh : 0 < dx / ((nSeq l : Nat) : K) := div_pos hdx' (nSeq_cast_pos l)
  obtain ⟨xj, zj, e⟩ := hjac
  simp only [mul_add, Finset.sum_add_distrib, hw]
  rw [e, increment_zero hs hf hJ hh, add_zero]

/-! ### C71 -/

/-- **C71.** An integration that starts in a state where all rates are zero, and returns, returns the
same state; whatever the Jacobian, for any linear solver that solves a system with zero right-hand
side by zero. -/
theorem C71_rest_state_is_kept (hm : PowLaws K) (E : SeulexEnv K n)
    (hj : E.jacRedo < 2 * E.jacRedo) (hz : ∀ a, E.linearSolve a (fun _ => 0) = fun _ => 0)
    (maxSteps : Nat) (scr : Scratch K n) (xStart xEnd : K) (hlt : xStart < xEnd)
    (y : Vec K (n + 1)) (hy : ∀ x, E.derivatives x y = fun _ => 0) (dxTry : K) (hpos : 0 < dxTry)
    (r : DriverResult K (n + 1) (Scratch K n))
    (h : driverSolve (seulexSolve E) maxSteps scr xStart xEnd y dxTry = .ok r) : r.y = y := by
  refine driver_keep hm hj (fun z => z = y) hlt ?_ hpos h rfl
  rintro scr scr' x x' z z' step step' - hT hdx hfw hst rfl
  funext i
  have := seulexSolve_keep hm (Pi.single i 1) hT hdx hfw (by
    intro dx hdx' scale l
    rw [subSteps_keep (fun w => w = z) rfl (by
      rintro x w rfl
      funext i
      rw [hy, hz, add_zero])]) hst
  simpa [Pi.single_apply] using this

/-- A non-negative composition that sums to one is what the model reads from its state vector. -/
theorem clippedComposition_layout {p T : K} {c : Vec K (m + 1)} (hc : ∀ i, 0 ≤ c i)
    (hsum : ∑ i, c i = 1) {y : Vec K (m + 2)} (hy : Layout p T (List.ofFn c) y) :
    clippedComposition y = c := by
  have hsp : ∀ i : Fin m, y i.castSucc.succ = c i.castSucc := by
    intro i
    have h := hy.species i
    rw [List.getElem?_ofFn, dif_pos (by have := i.isLt; omega), Option.some.injEq] at h
    exact h.symm
  funext i
  refine Fin.lastCases ?_ (fun j => ?_) i
  · simp only [clippedComposition, Fin.snoc_last, hsp]
    rw [Fin.sum_univ_castSucc] at hsum
    simp only [max_eq_right (hc _)]
    linarith
  · simp only [clippedComposition, Fin.snoc_castSucc, hsp, max_eq_right (hc _)]

/-- The integration behind an integrated cell. -/
theorem seulexIntegrator_ok {E : SeulexEnv K n} {maxSteps : Nat} {scr scr' : Scratch K n} {dt sub sub' : K}
    {y y' : Vec K (n + 1)} (h : seulexIntegrator E maxSteps scr dt y sub = .ok (scr', y', sub')) :
    ∃ r, driverSolve (seulexSolve E) maxSteps scr 0 dt y sub = .ok r ∧ r.y = y' := by
  unfold seulexIntegrator at h
  cases hr : driverSolve (seulexSolve E) maxSteps scr 0 dt y sub with
  | error e => rw [hr] at h; cases h
  | ok r => rw [hr] at h; cases h; exact ⟨r, rfl, rfl⟩

/-- **C71, one cell.** A cell with a composition without negative entries that sums to one, at which
the mechanism library reports zero rates, comes back from the integration with unchanged temperature,
pressure and composition (if it comes back), for every Jacobian routine, with positive relative
tolerances. -/
theorem C71_cell_at_rest (hm : PowLaws K) (L : PyJacLib K m)
    (linearSolve : (Nat → K) → Vec K (m + 2) → Vec K (m + 2))
    (hz : ∀ a, linearSolve a (fun _ => 0) = fun _ => 0) (absTol relTol : Vec K (m + 2))
    (hrel : ∀ i, 0 < relTol i) (fuel maxSteps : Nat) (scr scr' : Scratch K (m + 1)) (p T : K)
    (c : Vec K (m + 1)) (hc : ∀ i, 0 ≤ c i) (hsum : ∑ i, c i = 1)
    (hrate : L.dydt p (toPyJac T c) = fun _ => 0)
    (deltaT subDeltaT : K) (hdt : 0 < deltaT) (hsub : 0 < subDeltaT) (r : IntegrateResult K)
    (h : odePyJacSolve (seulexIntegrator (pyJacEnv L linearSolve absTol relTol fuel) maxSteps) scr p T
      (List.ofFn c) deltaT subDeltaT = .ok (scr', r)) :
    r.T = T ∧ r.p = p ∧ r.c = List.ofFn c := by
  obtain ⟨y, y', sub', hy, hI, rfl⟩ := odePyJacSolve_ok h
  obtain ⟨q, hq, rfl⟩ := seulexIntegrator_ok hI
  have hcl := clippedComposition_layout hc hsum hy
  have hj : (pyJacEnv L linearSolve absTol relTol fuel).jacRedo
      < 2 * (pyJacEnv L linearSolve absTol relTol fuel).jacRedo := by
    have := jacRedoOf_pos hrel
    show jacRedoOf relTol < 2 * jacRedoOf relTol
    linarith
  have := C71_rest_state_is_kept hm (pyJacEnv L linearSolve absTol relTol fuel) hj hz maxSteps scr 0
    deltaT hdt y (by
      intro x
      funext i
      show pyJacDerivatives L x y i = 0
      simp only [pyJacDerivatives, modelComposition_eq, hcl, hy.temperature, pressurePos, hy.pressure,
        hrate]
      split <;> rfl) subDeltaT hsub q hq
  rw [this]
  exact ⟨hy.temperature, hy.pressure, by rw [hcl]⟩

end Exact

/-! ### Cases -/

/-- Two bodies that exchange heat; the linear solver is Cramer's rule. -/
def exchange : SeulexEnv ℚ 1 where
  derivatives _ y := fun i => if i = 0 then y 1 - y 0 else y 0 - y 1
  jacobian _ _ := fun i j => if i = j then -1 else 1
  linearSolve a b := fun i => if i = 0 then (b 0 * a 3 - a 2 * b 1) / (a 0 * a 3 - a 2 * a 1)
    else (a 0 * b 1 - b 0 * a 1) / (a 0 * a 3 - a 2 * a 1)
  absTol := fun _ => 1
  relTol := fun _ => 1 / 100
  jacRedo := 1 / 100
  fuel := 10

theorem exchange_solver : SolvesCombination exchange (fun _ => 1) := by
  intro x z h b hh
  have hne : h ≠ 0 := hh.ne'
  have two : ∀ v : Fin (1 + 1) → ℚ, ∑ i, v i = v 0 + v 1 := fun v => Fin.sum_univ_two v
  simp only [dotProduct, Matrix.mulVec, two, Matrix.sub_apply, Matrix.smul_apply, Matrix.one_apply, Matrix.of_apply,
    exchange, systemArray]
  norm_num
  have h2 : (1 : ℚ) + 2 * h ≠ 0 := by positivity
  have h3 : (1 + h) ^ 2 - h ^ 2 ≠ 0 := by
    have : (1 + h) ^ 2 - h ^ 2 = 1 + 2 * h := by ring
    rw [this]; exact h2
  have h4 : (1 : ℚ) + h * 2 ≠ 0 := by positivity
  field_simp
  ring_nf
  field_simp
  ring

/-- Temperatures after one time unit, first step one tenth: their sum, whether they have approached each
other, and the number of steps. -/
def exchangeRun : Option (ℚ × Bool × Nat) :=
  letI := ratMath
  (driverSolve (seulexSolve exchange) 20 ⟨0, 0, fun _ _ => 0, fun _ _ => 5, fun _ => 0, fun _ => 0⟩ 0 1
    (fun i => if i = 0 then 1000 else 400) (1 / 10)).toOption.map (fun r =>
      (r.y 0 + r.y 1, decide (400 < r.y 1 ∧ r.y 1 < r.y 0 ∧ r.y 0 < 1000), r.steps))

/-- A case of C70 (the other hypotheses are `exchange_solver` and `ratMath_powLaws`). -/
example : exchangeRun = some (1400, true, 3) ∧
    (∀ x y, ∑ i, 1 * exchange.derivatives x y i = 0) ∧
    (∀ x y j, ∑ i, 1 * exchange.jacobian x y i j = 0) ∧ exchange.jacRedo < 2 * exchange.jacRedo := by
  have two : ∀ v : Fin (1 + 1) → ℚ, ∑ i, v i = v 0 + v 1 := fun v => Fin.sum_univ_two v
  refine ⟨by decide +kernel, fun x y => ?_, fun x y j => ?_, by norm_num [exchange]⟩
  · rw [two]; simp [exchange]
  · rw [two]
    have : j = 0 ∨ j = 1 := by revert j; decide
    rcases this with rfl | rfl <;> simp [exchange]

/-- The bodies have the same temperature. -/
def exchangeRest : Option (ℚ × ℚ × Nat) :=
  letI := ratMath
  (driverSolve (seulexSolve exchange) 20 ⟨0, 0, fun _ _ => 0, fun _ _ => 5, fun _ => 0, fun _ => 0⟩ 0 1
    (fun _ => 700) (1 / 10)).toOption.map (fun r => (r.y 0, r.y 1, r.steps))

/-- A case of C71. -/
example : exchangeRest = some (700, 700, 2) ∧ (∀ x, exchange.derivatives x (fun _ => 700) = fun _ => 0) ∧
    (∀ a, exchange.linearSolve a (fun _ => 0) = fun _ => 0) := by
  refine ⟨by decide +kernel, fun x => ?_, fun a => ?_⟩
  · funext i; simp [exchange]
  · funext i; simp [exchange]

/-- A case of C71 for a cell: two species of which the first decays in proportion to its mass fraction, a cell without it. -/
def decayLib : PyJacLib ℚ 1 where
  dydt _ y := fun i => if i.val = 1 then - y 1 else 3 * y 1
  evalJacob _ _ := fun k => if k = 3 then -1 else 0
  evalH _ := fun _ => 0
  nsp := 2

/-- A linear solver for diagonal matrices. -/
def diagonalSolve (a : Nat → ℚ) (b : Vec ℚ 3) : Vec ℚ 3 := fun i => b i / a (i.val * 3 + i.val)

/-- Temperature and composition after integrating a cell with composition `c`. -/
def decayRun (c : Vec ℚ 2) : Option (ℚ × List ℚ) :=
  letI := ratMath
  (odePyJacSolve (seulexIntegrator (pyJacEnv decayLib diagonalSolve (fun _ => 1) (fun _ => 1 / 10000) 10) 20)
    ⟨0, 0, fun _ _ => 0, fun _ _ => 5, fun _ => 0, fun _ => 0⟩ 100000 1000 (List.ofFn c) (1 / 10)
    (1 / 100)).toOption.map (fun r => (r.2.T, r.2.c))

example : decayRun (fun i => if i = 0 then 0 else 1) = some (1000, [0, 1]) ∧
    decayLib.dydt 100000 (toPyJac 1000 (fun i => if i = 0 then 0 else 1)) = (fun _ => 0) ∧
    (∀ a, diagonalSolve a (fun _ => 0) = fun _ => 0) ∧
    (decayRun (fun _ => 1 / 2)).isSome = true ∧ decayRun (fun _ => 1 / 2) ≠ some (1000, [1 / 2, 1 / 2]) := by
  refine ⟨by decide +kernel, by decide +kernel, fun a => ?_, by decide +kernel, by decide +kernel⟩
  funext i; simp [diagonalSolve]

end DLB
