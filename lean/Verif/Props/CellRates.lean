import Verif.Props.SeulexConvergence
import Verif.Props.FullStackChemistry
/-
C117: with small time steps the reaction rates of the cells are the production rates of the library.
-/
set_option autoImplicit false
set_option linter.unusedSectionVars false

namespace DLB
open Spec

variable {m : Nat} [MathOps ℝ]

/-- The accepted steps add up to what the integration covers. -/
theorem acceptedSteps_sum {n : Nat} {stepper : Stepper ℝ (n + 1) (Scratch ℝ n)} {xStart xEnd : ℝ} :
    ∀ (left nStep : Nat) (scr : Scratch ℝ n) (x : ℝ) (y : Vec ℝ (n + 1)) (step : StepState ℝ)
      (r : DriverResult ℝ (n + 1) (Scratch ℝ n)),
      driverLoop stepper xStart xEnd left nStep scr x y step = .ok r →
      ((acceptedSteps stepper xStart xEnd left scr x y step).map Prod.fst).sum = r.x - x := by
  intro left
  induction left with
  | zero => intro nStep scr x y step r h; simp [driverLoop] at h
  | succ left ih =>
    intro nStep scr x y step r h
    simp only [driverLoop, bind, Except.bind] at h
    cases hst : stepper scr x y (driverPrepare xStart xEnd x step) with
    | error e => simp [hst] at h
    | ok v =>
      obtain ⟨scr', x', y', st'⟩ := v
      simp only [hst] at h
      simp only [acceptedSteps, hst, List.map_cons, List.sum_cons]
      split at h
      · rename_i hend
        cases h
        rw [if_pos hend]
        simp
      · rename_i hend
        rw [if_neg hend, ih _ _ _ _ _ _ h]
        ring

/-- What is assumed of the steps made for a cell with state vector `y` over a time `dt`: whatever the
work arrays contained, they end at `dt`, and the Jacobians used have row sums of at most `Lj`. -/
def StepsWithin (E : SeulexEnv ℝ (m + 1)) (maxSteps : Nat) (dt : ℝ) (y : Vec ℝ (m + 2)) (sub Lj : ℝ) :
    Prop :=
  ∀ scr, let steps := acceptedSteps (seulexSolve E) 0 dt maxSteps scr 0 y (StepState.init sub)
    (steps.map Prod.fst).sum = dt ∧ ∀ q ∈ steps, RowsAtMost q.2 Lj

/-- **C117, one cell.** The mean rates of change of temperature and mass fractions returned by the
integration of a cell are the rates of the equations at the initial state, up to a constant times the
time step. -/
theorem C117_rates_of_a_cell (hm : PowLaws ℝ) (L : PyJacLib ℝ m)
    (linearSolve : (Nat → ℝ) → Vec ℝ (m + 2) → Vec ℝ (m + 2)) (hE : LapackContract (m + 2) linearSolve)
    (absTol relTol : Vec ℝ (m + 2)) (hrel : ∀ i, 0 < relTol i) (fuel maxSteps : Nat)
    (scr scr' : Scratch ℝ (m + 1)) (p T : ℝ) (c : List ℝ) (dt sub : ℝ) (hdt : 0 < dt) (hsub : 0 < sub)
    (r : IntegrateResult ℝ)
    (h : odePyJacSolve (seulexIntegrator (pyJacEnv L linearSolve absTol relTol fuel) maxSteps) scr p T
      c dt sub = .ok (scr', r)) (y : Vec ℝ (m + 2)) (hy : Layout p T c y)
    (ρ B Λ Lj C : ℝ) (hC : C = 205 * (Lj * B + 2 * Λ * B))
    (hf : LipschitzNear (pyJacDerivatives L) (fun _ => y) 0 dt ρ B Λ 0)
    (hΛ : 0 ≤ Λ) (hB : 0 ≤ B) (hL0 : 0 ≤ Lj)
    (hsteps : StepsWithin (pyJacEnv L linearSolve absTol relTol fuel) maxSteps dt y sub Lj)
    (hHL : dt * Lj ≤ 1) (hHB : 3 * dt * B ≤ ρ / 2) (hsmall : dt * (B + C * dt) ≤ ρ / 2)
    (hpos : ∀ j : Fin m, 0 ≤ y j.castSucc.succ + dt * pyJacDerivatives L 0 y j.castSucc.succ) :
    |(r.T - T) / dt - pyJacDerivatives L 0 y 0| ≤ (C + Λ * (B + C * dt)) * dt ∧
    (∀ j : Fin m, |(r.c.getD j 0 - c.getD j 0) / dt - pyJacDerivatives L 0 y j.castSucc.succ|
      ≤ (C + Λ * (B + C * dt)) * dt) ∧
    (c.sum = 1 → |(r.c.getD m 0 - c.getD m 0) / dt + ∑ j : Fin m, pyJacDerivatives L 0 y j.castSucc.succ|
      ≤ m * ((C + Λ * (B + C * dt)) * dt)) := by
  obtain ⟨y₁, y', sub', hy₁, hI, rfl⟩ := odePyJacSolve_ok h
  obtain rfl := hy.unique hy₁
  obtain ⟨q, hq, rfl⟩ := seulexIntegrator_ok hI
  have hj : (pyJacEnv L linearSolve absTol relTol fuel).jacRedo
      < 2 * (pyJacEnv L linearSolve absTol relTol fuel).jacRedo := by
    have := jacRedoOf_pos hrel
    show jacRedoOf relTol < 2 * jacRedoOf relTol
    linarith
  obtain ⟨hs1, hs2⟩ := hsteps scr
  have hqx : q.x = dt := by
    have := acceptedSteps_sum maxSteps 0 scr 0 y _ q hq
    rw [hs1] at this
    linarith
  obtain ⟨-, key⟩ := C115_mean_rate_of_change hm (pyJacEnv L linearSolve absTol relTol fuel) hE hj
    maxSteps scr 0 dt hdt y sub hsub q hq ρ B Λ 0 Lj dt (by rw [hqx, sub_zero])
    (by rw [hqx]; exact hf) hΛ le_rfl hB hL0 hs2 hHL hHB (by rw [add_zero, ← hC]; exact hsmall)
  rw [add_zero, add_zero, ← hC] at key
  have comp : ∀ i, |(q.y i - y i) / dt - pyJacDerivatives L 0 y i| ≤ (C + Λ * (B + C * dt)) * dt := by
    intro i
    have := (norm_le_pi_norm _ i).trans key
    rw [Real.norm_eq_abs] at this
    simpa [pyJacEnv, div_eq_inv_mul] using this
  have hy1 : ∀ s : Fin m, c.getD s 0 = y s.castSucc.succ := fun s => by
    rw [List.getD_eq_getElem?_getD, hy.species s]; rfl
  have hy2 : ∀ s : Fin m, (List.ofFn (clippedComposition q.y)).getD s 0 = max 0 (q.y s.castSucc.succ) :=
    fun s => by
      have := s.isLt
      rw [List.getD_eq_getElem?_getD, List.getElem?_ofFn, dif_pos (by omega)]
      simp [clippedComposition, snoc_eq_dite]
  have spec : ∀ j : Fin m,
      |(max 0 (q.y j.castSucc.succ) - y j.castSucc.succ) / dt - pyJacDerivatives L 0 y j.castSucc.succ|
        ≤ (C + Λ * (B + C * dt)) * dt := by
    intro j
    have h1 := comp j.castSucc.succ
    have e : ∀ v, (v - y j.castSucc.succ) / dt - pyJacDerivatives L 0 y j.castSucc.succ
        = (v - (y j.castSucc.succ + dt * pyJacDerivatives L 0 y j.castSucc.succ)) / dt := by
      intro v; field_simp; ring
    rw [e, abs_div, abs_of_pos hdt, div_le_iff₀ hdt] at h1 ⊢
    refine le_trans ?_ h1
    have := abs_max_sub_max_le_abs (q.y j.castSucc.succ)
      (y j.castSucc.succ + dt * pyJacDerivatives L 0 y j.castSucc.succ) 0
    rwa [max_eq_left (hpos j), max_comm] at this
  refine ⟨?_, fun j => ?_, fun hsum => ?_⟩
  · have := comp 0
    rw [hy.temperature] at this
    exact this
  · rw [hy1, hy2]; exact spec j
  · have hlen := hy.size
    have e1 : c.getD m 0 = 1 - ∑ j : Fin m, y j.castSucc.succ := by
      have : c.sum = ∑ j : Fin m, c.getD j 0 + c.getD m 0 := by
        have h1 : c = List.ofFn (fun i : Fin (m + 1) => c.getD i 0) := by
          refine List.ext_getElem (by simp [hlen]) fun k h1 h2 => ?_
          rw [List.getElem_ofFn, List.getD_eq_getElem _ _ h1]
        conv_lhs => rw [h1, List.sum_ofFn, Fin.sum_univ_castSucc]
        rfl
      rw [hsum] at this
      simp only [hy1] at this
      linarith
    have e2 : (List.ofFn (clippedComposition q.y)).getD m 0
        = 1 - ∑ j : Fin m, max 0 (q.y j.castSucc.succ) := by
      rw [List.getD_eq_getElem?_getD, List.getElem?_ofFn, dif_pos (by omega)]
      simp [clippedComposition, snoc_eq_dite]
    rw [e1, e2]
    have e3 : (1 - ∑ j : Fin m, max 0 (q.y j.castSucc.succ) - (1 - ∑ j : Fin m, y j.castSucc.succ)) / dt
        + ∑ j : Fin m, pyJacDerivatives L 0 y j.castSucc.succ
        = -∑ j : Fin m, ((max 0 (q.y j.castSucc.succ) - y j.castSucc.succ) / dt
          - pyJacDerivatives L 0 y j.castSucc.succ) := by
      rw [Finset.sum_sub_distrib, ← Finset.sum_div, Finset.sum_sub_distrib]
      ring
    rw [e3, abs_neg]
    refine (Finset.abs_sum_le_sum_abs _ _).trans ((Finset.sum_le_sum fun j _ => spec j).trans ?_)
    simp

/-- **C117.** A time step of the load-balanced chemistry model with the pyJac model, on any number of
ranks: in every cell that is not mapped, the reaction rate of every species but the last is the density
times the rate of change that the library computes for the state of the cell, up to a constant times
the time step. -/
theorem C117_reaction_rates (hm : PowLaws ℝ) (L : PyJacLib ℝ m)
    (linearSolve : (Nat → ℝ) → Vec ℝ (m + 2) → Vec ℝ (m + 2)) (hE : LapackContract (m + 2) linearSolve)
    (absTol relTol : Vec ℝ (m + 2)) (hrel : ∀ i, 0 < relTol i) (fuel maxSteps : Nat)
    {n : Nat} (hn : 0 < n) (base : ChemModel ℝ) (hsp : base.nSpecie = m + 1)
    (hchem : base.chemistry = true) (parRun : Bool) (hpar : parRun = true ∨ n = 1)
    (sort : List (ChemistryLoad ℝ) → List (ChemistryLoad ℝ)) (hsort : ∀ l, (sort l).Perm l)
    (clk : Fin n → Nat → ℝ) (flow : Fin n → Flow ℝ)
    (hdt : ∀ r i, i < (flow r).nCells → 1 / 10 ^ 15 < (flow r).deltaT i)
    (w w' : Fin n → Scratch ℝ (m + 1)) (F : Fin n → RankFields ℝ) (res : Fin n → RankFields ℝ × ℝ)
    (h : solveWorldW (pyJacModel base L linearSolve absTol relTol fuel maxSteps) parRun sort clk flow w
      F = .ok (w', res)) (r : Fin n) (i : Nat) (hi : i < (flow r).nCells)
    (hmap : ¬ Mapped base (flow r) i) (hrho : 0 ≤ (flow r).rho i) (hsub : 0 < (F r).deltaTChem i)
    (y : Vec ℝ (m + 2))
    (hy : Layout ((flow r).p i) ((flow r).T i) (composition base (flow r) i) y)
    (ρ B Λ Lj C : ℝ) (hC : C = 205 * (Lj * B + 2 * Λ * B))
    (hf : LipschitzNear (pyJacDerivatives L) (fun _ => y) 0 ((flow r).deltaT i) ρ B Λ 0)
    (hΛ : 0 ≤ Λ) (hB : 0 ≤ B) (hL0 : 0 ≤ Lj)
    (hsteps : StepsWithin (pyJacEnv L linearSolve absTol relTol fuel) maxSteps ((flow r).deltaT i) y
      ((F r).deltaTChem i) Lj)
    (hHL : (flow r).deltaT i * Lj ≤ 1) (hHB : 3 * (flow r).deltaT i * B ≤ ρ / 2)
    (hsmall : (flow r).deltaT i * (B + C * (flow r).deltaT i) ≤ ρ / 2)
    (hpos : ∀ j : Fin m, 0 ≤ y j.castSucc.succ
      + (flow r).deltaT i * pyJacDerivatives L 0 y j.castSucc.succ) (j : Fin m) :
    |(res r).1.RR j i - (flow r).rho i * pyJacDerivatives L 0 y j.castSucc.succ|
      ≤ (flow r).rho i * ((C + Λ * (B + C * (flow r).deltaT i)) * (flow r).deltaT i) := by
  obtain ⟨i₀, hlt, hi₀, scr, scr', q, ho, hq⟩ := world_rates hn hsp hrel hchem hpar hsort hdt h r i hi
  obtain ⟨rfl, -⟩ : i₀ = i ∧ ¬ Mapped base (flow r) i := by
    rcases hi₀ with h' | h'
    · exact h'
    · exact absurd h'.1 hmap
  have hd : 0 < (flow r).deltaT i₀ := lt_trans (by positivity) (hdt r i₀ hlt)
  obtain ⟨-, key, -⟩ := C117_rates_of_a_cell hm L linearSolve hE absTol relTol hrel fuel maxSteps scr scr'
    _ _ _ _ _ hd hsub q ho y hy ρ B Λ Lj C hC hf hΛ hB hL0 hsteps hHL hHB hsmall hpos
  have hj := j.isLt
  have hcomp : (composition base (flow r) i₀).getD j 0 = (flow r).Y j i₀ := by
    rw [List.getD_eq_getElem _ _ (by simp [composition, hsp])]
    simp [composition]
  have k := key j
  rw [hcomp] at k
  rw [hq j (by omega)]
  have e : (q.c.getD j 0 - (flow r).Y j i₀) * (flow r).rho i₀ / (flow r).deltaT i₀
      - (flow r).rho i₀ * pyJacDerivatives L 0 y j.castSucc.succ
      = (flow r).rho i₀ * ((q.c.getD j 0 - (flow r).Y j i₀) / (flow r).deltaT i₀
        - pyJacDerivatives L 0 y j.castSucc.succ) := by ring
  rw [e, abs_mul, abs_of_nonneg hrho]
  exact mul_le_mul_of_nonneg_left k hrho

/-- The matrices the steps are made with are Jacobians of the library, at whatever states. -/
theorem acceptedSteps_jacobian (hm : PowLaws ℝ) {n : Nat} {E : SeulexEnv ℝ n}
    (hj : E.jacRedo < ((2 : Nat) : ℝ) * E.jacRedo) {xStart xEnd : ℝ} (hlt : xStart < xEnd) :
    ∀ (left : Nat) (scr : Scratch ℝ n) (x : ℝ) (y : Vec ℝ (n + 1)) (step : StepState ℝ),
      Running E scr step → xStart ≤ x → x < xEnd →
      ∀ q ∈ acceptedSteps (seulexSolve E) xStart xEnd left scr x y step,
        ∃ t z, q.2 = E.jacobian t z := by
  intro left
  induction left with
  | zero => intro scr x y step _ _ _ q hq; simp [acceptedSteps] at hq
  | succ left ih =>
    intro scr x y step hI hx hx' q hq
    simp only [acceptedSteps] at hq
    cases hst : seulexSolve E scr x y (driverPrepare xStart xEnd x step) with
    | error e => simp [hst] at hq
    | ok v =>
      obtain ⟨scr', x', y', st'⟩ := v
      obtain ⟨a1, a2, a3⟩ := running_step hm hj hI hx hx' hst
      simp only [hst, List.mem_cons] at hq
      rcases hq with rfl | hq
      · exact a2
      · split at hq
        · simp at hq
        · rename_i hend
          have hlt' : x' < xEnd := by
            by_contra hc
            rw [not_lt] at hc
            exact hend (mul_nonneg (by linarith) (by linarith))
          exact ih _ _ _ _ a3 (by linarith) hlt' q hq

/-! ### Cases -/

/-- A library in which the first of two species is formed at a rate that depends on the temperature,
with its Jacobian. -/
noncomputable def formation : PyJacLib ℝ 1 where
  dydt _ y := fun i => if i.val = 1 then (y 0 - 1000) / 10 else 0
  evalJacob _ _ := fun k => if k = 1 then 1 / 10 else 0
  evalH _ := fun _ => 0
  nsp := 2

theorem formation_derivatives (t : ℝ) (z : Vec ℝ 3) :
    pyJacDerivatives formation t z = ![0, (z 0 - 1000) / 10, 0] := by
  funext i
  fin_cases i <;> simp [pyJacDerivatives, formation, toPyJac]

theorem formation_lipschitzNear (b p : ℝ) :
    LipschitzNear (pyJacDerivatives formation) (fun _ => ![1001, 1 / 4, p]) 0 b 1 (1 / 5) (1 / 10) 0 := by
  constructor
  · rintro t z ⟨-, hz⟩
    have h0 := (norm_le_pi_norm _ 0).trans hz
    rw [Real.norm_eq_abs] at h0
    simp only [Pi.sub_apply, Matrix.cons_val_zero] at h0
    rw [abs_le] at h0
    rw [formation_derivatives, pi_norm_le_iff_of_nonneg (by norm_num)]
    intro i
    have h1 : |z 0 - 1000| ≤ 2 := abs_le.2 ⟨by linarith, by linarith⟩
    fin_cases i <;> simp
    linarith
  · rintro t z t' z' - -
    have h0 := norm_le_pi_norm (z - z') 0
    rw [Real.norm_eq_abs, Pi.sub_apply] at h0
    rw [formation_derivatives, formation_derivatives, zero_mul, add_zero,
      pi_norm_le_iff_of_nonneg (by positivity)]
    intro i
    fin_cases i
    · simp
    · have e : (z 0 - 1000) / 10 - (z' 0 - 1000) / 10 = (z 0 - z' 0) / 10 := by ring
      simp only [Pi.sub_apply, Real.norm_eq_abs]
      show |(z 0 - 1000) / 10 - (z' 0 - 1000) / 10| ≤ _
      rw [e, abs_div, abs_of_pos (by norm_num : (0 : ℝ) < 10)]
      linarith
    · simp

/-- A case of C117: a cell at 1001 K over a time step of 1e-4 in which the first species is formed at a
rate of 1/10; the rate that is returned is between 0.098 and 0.102. -/
example (fuel maxSteps : Nat) (scr scr' : Scratch ℝ 2) (r : IntegrateResult ℝ) : letI := realMath
    (∀ scr, ((acceptedSteps (seulexSolve (pyJacEnv formation
      (fun a b => (columnMajor 3 a)⁻¹.mulVec b) (fun _ => 1) (fun _ => 1 / 1000) fuel)) 0
      (1 / 10000 : ℝ) maxSteps scr 0 ![1001, 1 / 4, 100000] (StepState.init (1 / 10000))).map
        Prod.fst).sum = 1 / 10000) →
    odePyJacSolve (seulexIntegrator (pyJacEnv formation (fun a b => (columnMajor 3 a)⁻¹.mulVec b)
      (fun _ => 1) (fun _ => 1 / 1000) fuel) maxSteps) scr 100000 1001 [1 / 4, 3 / 4] (1 / 10000)
      (1 / 10000) = .ok (scr', r) →
    |(r.c.getD 0 0 - 1 / 4) / (1 / 10000) - 1 / 10| ≤ 2 / 1000 := by
  let := realMath
  intro hend h
  have hj : jacRedoOf (fun _ : Fin 3 => (1 / 1000 : ℝ)) < 2 * jacRedoOf (fun _ : Fin 3 => (1 / 1000 : ℝ)) := by
    have := jacRedoOf_pos (relTol := (fun _ : Fin 3 => (1 / 1000 : ℝ))) (fun _ => by norm_num)
    linarith
  have key := C117_rates_of_a_cell realMath_powLaws formation (fun a b => (columnMajor 3 a)⁻¹.mulVec b)
    (lapackContract_inverse 3) (fun _ => 1) (fun _ => 1 / 1000) (fun _ => by norm_num) fuel maxSteps
    scr scr' 100000 1001 [1 / 4, 3 / 4] (1 / 10000) (1 / 10000) (by norm_num) (by norm_num) r h
    ![1001, 1 / 4, 100000] ⟨rfl, rfl, fun i => by fin_cases i; rfl, rfl⟩ 1 (1 / 5) (1 / 10) (1 / 10)
    (123 / 10) (by norm_num) (formation_lipschitzNear _ _) (by norm_num) (by norm_num) (by norm_num)
    (fun s => ⟨hend s, fun q hq => by
      obtain ⟨t, z, hz⟩ := acceptedSteps_jacobian realMath_powLaws (by exact_mod_cast hj) (by norm_num)
        maxSteps s 0 _ _ (running_start _ s (by norm_num)) le_rfl (by norm_num) q hq
      rw [hz]
      intro i
      fin_cases i <;> simp [pyJacEnv, pyJacJacobian, formation, Fin.sum_univ_three]⟩)
    (by norm_num) (by norm_num) (by norm_num)
    (fun j => by fin_cases j; rw [formation_derivatives]; norm_num)
  have k := key.2.1 0
  rw [formation_derivatives] at k
  norm_num at k ⊢
  linarith

/-- In the run of C69 the steps of a cell add up to the time step. -/
example : letI := ratMath
    ((acceptedSteps (seulexSolve (pyJacEnv Example.stackLib Example.stackSolve (fun _ => 1)
      (fun _ => 1 / 10000) 10)) 0 (1 / 100) 10 (Example.stackScratch 3) 0 ![1001, 1 / 4, 100000]
      (StepState.init (1 / 100))).map Prod.fst).sum = 1 / 100 := by decide +kernel

end DLB
