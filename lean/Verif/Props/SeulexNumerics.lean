import Verif.Lemmas.SeulexAccept
import Verif.Props.Seulex
/-
C47, C49, C50, C58, C59: what an accepted step of the extrapolation stepper is, and what happens after
a rejected attempt.
-/
set_option autoImplicit false
set_option linter.unusedSectionVars false

namespace DLB
open Spec

theorem nSeq_eq_stepNumber (l : Nat) : nSeq l = stepNumber l := by
  rcases Nat.even_or_odd' l with ⟨j, rfl | rfl⟩
  · rw [nSeq_even, stepNumber, if_pos (by omega), Nat.mul_div_cancel_left _ (by norm_num)]
  · rw [nSeq_odd, stepNumber, if_neg (by omega), show (2 * j + 1) / 2 = j by omega]

section AnyArithmetic
variable {S : Type} {n : Nat}
variable [Zero S] [Add S] [Sub S] [Mul S] [Div S] [Neg S] [NatCast S] [OfScientific S]
variable [LT S] [DecidableLT S] [LE S] [DecidableLE S] [BEq S] [Consts S] [MathOps S]

/-! ### C47 -/

/-- **C47, any arithmetic.** If the sub-steps of the column at which an attempt ends fail (a
temperature outside of the range, or divergence of the first sub-step), then the attempt is rejected
and the next one is made with half of its step. -/
theorem C47_failed_attempt_halves_the_step (E : SeulexEnv S n) (forward first last : Bool) (x : S)
    (y0 scale : Vec S (n + 1)) (fuel : Nat) (prevReject jacUpdated : Bool) (dfdy : Mat S (n + 1))
    (dxNew : S) (st : Inner S n) (h1 : 1 ≤ st.kTarg) (h2 : st.kTarg ≤ 11) (a : Attempt S n)
    (ha : columnLoop E first last prevReject dfdy x (if forward then dxNew else -dxNew) y0 scale
      (st.kTarg + 2) 0 { st with errOld := 0 } = .ok a)
    (r : SeulResult S n)
    (hr : seul E dfdy st.theta x y0 (if forward then dxNew else -dxNew) a.k scale = .ok r)
    (hf : r.ok = false) :
    ∃ jacUpdated' dfdy' st',
      attempts E forward first last x y0 scale (fuel + 1) prevReject jacUpdated dfdy dxNew st
        = attempts E forward first last x y0 scale fuel true jacUpdated' dfdy'
            (absS (if forward then dxNew else -dxNew) * (0.5 : S)) st' := by
  obtain ⟨stk, -, -, p3, p4⟩ := columnLoop_inv (fun _ _ => True) (fun _ _ _ _ _ _ => trivial) _ 0
    { st with errOld := 0 } a trivial h1 h2 (by omega) (by show st.kTarg + 2 ≤ _; omega) ha
  have hs : (subSteps E dfdy x y0 (if forward then dxNew else -dxNew) scale a.k).ok = false := by
    rw [← (seul_subSteps hr).1]; exact hf
  obtain ⟨ak, as, ar⟩ := a
  cases ar with
  | none =>
    have hc := p4 rfl
    cases hc with
    | decided _ tb' h => rw [hs] at h; cases h
  | some d =>
    have hd : d = absS (if forward then dxNew else -dxNew) * (0.5 : S) := by
      have hc := p3 d rfl
      generalize ho : Outcome.reject d = o at hc
      cases hc with
      | failed => cases ho; rfl
      | first h => cases ho
      | diverged tb' h => cases ho; rfl
      | decided _ tb' h => rw [hs] at h; cases h
    subst hd
    simp only [attempts, ha, bind, Except.bind]
    exact ⟨_, _, _, rfl⟩

/-- **C47, any arithmetic.** Every rejected attempt hands on half of its step, or the optimal step
`|dx| * factor` of one of its columns. -/
theorem C47_rejected_attempt (E : SeulexEnv S n) (first last prevReject : Bool)
    (dfdy : Mat S (n + 1)) (x dx : S) (y0 scale : Vec S (n + 1)) (st : Inner S n)
    (h1 : 1 ≤ st.kTarg) (h2 : st.kTarg ≤ 11) (a : Attempt S n)
    (ha : columnLoop E first last prevReject dfdy x dx y0 scale (st.kTarg + 2) 0
      { st with errOld := 0 } = .ok a) (d : S) (hd : a.reject = some d) :
    d = absS dx * (0.5 : S) ∨ ∃ err i, 1 ≤ i ∧ i ≤ a.k ∧ d = absS (dx * stepFactor err i) := by
  obtain ⟨stk, p1, -, p3, -⟩ := columnLoop_inv
    (fun k st => ∀ i, 1 ≤ i → i < k → ∃ err, st.dxOpt i = absS (dx * stepFactor err i))
    (by
      intro k s s' _ hp hc i i1 i2
      cases hc with
      | first h hk hy hd => omega
      | decided _ tb' h hk he ht herr hd hacc hrej =>
        rw [hd]
        dsimp only
        split
        · rename_i hik; subst hik; exact ⟨_, rfl⟩
        · exact hp i i1 (by omega)) _ 0
    { st with errOld := 0 } a (fun i i1 i2 => by omega) h1 h2 (by omega)
    (by show st.kTarg + 2 ≤ _; omega) ha
  have hc := p3 d hd
  generalize ho : Outcome.reject d = o at hc
  cases hc with
  | failed => cases ho; exact Or.inl rfl
  | first h => cases ho
  | diverged tb' h => cases ho; exact Or.inl rfl
  | decided _ tb' h hk he ht herr hopt hacc hrej =>
    obtain ⟨i, i1, i2, rfl⟩ := hrej d ho.symm
    refine Or.inr ?_
    rw [hopt]
    dsimp only
    split
    · rename_i hik; subst hik; exact ⟨_, _, i1, i2, rfl⟩
    · obtain ⟨err, he⟩ := p1 i i1 (by omega)
      exact ⟨err, i, i1, i2, he⟩

/-- **C47, any arithmetic.** A step that returns advances `x` by exactly the step it reports. -/
theorem C47_step_advances (E : SeulexEnv S n) (scr scr' : Scratch S n) (x x' : S)
    (y y' : Vec S (n + 1)) (step step' : StepState S)
    (h : seulexSolve E scr x y step = .ok (scr', x', y', step')) :
    x' = x + step'.dxDid ∧ step'.reject = false ∧ step'.prevReject = false ∧
      step'.first = step.first ∧ step'.last = step.last ∧ step'.forward = step.forward := by
  obtain ⟨r, kopt, kT, d, hr, hk, hn, rfl, rfl, h1, h2, rfl⟩ := seulexSolve_inv h
  exact ⟨rfl, rfl, rfl, rfl, rfl, rfl⟩

/-! ### C58 -/

theorem attempts_keeps_jacobian {E : SeulexEnv S n} {forward first last : Bool} {x : S}
    {y0 scale : Vec S (n + 1)} : ∀ (fuel : Nat) (prevReject : Bool) (dfdy : Mat S (n + 1)) (dxNew : S)
      (st : Inner S n) (r : StepResult S n),
      attempts E forward first last x y0 scale fuel prevReject true dfdy dxNew st = .ok r →
      r.dfdy = dfdy := by
  intro fuel
  induction fuel with
  | zero => intro _ _ _ _ _ h; cases h
  | succ fuel ih =>
    intro prevReject dfdy dxNew st r h
    unfold attempts at h
    simp only [bind, Except.bind] at h
    split at h
    · cases h
    rename_i a ha
    split at h
    · cases h; rfl
    · simp only [Bool.not_true, Bool.false_and, Bool.true_or] at h
      exact ih _ _ _ _ _ h

/-- **C58, any arithmetic.** If twice the Jacobian threshold is above the threshold, the first step of
an integration uses the Jacobian at its starting state, however many attempts it takes. -/
theorem C58_first_step_jacobian (E : SeulexEnv S n) (hE : E.jacRedo < ((2 : Nat) : S) * E.jacRedo)
    (scr scr' : Scratch S n) (x x' : S) (y y' : Vec S (n + 1)) (step step' : StepState S)
    (hf : step.first = true) (h : seulexSolve E scr x y step = .ok (scr', x', y', step')) :
    scr'.dfdy = E.jacobian x y := by
  obtain ⟨r, kopt, kT, d, hr, -, -, -, -, h1, -⟩ := seulexSolve_inv h
  have hθ : decide (E.jacRedo < (startInner E scr y step).theta) = true := by
    simp only [startInner, hf, Bool.true_or, if_true]
    exact decide_eq_true hE
  rw [hθ] at hr
  rw [h1, attempts_keeps_jacobian _ _ _ _ _ _ hr]
  unfold startJacobian
  rw [if_pos hθ]

/-- **C58, any arithmetic.** Every later step uses the Jacobian of an earlier step, or one evaluated at
the `x` of this step. -/
theorem C58_jacobian_origin (E : SeulexEnv S n)
    (scr scr' : Scratch S n) (x x' : S) (y y' : Vec S (n + 1)) (step step' : StepState S)
    (hT : step.first = true ∨ (1 ≤ scr.kTarg ∧ scr.kTarg ≤ 11))
    (h : seulexSolve E scr x y step = .ok (scr', x', y', step')) :
    scr'.dfdy = scr.dfdy ∨ ∃ z, scr'.dfdy = E.jacobian x z := by
  obtain ⟨r, kopt, kT, d, hr, -, -, -, -, h1, -⟩ := seulexSolve_inv h
  obtain ⟨t1, t2⟩ := startInner_kTarg (E := E) (y := y) hT
  obtain ⟨_, _, _, hq, -⟩ := attempts_inv
    (fun J _ _ => J = scr.dfdy ∨ ∃ z, J = E.jacobian x z) (by
      intro dfdy dxNew st pr a d θ J hq _ _ _ _ hJ
      rcases hJ with rfl | rfl
      · exact hq
      · exact Or.inr ⟨_, rfl⟩) _ _ _ _ _ _ _ (by
      unfold startJacobian
      split
      · exact Or.inr ⟨_, rfl⟩
      · exact Or.inl rfl) t1 t2 hr
  rw [h1]
  exact hq

end AnyArithmetic

/-! ### Exact arithmetic -/

section Exact
variable {K : Type} [Field K] [LinearOrder K] [IsStrictOrderedRing K] {n m : Nat} [MathOps K]

theorem columnMajor_systemArray_eq {J : Mat K (n + 1)} {h : K} :
    columnMajor (n + 1) (systemArray J h)
      = (1 / h) • (1 : Matrix (Fin (n + 1)) (Fin (n + 1)) K) - Matrix.of J := by
  ext i j
  rw [columnMajor_systemArray]
  simp [Matrix.one_apply]

theorem regular_systemArray {J : Mat K (n + 1)} {h : K} (hr : Regular J h) :
    (columnMajor (n + 1) (systemArray J h)).det ≠ 0 := by
  rw [columnMajor_systemArray_eq]
  exact hr

/-- **C50.** With a linear solver that solves regular systems, a successful row `l` of the table is
the result of `stepNumber l` linearly implicit Euler steps of size `dx / stepNumber l`:
`(I/h - J) d = f(x + h, y)`, all intermediate temperatures being between 200 and 5000. -/
theorem C50_sub_steps_are_linearly_implicit_euler (E : SeulexEnv K n)
    (hE : LapackContract (n + 1) E.linearSolve) (J : Mat K (n + 1)) (θ x dx : K)
    (y scale : Vec K (n + 1)) (l : Nat) (hJ : Regular J (dx / (stepNumber l : K)))
    (r : SeulResult K n) (h : seul E J θ x y dx l scale = .ok r) (hok : r.ok = true) :
    EulerPath J E.derivatives (fun z => 200 < z 0 ∧ z 0 ≤ 5000) (dx / (stepNumber l : K))
      (stepNumber l) x y r.y := by
  obtain ⟨h1, h2⟩ := seul_subSteps h
  rw [h2]
  rw [← nSeq_eq_stepNumber] at hJ ⊢
  exact subSteps_path hE (regular_systemArray hJ) (by rw [← h1]; exact hok)

/-- **C49, C50.** What a step that returns has computed: `y'` is the extrapolation to step size zero,
with at least two and at most thirteen rows, of the results of linearly implicit Euler steps with the
Jacobian the stepper holds; `x` advances by the step taken. -/
theorem C49_accepted_step_is_extrapolation (E : SeulexEnv K n)
    (hE : LapackContract (n + 1) E.linearSolve) (scr scr' : Scratch K n) (x x' : K)
    (y y' : Vec K (n + 1)) (step step' : StepState K)
    (hT : step.first = true ∨ (1 ≤ scr.kTarg ∧ scr.kTarg ≤ 11))
    (h : seulexSolve E scr x y step = .ok (scr', x', y', step')) (hdx : step'.dxDid ≠ 0)
    (hreg : ∀ l, l ≤ 12 → Regular scr'.dfdy (step'.dxDid / (stepNumber l : K))) :
    x' = x + step'.dxDid ∧ ∃ k, 1 ≤ k ∧ k ≤ 12 ∧
      ExtrapolatedStep scr'.dfdy E.derivatives (fun z => 200 < z 0 ∧ z 0 ≤ 5000) k x y step'.dxDid
        y' := by
  obtain ⟨r, kopt, kT, d, hr, -, -, rfl, rfl, h1, -, rfl⟩ := seulexSolve_inv h
  obtain ⟨t1, t2⟩ := startInner_kTarg (E := E) (y := y) hT
  dsimp only at hdx hreg ⊢
  obtain ⟨k1, k2, hok, hy, -⟩ := attempts_tableau t1 t2 hdx hr
  refine ⟨rfl, r.k, k1, k2, fun l => (subSteps E r.dfdy x y r.dx
      (fun i => E.absTol i + E.relTol i * absS (y i)) l).y, ?_, ?_⟩
  · intro l hl
    rw [h1] at hreg ⊢
    have hJ := hreg l (by omega)
    rw [← nSeq_eq_stepNumber] at hJ ⊢
    exact subSteps_path hE (regular_systemArray hJ) (hok l hl)
  · intro i
    rw [hy i]
    simp only [nSeq_eq_stepNumber]

/-- **C49.** Extrapolation gives the exact limit whenever the results of the rows are the values, at
their step sizes, of a polynomial of degree at most the number of the last row. -/
theorem C49_polynomial_results (dx : K) (hdx : dx ≠ 0) (k : Nat) (p : Polynomial K)
    (hp : p.degree ≤ k) :
    extrapolant (fun l => dx / (stepNumber l : K))
      (fun l => p.eval (dx / (stepNumber l : K))) 0 k = p.eval 0 := by
  simp only [← nSeq_eq_stepNumber]
  unfold extrapolant
  rw [← Lagrange.eq_interpolate_of_eval_eq (f := p) _ (stepSizes_injective hdx).injOn]
  · refine lt_of_le_of_lt hp ?_
    simp only [Nat.card_Icc, Nat.sub_zero]
    exact_mod_cast Nat.lt_succ_self k
  · intro i _; rfl

/-! ### C59 -/

theorem foldl_add_eq_sum {N : Nat} (f : Fin N → K) :
    (List.finRange N).foldl (fun s i => s + f i) 0 = ∑ i, f i := by
  rw [← List.foldl_map (f := f) (g := fun s a => s + a), ← List.sum_eq_foldl,
    ← List.ofFn_eq_map, List.sum_ofFn]

theorem errorEstimate_le_one (hm : SqrtLaws K) {scale y row0 : Vec K (n + 1)}
    (h : errorEstimate scale y row0 ≤ 1) :
    ∑ i, ((y i - row0 i) / scale i) ^ 2 ≤ (n + 1 : K) := by
  unfold errorEstimate at h
  simp only [sqr] at h
  rw [foldl_add_eq_sum (fun i => (y i - row0 i) / scale i * ((y i - row0 i) / scale i))] at h
  simp only [pow_two]
  have hS : 0 ≤ ∑ i, (y i - row0 i) / scale i * ((y i - row0 i) / scale i) :=
    Finset.sum_nonneg (fun i _ => mul_self_nonneg _)
  generalize ∑ i, (y i - row0 i) / scale i * ((y i - row0 i) / scale i) = q at *
  have hpos : (0 : K) < ((n + 1 : Nat) : K) := by exact_mod_cast Nat.succ_pos n
  have hq : 0 ≤ q / ((n + 1 : Nat) : K) := div_nonneg hS hpos.le
  have h2 := hm.sqrt_mul_self _ hq
  have h3 := hm.sqrt_nonneg _ hq
  have h4 : q / ((n + 1 : Nat) : K) ≤ 1 := by
    rw [← h2]; exact mul_le_one₀ h h3 h
  rw [div_le_one hpos] at h4
  exact_mod_cast h4

/-- **C59.** The difference between the two best extrapolated values of an accepted step, measured in
units of the tolerances, has a mean square of at most one. -/
theorem C59_accepted_error (hm : SqrtLaws K) (E : SeulexEnv K n)
    (hE : LapackContract (n + 1) E.linearSolve) (scr scr' : Scratch K n) (x x' : K)
    (y y' : Vec K (n + 1)) (step step' : StepState K)
    (hT : step.first = true ∨ (1 ≤ scr.kTarg ∧ scr.kTarg ≤ 11))
    (h : seulexSolve E scr x y step = .ok (scr', x', y', step')) (hdx : step'.dxDid ≠ 0)
    (hreg : ∀ l, l ≤ 12 → Regular scr'.dfdy (step'.dxDid / (stepNumber l : K))) :
    ∃ (k : Nat) (r : Nat → Vec K (n + 1)), 1 ≤ k ∧ k ≤ 12 ∧
      (∀ l, l ≤ k → EulerPath scr'.dfdy E.derivatives (fun z => 200 < z 0 ∧ z 0 ≤ 5000)
        (step'.dxDid / (stepNumber l : K)) (stepNumber l) x y (r l)) ∧
      (∀ i, y' i = extrapolant (fun l => step'.dxDid / (stepNumber l : K)) (fun l => r l i) 0 k) ∧
      ∑ i, ((y' i - extrapolant (fun l => step'.dxDid / (stepNumber l : K)) (fun l => r l i) 1 k)
        / (E.absTol i + E.relTol i * |y i|)) ^ 2 ≤ (n + 1 : K) := by
  obtain ⟨q, kopt, kT, d, hr, -, -, rfl, rfl, h1, -, rfl⟩ := seulexSolve_inv h
  obtain ⟨t1, t2⟩ := startInner_kTarg (E := E) (y := y) hT
  dsimp only at hdx hreg ⊢
  obtain ⟨k1, k2, hok, hy, herr⟩ := attempts_tableau t1 t2 hdx hr
  refine ⟨q.k, fun l => (subSteps E q.dfdy x y q.dx
      (fun i => E.absTol i + E.relTol i * absS (y i)) l).y, k1, k2, ?_, ?_, ?_⟩
  · intro l hl
    rw [h1] at hreg ⊢
    have hJ := hreg l (by omega)
    rw [← nSeq_eq_stepNumber] at hJ ⊢
    exact subSteps_path hE (regular_systemArray hJ) (hok l hl)
  · intro i
    rw [hy i]
    simp only [nSeq_eq_stepNumber]
  · have := errorEstimate_le_one hm herr
    simpa only [nSeq_eq_stepNumber, absS_eq] using this

end Exact

/-! ### Cases

One temperature relaxing to 300 with unit rate, from 1000, over 1/10: three rows are not enough for
the exact solution, so that the values below are those of the extrapolation itself. -/

/-- `dT/dt = 300 - T`. -/
def relaxation : SeulexEnv ℚ 0 where
  derivatives _ z := fun _ => 300 - z 0
  jacobian _ _ := fun _ _ => -1
  linearSolve a b := fun _ => b 0 / a 0
  absTol := fun _ => 1
  relTol := fun _ => 1 / 10000
  jacRedo := 1 / 10000
  fuel := 10

theorem relaxation_solver : LapackContract 1 relaxation.linearSolve := by
  intro a b h
  rw [Matrix.det_fin_one] at h
  funext i
  have : i = 0 := Subsingleton.elim _ _
  subst this
  have h' : a 0 ≠ 0 := by simpa [columnMajor] using h
  simp [Matrix.mulVec, dotProduct, columnMajor, relaxation, mul_div_cancel₀ _ h']

theorem relaxation_regular (x : ℚ) (z : Vec ℚ 1) (h : ℚ) (hh : 0 < h) :
    Regular (relaxation.jacobian x z) h := by
  unfold Regular
  rw [Matrix.det_fin_one]
  have : 0 < 1 / h := one_div_pos.2 hh
  simp [relaxation]
  have : 0 < h⁻¹ := inv_pos.2 hh
  linarith

/-- The first step from leftover work arrays: `x`, temperature, step, Jacobian, next step. -/
def relaxationStep : Option (ℚ × ℚ × ℚ × ℚ × ℚ) :=
  letI := ratMath
  (seulexSolve relaxation (leftover 7) 0 (fun _ => 1000) (StepState.init (1 / 10))).toOption.map
    (fun r => (r.2.1, r.2.2.1 0, r.2.2.2.dxDid, r.1.dfdy 0 0, r.2.2.2.dxTry))

/-- A case of C49, C50, C58: the first step is accepted after two rows; the result is within the
tolerance of `300 + 700 exp (-1/10) = 933.386...`. -/
example : relaxationStep.map (fun r => (r.1, r.2.2.1, r.2.2.2.1)) = some (1 / 10, 1 / 10, -1) := by
  decide +kernel

example : relaxationStep.map (fun r => decide (933.3 < r.2.1 ∧ r.2.1 < 933.5)) = some true := by
  decide +kernel

end DLB
