import Verif.Lemmas.SeulexTerminates
import Verif.Props.SeulexIntegration
import Mathlib.Analysis.Normed.Group.Constructions
/-
C48: when the attempts of a step, and the steps of an integration, come to an end.
-/
set_option autoImplicit false
set_option linter.unusedSectionVars false

namespace DLB
open Spec

section Exact
variable {K : Type} [Field K] [LinearOrder K] [IsStrictOrderedRing K] {n : Nat} [MathOps K]

theorem seulexSolve_fuel_mono {E : SeulexEnv K n} {scr : Scratch K n} {x : K} {y : Vec K (n + 1)}
    {step : StepState K} {fuel fuel' : Nat} {r} (hle : fuel ≤ fuel')
    (h : seulexSolve { E with fuel := fuel } scr x y step = .ok r) :
    seulexSolve { E with fuel := fuel' } scr x y step = .ok r := by
  unfold seulexSolve at h ⊢
  have h0 : 0 < iMaxx := by decide
  simp only [writeAt_ok h0, bind, Except.bind] at h ⊢
  rw [attempts_env] at h ⊢
  split at h
  · cases h
  rename_i v hv
  have hi : initialOrder { E with fuel := fuel' } = initialOrder { E with fuel := fuel } := rfl
  rw [hi]
  rw [attempts_fuel_mono _ _ _ _ _ _ _ _ hle hv]
  exact h

theorem readAt_fault {A : Type} (m : Nat) (f : Nat → A) (i : Nat) :
    readAt m f i ≠ .error .outOfFuel := by
  unfold readAt; split <;> simp

theorem optimalOrder_fault (k kTarg : Nat) (temp : Nat → K) :
    optimalOrder k kTarg temp ≠ .error .outOfFuel := by
  intro h
  unfold optimalOrder at h
  simp only [bind, Except.bind] at h
  repeat' split at h
  all_goals first
    | cases h; done
    | (cases h; exact readAt_fault _ _ _ ‹_›)

theorem nextStep_fault (prevReject : Bool) (k kopt : Nat) (dx : K) (st : Inner K n) :
    nextStep prevReject k kopt dx st ≠ .error .outOfFuel := by
  intro h
  unfold nextStep at h
  simp only [bind, Except.bind] at h
  repeat' split at h
  all_goals first
    | cases h; done
    | (cases h; exact readAt_fault _ _ _ ‹_›)

/-- **C48.** In exact arithmetic a step returns: if the temperature (entry 0 of the state) is strictly
between 200 and 5000, the error scale of every entry is positive, the right-hand side is bounded near
the starting point, and the linear solver solves regular systems, then a finite number of attempts is
enough, and what is returned does not depend on how many more were allowed.  The work arrays may
contain anything, and the Jacobian may be wrong or left over from an earlier step. -/
theorem C48_step_returns [Archimedean K] (hm : PowLaws K) (hq : SqrtLaws K) (E : SeulexEnv K n)
    (hE : LapackContract (n + 1) E.linearSolve) (scr : Scratch K n) (x : K) (y : Vec K (n + 1))
    (step : StepState K) (hT : step.first = true ∨ (1 ≤ scr.kTarg ∧ scr.kTarg ≤ 11))
    (hdx : step.dxTry ≠ 0) (hy : 200 < y 0 ∧ y 0 < 5000)
    (htol : ∀ i, 0 < E.absTol i + E.relTol i * |y i|) (hf : BoundedNear E.derivatives x y) :
    ∃ N r, ∀ fuel, N ≤ fuel → seulexSolve { E with fuel := fuel } scr x y step = .ok r := by
  suffices h : ∃ fuel r, seulexSolve { E with fuel := fuel } scr x y step = .ok r by
    obtain ⟨N, r, h⟩ := h
    exact ⟨N, r, fun fuel hle => seulexSolve_fuel_mono hle h⟩
  obtain ⟨ρ, B, hρ, hB⟩ := hf
  obtain ⟨m, -, hmin⟩ := Finset.exists_min_image Finset.univ
    (fun i => E.absTol i + E.relTol i * absS (y i)) ⟨0, Finset.mem_univ _⟩
  have hS : ∀ (J : Mat K (n + 1)) L, 0 < L → (∀ i, ∑ j, |J i j| ≤ L) → SmallStep E J x y
      (fun i => E.absTol i + E.relTol i * absS (y i)) (min ρ (min ((y 0 - 200) / 2) (5000 - y 0)))
      (|B| + 1) L (E.absTol m + E.relTol m * absS (y m)) := by
    intro J L hL0 hL
    refine ⟨?_, ?_, by positivity, ?_, hL, hL0, ?_, fun i => hmin i (Finset.mem_univ _)⟩
    · refine lt_min hρ (lt_min ?_ ?_) <;> linarith [hy.1, hy.2]
    · intro x' z hx hz i
      have := hB x' z (le_trans hx (min_le_left _ _)) (fun i => le_trans (hz i) (min_le_left _ _)) i
      have := le_abs_self B
      linarith
    · intro t ht
      simp only [le_min_iff] at ht
      obtain ⟨-, h1, h2⟩ := ht
      rw [abs_le] at h1 h2
      constructor <;> linarith [hy.1, hy.2]
    · rw [absS_eq]; exact htol m
  obtain ⟨t1, t2⟩ := startInner_kTarg (E := E) (y := y) hT
  have hd : 0 < absS step.dxTry := by rw [absS_eq]; exact abs_pos.2 hdx
  obtain ⟨fuel, r, hr⟩ := attempts_end (forward := step.forward) (first := step.first)
    (last := step.last) hm hq hE hS (startJacobian E scr x y step)
    (decide (E.jacRedo < (startInner E scr y step).theta))
    (Or.inr fun J st d pr => attempts_end hm hq hE hS J true (Or.inl rfl) st d pr)
    (startInner E scr y step) (absS step.dxTry) step.prevReject t1 t2 hd (startInner_dxOpt hdx)
  rcases C45_step_in_range { E with fuel := fuel } scr x y step hT with h | ⟨a, b, c, d, h, -⟩
  swap
  · exact ⟨fuel, _, h⟩
  exfalso
  -- `attempts` succeeded, so the step did not run out of attempts
  have h0 : 0 < iMaxx := by decide
  unfold seulexSolve at h
  simp only [writeAt_ok h0, bind, Except.bind] at h
  rw [attempts_env] at h
  have e : initialOrder { E with fuel := fuel } = initialOrder E := rfl
  rw [e] at h
  unfold startJacobian startInner at hr
  dsimp only at hr
  rw [hr] at h
  dsimp only at h
  split at h
  · rename_i e he
    cases h
    exact optimalOrder_fault _ _ _ he
  split at h
  · rename_i e he
    cases h
    exact nextStep_fault _ _ _ _ _ he
  cases h

/-- The states an integration goes through: where it is now, and where further accepted steps lead
before the end of the interval is reached. -/
inductive Visits {N : Nat} {Scr : Type} (stepper : Stepper K N Scr) (xStart xEnd : K) :
    Scr → K → Vec K N → StepState K → K → Vec K N → Prop
  | here (scr x y step) : Visits stepper xStart xEnd scr x y step x y
  | later {scr x y step scr' x' y' step' xv yv}
      (h : stepper scr x y (driverPrepare xStart xEnd x step) = .ok (scr', x', y', step'))
      (hend : ¬ 0 ≤ (x' - xEnd) * (xEnd - xStart))
      (hv : Visits stepper xStart xEnd scr' x' y' { step' with
          first := false
          prevReject := if step'.reject then true else step'.prevReject } xv yv) :
      Visits stepper xStart xEnd scr x y step xv yv

theorem Visits.mono {E : SeulexEnv K n} {fuel fuel' : Nat} (hle : fuel ≤ fuel') {xStart xEnd : K}
    {scr : Scratch K n} {x : K} {y : Vec K (n + 1)} {step : StepState K} {xv : K}
    {yv : Vec K (n + 1)}
    (h : Visits (seulexSolve { E with fuel := fuel }) xStart xEnd scr x y step xv yv) :
    Visits (seulexSolve { E with fuel := fuel' }) xStart xEnd scr x y step xv yv := by
  induction h with
  | here => exact .here _ _ _ _
  | later h hend hv ih => exact .later (seulexSolve_fuel_mono hle h) hend ih

theorem driverLoop_returns [Archimedean K] (hm : PowLaws K) (hq : SqrtLaws K) (E : SeulexEnv K n)
    (hE : LapackContract (n + 1) E.linearSolve) {xStart xEnd : K}
    (htol : ∀ y : Vec K (n + 1), ∀ i, 0 < E.absTol i + E.relTol i * |y i|)
    (hf : ∀ x y, 200 < y 0 → y 0 < 5000 → BoundedNear E.derivatives x y) :
    ∀ (left nStep : Nat) (scr : Scratch K n) (x : K) (y : Vec K (n + 1)) (step : StepState K),
      xStart ≤ x → x < xEnd → step.forward = true → 0 < step.dxTry →
      (step.first = true ∨ (1 ≤ scr.kTarg ∧ scr.kTarg ≤ 11)) →
      (∃ N v, ∀ fuel, N ≤ fuel →
        driverLoop (seulexSolve { E with fuel := fuel }) xStart xEnd left nStep scr x y step = v ∧
        ((∃ r, v = .ok r) ∨ v = .error .fatal)) ∨
      (∃ fuel xv yv, Visits (seulexSolve { E with fuel := fuel }) xStart xEnd scr x y step xv yv ∧
        (yv 0 ≤ 200 ∨ 5000 ≤ yv 0)) := by
  intro left
  induction left with
  | zero => intros; exact Or.inl ⟨0, .error .fatal, fun _ _ => ⟨rfl, Or.inr rfl⟩⟩
  | succ left ih =>
    intro nStep scr x y step hx hx' hfw hdx hT
    by_cases hin : 200 < y 0 ∧ y 0 < 5000
    swap
    · refine Or.inr ⟨0, x, y, .here _ _ _ _, ?_⟩
      by_contra hc
      push Not at hc
      exact hin hc
    obtain ⟨-, -, p1, -⟩ := driverPrepare_spec hx hx' step hdx
    have pf : (driverPrepare xStart xEnd x step).first = step.first := by
      unfold driverPrepare; dsimp only; split <;> rfl
    have pw : (driverPrepare xStart xEnd x step).forward = true := by
      rw [← hfw]; unfold driverPrepare; dsimp only; split <;> rfl
    have hT' : (driverPrepare xStart xEnd x step).first = true ∨
        (1 ≤ scr.kTarg ∧ scr.kTarg ≤ 11) := by rw [pf]; exact hT
    obtain ⟨N, ⟨scr', x', y', step'⟩, hN⟩ := C48_step_returns hm hq E hE scr x y
      (driverPrepare xStart xEnd x step) hT' p1.ne' hin (htol y) (hf x y hin.1 hin.2)
    have hstep := hN N le_rfl
    obtain ⟨a1, a2⟩ := (C60_steps_keep_their_direction hm _ _ _ _ _ _ _ _ _ hT' p1.ne' hstep).1 pw
    obtain ⟨b1, b2, b3, b4, b5, b6⟩ := C47_step_advances _ _ _ _ _ _ _ _ _ hstep
    have hk : 1 ≤ scr'.kTarg ∧ scr'.kTarg ≤ 11 := by
      rcases C45_step_in_range { E with fuel := N } scr x y _ hT' with h' | ⟨s, x₁, y₁, st, h', k1, k2⟩
      · rw [h'] at hstep; cases hstep
      · rw [h'] at hstep; cases hstep; exact ⟨k1, k2⟩
    by_cases hend : 0 ≤ (x' - xEnd) * (xEnd - xStart)
    · refine Or.inl ⟨N, .ok ⟨scr', y', if 0 < nStep ∧ step'.last = true then step.dxTry
        else step'.dxTry, x', nStep + 1⟩, fun fuel hle => ⟨?_, Or.inl ⟨_, rfl⟩⟩⟩
      simp only [driverLoop, bind, Except.bind, hN fuel hle, if_pos hend]
    · have hlt : x' < xEnd := by
        by_contra hc
        rw [not_lt] at hc
        exact hend (mul_nonneg (by linarith) (by linarith))
      rcases ih (nStep + 1) scr' x' y' { step' with
          first := false
          prevReject := if step'.reject then true else step'.prevReject } (by linarith) hlt
          (b6.trans pw) a2 (Or.inr hk) with ⟨N', v, h⟩ | ⟨f, xv, yv, h, hout⟩
      · refine Or.inl ⟨max N N', v, fun fuel hle => ⟨?_, (h N' le_rfl).2⟩⟩
        simp only [driverLoop, bind, Except.bind, hN fuel (le_trans (le_max_left _ _) hle),
          if_neg hend]
        exact (h fuel (le_trans (le_max_right _ _) hle)).1
      · exact Or.inr ⟨max N f, xv, yv, .later (hN _ (le_max_left _ _)) hend
          (h.mono (le_max_right _ _)), hout⟩

/-- **C48, whole integrations.** In exact arithmetic, over a positive interval, with positive
tolerances, a right-hand side that is bounded near every state with a temperature strictly between 200
and 5000, and a linear solver that solves regular systems: the integration comes to an end (with a
result, or with the error "maximum number of steps"), or it arrives, after accepted steps, at a state
with a temperature of at most 200 or at least 5000. -/
theorem C48_integration_returns [Archimedean K] (hm : PowLaws K) (hq : SqrtLaws K)
    (E : SeulexEnv K n) (hE : LapackContract (n + 1) E.linearSolve) (xStart xEnd dxTry : K)
    (hlt : xStart < xEnd) (hdx : 0 < dxTry) (habs : ∀ i, 0 < E.absTol i) (hrel : ∀ i, 0 ≤ E.relTol i)
    (hf : ∀ x y, 200 < y 0 → y 0 < 5000 → BoundedNear E.derivatives x y) (maxSteps : Nat)
    (scr : Scratch K n) (y : Vec K (n + 1)) :
    (∃ N, (∃ r, ∀ fuel, N ≤ fuel → driverSolve (seulexSolve { E with fuel := fuel }) maxSteps scr
        xStart xEnd y dxTry = .ok r) ∨
      (∀ fuel, N ≤ fuel → driverSolve (seulexSolve { E with fuel := fuel }) maxSteps scr
        xStart xEnd y dxTry = .error .fatal)) ∨
    (∃ fuel xv yv, Visits (seulexSolve { E with fuel := fuel }) xStart xEnd scr xStart y
        (StepState.init dxTry) xv yv ∧ (yv 0 ≤ 200 ∨ 5000 ≤ yv 0)) := by
  rcases driverLoop_returns hm hq E hE (xStart := xStart) (xEnd := xEnd)
    (fun y i => add_pos_of_pos_of_nonneg (habs i) (mul_nonneg (hrel i) (abs_nonneg _))) hf maxSteps 0
    scr xStart y (StepState.init dxTry) le_rfl hlt (by simp [StepState.init, hdx]) hdx (Or.inl rfl)
    with ⟨N, v, h⟩ | h
  · refine Or.inl ⟨N, ?_⟩
    rcases (h N le_rfl).2 with ⟨r, rfl⟩ | rfl
    · exact Or.inl ⟨r, fun fuel hle => (h fuel hle).1⟩
    · exact Or.inr fun fuel hle => (h fuel hle).1
  · exact Or.inr h

end Exact

/-- Over the reals, a right-hand side that is continuous at a point is bounded near it. -/
theorem boundedNear_of_continuousAt {N : Nat} {f : ℝ → (Fin N → ℝ) → Fin N → ℝ} {x : ℝ}
    {y : Fin N → ℝ} (h : ContinuousAt (fun p : ℝ × (Fin N → ℝ) => f p.1 p.2) (x, y)) :
    BoundedNear f x y := by
  have h1 := h.norm.eventually_lt_const (lt_add_one ‖f x y‖)
  obtain ⟨ε, hε, hb⟩ := Metric.eventually_nhds_iff.1 h1
  refine ⟨ε / 2, ‖f x y‖ + 1, by positivity, fun x' z hx hz i => ?_⟩
  have hd : dist ((x', z) : ℝ × (Fin N → ℝ)) (x, y) < ε := by
    rw [Prod.dist_eq]
    refine max_lt ?_ ?_
    · rw [Real.dist_eq]; linarith
    · refine lt_of_le_of_lt ((dist_pi_le_iff (by positivity)).2 fun i => ?_) (half_lt_self hε)
      rw [Real.dist_eq]; exact hz i
  have := hb hd
  have hi := norm_le_pi_norm (f x' z) i
  rw [Real.norm_eq_abs] at hi
  dsimp only at this
  linarith

/-- **C48 over the reals.** For a right-hand side that is continuous at every state with a temperature
strictly between 200 and 5000. -/
theorem C48_integration_returns_real {n : Nat} (E : SeulexEnv ℝ n)
    (hE : LapackContract (n + 1) E.linearSolve) (xStart xEnd dxTry : ℝ)
    (hlt : xStart < xEnd) (hdx : 0 < dxTry) (habs : ∀ i, 0 < E.absTol i) (hrel : ∀ i, 0 ≤ E.relTol i)
    (hf : ∀ x y, 200 < y 0 → y 0 < 5000 →
      ContinuousAt (fun p : ℝ × Vec ℝ (n + 1) => E.derivatives p.1 p.2) (x, y)) (maxSteps : Nat)
    (scr : Scratch ℝ n) (y : Vec ℝ (n + 1)) :
    letI := realMath
    (∃ N, (∃ r, ∀ fuel, N ≤ fuel → driverSolve (seulexSolve { E with fuel := fuel }) maxSteps scr
        xStart xEnd y dxTry = .ok r) ∨
      (∀ fuel, N ≤ fuel → driverSolve (seulexSolve { E with fuel := fuel }) maxSteps scr
        xStart xEnd y dxTry = .error .fatal)) ∨
    (∃ fuel xv yv, Visits (seulexSolve { E with fuel := fuel }) xStart xEnd scr xStart y
        (StepState.init dxTry) xv yv ∧ (yv 0 ≤ 200 ∨ 5000 ≤ yv 0)) := by
  let := realMath
  exact C48_integration_returns realMath_powLaws realMath_sqrtLaws E hE xStart xEnd dxTry hlt hdx habs
    hrel (fun x y h1 h2 => boundedNear_of_continuousAt (hf x y h1 h2)) maxSteps scr y

/-! ### Cases -/

/-- A temperature that relaxes to 1000, with a wrong Jacobian. -/
noncomputable def relaxationReal : SeulexEnv ℝ 0 where
  derivatives := fun _ y _ => 1000 - y 0
  jacobian := fun _ _ _ _ => 7
  linearSolve := fun a b => (columnMajor 1 a)⁻¹.mulVec b
  absTol := fun _ => 1
  relTol := fun _ => 1 / 10000
  jacRedo := 1 / 10000
  fuel := 0

theorem relaxationReal_continuous (x : ℝ) (y : Vec ℝ 1) :
    ContinuousAt (fun p : ℝ × Vec ℝ 1 => relaxationReal.derivatives p.1 p.2) (x, y) := by
  unfold relaxationReal
  fun_prop

/-- A case of C48: one step of that problem from 950. -/
example (scr : Scratch ℝ 0) : letI := realMath
    ∃ N r, ∀ fuel, N ≤ fuel → seulexSolve { relaxationReal with fuel := fuel } scr 0 (fun _ => 950)
      (StepState.init (1 / 10)) = .ok r := by
  let := realMath
  refine C48_step_returns realMath_powLaws realMath_sqrtLaws relaxationReal (lapackContract_inverse 1)
    scr 0 _ _ (Or.inl rfl) ?_ ?_ ?_ (boundedNear_of_continuousAt (relaxationReal_continuous _ _))
  · norm_num [StepState.init]
  · norm_num
  · intro i; simp only [relaxationReal]; positivity

/-- A case of C48 for integrations: the same problem over the interval from 0 to 1. -/
example (scr : Scratch ℝ 0) : letI := realMath
    (∃ N, (∃ r, ∀ fuel, N ≤ fuel → driverSolve (seulexSolve { relaxationReal with fuel := fuel })
        10000 scr 0 1 (fun _ => 950) (1 / 10) = .ok r) ∨
      (∀ fuel, N ≤ fuel → driverSolve (seulexSolve { relaxationReal with fuel := fuel })
        10000 scr 0 1 (fun _ => 950) (1 / 10) = .error .fatal)) ∨
    (∃ fuel xv yv, Visits (seulexSolve { relaxationReal with fuel := fuel }) 0 1 scr 0
        (fun _ => 950) (StepState.init (1 / 10)) xv yv ∧ (yv 0 ≤ 200 ∨ 5000 ≤ yv 0)) := by
  let := realMath
  refine C48_integration_returns_real relaxationReal (lapackContract_inverse 1) 0 1 _ (by norm_num)
    (by norm_num) ?_ ?_ (fun x y _ _ => relaxationReal_continuous x y) 10000 scr _
  · intro i; simp [relaxationReal]
  · intro i; simp [relaxationReal]

/-- A case of C59 (and of C47, C49, C60): the hypotheses hold for a step of a temperature that relaxes to 1000 with its own
Jacobian, for any leftover work arrays. -/
example (scr : Scratch ℝ 0) : letI := realMath
    let E : SeulexEnv ℝ 0 := { relaxationReal with jacobian := fun _ _ _ _ => -1 }
    ∃ fuel scr' x' y' step', seulexSolve { E with fuel := fuel } scr 0 (fun _ => 950) (StepState.init (1 / 10)) = .ok (scr', x', y', step') ∧
      0 < step'.dxDid ∧ (∀ l, l ≤ 12 → Regular scr'.dfdy (step'.dxDid / (stepNumber l : ℝ))) ∧
      ∃ (k : Nat) (r : Nat → Vec ℝ 1), 1 ≤ k ∧ k ≤ 12 ∧
        (∀ i, y' i = extrapolant (fun l => step'.dxDid / (stepNumber l : ℝ)) (fun l => r l i) 0 k) ∧
        ∑ i, ((y' i - extrapolant (fun l => step'.dxDid / (stepNumber l : ℝ)) (fun l => r l i) 1 k)
          / (1 + 1 / 10000 * |(950 : ℝ)|)) ^ 2 ≤ 1 := by
  let := realMath
  intro E
  obtain ⟨N, ⟨scr', x', y', step'⟩, hr⟩ := C48_step_returns realMath_powLaws realMath_sqrtLaws E (lapackContract_inverse 1)
    scr 0 (fun _ => 950) (StepState.init (1 / 10)) (Or.inl rfl) (by norm_num [StepState.init]) (by norm_num)
    (by intro i; simp only [E, relaxationReal]; positivity) (boundedNear_of_continuousAt (relaxationReal_continuous _ _))
  have h := hr N le_rfl
  have hd : 0 < step'.dxDid := by
    have a := ((C60_steps_keep_their_direction realMath_powLaws _ _ _ _ _ _ _ _ _ (Or.inl rfl) (by norm_num [StepState.init]) h).1 (by norm_num [StepState.init])).1
    have b := (C47_step_advances _ _ _ _ _ _ _ _ _ h).1
    rw [b] at a
    linarith
  have hreg : ∀ l, l ≤ 12 → Regular scr'.dfdy (step'.dxDid / (stepNumber l : ℝ)) := by
    intro l _
    have hJ := C58_first_step_jacobian { E with fuel := N } (by simp only [E, relaxationReal]; norm_num) _ _ _ _ _ _ _ _ rfl h
    rw [hJ]
    have hs : 0 < stepNumber l := by unfold stepNumber; split <;> positivity
    have : (0 : ℝ) < step'.dxDid / (stepNumber l : ℝ) := div_pos hd (by exact_mod_cast hs)
    unfold Regular
    rw [Matrix.det_fin_one]
    simp only [E]
    have : (0 : ℝ) < (step'.dxDid / (stepNumber l : ℝ))⁻¹ := inv_pos.2 this
    simp
    positivity
  refine ⟨N, scr', x', y', step', h, hd, hreg, ?_⟩
  obtain ⟨k, r, k1, k2, -, hy, he⟩ := C59_accepted_error realMath_sqrtLaws { E with fuel := N } (lapackContract_inverse 1) _ _ _ _ _ _ _ _
    (Or.inl rfl) h hd.ne' hreg
  refine ⟨k, r, k1, k2, hy, ?_⟩
  simpa [E, relaxationReal] using he

end DLB
