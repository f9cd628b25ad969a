import Verif.Props.SeulexTermination
import Verif.Props.SeulexConvergence
/-
Lemmas for C121: an integration over a short time is one accepted step.
-/
set_option autoImplicit false
set_option linter.unusedSectionVars false

namespace DLB
open Spec

section
variable {K : Type} [Field K] [LinearOrder K] [IsStrictOrderedRing K] {n : Nat} [MathOps K]

/-- Below some size the first attempt of a first step is accepted, with the Jacobian at the starting point. -/
theorem first_step_accepted (hq : SqrtLaws K) (derivatives : K → Vec K (n + 1) → Vec K (n + 1))
    (jacobian : K → Vec K (n + 1) → Mat K (n + 1)) (absTol relTol : Vec K (n + 1)) (jacRedo : K)
    (hj : jacRedo < ((2 : Nat) : K) * jacRedo) (x : K) (y : Vec K (n + 1)) (hy : 200 < y 0 ∧ y 0 < 5000)
    (htol : ∀ i, 0 < absTol i + relTol i * |y i|) (hf : BoundedNear derivatives x y) :
    ∃ δ, 0 < δ ∧ ∀ (linearSolve : (Nat → K) → Vec K (n + 1) → Vec K (n + 1)) (fuel : Nat) (scr : Scratch K n)
      (step : StepState K), LapackContract (n + 1) linearSolve → 1 ≤ fuel → step.first = true → step.forward = true →
      0 < step.dxTry → step.dxTry ≤ δ → ∃ scr' y' step',
        seulexSolve ⟨derivatives, jacobian, linearSolve, absTol, relTol, jacRedo, fuel⟩ scr x y step =
          .ok (scr', x + step.dxTry, y', step') ∧ scr'.dfdy = jacobian x y := by
  obtain ⟨ρ, B, hρ, hB⟩ := hf
  obtain ⟨mi, -, hmin⟩ := Finset.exists_min_image Finset.univ
    (fun i => absTol i + relTol i * absS (y i)) ⟨0, Finset.mem_univ _⟩
  obtain ⟨L, hL0, hL⟩ : ∃ L : K, 0 < L ∧ ∀ i, ∑ j, |jacobian x y i j| ≤ L := by
    refine ⟨1 + ∑ i, ∑ j, |jacobian x y i j|, ?_, fun i => ?_⟩
    · have : 0 ≤ ∑ i, ∑ j, |jacobian x y i j| :=
        Finset.sum_nonneg fun i _ => Finset.sum_nonneg fun j _ => abs_nonneg _
      linarith
    · have := Finset.single_le_sum (f := fun i => ∑ j, |jacobian x y i j|)
        (fun i _ => Finset.sum_nonneg fun j _ => abs_nonneg _) (Finset.mem_univ i)
      linarith
  obtain ⟨ρ', hρ'⟩ : ∃ ρ', ρ' = min ρ (min ((y 0 - 200) / 2) (5000 - y 0)) := ⟨_, rfl⟩
  obtain ⟨σ, hσe⟩ : ∃ σ, σ = absTol mi + relTol mi * absS (y mi) := ⟨_, rfl⟩
  have hS : ∀ linearSolve fuel, SmallStep ⟨derivatives, jacobian, linearSolve, absTol, relTol, jacRedo, fuel⟩
      (jacobian x y) x y (fun i => absTol i + relTol i * absS (y i)) ρ' (|B| + 1) L σ := by
    intro linearSolve fuel
    rw [hρ', hσe]
    refine ⟨?_, ?_, by positivity, ?_, hL, hL0, ?_, fun i => hmin i (Finset.mem_univ _)⟩
    · refine lt_min hρ (lt_min ?_ ?_) <;> linarith [hy.1, hy.2]
    · intro x' z hx hz i
      have := hB x' z (le_trans hx (min_le_left _ _)) (fun i => le_trans (hz i) (min_le_left _ _)) i
      have := le_abs_self B
      show |derivatives x' z i| ≤ |B| + 1
      linarith
    · intro t ht
      simp only [le_min_iff] at ht
      obtain ⟨-, h1, h2⟩ := ht
      rw [abs_le] at h1 h2
      constructor <;> linarith [hy.1, hy.2]
    · rw [absS_eq]; exact htol mi
  have hσ : 0 < σ := (hS (fun _ b => b) 0).σpos
  have hρ0 : 0 < ρ' := (hS (fun _ b => b) 0).pos
  have hB0 : 0 < |B| + 1 := by positivity
  have hN : (0 : K) < ((n + 1 : Nat) : K) := by exact_mod_cast Nat.succ_pos n
  obtain ⟨δ, hδ0, hδ⟩ : ∃ δ : K, 0 < δ ∧ ∀ d, 0 < d → d ≤ δ → d * L ≤ 1 / 2 ∧ 6 * d * (|B| + 1) ≤ 1 ∧
      6 * d * (|B| + 1) * ((n + 1 : Nat) : K) ≤ σ ∧ 2 * d * (|B| + 1) ≤ ρ' ∧ d ≤ ρ' ∧ 8 * 7 ^ 12 * d * (|B| + 1) ≤ σ := by
    have g : ∀ c t : K, 0 < c → 0 < t → ∃ δ : K, 0 < δ ∧ ∀ d, d ≤ δ → c * d ≤ t := by
      intro c t hc ht
      refine ⟨t / c, div_pos ht hc, fun d hd => ?_⟩
      rw [le_div_iff₀ hc] at hd
      linarith
    obtain ⟨δ1, p1, q1⟩ := g L (1 / 2) hL0 (by norm_num)
    obtain ⟨δ2, p2, q2⟩ := g (6 * (|B| + 1)) 1 (by positivity) (by norm_num)
    obtain ⟨δ3, p3, q3⟩ := g (6 * (|B| + 1) * ((n + 1 : Nat) : K)) σ (by positivity) hσ
    obtain ⟨δ4, p4, q4⟩ := g (2 * (|B| + 1)) ρ' (by positivity) hρ0
    obtain ⟨δ6, p6, q6⟩ := g (8 * 7 ^ 12 * (|B| + 1)) σ (by positivity) hσ
    refine ⟨min δ1 (min δ2 (min δ3 (min δ4 (min ρ' δ6)))), by simp [p1, p2, p3, p4, hρ0, p6], fun d _ hd => ?_⟩
    simp only [le_min_iff] at hd
    obtain ⟨d1, d2, d3, d4, d5, d6⟩ := hd
    have := q1 d d1; have := q2 d d2; have := q3 d d3; have := q4 d d4; have := q6 d d6
    refine ⟨?_, ?_, ?_, ?_, d5, ?_⟩ <;> linarith
  refine ⟨δ, hδ0, ?_⟩
  intro linearSolve fuel scr step hE hfuel hfirst hfwd hd hdδ
  obtain ⟨f, rfl⟩ : ∃ f, fuel = f + 1 := ⟨fuel - 1, by omega⟩
  obtain ⟨E, hEe⟩ : ∃ E : SeulexEnv K n, E = ⟨derivatives, jacobian, linearSolve, absTol, relTol, jacRedo, f + 1⟩ := ⟨_, rfl⟩
  have hSE := hS linearSolve (f + 1)
  rw [← hEe] at hSE ⊢
  have hlin : LapackContract (n + 1) E.linearSolve := by rw [hEe]; exact hE
  obtain ⟨t1, t2⟩ := startInner_kTarg (E := E) (scr := scr) (y := y) (step := step) (Or.inl hfirst)
  have hupd : E.jacRedo < (startInner E scr y step).theta := by
    unfold startInner
    dsimp only
    rw [hfirst, Bool.true_or, if_pos rfl, hEe]
    exact hj
  have hJ : startJacobian E scr x y step = jacobian x y := by
    unfold startJacobian
    rw [if_pos (decide_eq_true hupd), hEe]
  have habs : absS step.dxTry = step.dxTry := by rw [absS_eq, abs_of_pos hd]
  obtain ⟨s1, s2, s3, s4, s5, s6⟩ := hδ _ hd hdδ
  obtain ⟨a, -, e1, -⟩ := columnLoop_agree E step.first step.last step.prevReject (jacobian x y) x step.dxTry y
    (fun i => E.absTol i + E.relTol i * absS (y i)) ((startInner E scr y step).kTarg + 2) 0
    { startInner E scr y step with errOld := 0 } { startInner E scr y step with errOld := 0 } (Agree.refl _ _) t1 t2
    (by omega) (by show (startInner E scr y step).kTarg + 2 ≤ _; omega)
  have e1' := e1
  have hacc := columnLoop_small hq hlin (J := jacobian x y) (x := x) (y0 := y)
    (scale := fun i => E.absTol i + E.relTol i * absS (y i)) (ρ := ρ') (B := |B| + 1) (L := L) (σ := σ)
    (by rw [hEe] at hSE ⊢; exact hSE) hd.ne' (by rw [abs_of_pos hd]; exact s1) (by rw [abs_of_pos hd]; exact s2)
    (by rw [abs_of_pos hd]; exact s3) (by rw [abs_of_pos hd]; exact s4) (by rw [abs_of_pos hd]; exact s5)
    (by rw [abs_of_pos hd]; exact s6) t1 t2 e1'
  have hfl : E.fuel = f + 1 := by rw [hEe]
  have hr : attempts E step.forward step.first step.last x y
        (fun i => E.absTol i + E.relTol i * absS (y i)) E.fuel step.prevReject
        (decide (E.jacRedo < (startInner E scr y step).theta)) (startJacobian E scr x y step)
        (absS step.dxTry) (startInner E scr y step) =
      .ok ⟨a.k, a.st, jacobian x y, step.dxTry, step.prevReject⟩ := by
    rw [hfl, hJ, habs, hfwd]
    unfold attempts
    simp only [if_true, bind, Except.bind, e1, hacc]
  rcases C45_step_in_range E scr x y step (Or.inl hfirst) with h | ⟨scr', x', y', step', h, -⟩
  · exfalso
    have h0 : 0 < iMaxx := by decide
    unfold seulexSolve at h
    simp only [writeAt_ok h0, bind, Except.bind] at h
    unfold startJacobian startInner at hr
    dsimp only at hr
    rw [hr] at h
    dsimp only at h
    split at h
    · rename_i e he
      cases h
      exact optimalOrder_fault _ _ _ he
    split at h
    · rename_i e he
      cases h
      exact nextStep_fault _ _ _ _ _ he
    cases h
  · obtain ⟨r, kopt, kT, dxNew, ha, -, -, hx, -, hdf, -, -⟩ := seulexSolve_inv h
    rw [hr] at ha
    cases ha
    exact ⟨scr', y', step', by rw [h, hx], hdf⟩

/-- The driver hands the stepper the whole interval if the step asked for is not shorter. -/
theorem driverPrepare_whole {dt sub : K} (hdt : 0 < dt) (hsub : dt ≤ sub) :
    (driverPrepare 0 dt 0 (StepState.init sub)).first = true ∧
    (driverPrepare 0 dt 0 (StepState.init sub)).forward = true ∧
    (driverPrepare 0 dt 0 (StepState.init sub)).dxTry = dt := by
  have hs : 0 < sub := lt_of_lt_of_le hdt hsub
  unfold driverPrepare StepState.init
  dsimp only
  split
  · simp [hs]
  · rename_i h
    rw [zero_add, sub_zero] at h
    have : sub = dt := by
      by_contra hne
      exact h (mul_pos (sub_pos.2 (lt_of_le_of_ne hsub (Ne.symm hne))) hs)
    simp [hdt, this]

end

section
variable {n : Nat} [MathOps ℝ]

/-- An integration over a short time, with an initial step that is not shorter, is one step. -/
theorem one_step {E : SeulexEnv ℝ n} {y : Vec ℝ (n + 1)} {dt sub : ℝ}
    {maxSteps : Nat} (hmax : 1 ≤ maxSteps) {scr scr' : Scratch ℝ n} {y' : Vec ℝ (n + 1)} {step' : StepState ℝ}
    (h : seulexSolve E scr 0 y (driverPrepare 0 dt 0 (StepState.init sub)) = .ok (scr', 0 + dt, y', step')) :
    acceptedSteps (seulexSolve E) 0 dt maxSteps scr 0 y (StepState.init sub) = [(dt, scr'.dfdy)] ∧
    ∃ q, driverSolve (seulexSolve E) maxSteps scr 0 dt y sub = .ok q := by
  obtain ⟨k, rfl⟩ : ∃ k, maxSteps = k + 1 := ⟨maxSteps - 1, by omega⟩
  have hend : 0 ≤ (0 + dt - dt) * (dt - 0) := by simp
  constructor
  · unfold acceptedSteps
    rw [h]
    simp
  · unfold driverSolve driverLoop
    simp only [bind, Except.bind, h]
    rw [if_pos hend]
    exact ⟨_, rfl⟩

end
end DLB
