import Verif.Props.Stability
import Verif.Props.SeulexConvergence
import Verif.Lemmas.LinearOrder
import Mathlib.Analysis.SpecialFunctions.Trigonometric.Deriv
/-
C128: how closely the integrator follows the exponential decay of what relaxes.
-/
set_option autoImplicit false
set_option linter.unusedSectionVars false

namespace DLB
open Spec

section
variable {n : Nat} [MathOps ℝ]

/-! ### Lemmas -/

/-- As `driverLoop_chain`, for integrations whose steps are all at most `H`. -/
theorem driverLoop_chain_steps (hm : PowLaws ℝ) {E : SeulexEnv ℝ n} (hj : E.jacRedo < ((2 : Nat) : ℝ) * E.jacRedo) {xStart xEnd H : ℝ} (hlt : xStart < xEnd)
    (R : ℝ × Vec ℝ (n + 1) → ℝ × Vec ℝ (n + 1) → Prop)
    (hstep : ∀ scr x y step scr' x' y' step', Running E scr step → xStart ≤ x → x < xEnd →
      seulexSolve E scr x y (driverPrepare xStart xEnd x step) = .ok (scr', x', y', step') → R (x, y) (x', y')) :
    ∀ (left nStep : Nat) (scr : Scratch ℝ n) (x : ℝ) (y : Vec ℝ (n + 1)) (step : StepState ℝ)
      (r : DriverResult ℝ (n + 1) (Scratch ℝ n)), Running E scr step → xStart ≤ x → x < xEnd →
      (∀ q ∈ acceptedSteps (seulexSolve E) xStart xEnd left scr x y step, q.1 ≤ H) →
      driverLoop (seulexSolve E) xStart xEnd left nStep scr x y step = .ok r →
      Chain (fun a b => a.1 < b.1 ∧ b.1 - a.1 ≤ H ∧ R a b) (x, y) (r.x, r.y) := by
  intro left
  induction left with
  | zero => intro nStep scr x y step r _ _ _ _ h; simp [driverLoop] at h
  | succ left ih =>
    intro nStep scr x y step r hI hx hx' hq h
    simp only [driverLoop, bind, Except.bind] at h
    cases hst : seulexSolve E scr x y (driverPrepare xStart xEnd x step) with
    | error e => simp [hst] at h
    | ok v =>
      obtain ⟨scr', x', y', st'⟩ := v
      obtain ⟨a1, -, a3⟩ := running_step hm hj hI hx hx' hst
      simp only [acceptedSteps, hst, List.mem_cons, forall_eq_or_imp] at hq
      obtain ⟨q1, q3⟩ := hq
      have hR := hstep _ _ _ _ _ _ _ _ hI hx hx' hst
      simp only [hst] at h
      split at h
      · cases h
        exact .one ⟨a1, q1, hR⟩
      · rename_i hend
        have hlt' : x' < xEnd := by
          by_contra hc
          rw [not_lt] at hc
          exact hend (mul_nonneg (by linarith) (by linarith))
        rw [if_neg hend] at q3
        exact .cons ⟨a1, q1, hR⟩ (ih _ _ _ _ _ _ a3 (by linarith) hlt' q3 h)

theorem factor_error_cubic {d : ℝ} (hd : d ≠ 0) {k : Nat} (h1 : 1 ≤ k) (h2 : k ≤ 12) {z : ℝ} (hz : 0 ≤ z) :
    |extrapolant (fun l => d / (nSeq l : ℝ)) (fun l => Stability.g (nSeq l) z) 0 k - Real.exp (-z)| ≤ 206 * z ^ 3 := by
  rcases le_total z 1 with h | h
  · refine (RelaxOrder.factor_error hd h1 h2 hz).trans ?_
    have : z ^ (k + 2) ≤ z ^ 3 := pow_le_pow_of_le_one hz h (by omega)
    linarith
  · have h3 := Stability.amplification h1 h2 hd hz
    have h4 : |extrapolant (fun l => d / (nSeq l : ℝ)) (fun l => Stability.g (nSeq l) z) 0 k| ≤ 1 :=
      le_trans (le_mul_of_one_le_right (abs_nonneg _) (by linarith)) h3
    have h5 : Real.exp (-z) ≤ 1 := Real.exp_le_one_iff.2 (by linarith)
    have h6 := Real.exp_pos (-z)
    have h7 : (1 : ℝ) ≤ z ^ 3 := one_le_pow₀ h
    rw [abs_le] at h4 ⊢
    constructor <;> linarith [h4.1, h4.2]

/-! ### Properties -/

/-- **C128, one step.** An accepted step multiplies a relaxing combination by the exact factor `exp (-lam dx)`, with an error of order `k + 2` in
the length of the step, where `k ≥ 1` is the number of the last row of the extrapolation: the method has the order `k + 1`. -/
theorem C128_order_of_a_step (hm : PowLaws ℝ) (E : SeulexEnv ℝ n) (ℓ : Vec ℝ (n + 1)) (c lam : ℝ) (hl : 0 ≤ lam)
    (hs : SolvesCombination E ℓ) (hr : Relaxes E ℓ c lam) (scr scr' : Scratch ℝ n) (x x' : ℝ) (y y' : Vec ℝ (n + 1)) (step step' : StepState ℝ)
    (hT : step.first = true ∨ (1 ≤ scr.kTarg ∧ scr.kTarg ≤ 11)) (hdx : 0 < step.dxTry) (hfw : step.forward = true)
    (hjac : ∃ x z, scr'.dfdy = E.jacobian x z) (h : seulexSolve E scr x y step = .ok (scr', x', y', step')) :
    x < x' ∧ ∃ k, 1 ≤ k ∧ k ≤ 12 ∧
      |distance ℓ c y' - Real.exp (-(lam * (x' - x))) * distance ℓ c y| ≤ 206 * (lam * (x' - x)) ^ (k + 2) * |distance ℓ c y| := by
  obtain ⟨hx, k, k1, k2, key⟩ := relax_step hm E ℓ c lam hl hs hr scr scr' x x' y y' step step' hT hdx hfw hjac h
  refine ⟨hx, k, k1, k2, ?_⟩
  have hd : 0 < x' - x := sub_pos.2 hx
  rw [key, mul_comm, ← sub_mul, abs_mul]
  exact mul_le_mul_of_nonneg_right (RelaxOrder.factor_error hd.ne' k1 k2 (by positivity)) (abs_nonneg _)

/-- **C128.** If a combination of the unknowns relaxes to a limit with any rate `lam`, its distance from the limit after an integration is the exact one,
`exp (-lam t)` times that at the start, up to a relative error of `206 lam t (lam H)^2`, where `H` bounds the steps that were taken: without
the constants that grow exponentially with the time or with the stiffness of the other unknowns. -/
theorem C128_error_of_relaxing_combinations (hm : PowLaws ℝ) (E : SeulexEnv ℝ n) (hj : E.jacRedo < 2 * E.jacRedo) (ℓ : Vec ℝ (n + 1)) (c lam : ℝ)
    (hl : 0 ≤ lam) (hs : SolvesCombination E ℓ) (hr : Relaxes E ℓ c lam) (maxSteps : Nat) (scr : Scratch ℝ n)
    (xStart xEnd : ℝ) (hlt : xStart < xEnd) (y : Vec ℝ (n + 1)) (dxTry : ℝ) (hpos : 0 < dxTry)
    (r : DriverResult ℝ (n + 1) (Scratch ℝ n)) (h : driverSolve (seulexSolve E) maxSteps scr xStart xEnd y dxTry = .ok r) (H : ℝ)
    (hsteps : ∀ q ∈ acceptedSteps (seulexSolve E) xStart xEnd maxSteps scr xStart y (StepState.init dxTry), q.1 ≤ H) :
    |distance ℓ c r.y - Real.exp (-(lam * (r.x - xStart))) * distance ℓ c y| ≤
      206 * (lam * (r.x - xStart)) * (lam * H) ^ 2 * |distance ℓ c y| := by
  have hj' : E.jacRedo < ((2 : Nat) : ℝ) * E.jacRedo := by exact_mod_cast hj
  have hch := driverLoop_chain_steps hm hj' hlt (fun a b => |distance ℓ c b.2| ≤ |distance ℓ c a.2| ∧
      |distance ℓ c b.2 - Real.exp (-(lam * (b.1 - a.1))) * distance ℓ c a.2| ≤ 206 * (lam * (b.1 - a.1)) ^ 3 * |distance ℓ c a.2|) (by
      intro scr x y step scr' x' y' step' hI hx hx' hst
      obtain ⟨a1, a2, -⟩ := running_step hm hj' hI hx hx' hst
      obtain ⟨-, -, p1, -⟩ := driverPrepare_spec hx hx' step hI.dxTry
      have pf : (driverPrepare xStart xEnd x step).first = step.first := by
        unfold driverPrepare; dsimp only; split <;> rfl
      have pw : (driverPrepare xStart xEnd x step).forward = true := by
        rw [← hI.forward]; unfold driverPrepare; dsimp only; split <;> rfl
      obtain ⟨-, k, k1, k2, key⟩ := relax_step hm E ℓ c lam hl hs hr _ _ _ _ _ _ _ _ (by rw [pf]; exact hI.order) p1 pw a2 hst
      have hd : 0 < x' - x := sub_pos.2 a1
      dsimp only
      constructor
      · have := (C127_step_does_not_amplify hm E ℓ c lam hl hs hr _ _ _ _ _ _ _ _ (by rw [pf]; exact hI.order) p1 pw a2 hst).2
        refine le_trans (le_mul_of_one_le_right (abs_nonneg _) ?_) this
        have : 0 ≤ lam * (x' - x) := by positivity
        linarith
      · rw [key, mul_comm, ← sub_mul, abs_mul]
        exact mul_le_mul_of_nonneg_right (factor_error_cubic hd.ne' k1 k2 (by positivity)) (abs_nonneg _))
    maxSteps 0 scr xStart y _ r (running_start _ scr hpos) le_rfl hlt hsteps h
  have step : ∀ {t w : ℝ}, 0 < t → t ≤ H → 0 ≤ w → 206 * (lam * t) ^ 3 * w ≤ 206 * (lam * t) * (lam * H) ^ 2 * w := by
    intro t w ht hH hw
    have : (lam * t) ^ 2 ≤ (lam * H) ^ 2 := by gcongr
    have := mul_le_mul_of_nonneg_left this (by positivity : 0 ≤ 206 * (lam * t) * w)
    linarith
  have chain : ∀ a b : ℝ × Vec ℝ (n + 1), Chain (fun a b : ℝ × Vec ℝ (n + 1) => a.1 < b.1 ∧ b.1 - a.1 ≤ H ∧ |distance ℓ c b.2| ≤ |distance ℓ c a.2| ∧
      |distance ℓ c b.2 - Real.exp (-(lam * (b.1 - a.1))) * distance ℓ c a.2| ≤ 206 * (lam * (b.1 - a.1)) ^ 3 * |distance ℓ c a.2|) a b →
      a.1 < b.1 ∧ |distance ℓ c b.2 - Real.exp (-(lam * (b.1 - a.1))) * distance ℓ c a.2| ≤
        206 * (lam * (b.1 - a.1)) * (lam * H) ^ 2 * |distance ℓ c a.2| := by
    intro a b hab
    induction hab with
    | one h => exact ⟨h.1, h.2.2.2.trans (step (sub_pos.2 h.1) h.2.1 (abs_nonneg _))⟩
    | @cons a b d h t ih =>
      refine ⟨h.1.trans ih.1, ?_⟩
      have e1 : Real.exp (-(lam * (d.1 - a.1))) = Real.exp (-(lam * (d.1 - b.1))) * Real.exp (-(lam * (b.1 - a.1))) := by
        rw [← Real.exp_add]; congr 1; ring
      have hdb : 0 < d.1 - b.1 := sub_pos.2 ih.1
      have e2 : Real.exp (-(lam * (d.1 - b.1))) ≤ 1 := Real.exp_le_one_iff.2 (by rw [neg_nonpos]; positivity)
      have e3 : distance ℓ c d.2 - Real.exp (-(lam * (d.1 - a.1))) * distance ℓ c a.2 =
          (distance ℓ c d.2 - Real.exp (-(lam * (d.1 - b.1))) * distance ℓ c b.2) +
          Real.exp (-(lam * (d.1 - b.1))) * (distance ℓ c b.2 - Real.exp (-(lam * (b.1 - a.1))) * distance ℓ c a.2) := by
        rw [e1]; ring
      rw [e3]
      refine (abs_add_le _ _).trans ?_
      rw [abs_mul, abs_of_pos (Real.exp_pos _)]
      have s1 := h.2.2.2.trans (step (sub_pos.2 h.1) h.2.1 (abs_nonneg _))
      have s2 := mul_le_of_le_one_left (abs_nonneg (distance ℓ c b.2 - Real.exp (-(lam * (b.1 - a.1))) * distance ℓ c a.2)) e2
      have s3 : 206 * (lam * (d.1 - b.1)) * (lam * H) ^ 2 * |distance ℓ c b.2| ≤ 206 * (lam * (d.1 - b.1)) * (lam * H) ^ 2 * |distance ℓ c a.2| :=
        mul_le_mul_of_nonneg_left h.2.2.1 (by positivity)
      linarith [ih.2]
  exact (chain _ _ hch).2

/-- **C128, linear systems.** For `y' = A (y - y0)`, with the matrix `A` as the Jacobian and regular systems solved: every left eigenvector of `A` with
a real eigenvalue `-lam` that is not positive. -/
theorem C128_linear_systems (hm : PowLaws ℝ) (E : SeulexEnv ℝ n) (hj : E.jacRedo < 2 * E.jacRedo) (A : Matrix (Fin (n + 1)) (Fin (n + 1)) ℝ)
    (y0 : Vec ℝ (n + 1)) (hf : ∀ x y, E.derivatives x y = A.mulVec (y - y0)) (hJ : ∀ x y, E.jacobian x y = A)
    (hE : LapackContract (n + 1) E.linearSolve) (hreg : ∀ h, 0 < h → Regular A h) (ℓ : Vec ℝ (n + 1)) (lam : ℝ) (hl : 0 ≤ lam)
    (hev : Matrix.vecMul ℓ A = -lam • ℓ) (maxSteps : Nat) (scr : Scratch ℝ n) (xStart xEnd : ℝ) (hlt : xStart < xEnd) (y : Vec ℝ (n + 1)) (dxTry : ℝ)
    (hpos : 0 < dxTry) (r : DriverResult ℝ (n + 1) (Scratch ℝ n))
    (h : driverSolve (seulexSolve E) maxSteps scr xStart xEnd y dxTry = .ok r) (H : ℝ)
    (hsteps : ∀ q ∈ acceptedSteps (seulexSolve E) xStart xEnd maxSteps scr xStart y (StepState.init dxTry), q.1 ≤ H) :
    |∑ i, ℓ i * (r.y i - y0 i) - Real.exp (-(lam * (r.x - xStart))) * ∑ i, ℓ i * (y i - y0 i)| ≤
      206 * (lam * (r.x - xStart)) * (lam * H) ^ 2 * |∑ i, ℓ i * (y i - y0 i)| := by
  obtain ⟨e, hr⟩ := relaxes_of_linear E A y0 hf hJ ℓ lam hev
  rw [e, e]
  exact C128_error_of_relaxing_combinations hm E hj ℓ _ lam hl
    (solvesCombination_of_regular hE (fun x z h hh => by rw [hJ]; exact hreg h hh) ℓ) hr
    maxSteps scr xStart xEnd hlt y dxTry hpos r h H hsteps

/-- **C128, all linear systems.** For `y' = A (y - y0)` with the matrix `A` as the Jacobian, whatever its eigenvalues, an accepted step from a point of
a solution `φ` ends within `412 (L dx)^(k+2)` times the distance from `y0` of `φ`, if its length is at most `1 / (2 L)`: `L` bounds
the row sums of `A`, and `k ≥ 1` is the number of the last row of the extrapolation. -/
theorem C128_order_for_linear_systems (E : SeulexEnv ℝ n) (A : Matrix (Fin (n + 1)) (Fin (n + 1)) ℝ)
    (y0 : Vec ℝ (n + 1)) (hf : ∀ x y, E.derivatives x y = A.mulVec (y - y0))
    (hE : LapackContract (n + 1) E.linearSolve) (L : ℝ) (hA : RowsAtMost A L) (scr scr' : Scratch ℝ n) (x x' : ℝ) (y y' : Vec ℝ (n + 1))
    (step step' : StepState ℝ) (hT : step.first = true ∨ (1 ≤ scr.kTarg ∧ scr.kTarg ≤ 11)) (hjac : scr'.dfdy = A)
    (h : seulexSolve E scr x y step = .ok (scr', x', y', step')) (hx : x < x') (hL : L * (x' - x) ≤ 1 / 2)
    (φ : ℝ → Vec ℝ (n + 1)) (hφ0 : φ x = y) (hφ : SolvesOn E.derivatives φ x x') :
    ∃ k, 1 ≤ k ∧ k ≤ 12 ∧ ‖y' - φ x'‖ ≤ 412 * (L * (x' - x)) ^ (k + 2) * ‖y - y0‖ := by
  obtain ⟨b1, -⟩ := C47_step_advances _ _ _ _ _ _ _ _ _ h
  have hL0 : 0 ≤ L := (Finset.sum_nonneg fun j _ => abs_nonneg _).trans (hA 0)
  have hd : 0 < step'.dxDid := by linarith
  rw [b1, add_sub_cancel_left] at hL
  obtain ⟨-, k, k1, k2, hk⟩ := C49_accepted_step_is_extrapolation E hE _ _ _ _ _ _ _ _ hT h hd.ne' (by
    intro l _
    have h2 : (2 : ℝ) ≤ stepNumber l := by
      rw [← nSeq_eq_stepNumber]; exact_mod_cast nSeq_ge_two l
    rw [hjac]
    refine regular_of_rows hA (div_pos hd (by linarith)) ?_
    have : step'.dxDid / (stepNumber l : ℝ) ≤ step'.dxDid := div_le_self hd.le (by linarith)
    have := mul_le_mul_of_nonneg_left this hL0
    linarith)
  rw [hjac] at hk
  refine ⟨k, k1, k2, ?_⟩
  rw [b1] at hφ ⊢
  rw [add_sub_cancel_left]
  exact LinearOrder.step_order hf hL0 hA hd hL k2 hk hφ0 hφ

end

/-! ### Cases -/

/-- A case of C128: relaxation to 1000 from 950 with the rate 1 and the exact Jacobian, up to time 1 with steps of at most 1/1000; the error is
below 0.011. -/
example (fuel maxSteps : Nat) (scr : Scratch ℝ 0) (xEnd dxTry : ℝ) (hx : 0 < xEnd) (hdx : 0 < dxTry) :
    letI := realMath
    ∀ r, driverSolve (seulexSolve { relaxationReal with fuel := fuel, jacobian := fun _ _ _ _ => -1 }) maxSteps scr 0 xEnd
        (fun _ => 950) dxTry = .ok r → r.x ≤ 1 →
      (∀ q ∈ acceptedSteps (seulexSolve { relaxationReal with fuel := fuel, jacobian := fun _ _ _ _ => -1 }) 0 xEnd maxSteps scr 0
        (fun _ => 950) (StepState.init dxTry), q.1 ≤ 1 / 1000) →
      |r.y 0 - (1000 - 50 * Real.exp (-r.x))| ≤ 11 / 1000 := by
  let := realMath
  intro r h hr hs
  have reg : ∀ h : ℝ, 0 < h → Regular (Matrix.of fun _ _ : Fin (0 + 1) => (-1 : ℝ)) h := by
    intro h hh
    have : ((1 / h) • (1 : Matrix (Fin 1) (Fin 1) ℝ) - Matrix.of fun _ _ : Fin 1 => (-1 : ℝ)).det ≠ 0 := by
      rw [Matrix.det_fin_one]
      simp only [Matrix.sub_apply, Matrix.smul_apply, Matrix.one_apply_eq, Matrix.of_apply, smul_eq_mul, mul_one, sub_neg_eq_add]
      positivity
    exact this
  have key := C128_linear_systems realMath_powLaws { relaxationReal with fuel := fuel, jacobian := fun _ _ _ _ => -1 }
    (by simp only [relaxationReal]; norm_num) (Matrix.of fun _ _ => -1) (fun _ => 1000)
    (fun x y => by
      funext i
      simp [relaxationReal, Matrix.mulVec, dotProduct]
      ) (fun _ _ => rfl)
    (lapackContract_inverse 1) reg (fun _ => 1) 1 zero_le_one (by
      funext j
      simp [Matrix.vecMul, dotProduct]) maxSteps scr 0 xEnd hx _ dxTry hdx r h (1 / 1000) hs
  have hr0 : 0 ≤ r.x := by
    have := (acceptedSteps_le realMath_powLaws (by simp only [relaxationReal]; norm_num) hx maxSteps 0
      scr 0 _ _ r (running_start _ scr hdx) le_rfl hx h).1
    linarith
  have one : ∀ v : Fin (0 + 1) → ℝ, ∑ i, v i = v 0 := fun v => Fin.sum_univ_one v
  simp only [one, one_mul, sub_zero] at key
  rw [show |(950 - 1000 : ℝ)| = 50 by norm_num] at key
  have e : r.y 0 - (1000 - 50 * Real.exp (-r.x)) = r.y 0 - 1000 - Real.exp (-r.x) * (950 - 1000) := by ring
  rw [e]
  refine key.trans ?_
  linarith

/-- A case of C128 for all linear systems: an oscillation, whose eigenvalues are imaginary, about 1000. -/
example (E : SeulexEnv ℝ 1) (hf : E.derivatives = fun _ y i => if i = 0 then y 1 else 1000 - y 0) (hE : LapackContract 2 E.linearSolve)
    (scr scr' : Scratch ℝ 1) (x' : ℝ) (y' : Vec ℝ 2) (dxTry : ℝ) (step' : StepState ℝ) (hjac : scr'.dfdy = fun i j => if i = j then 0 else if i = 0 then 1 else -1) :
    letI := realMath
    seulexSolve E scr 0 (fun i => if i = 0 then 1000 else 100) (StepState.init dxTry) = .ok (scr', x', y', step') → 0 < x' → x' ≤ 1 / 100 →
      |y' 0 - (1000 + 100 * Real.sin x')| ≤ 1 / 20 := by
  let := realMath
  intro h hx hx'
  have two : ∀ v : Fin (1 + 1) → ℝ, ∑ i, v i = v 0 + v 1 := fun v => Fin.sum_univ_two v
  obtain ⟨k, k1, -, hk⟩ := C128_order_for_linear_systems E (fun i j => if i = j then 0 else if i = 0 then 1 else -1) (fun i => if i = 0 then 1000 else 0)
    (fun x y => by
      rw [hf]
      funext i
      simp only [Matrix.mulVec, dotProduct, two]
      have : i = 0 ∨ i = 1 := by revert i; decide
      rcases this with rfl | rfl <;> simp) hE 1 (fun i => by
      rw [two]
      have : i = 0 ∨ i = 1 := by revert i; decide
      rcases this with rfl | rfl <;> simp) scr scr' 0 x' _ y' _ step' (Or.inl rfl) hjac h hx (by linarith)
    (fun t i => if i = 0 then 1000 + 100 * Real.sin t else 100 * Real.cos t) (by funext i; simp) (by
      intro t _
      rw [hf, hasDerivWithinAt_pi]
      intro i
      have : i = 0 ∨ i = 1 := by revert i; decide
      rcases this with rfl | rfl
      · simpa using (((Real.hasDerivAt_sin t).const_mul 100).const_add 1000).hasDerivWithinAt
      · have := ((Real.hasDerivAt_cos t).const_mul 100).hasDerivWithinAt (s := Set.Icc 0 x')
        simp at this ⊢
        exact this)
  have h1 : (x' : ℝ) ^ (k + 2) ≤ (1 / 100) ^ 3 :=
    (pow_le_pow_of_le_one hx.le (by linarith) (by omega : 3 ≤ k + 2)).trans (by gcongr)
  have h2 : ‖((fun i => if i = 0 then 1000 else 100) : Vec ℝ (1 + 1)) - fun i => if i = 0 then 1000 else 0‖ ≤ 100 := by
    refine (pi_norm_le_iff_of_nonneg (by norm_num)).2 fun i => ?_
    have : i = 0 ∨ i = 1 := by revert i; decide
    rcases this with rfl | rfl <;> simp
  have h3 := (norm_le_pi_norm (y' - fun i => if i = 0 then 1000 + 100 * Real.sin x' else 100 * Real.cos x') 0).trans hk
  rw [one_mul, sub_zero] at h3
  have h4 : |y' 0 - (1000 + 100 * Real.sin x')| ≤ 412 * x' ^ (k + 2) *
      ‖((fun i => if i = 0 then 1000 else 100) : Vec ℝ (1 + 1)) - fun i => if i = 0 then 1000 else 0‖ := by simpa using h3
  refine h4.trans ((mul_le_mul (mul_le_mul_of_nonneg_left h1 (by norm_num)) h2 (norm_nonneg _) (by positivity)).trans ?_)
  norm_num

end DLB
