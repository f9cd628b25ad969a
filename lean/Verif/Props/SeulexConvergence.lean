import Verif.Lemmas.Convergence
import Verif.Props.SeulexTermination
import Mathlib.Analysis.SpecialFunctions.ExpDeriv
import Mathlib.Analysis.Complex.ExponentialBounds
import Mathlib.Analysis.Calculus.Deriv.Prod
/-
C115, C116: with small steps the integration follows the solution of the equations, to second order.
-/
set_option autoImplicit false
set_option linter.unusedSectionVars false

namespace DLB
open Spec

section
variable {n : Nat} [MathOps ℝ]

/-- Sizes of the steps an integration accepts, in order, each with the matrix that is in the memory
of the stepper after the step (the Jacobian it was made with). -/
def acceptedSteps {S : Type} [Zero S] [Add S] [Sub S] [Mul S] [LT S] [DecidableLT S] [LE S]
    [DecidableLE S] {n : Nat} (stepper : Stepper S (n + 1) (Scratch S n)) (xStart xEnd : S) :
    Nat → Scratch S n → S → Vec S (n + 1) → StepState S → List (S × Mat S (n + 1))
  | 0, _, _, _, _ => []
  | left + 1, scr, x, y, step =>
    match stepper scr x y (driverPrepare xStart xEnd x step) with
    | .error _ => []
    | .ok (scr', x', y', step') => (x' - x, scr'.dfdy) ::
      if 0 ≤ (x' - xEnd) * (xEnd - xStart) then [] else
        acceptedSteps stepper xStart xEnd left scr' x' y' { step' with
          first := false
          prevReject := if step'.reject then true else step'.prevReject }

/-- How two consecutive states of the integration are related. -/
def Follows (f : ℝ → Vec ℝ (n + 1) → Vec ℝ (n + 1)) (H L : ℝ) (p q : ℝ × Vec ℝ (n + 1)) : Prop :=
  p.1 < q.1 ∧ q.1 - p.1 ≤ H ∧ ∃ (J : Mat ℝ (n + 1)) (k : Nat), RowsAtMost J L ∧ 1 ≤ k ∧ k ≤ 12 ∧
    ExtrapolatedStep J f (fun z => 200 < z 0 ∧ z 0 ≤ 5000) k p.1 p.2 (q.1 - p.1) q.2

theorem driverLoop_follows (hm : PowLaws ℝ) {E : SeulexEnv ℝ n}
    (hE : LapackContract (n + 1) E.linearSolve) (hj : E.jacRedo < ((2 : Nat) : ℝ) * E.jacRedo)
    {xStart xEnd H L : ℝ} (hlt : xStart < xEnd) (hHL : H * L ≤ 1) (hL0 : 0 ≤ L) :
    ∀ (left nStep : Nat) (scr : Scratch ℝ n) (x : ℝ) (y : Vec ℝ (n + 1)) (step : StepState ℝ)
      (r : DriverResult ℝ (n + 1) (Scratch ℝ n)), Running E scr step → xStart ≤ x → x < xEnd →
      (∀ q ∈ acceptedSteps (seulexSolve E) xStart xEnd left scr x y step,
        q.1 ≤ H ∧ RowsAtMost q.2 L) →
      driverLoop (seulexSolve E) xStart xEnd left nStep scr x y step = .ok r →
      Chain (Follows E.derivatives H L) (x, y) (r.x, r.y) := by
  intro left
  induction left with
  | zero => intro nStep scr x y step r _ _ _ _ h; simp [driverLoop] at h
  | succ left ih =>
    intro nStep scr x y step r hI hx hx' hq h
    simp only [driverLoop, bind, Except.bind] at h
    cases hst : seulexSolve E scr x y (driverPrepare xStart xEnd x step) with
    | error e => simp [hst] at h
    | ok v =>
      obtain ⟨scr', x', y', st'⟩ := v
      obtain ⟨a1, -, a3⟩ := running_step hm hj hI hx hx' hst
      simp only [acceptedSteps, hst, List.mem_cons, forall_eq_or_imp] at hq
      obtain ⟨⟨q1, q2⟩, q3⟩ := hq
      have pf : (driverPrepare xStart xEnd x step).first = step.first := by
        unfold driverPrepare; dsimp only; split <;> rfl
      obtain ⟨b1, -⟩ := C47_step_advances _ _ _ _ _ _ _ _ _ hst
      have hd : 0 < st'.dxDid := by rw [b1] at a1; linarith
      have hdH : st'.dxDid ≤ H := by rw [b1] at q1; linarith
      obtain ⟨-, k, k1, k2, hk⟩ := C49_accepted_step_is_extrapolation E hE _ _ _ _ _ _ _ _
        (by rw [pf]; exact hI.order) hst hd.ne' (by
          intro l _
          have h2 : (2 : ℝ) ≤ stepNumber l := by
            rw [← nSeq_eq_stepNumber]; exact_mod_cast nSeq_ge_two l
          have hn0 : (0 : ℝ) < stepNumber l := by linarith
          refine regular_of_rows q2 (div_pos hd hn0) ?_
          have : st'.dxDid / (stepNumber l : ℝ) ≤ st'.dxDid / 2 := by gcongr
          nlinarith)
      have hR : Follows E.derivatives H L (x, y) (x', y') := by
        refine ⟨a1, q1, scr'.dfdy, k, q2, k1, k2, ?_⟩
        dsimp only
        rw [b1, add_sub_cancel_left]
        exact hk
      simp only [hst] at h
      split at h
      · cases h
        exact .one hR
      · rename_i hend
        have hlt' : x' < xEnd := by
          by_contra hc
          rw [not_lt] at hc
          exact hend (mul_nonneg (by linarith) (by linarith))
        rw [if_neg hend] at q3
        exact .cons hR (ih _ _ _ _ _ _ a3 (by linarith) hlt' q3 h)

/-- **C115.** Let `φ` solve the equations from the initial state, and let the right-hand side be
bounded by `B` and Lipschitz continuous with the constants `Λ` (in the state) and `M` (in time) up to
a distance `ρ` from `φ`.  In exact arithmetic, an integration whose steps are all at most `H`, made
with whatever matrices with row sums of at most `L`, ends within a constant times `H` of `φ`, if `H`
is small enough. -/
theorem C115_error_of_the_integration (hm : PowLaws ℝ) (E : SeulexEnv ℝ n)
    (hE : LapackContract (n + 1) E.linearSolve) (hj : E.jacRedo < 2 * E.jacRedo)
    (maxSteps : Nat) (scr : Scratch ℝ n) (xStart xEnd : ℝ) (hlt : xStart < xEnd)
    (y : Vec ℝ (n + 1)) (dxTry : ℝ) (hpos : 0 < dxTry)
    (r : DriverResult ℝ (n + 1) (Scratch ℝ n))
    (h : driverSolve (seulexSolve E) maxSteps scr xStart xEnd y dxTry = .ok r)
    (φ : ℝ → Vec ℝ (n + 1)) (hφ0 : φ xStart = y) (b : ℝ) (hb : r.x ≤ b)
    (hφ : SolvesOn E.derivatives φ xStart b) (ρ B Λ M L H : ℝ)
    (hf : LipschitzNear E.derivatives φ xStart b ρ B Λ M)
    (hΛ : 0 ≤ Λ) (hM : 0 ≤ M) (hB : 0 ≤ B) (hL0 : 0 ≤ L)
    (hsteps : ∀ q ∈ acceptedSteps (seulexSolve E) xStart xEnd maxSteps scr xStart y
      (StepState.init dxTry), q.1 ≤ H ∧ RowsAtMost q.2 L)
    (hHL : H * L ≤ 1) (hHB : 3 * H * B ≤ ρ / 2)
    (hsmall : Real.exp (Λ * (b - xStart)) *
      ((205 * (L * B + 2 * Λ * B + M) + (Λ * B + M)) * H * (b - xStart)) ≤ ρ / 2) :
    ‖r.y - φ r.x‖ ≤ Real.exp (Λ * (r.x - xStart)) *
      ((205 * (L * B + 2 * Λ * B + M) + (Λ * B + M)) * H * (r.x - xStart)) := by
  have hj' : E.jacRedo < ((2 : Nat) : ℝ) * E.jacRedo := by exact_mod_cast hj
  have hch := driverLoop_follows hm hE hj' hlt hHL hL0 maxSteps 0 scr xStart y _ r
    (running_start E scr hpos) le_rfl hlt hsteps h
  have hH0 : 0 ≤ H := by
    cases hch with
    | one h => exact (sub_nonneg.2 h.1.le).trans h.2.1
    | cons h _ => exact (sub_nonneg.2 h.1.le).trans h.2.1
  have := chain_error (err := fun p : ℝ × Vec ℝ (n + 1) => ‖p.2 - φ p.1‖) (b := b) (ρ := ρ)
    (C := 205 * (L * B + 2 * Λ * B + M) + (Λ * B + M)) (G := Λ) (H := H) (start := xStart)
    (by positivity) hΛ hH0 (fun p q h => h.1) (by
      intro p q e hR hs hqb he0 he heρ
      obtain ⟨hpq, hqH, J, k, hJ, -, hk, hstep⟩ := hR
      have hd : 0 < q.1 - p.1 := by linarith
      have h1 := step_error hk hf hφ hJ hL0 hΛ hM hB hd
        ((mul_le_mul_of_nonneg_right hqH hL0).trans hHL) hs (by linarith) he heρ
        (by nlinarith) hstep
      rw [add_sub_cancel] at h1
      refine h1.trans (add_le_add le_rfl ?_)
      have hC : 0 ≤ 205 * (L * B + 2 * Λ * B + M) + (Λ * B + M) := by positivity
      have : (q.1 - p.1) ^ 2 ≤ H * (q.1 - p.1) := by nlinarith
      calc _ ≤ (205 * (L * B + 2 * Λ * B + M) + (Λ * B + M)) * (H * (q.1 - p.1)) := by gcongr
        _ = _ := by ring) hch 0 le_rfl hb le_rfl (by simp [hφ0]) (by simpa using hsmall)
  simpa using this

/-- **C115.** In particular the error can be made as small as one likes by small steps. -/
theorem C115_integration_converges (hm : PowLaws ℝ) (E : SeulexEnv ℝ n)
    (hE : LapackContract (n + 1) E.linearSolve) (hj : E.jacRedo < 2 * E.jacRedo)
    (xStart b : ℝ) (y : Vec ℝ (n + 1)) (φ : ℝ → Vec ℝ (n + 1)) (hφ0 : φ xStart = y)
    (hφ : SolvesOn E.derivatives φ xStart b) (ρ B Λ M L : ℝ) (hρ : 0 < ρ)
    (hf : LipschitzNear E.derivatives φ xStart b ρ B Λ M) (ε : ℝ) (hε : 0 < ε) :
    ∃ H > 0, ∀ (maxSteps : Nat) (scr : Scratch ℝ n) (xEnd dxTry : ℝ)
      (r : DriverResult ℝ (n + 1) (Scratch ℝ n)), xStart < xEnd → 0 < dxTry →
      driverSolve (seulexSolve E) maxSteps scr xStart xEnd y dxTry = .ok r → r.x ≤ b →
      (∀ q ∈ acceptedSteps (seulexSolve E) xStart xEnd maxSteps scr xStart y
        (StepState.init dxTry), q.1 ≤ H ∧ RowsAtMost q.2 L) →
      ‖r.y - φ r.x‖ ≤ ε := by
  set B' := max B 0
  set Λ' := max Λ 0
  set M' := max M 0
  set L' := max L 0
  have hf' : LipschitzNear E.derivatives φ xStart b ρ B' Λ' M' :=
    ⟨fun t z hz => (hf.bound t z hz).trans (le_max_left _ _), fun t z t' z' hz hz' =>
      (hf.lipschitz t z t' z' hz hz').trans (add_le_add
        (mul_le_mul_of_nonneg_right (le_max_left _ _) (norm_nonneg _))
        (mul_le_mul_of_nonneg_right (le_max_left _ _) (abs_nonneg _)))⟩
  have hB0 : 0 ≤ B' := le_max_right _ _
  have hΛ0 : 0 ≤ Λ' := le_max_right _ _
  have hM0 : 0 ≤ M' := le_max_right _ _
  have hL0 : 0 ≤ L' := le_max_right _ _
  set C := 205 * (L' * B' + 2 * Λ' * B' + M') + (Λ' * B' + M') with hC
  have hC0 : 0 ≤ C := by positivity
  set D := Real.exp (Λ' * |b - xStart|) * (C * |b - xStart|) with hD
  have hD0 : 0 ≤ D := by positivity
  refine ⟨min (1 / (L' + 1)) (min (ρ / 2 / (3 * B' + 1)) (min (ρ / 2) ε / (D + 1))), ?_, ?_⟩
  · refine lt_min (by positivity) (lt_min (by positivity) (div_pos (lt_min (by positivity) hε)
      (by positivity)))
  intro maxSteps scr xEnd dxTry r hlt hpos h hb hsteps
  set H := min (1 / (L' + 1)) (min (ρ / 2 / (3 * B' + 1)) (min (ρ / 2) ε / (D + 1))) with hHdef
  have hH0 : 0 < H := by
    refine lt_min (by positivity) (lt_min (by positivity) (div_pos (lt_min (by positivity) hε)
      (by positivity)))
  have h1 : H * (L' + 1) ≤ 1 := by
    rw [← le_div_iff₀ (by positivity)]; exact min_le_left _ _
  have h2 : H * (3 * B' + 1) ≤ ρ / 2 := by
    rw [← le_div_iff₀ (by positivity)]; exact (min_le_right _ _).trans (min_le_left _ _)
  have h3 : H * (D + 1) ≤ min (ρ / 2) ε := by
    rw [← le_div_iff₀ (by positivity)]; exact (min_le_right _ _).trans (min_le_right _ _)
  have hrx : xStart < r.x := by
    obtain ⟨-, h4, -⟩ := driverLoop_chain hlt (fun scr _ _ step => Running E scr step)
      (fun _ _ => True) (by
        intro scr x y step scr' x' y' step' hI hx hx' hst
        obtain ⟨a1, -, a3⟩ := running_step hm (by exact_mod_cast hj) hI hx hx' hst
        exact ⟨a1, trivial, a3⟩) maxSteps 0 scr xStart y _ r (running_start E scr hpos) le_rfl hlt h
    linarith
  have hb0 : 0 ≤ b - xStart := by linarith
  rw [abs_of_nonneg hb0] at hD
  have hDH : ∀ w, 0 ≤ w → w ≤ b - xStart → Real.exp (Λ' * w) * (C * H * w) ≤ H * D := by
    intro w h0 hw
    rw [hD]
    calc Real.exp (Λ' * w) * (C * H * w)
        ≤ Real.exp (Λ' * (b - xStart)) * (C * H * (b - xStart)) := by gcongr
      _ = _ := by ring
  have h5 := C115_error_of_the_integration hm E hE hj maxSteps scr xStart xEnd hlt y dxTry hpos r h φ
    hφ0 b hb hφ ρ B' Λ' M' L' H hf' hΛ0 hM0 hB0 hL0
    (fun q hq => ⟨(hsteps q hq).1, fun i => ((hsteps q hq).2 i).trans (le_max_left _ _)⟩)
    (by linarith) (by nlinarith) (by
      refine (hDH _ hb0 le_rfl).trans ?_
      have := min_le_left (ρ / 2) ε
      linarith)
  refine h5.trans ((hDH _ (by linarith) (by linarith)).trans ?_)
  have := min_le_right (ρ / 2) ε
  linarith

/-- **C116.** If the equations have derivatives near `φ` that are Lipschitz continuous, the error is of
second order: a constant times `H ^ 2`, for whatever matrices with row sums of at most `L` in place
of the Jacobian. -/
theorem C116_second_order (hm : PowLaws ℝ) (E : SeulexEnv ℝ n)
    (hE : LapackContract (n + 1) E.linearSolve) (hj : E.jacRedo < 2 * E.jacRedo)
    (maxSteps : Nat) (scr : Scratch ℝ n) (xStart xEnd : ℝ) (hlt : xStart < xEnd)
    (y : Vec ℝ (n + 1)) (dxTry : ℝ) (hpos : 0 < dxTry)
    (r : DriverResult ℝ (n + 1) (Scratch ℝ n))
    (h : driverSolve (seulexSolve E) maxSteps scr xStart xEnd y dxTry = .ok r)
    (φ : ℝ → Vec ℝ (n + 1)) (hφ0 : φ xStart = y) (b : ℝ) (hb : r.x ≤ b)
    (hφ : SolvesOn E.derivatives φ xStart b) (ρ B Λ M Λ₂ Q L H : ℝ)
    (hf : LipschitzNear E.derivatives φ xStart b ρ B Λ M)
    (D : ℝ → Vec ℝ (n + 1) → Vec ℝ (n + 1) →ₗ[ℝ] Vec ℝ (n + 1))
    (g : ℝ → Vec ℝ (n + 1) → Vec ℝ (n + 1))
    (hD : SmoothNear E.derivatives D g φ xStart b ρ Λ Λ₂ Q)
    (hΛ : 0 ≤ Λ) (hM : 0 ≤ M) (hB : 0 ≤ B) (hΛ₂ : 0 ≤ Λ₂) (hQ : 0 ≤ Q) (hL0 : 0 ≤ L)
    (hsteps : ∀ q ∈ acceptedSteps (seulexSolve E) xStart xEnd maxSteps scr xStart y
      (StepState.init dxTry), q.1 ≤ H ∧ RowsAtMost q.2 L)
    (hHL : H * L ≤ 1) (hHB : 3 * H * B ≤ ρ / 2)
    (hsmall : Real.exp ((Λ + Λ₂ * H / 2) * (b - xStart)) *
      ((205 * (Q * (2 * B + 1) ^ 2 + (Λ + L) * (L * B + 2 * Λ * B + M))
        + (Q * (B + 1) ^ 2 + Λ * (Λ * B + M))) * H ^ 2 * (b - xStart)) ≤ ρ / 2) :
    ‖r.y - φ r.x‖ ≤ Real.exp ((Λ + Λ₂ * H / 2) * (r.x - xStart)) *
      ((205 * (Q * (2 * B + 1) ^ 2 + (Λ + L) * (L * B + 2 * Λ * B + M))
        + (Q * (B + 1) ^ 2 + Λ * (Λ * B + M))) * H ^ 2 * (r.x - xStart)) := by
  have hj' : E.jacRedo < ((2 : Nat) : ℝ) * E.jacRedo := by exact_mod_cast hj
  have hch := driverLoop_follows hm hE hj' hlt hHL hL0 maxSteps 0 scr xStart y _ r
    (running_start E scr hpos) le_rfl hlt hsteps h
  have hH0 : 0 ≤ H := by
    cases hch with
    | one h => exact (sub_nonneg.2 h.1.le).trans h.2.1
    | cons h _ => exact (sub_nonneg.2 h.1.le).trans h.2.1
  set C := 205 * (Q * (2 * B + 1) ^ 2 + (Λ + L) * (L * B + 2 * Λ * B + M))
    + (Q * (B + 1) ^ 2 + Λ * (Λ * B + M)) with hCdef
  have hC : 0 ≤ C := by positivity
  have e2 : C * H ^ 2 = C * H * H := by ring
  rw [e2] at hsmall ⊢
  have := chain_error (err := fun p : ℝ × Vec ℝ (n + 1) => ‖p.2 - φ p.1‖) (b := b) (ρ := ρ)
    (C := C * H) (G := Λ + Λ₂ * H / 2) (H := H) (start := xStart)
    (by positivity) (by positivity) hH0 (fun p q h => h.1) (by
      intro p q e hR hs hqb he0 he heρ
      obtain ⟨hpq, hqH, J, k, hJ, hk1, hk, hstep⟩ := hR
      have hd : 0 < q.1 - p.1 := by linarith
      have h1 := step_error_second hk1 hk hf hD hφ hJ hL0 hΛ hM hB hΛ₂ hQ hd
        ((mul_le_mul_of_nonneg_right hqH hL0).trans hHL) hs (by linarith) he heρ
        (by nlinarith) hstep
      rw [add_sub_cancel, ← hCdef] at h1
      refine h1.trans (add_le_add ?_ ?_)
      · gcongr
      · have h2 : (q.1 - p.1) ^ 2 ≤ H ^ 2 := by gcongr
        calc C * (q.1 - p.1) ^ 3 = C * ((q.1 - p.1) ^ 2 * (q.1 - p.1)) := by ring
          _ ≤ C * (H ^ 2 * (q.1 - p.1)) := by gcongr
          _ = _ := by ring) hch 0 le_rfl hb le_rfl (by simp [hφ0]) (by simpa using hsmall)
  simpa using this

/-- No step is longer than what the integration covers in total. -/
theorem acceptedSteps_le (hm : PowLaws ℝ) {E : SeulexEnv ℝ n}
    (hj : E.jacRedo < ((2 : Nat) : ℝ) * E.jacRedo) {xStart xEnd : ℝ} (hlt : xStart < xEnd) :
    ∀ (left nStep : Nat) (scr : Scratch ℝ n) (x : ℝ) (y : Vec ℝ (n + 1)) (step : StepState ℝ)
      (r : DriverResult ℝ (n + 1) (Scratch ℝ n)), Running E scr step → xStart ≤ x → x < xEnd →
      driverLoop (seulexSolve E) xStart xEnd left nStep scr x y step = .ok r →
      x < r.x ∧ ∀ q ∈ acceptedSteps (seulexSolve E) xStart xEnd left scr x y step,
        q.1 ≤ r.x - x := by
  intro left
  induction left with
  | zero => intro nStep scr x y step r _ _ _ h; simp [driverLoop] at h
  | succ left ih =>
    intro nStep scr x y step r hI hx hx' h
    simp only [driverLoop, bind, Except.bind] at h
    cases hst : seulexSolve E scr x y (driverPrepare xStart xEnd x step) with
    | error e => simp [hst] at h
    | ok v =>
      obtain ⟨scr', x', y', st'⟩ := v
      obtain ⟨a1, -, a3⟩ := running_step hm hj hI hx hx' hst
      simp only [hst] at h
      simp only [acceptedSteps, hst]
      split at h
      · rename_i hend
        cases h
        rw [if_pos hend]
        exact ⟨a1, by simp⟩
      · rename_i hend
        have hlt' : x' < xEnd := by
          by_contra hc
          rw [not_lt] at hc
          exact hend (mul_nonneg (by linarith) (by linarith))
        obtain ⟨i1, i2⟩ := ih _ _ _ _ _ _ a3 (by linarith) hlt' h
        rw [if_neg hend]
        refine ⟨by linarith, ?_⟩
        intro q hq
        rcases List.mem_cons.1 hq with rfl | hq
        · dsimp only; linarith
        · have := i2 q hq; linarith

/-- A short integration in comparison with the tangent at its start. -/
theorem chain_tangent {f : ℝ → Vec ℝ (n + 1) → Vec ℝ (n + 1)} {x₀ T ρ B Λ M L : ℝ}
    {y₀ : Vec ℝ (n + 1)} (hf : LipschitzNear f (fun _ => y₀) x₀ (x₀ + T) ρ B Λ M)
    (hΛ : 0 ≤ Λ) (hM : 0 ≤ M) (hB : 0 ≤ B) (hL0 : 0 ≤ L) (hρ : 0 ≤ ρ) (hHL : T * L ≤ 1)
    (hHB : 3 * T * B ≤ ρ / 2) {C : ℝ} (hC : C = 205 * (L * B + 2 * Λ * B + M))
    (hsmall : T * (B + C * T) ≤ ρ / 2) {p q : ℝ × Vec ℝ (n + 1)} (h : Chain (Follows f T L) p q) :
    x₀ ≤ p.1 → q.1 ≤ x₀ + T → ‖p.2 - y₀‖ ≤ (p.1 - x₀) * (B + C * T) →
      ‖p.2 - y₀ - (p.1 - x₀) • f x₀ y₀‖ ≤ (p.1 - x₀) * ((C + Λ * (B + C * T) + M) * T) →
      ‖q.2 - y₀ - (q.1 - x₀) • f x₀ y₀‖ ≤ (q.1 - x₀) * ((C + Λ * (B + C * T) + M) * T) := by
  have hC0 : 0 ≤ C := by rw [hC]; positivity
  have step : ∀ p q, Follows f T L p q → x₀ ≤ p.1 → q.1 ≤ x₀ + T →
      ‖p.2 - y₀‖ ≤ (p.1 - x₀) * (B + C * T) →
      ‖p.2 - y₀ - (p.1 - x₀) • f x₀ y₀‖ ≤ (p.1 - x₀) * ((C + Λ * (B + C * T) + M) * T) →
      ‖q.2 - y₀‖ ≤ (q.1 - x₀) * (B + C * T) ∧
      ‖q.2 - y₀ - (q.1 - x₀) • f x₀ y₀‖ ≤ (q.1 - x₀) * ((C + Λ * (B + C * T) + M) * T) := by
    rintro p q ⟨hpq, hqT, J, k, hJ, -, hk, hs⟩ hp hq h1 h2
    have hd : 0 < q.1 - p.1 := by linarith
    have hT0 : 0 ≤ T := by linarith
    have hpT : p.1 - x₀ ≤ T := by linarith
    have hBC : 0 ≤ B + C * T := by positivity
    have hpρ : ‖p.2 - y₀‖ ≤ ρ / 2 :=
      (h1.trans (mul_le_mul_of_nonneg_right hpT hBC)).trans hsmall
    have t1 := step_tangent (φ := fun _ => y₀) hk hf hJ hL0
      (fun t _ => by simp only [sub_self, norm_zero]; positivity) hΛ hM hB hρ hd
      ((mul_le_mul_of_nonneg_right hqT hL0).trans hHL) hp (by linarith) hpρ (by nlinarith) hs
    rw [← mul_assoc, ← hC] at t1
    have n1 : Near (fun _ => y₀) x₀ (x₀ + T) ρ p.1 p.2 :=
      ⟨⟨hp, by linarith⟩, hpρ.trans (by linarith)⟩
    have n0 : Near (fun _ => y₀) x₀ (x₀ + T) ρ x₀ y₀ :=
      ⟨⟨le_rfl, by linarith⟩, by simpa using hρ⟩
    have t2 := hf.bound _ _ n1
    have t3 := hf.lipschitz _ _ _ _ n1 n0
    rw [abs_of_nonneg (by linarith)] at t3
    have hdd : C * (q.1 - p.1) ^ 2 ≤ (q.1 - p.1) * (C * T) := by
      have : (q.1 - p.1) ^ 2 ≤ (q.1 - p.1) * T := by nlinarith
      nlinarith
    constructor
    · calc ‖q.2 - y₀‖ = ‖(q.2 - (p.2 + (q.1 - p.1) • f p.1 p.2)) + (q.1 - p.1) • f p.1 p.2
              + (p.2 - y₀)‖ := by congr 1; abel
        _ ≤ (q.1 - p.1) * (C * T) + (q.1 - p.1) * B + (p.1 - x₀) * (B + C * T) := by
            refine (norm_add_le _ _).trans (add_le_add ((norm_add_le _ _).trans
              (add_le_add (t1.trans hdd) ?_)) h1)
            rw [norm_smul, Real.norm_of_nonneg hd.le]
            exact mul_le_mul_of_nonneg_left t2 hd.le
        _ = _ := by ring
    · have t4 : ‖f p.1 p.2 - f x₀ y₀‖ ≤ (Λ * (B + C * T) + M) * T := by
        refine t3.trans ?_
        have := mul_le_mul_of_nonneg_left (h1.trans (mul_le_mul_of_nonneg_right hpT hBC)) hΛ
        have := mul_le_mul_of_nonneg_left hpT hM
        linarith
      calc ‖q.2 - y₀ - (q.1 - x₀) • f x₀ y₀‖
          = ‖(q.2 - (p.2 + (q.1 - p.1) • f p.1 p.2)) + (q.1 - p.1) • (f p.1 p.2 - f x₀ y₀)
              + (p.2 - y₀ - (p.1 - x₀) • f x₀ y₀)‖ := by
            congr 1
            funext i
            simp only [Pi.add_apply, Pi.sub_apply, Pi.smul_apply, smul_eq_mul]
            ring
        _ ≤ (q.1 - p.1) * (C * T) + (q.1 - p.1) * ((Λ * (B + C * T) + M) * T)
            + (p.1 - x₀) * ((C + Λ * (B + C * T) + M) * T) := by
            refine (norm_add_le _ _).trans (add_le_add ((norm_add_le _ _).trans
              (add_le_add (t1.trans hdd) ?_)) h2)
            rw [norm_smul, Real.norm_of_nonneg hd.le]
            exact mul_le_mul_of_nonneg_left t4 hd.le
        _ = _ := by ring
  induction h with
  | one h => intro hp hq h1 h2; exact (step _ _ h hp hq h1 h2).2
  | cons h t ih =>
    intro hp hq h1 h2
    have hlt := chain_lt (fun _ _ h => h.1) t
    obtain ⟨s1, s2⟩ := step _ _ h hp (by linarith) h1 h2
    exact ih (by linarith [h.1]) hq s1 s2

/-- **C115.** Over a short time, the mean rate of change returned by the integration is the rate of
change of the equations at the initial state, up to a constant times that time: whatever steps were
chosen.  The right-hand side has to be bounded by `B` and Lipschitz continuous up to a distance `ρ`
from the initial state. -/
theorem C115_mean_rate_of_change (hm : PowLaws ℝ) (E : SeulexEnv ℝ n)
    (hE : LapackContract (n + 1) E.linearSolve) (hj : E.jacRedo < 2 * E.jacRedo)
    (maxSteps : Nat) (scr : Scratch ℝ n) (xStart xEnd : ℝ) (hlt : xStart < xEnd)
    (y : Vec ℝ (n + 1)) (dxTry : ℝ) (hpos : 0 < dxTry)
    (r : DriverResult ℝ (n + 1) (Scratch ℝ n))
    (h : driverSolve (seulexSolve E) maxSteps scr xStart xEnd y dxTry = .ok r)
    (ρ B Λ M L T : ℝ) (hT : T = r.x - xStart)
    (hf : LipschitzNear E.derivatives (fun _ => y) xStart r.x ρ B Λ M)
    (hΛ : 0 ≤ Λ) (hM : 0 ≤ M) (hB : 0 ≤ B) (hL0 : 0 ≤ L)
    (hjac : ∀ q ∈ acceptedSteps (seulexSolve E) xStart xEnd maxSteps scr xStart y
      (StepState.init dxTry), RowsAtMost q.2 L)
    (hHL : T * L ≤ 1) (hHB : 3 * T * B ≤ ρ / 2)
    (hsmall : T * (B + 205 * (L * B + 2 * Λ * B + M) * T) ≤ ρ / 2) :
    0 < T ∧ ‖(1 / T) • (r.y - y) - E.derivatives xStart y‖ ≤
      (205 * (L * B + 2 * Λ * B + M) + Λ * (B + 205 * (L * B + 2 * Λ * B + M) * T) + M) * T := by
  have hj' : E.jacRedo < ((2 : Nat) : ℝ) * E.jacRedo := by exact_mod_cast hj
  obtain ⟨hx, hle⟩ := acceptedSteps_le hm hj' hlt maxSteps 0 scr xStart y _ r
    (running_start E scr hpos) le_rfl hlt h
  have hd : 0 < T := by linarith
  have hrx : r.x = xStart + T := by linarith
  have hρ : 0 ≤ ρ := by
    have : 0 ≤ 3 * T * B := by positivity
    linarith
  rw [hrx] at hf
  have hch := driverLoop_follows hm hE hj' hlt hHL hL0 maxSteps 0 scr xStart y _ r
    (running_start E scr hpos) le_rfl hlt
    (fun q hq => ⟨by have := hle q hq; linarith, hjac q hq⟩) h
  have key := chain_tangent hf hΛ hM hB hL0 hρ hHL hHB rfl hsmall hch le_rfl (by simp [hrx])
    (by simp) (by simp)
  dsimp only at key
  rw [← hT] at key
  refine ⟨hd, ?_⟩
  have e : (1 / T) • (r.y - y) - E.derivatives xStart y
      = (1 / T) • (r.y - y - T • E.derivatives xStart y) := by
    rw [smul_sub _ (r.y - y), smul_smul, one_div, inv_mul_cancel₀ hd.ne', one_smul]
  rw [e, norm_smul, Real.norm_of_nonneg (by positivity), one_div, inv_mul_le_iff₀ hd]
  exact key

end

/-! ### Cases -/

/-- The solution of the relaxation problem from 950. -/
noncomputable def relaxationSolution (t : ℝ) : Vec ℝ 1 := fun _ => 1000 - 50 * Real.exp (-t)

theorem relaxationSolution_solves (b : ℝ) :
    SolvesOn relaxationReal.derivatives relaxationSolution 0 b := by
  intro t _
  rw [hasDerivWithinAt_pi]
  intro i
  have h : HasDerivAt (fun t : ℝ => 1000 - 50 * Real.exp (-t)) (-(50 * (Real.exp (-t) * -1))) t :=
    (((Real.hasDerivAt_exp _).comp t (hasDerivAt_neg t)).const_mul 50).const_sub 1000
  have e : relaxationReal.derivatives t (relaxationSolution t) i
      = -(50 * (Real.exp (-t) * -1)) := by
    simp [relaxationReal, relaxationSolution]
  rw [e]
  exact h.hasDerivWithinAt

theorem relaxation_lipschitzNear (b : ℝ) :
    LipschitzNear relaxationReal.derivatives relaxationSolution 0 b 10 60 1 0 := by
  constructor
  · rintro t z ⟨ht, hz⟩
    refine (pi_norm_le_iff_of_nonneg (by norm_num)).2 fun i => ?_
    have h0 := (norm_le_pi_norm _ 0).trans hz
    have he : Real.exp (-t) ≤ 1 := Real.exp_le_one_iff.2 (by linarith [ht.1])
    have he0 := Real.exp_pos (-t)
    simp only [Pi.sub_apply, relaxationSolution, Real.norm_eq_abs, abs_le] at h0
    simp only [relaxationReal, Real.norm_eq_abs, abs_le]
    constructor <;> linarith [h0.1, h0.2]
  · rintro t z t' z' - -
    rw [one_mul, zero_mul, add_zero]
    refine (pi_norm_le_iff_of_nonneg (norm_nonneg _)).2 fun i => ?_
    have h0 := norm_le_pi_norm (z - z') 0
    have e : (relaxationReal.derivatives t z - relaxationReal.derivatives t' z') i
        = -((z - z') 0) := by
      simp only [Pi.sub_apply, relaxationReal]; ring
    rw [e, norm_neg]
    exact h0

theorem relaxation_smoothNear (b : ℝ) :
    SmoothNear relaxationReal.derivatives (fun _ _ => -LinearMap.id) (fun _ _ => 0)
      relaxationSolution 0 b 10 1 1 0 := by
  constructor
  · rintro t z t' z' - -
    rw [zero_mul, norm_le_zero_iff]
    funext i
    have hi : i = 0 := Fin.ext (by omega)
    subst hi
    simp only [relaxationReal, Pi.sub_apply, LinearMap.neg_apply, LinearMap.id_apply, Pi.neg_apply,
      smul_zero, Pi.zero_apply]
    ring
  · intro t z v _
    simp
  · rintro t z z' - -
    rw [one_mul]
    refine (pi_norm_le_iff_of_nonneg (norm_nonneg _)).2 fun i => ?_
    have h0 := norm_le_pi_norm (z - z') 0
    have e : ((-LinearMap.id : Vec ℝ 1 →ₗ[ℝ] Vec ℝ 1) (relaxationReal.derivatives t z) + 0
        - ((-LinearMap.id : Vec ℝ 1 →ₗ[ℝ] Vec ℝ 1) (relaxationReal.derivatives t z') + 0)) i
        = (z - z') 0 := by
      simp only [relaxationReal, Pi.sub_apply, LinearMap.neg_apply, LinearMap.id_apply, Pi.neg_apply,
        Pi.add_apply, Pi.zero_apply]
      ring
    rw [e]
    exact h0

/-- A case of C115: the relaxation problem with the wrong Jacobian 7, from 950, up to time 1. -/
example (ε : ℝ) (hε : 0 < ε) (fuel : Nat) : letI := realMath
    ∃ H > 0, ∀ (maxSteps : Nat) (scr : Scratch ℝ 0) (xEnd dxTry : ℝ)
      (r : DriverResult ℝ 1 (Scratch ℝ 0)), 0 < xEnd → 0 < dxTry →
      driverSolve (seulexSolve { relaxationReal with fuel := fuel }) maxSteps scr 0 xEnd
        (fun _ => 950) dxTry = .ok r → r.x ≤ 1 →
      (∀ q ∈ acceptedSteps (seulexSolve { relaxationReal with fuel := fuel }) 0 xEnd maxSteps scr 0
        (fun _ => 950) (StepState.init dxTry), q.1 ≤ H ∧ RowsAtMost q.2 7) →
      ‖r.y - relaxationSolution r.x‖ ≤ ε := by
  let := realMath
  exact C115_integration_converges realMath_powLaws { relaxationReal with fuel := fuel }
    (lapackContract_inverse 1) (by simp only [relaxationReal]; norm_num) 0 1 _ relaxationSolution
    (by funext i; simp [relaxationSolution]; norm_num) (relaxationSolution_solves 1) 10 60 1 0 7
    (by norm_num) (relaxation_lipschitzNear 1) ε hε

/-- A case of C116: the same problem up to time 1/10 with steps of at most 1e-5; the error is below
1e-4. -/
example (fuel maxSteps : Nat) (scr : Scratch ℝ 0) (xEnd dxTry : ℝ) (hx : 0 < xEnd) (hdx : 0 < dxTry) :
    letI := realMath
    ∀ r, driverSolve (seulexSolve { relaxationReal with fuel := fuel }) maxSteps scr 0 xEnd
        (fun _ => 950) dxTry = .ok r → r.x ≤ 1 / 10 →
      (∀ q ∈ acceptedSteps (seulexSolve { relaxationReal with fuel := fuel }) 0 xEnd maxSteps scr 0
        (fun _ => 950) (StepState.init dxTry), q.1 ≤ 1 / 100000 ∧ RowsAtMost q.2 7) →
      ‖r.y - relaxationSolution r.x‖ ≤ 1 / 10000 := by
  let := realMath
  intro r h hr hs
  have hexp : Real.exp ((1 + 1 * (1 / 100000) / 2) * (1 / 10 - 0)) ≤ 3 := by
    have h1 : (1 + 1 * (1 / 100000) / 2) * (1 / 10 - 0) ≤ (1 : ℝ) := by norm_num
    have := Real.exp_one_lt_d9
    exact (Real.exp_le_exp.2 h1).trans (by linarith)
  have hr0 : 0 ≤ r.x - 0 := by
    have := (acceptedSteps_le realMath_powLaws (by simp only [relaxationReal]; norm_num) hx maxSteps 0
      scr 0 _ _ r (running_start _ scr hdx) le_rfl hx h).1
    linarith
  have key := C116_second_order realMath_powLaws { relaxationReal with fuel := fuel }
    (lapackContract_inverse 1) (by simp only [relaxationReal]; norm_num) maxSteps scr 0 xEnd hx _ dxTry
    hdx r h relaxationSolution (by funext i; simp [relaxationSolution]; norm_num) (1 / 10) hr
    (relaxationSolution_solves _) 10 60 1 0 1 0 7 (1 / 100000) (relaxation_lipschitzNear _) _ _
    (relaxation_smoothNear _) (by norm_num) le_rfl (by norm_num) (by norm_num) le_rfl (by norm_num) hs
    (by norm_num) (by norm_num) (by
      refine (mul_le_mul_of_nonneg_right hexp (by norm_num)).trans ?_
      norm_num)
  refine key.trans ?_
  have hexp' : Real.exp ((1 + 1 * (1 / 100000) / 2) * (r.x - 0)) ≤ 3 :=
    (Real.exp_le_exp.2 (by gcongr)).trans hexp
  calc _ ≤ 3 * ((205 * (0 * (2 * 60 + 1) ^ 2 + (1 + 7) * (7 * 60 + 2 * 1 * 60 + 0))
        + (0 * (60 + 1) ^ 2 + 1 * (1 * 60 + 0))) * (1 / 100000 : ℝ) ^ 2 * (1 / 10 - 0)) := by gcongr
    _ ≤ _ := by norm_num

/-- The steps of the run of the cases of C60 and C61, with their Jacobians: two steps of 1/10. -/
example : letI := ratMath
    (acceptedSteps (seulexSolve relaxation) 0 (1 / 5) 5 (leftover 7) 0 (fun _ => 1000)
      (StepState.init (1 / 10))).map (fun q => (q.1, q.2 0 0)) = [(1 / 10, -1), (1 / 10, -1)] := by
  decide +kernel

end DLB
