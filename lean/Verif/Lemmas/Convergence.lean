import Verif.Props.SeulexNumerics
import Verif.Spec.Convergence
import Mathlib.Analysis.Calculus.MeanValue
import Mathlib.Analysis.Calculus.Deriv.Pow
import Mathlib.LinearAlgebra.Matrix.Gershgorin
import Mathlib.Analysis.SpecialFunctions.Exp
/-
Lemmas for C115: errors of the extrapolated linearly implicit Euler steps.
-/
set_option autoImplicit false
set_option linter.unusedSectionVars false

namespace DLB
open Spec

variable [MathOps ℝ]

/-- The absolute values of the weights of the extrapolation add up to at most 205. -/
theorem extrapolation_weights : ∀ k ∈ Finset.range 13,
    (∑ l ∈ Finset.Icc 0 k, |∏ j ∈ (Finset.Icc 0 k).erase l,
      ((nSeq l : ℚ) / ((nSeq l : ℚ) - (nSeq j : ℚ)))|) ≤ 205 := by
  decide +kernel

theorem basis_at_zero {dx : ℝ} (hdx : dx ≠ 0) (k l : Nat) :
    (Lagrange.basis (Finset.Icc 0 k) (fun l => dx / (nSeq l : ℝ)) l).eval 0
      = ((∏ j ∈ (Finset.Icc 0 k).erase l,
          ((nSeq l : ℚ) / ((nSeq l : ℚ) - (nSeq j : ℚ))) : ℚ) : ℝ) := by
  rw [Lagrange.basis, Polynomial.eval_prod]
  push_cast
  refine Finset.prod_congr rfl fun j hj => ?_
  have hl := (nSeq_cast_pos (K := ℝ) l).ne'
  have hj' := (nSeq_cast_pos (K := ℝ) j).ne'
  have hne : (nSeq l : ℝ) - nSeq j ≠ 0 := by
    intro h
    refine (Finset.mem_erase.1 hj).1 (stepSizes_injective hdx ?_)
    dsimp only
    rw [sub_eq_zero.1 h]
  have hne' : (nSeq j : ℝ) - nSeq l ≠ 0 := by
    intro h; exact hne (by linarith)
  simp only [Lagrange.basisDivisor, Polynomial.eval_mul, Polynomial.eval_C, Polynomial.eval_sub,
    Polynomial.eval_X]
  have e : dx / (nSeq l : ℝ) - dx / nSeq j = dx * (nSeq j - nSeq l) / (nSeq l * nSeq j) := by
    field_simp
  rw [e]
  field_simp
  ring

/-- If the results of the rows are within `ε` of a linear function of the step size, the
extrapolated result is within `205 ε` of its value at zero. -/
theorem extrapolant_near_linear {dx : ℝ} (hdx : dx ≠ 0) {k : Nat} (hk : k ≤ 12) (r : Nat → ℝ) (P Q ε : ℝ)
    (hQ : Q = 0 ∨ 1 ≤ k) (h : ∀ l, l ≤ k → |r l - (P + dx / (nSeq l : ℝ) * Q)| ≤ ε) :
    |extrapolant (fun l => dx / (nSeq l : ℝ)) r 0 k - P| ≤ 205 * ε := by
  have hlin : extrapolant (fun l => dx / (nSeq l : ℝ)) (fun l => P + dx / (nSeq l : ℝ) * Q) 0 k
      = P := by
    unfold extrapolant
    rw [← Lagrange.eq_interpolate_of_eval_eq
      (f := Polynomial.C P + Polynomial.C Q * Polynomial.X) _ (stepSizes_injective hdx).injOn]
    · simp
    · have hc : (Finset.Icc 0 k).card = k + 1 := by simp
      rw [hc]
      rcases hQ with rfl | hk1
      · simp only [map_zero, zero_mul, add_zero]
        exact lt_of_le_of_lt Polynomial.degree_C_le (by exact_mod_cast Nat.succ_pos k)
      · refine lt_of_le_of_lt (Polynomial.degree_add_le _ _) (max_lt ?_ ?_)
        · exact lt_of_le_of_lt Polynomial.degree_C_le (by exact_mod_cast Nat.succ_pos k)
        · refine lt_of_le_of_lt (Polynomial.degree_C_mul_X_le _) ?_
          exact_mod_cast Nat.lt_succ_of_le hk1
    · intro i _; simp; ring
  conv_lhs => rw [← hlin]
  unfold extrapolant
  simp only [Lagrange.interpolate_apply, Polynomial.eval_finsetSum, Polynomial.eval_mul,
    Polynomial.eval_C]
  rw [← Finset.sum_sub_distrib]
  have hε : 0 ≤ ε := (abs_nonneg _).trans (h 0 (Nat.zero_le _))
  have hw := extrapolation_weights k (Finset.mem_range.2 (by omega))
  have hw' : (∑ l ∈ Finset.Icc 0 k, |(Lagrange.basis (Finset.Icc 0 k)
      (fun l => dx / (nSeq l : ℝ)) l).eval 0|) ≤ 205 := by
    simp only [basis_at_zero hdx]
    exact_mod_cast hw
  calc _ ≤ ∑ l ∈ Finset.Icc 0 k, ε * |(Lagrange.basis (Finset.Icc 0 k)
      (fun l => dx / (nSeq l : ℝ)) l).eval 0| := by
        refine (Finset.abs_sum_le_sum_abs _ _).trans (Finset.sum_le_sum fun l hl => ?_)
        rw [← sub_mul, abs_mul]
        exact mul_le_mul_of_nonneg_right (h l (Finset.mem_Icc.1 hl).2) (abs_nonneg _)
    _ ≤ 205 * ε := by
        rw [← Finset.mul_sum, mul_comm]
        exact mul_le_mul_of_nonneg_right hw' hε

section
variable {N : Nat}

theorem mulVec_le {J : Fin N → Fin N → ℝ} {L : ℝ} (hJ : RowsAtMost J L) (d : Fin N → ℝ) (i : Fin N) :
    |∑ j, J i j * d j| ≤ L * ‖d‖ := by
  calc _ ≤ ∑ j, |J i j| * ‖d‖ := by
        refine (Finset.abs_sum_le_sum_abs _ _).trans (Finset.sum_le_sum fun j _ => ?_)
        rw [abs_mul]
        exact mul_le_mul_of_nonneg_left (norm_le_pi_norm d j) (abs_nonneg _)
    _ ≤ _ := by
        rw [← Finset.sum_mul]
        exact mul_le_mul_of_nonneg_right (hJ i) (norm_nonneg _)

/-- With small enough steps the matrices of the sub-steps are regular. -/
theorem regular_of_rows {J : Fin N → Fin N → ℝ} {L h : ℝ} (hJ : RowsAtMost J L) (hh : 0 < h)
    (hL : h * L < 1) : Regular J h := by
  unfold Regular
  refine det_ne_zero_of_sum_row_lt_diag fun i => ?_
  have h1 : ∑ j ∈ Finset.univ.erase i, ‖((1 / h) • (1 : Matrix (Fin N) (Fin N) ℝ) - Matrix.of J) i j‖
      = ∑ j ∈ Finset.univ.erase i, |J i j| := by
    refine Finset.sum_congr rfl fun j hj => ?_
    have : i ≠ j := fun e => (Finset.mem_erase.1 hj).1 e.symm
    simp [Matrix.one_apply_ne this]
  rw [h1]
  have h2 : ∑ j ∈ Finset.univ.erase i, |J i j| + |J i i| ≤ L := by
    rw [Finset.sum_erase_add _ _ (Finset.mem_univ i)]; exact hJ i
  have h3 : L < 1 / h := by rw [lt_div_iff₀ hh]; linarith
  have h4 : ‖((1 / h) • (1 : Matrix (Fin N) (Fin N) ℝ) - Matrix.of J) i i‖ = |1 / h - J i i| := by
    simp
  rw [h4]
  have := le_abs_self (1 / h - J i i)
  have := le_abs_self (J i i)
  linarith

theorem increment_eq {J : Fin N → Fin N → ℝ} {f : ℝ → (Fin N → ℝ) → Fin N → ℝ} {h x : ℝ}
    {y d : Fin N → ℝ} (hh : 0 < h) (hd : EulerIncrement J f h x y d) :
    d = h • f (x + h) y + h • (fun i => ∑ j, J i j * d j) := by
  funext i
  have := hd i
  have e : d i / h = f (x + h) y i + ∑ j, J i j * d j := by linarith
  rw [div_eq_iff hh.ne'] at e
  simp only [Pi.add_apply, Pi.smul_apply, smul_eq_mul]
  linarith

/-- Size of one sub-step, and its distance from the explicit one. -/
theorem increment_bounds {J : Fin N → Fin N → ℝ} {f : ℝ → (Fin N → ℝ) → Fin N → ℝ} {h x L B : ℝ}
    {y d : Fin N → ℝ} (hh : 0 < h) (hd : EulerIncrement J f h x y d) (hJ : RowsAtMost J L)
    (hL0 : 0 ≤ L) (hL : h * L ≤ 1 / 2) (hB : ‖f (x + h) y‖ ≤ B) :
    ‖d‖ ≤ 2 * h * B ∧ ‖d - h • f (x + h) y‖ ≤ 2 * L * B * h ^ 2 := by
  have e := increment_eq hh hd
  have hv : ‖(fun i => ∑ j, J i j * d j)‖ ≤ L * ‖d‖ :=
    (pi_norm_le_iff_of_nonneg (by positivity)).2 fun i => mulVec_le hJ d i
  have h1 : ‖d - h • f (x + h) y‖ ≤ h * (L * ‖d‖) := by
    conv_lhs => rw [e, add_sub_cancel_left, norm_smul, Real.norm_of_nonneg hh.le]
    exact mul_le_mul_of_nonneg_left hv hh.le
  have h2 : ‖d‖ ≤ h * B + h * (L * ‖d‖) := by
    have : ‖h • f (x + h) y‖ ≤ h * B := by
      rw [norm_smul, Real.norm_of_nonneg hh.le]
      exact mul_le_mul_of_nonneg_left hB hh.le
    calc ‖d‖ = ‖h • f (x + h) y + (d - h • f (x + h) y)‖ := by rw [add_sub_cancel]
      _ ≤ _ := (norm_add_le _ _).trans (add_le_add this h1)
  have h3 : h * (L * ‖d‖) ≤ 1 / 2 * ‖d‖ := by
    rw [← mul_assoc]; exact mul_le_mul_of_nonneg_right hL (norm_nonneg _)
  have h4 : ‖d‖ ≤ 2 * h * B := by linarith
  refine ⟨h4, h1.trans ?_⟩
  calc h * (L * ‖d‖) ≤ h * (L * (2 * h * B)) := by gcongr
    _ = _ := by ring


/-- Near `φ` the right-hand side is bounded, and Lipschitz continuous up to an error of `δ`. -/
structure LipschitzUpTo (f : ℝ → (Fin N → ℝ) → Fin N → ℝ) (φ : ℝ → Fin N → ℝ) (a b ρ B Λ M δ : ℝ) :
    Prop where
  bound : ∀ t z, Near φ a b ρ t z → ‖f t z‖ ≤ B
  lipschitz : ∀ t z t' z', Near φ a b ρ t z → Near φ a b ρ t' z' →
    ‖f t z - f t' z'‖ ≤ Λ * ‖z - z'‖ + M * |t - t'| + δ

theorem upTo_zero {f : ℝ → (Fin N → ℝ) → Fin N → ℝ} {φ : ℝ → Fin N → ℝ} {a b ρ B Λ M : ℝ}
    (h : LipschitzNear f φ a b ρ B Λ M) : LipschitzUpTo f φ a b ρ B Λ M 0 :=
  ⟨h.bound, fun t z t' z' hz hz' => by rw [add_zero]; exact h.lipschitz t z t' z' hz hz'⟩

/-- One sub-step of size `h`, `j` sub-steps after `(x, y)`, in comparison with the tangent at
`(x, y)`. -/
theorem substep_bounds {J : Fin N → Fin N → ℝ} {f : ℝ → (Fin N → ℝ) → Fin N → ℝ}
    {φ : ℝ → Fin N → ℝ} {a b ρ B Λ M δ L h H x : ℝ} {y : Fin N → ℝ}
    (hf : LipschitzUpTo f φ a b ρ B Λ M δ) (hJ : RowsAtMost J L) (hL0 : 0 ≤ L)
    (hΛ : 0 ≤ Λ) (hM : 0 ≤ M) (hB : 0 ≤ B) (hρ : 0 ≤ ρ)
    (hh : 0 < h) (hL : h * L ≤ 1 / 2) (hax : a ≤ x) (hxb : x + H ≤ b)
    (hφx : ∀ t ∈ Set.Icc a b, ‖φ t - φ x‖ ≤ B * |t - x|)
    (hy : ‖y - φ x‖ ≤ ρ / 2) (hH : 3 * H * B ≤ ρ / 2) (j : Nat) (xj : ℝ) (yj d : Fin N → ℝ)
    (hxj : xj = x + j * h) (hjH : (j + 1) * h ≤ H) (hyj : ‖yj - y‖ ≤ 2 * (j * h) * B)
    (hd : EulerIncrement J f h xj yj d) :
    Near φ a b ρ x y ∧ Near φ a b ρ (xj + h) yj ∧ |xj + h - x| ≤ H ∧ ‖yj - y‖ ≤ 2 * H * B ∧
    ‖d‖ ≤ 2 * h * B ∧ ‖d - h • f x y‖ ≤ h * (2 * L * B * h + (2 * Λ * B + M) * H + δ) := by
  have hj0 : (0 : ℝ) ≤ j := Nat.cast_nonneg j
  have hjh : (j : ℝ) * h ≤ H := by nlinarith
  have hjh0 : 0 ≤ (j : ℝ) * h := by positivity
  have hH0 : 0 ≤ H := hjh0.trans hjh
  have hNx : Near φ a b ρ x y := ⟨⟨hax, by linarith⟩, hy.trans (by linarith)⟩
  have ht : xj + h ∈ Set.Icc a b := ⟨by rw [hxj]; linarith, by rw [hxj]; linarith⟩
  have hyjH : ‖yj - y‖ ≤ 2 * H * B := hyj.trans (by gcongr)
  have h2 : |xj + h - x| ≤ H := by
    rw [abs_le]; constructor <;> rw [hxj] <;> linarith
  have hnear : Near φ a b ρ (xj + h) yj := by
    refine ⟨ht, ?_⟩
    have h1 := hφx _ ht
    have h3 : ‖φ (xj + h) - φ x‖ ≤ B * H := h1.trans (mul_le_mul_of_nonneg_left h2 hB)
    calc ‖yj - φ (xj + h)‖ = ‖(yj - y) + (y - φ x) - (φ (xj + h) - φ x)‖ := by congr 1; abel
      _ ≤ ‖yj - y‖ + ‖y - φ x‖ + ‖φ (xj + h) - φ x‖ :=
          (norm_sub_le _ _).trans (add_le_add_left (norm_add_le _ _) _)
      _ ≤ ρ := by linarith
  obtain ⟨b1, b2⟩ := increment_bounds hh hd hJ hL0 hL (hf.bound _ _ hnear)
  refine ⟨hNx, hnear, h2, hyjH, b1, ?_⟩
  have h4 : ‖f (xj + h) yj - f x y‖ ≤ (2 * Λ * B + M) * H + δ := by
    refine (hf.lipschitz _ _ _ _ hnear hNx).trans ?_
    have := mul_le_mul_of_nonneg_left hyjH hΛ
    have := mul_le_mul_of_nonneg_left h2 hM
    linarith
  calc ‖d - h • f x y‖ = ‖(d - h • f (xj + h) yj) + h • (f (xj + h) yj - f x y)‖ := by
        congr 1; rw [smul_sub]; abel
    _ ≤ 2 * L * B * h ^ 2 + h * ((2 * Λ * B + M) * H + δ) := by
        refine (norm_add_le _ _).trans (add_le_add b2 ?_)
        rw [norm_smul, Real.norm_of_nonneg hh.le]
        exact mul_le_mul_of_nonneg_left h4 hh.le
    _ = _ := by ring

/-- A linearly implicit Euler path of `s` steps of size `h`, starting `j` steps after `(x, y)`, in
comparison with the tangent at `(x, y)`. -/
theorem path_bounds {J : Fin N → Fin N → ℝ} {f : ℝ → (Fin N → ℝ) → Fin N → ℝ}
    {inside : (Fin N → ℝ) → Prop} {φ : ℝ → Fin N → ℝ} {a b ρ B Λ M δ L h H x : ℝ} {y : Fin N → ℝ}
    (hf : LipschitzUpTo f φ a b ρ B Λ M δ) (hJ : RowsAtMost J L) (hL0 : 0 ≤ L)
    (hΛ : 0 ≤ Λ) (hM : 0 ≤ M) (hB : 0 ≤ B) (hρ : 0 ≤ ρ)
    (hh : 0 < h) (hL : h * L ≤ 1 / 2) (hax : a ≤ x) (hxb : x + H ≤ b)
    (hφx : ∀ t ∈ Set.Icc a b, ‖φ t - φ x‖ ≤ B * |t - x|)
    (hy : ‖y - φ x‖ ≤ ρ / 2) (hH : 3 * H * B ≤ ρ / 2) {s : Nat} {xj : ℝ} {yj z : Fin N → ℝ}
    (hp : EulerPath J f inside h s xj yj z) :
    ∀ j : Nat, xj = x + j * h → (j + s) * h ≤ H → ‖yj - y‖ ≤ 2 * (j * h) * B →
      ‖z - yj - (s * h) • f x y‖ ≤ s * (h * (2 * L * B * h + (2 * Λ * B + M) * H + δ)) := by
  have one : ∀ (j : Nat) (xj : ℝ) (yj d : Fin N → ℝ), xj = x + j * h → (j + 1) * h ≤ H →
      ‖yj - y‖ ≤ 2 * (j * h) * B → EulerIncrement J f h xj yj d →
      ‖d‖ ≤ 2 * h * B ∧ ‖d - h • f x y‖ ≤ h * (2 * L * B * h + (2 * Λ * B + M) * H + δ) :=
    fun j xj yj d hxj hjH hyj hd => (substep_bounds hf hJ hL0 hΛ hM hB hρ hh hL hax hxb hφx hy hH
      j xj yj d hxj hjH hyj hd).2.2.2.2
  induction hp with
  | @one xj yj d hd =>
    intro j hxj hjH hyj
    have := (one j xj yj d hxj (by exact_mod_cast hjH) hyj hd).2
    have e : (fun i => yj i + d i) - yj = d := by funext i; simp
    rw [e]
    simpa using this
  | @step s xj yj d z hd hin hrest ih =>
    intro j hxj hjH hyj
    have hs0 : (0 : ℝ) ≤ s := Nat.cast_nonneg s
    push_cast at hjH
    obtain ⟨o1, o2⟩ := one j xj yj d hxj (by nlinarith) hyj hd
    have e : (fun i => yj i + d i) = yj + d := by funext i; simp
    rw [e] at ih
    have hi := ih (j + 1) (by rw [hxj]; push_cast; ring) (by push_cast; linarith) (by
      rw [add_sub_right_comm]
      refine (norm_add_le _ _).trans ((add_le_add hyj o1).trans (le_of_eq ?_))
      push_cast; ring)
    push_cast at hi ⊢
    calc ‖z - yj - (((s : ℝ) + 2) * h) • f x y‖
        = ‖(z - (yj + d) - (((s : ℝ) + 1) * h) • f x y) + (d - h • f x y)‖ := by
          congr 1
          have : (((s : ℝ) + 2) * h) = (((s : ℝ) + 1) * h) + h := by ring
          rw [this, add_smul]; abel
      _ ≤ _ := (norm_add_le _ _).trans (add_le_add hi o2)
      _ = _ := by ring

/-- The exact solution is Lipschitz continuous. -/
theorem solution_lipschitz {f : ℝ → (Fin N → ℝ) → Fin N → ℝ} {φ : ℝ → Fin N → ℝ}
    {a b ρ B Λ M : ℝ} (hf : LipschitzNear f φ a b ρ B Λ M) (hφ : SolvesOn f φ a b) (hρ : 0 ≤ ρ)
    {x t : ℝ} (hx : x ∈ Set.Icc a b) (ht : t ∈ Set.Icc a b) : ‖φ t - φ x‖ ≤ B * |t - x| := by
  have := (convex_Icc a b).norm_image_sub_le_of_norm_hasDerivWithin_le (f := φ)
    (f' := fun t => f t (φ t)) (C := B) hφ
    (fun t ht => hf.bound _ _ ⟨ht, by simpa using hρ⟩) hx ht
  simpa using this

/-- The exact solution in comparison with its tangent. -/
theorem solution_tangent {f : ℝ → (Fin N → ℝ) → Fin N → ℝ} {φ : ℝ → Fin N → ℝ}
    {a b ρ B Λ M : ℝ} (hf : LipschitzNear f φ a b ρ B Λ M) (hφ : SolvesOn f φ a b) (hρ : 0 ≤ ρ)
    (hΛ : 0 ≤ Λ) (hM : 0 ≤ M) {x H : ℝ} (hax : a ≤ x) (hH : 0 ≤ H) (hxb : x + H ≤ b) :
    ‖φ (x + H) - φ x - H • f x (φ x)‖ ≤ (Λ * B + M) * H ^ 2 := by
  have hsub : Set.Icc x (x + H) ⊆ Set.Icc a b := Set.Icc_subset_Icc hax hxb
  have hx : x ∈ Set.Icc a b := hsub ⟨le_rfl, by linarith⟩
  have key := (convex_Icc x (x + H)).norm_image_sub_le_of_norm_hasDerivWithin_le
    (f := fun t => φ t - t • f x (φ x)) (f' := fun t => f t (φ t) - f x (φ x))
    (C := (Λ * B + M) * H) (x := x) (y := x + H) (by
      intro t ht
      have h1 := (hφ t (hsub ht)).mono hsub
      have h2 : HasDerivWithinAt (fun t : ℝ => t • f x (φ x)) ((1 : ℝ) • f x (φ x))
          (Set.Icc x (x + H)) t := (hasDerivWithinAt_id t _).smul_const _
      rw [one_smul] at h2
      exact h1.sub h2) (by
      intro t ht
      refine (hf.lipschitz t (φ t) x (φ x) ⟨hsub ht, by simpa using hρ⟩
        ⟨hx, by simpa using hρ⟩).trans ?_
      have h3 := solution_lipschitz hf hφ hρ hx (hsub ht)
      have h4 : |t - x| ≤ H := by rw [abs_le]; constructor <;> linarith [ht.1, ht.2]
      have hB : 0 ≤ B := (norm_nonneg _).trans (hf.bound x (φ x) ⟨hx, by simpa using hρ⟩)
      have h5 := h3.trans (mul_le_mul_of_nonneg_left h4 hB)
      have := mul_le_mul_of_nonneg_left h5 hΛ
      have := mul_le_mul_of_nonneg_left h4 hM
      linarith) ⟨le_rfl, by linarith⟩ ⟨by linarith, le_rfl⟩
  have e : (φ (x + H) - (x + H) • f x (φ x)) - (φ x - x • f x (φ x))
      = φ (x + H) - φ x - H • f x (φ x) := by rw [add_smul]; abel
  rw [e, add_sub_cancel_left, Real.norm_of_nonneg hH] at key
  refine key.trans (le_of_eq (by ring))

/-- One extrapolated step in comparison with the tangent at its start. -/
theorem step_tangent_upTo {J : Fin N → Fin N → ℝ} {f : ℝ → (Fin N → ℝ) → Fin N → ℝ}
    {inside : (Fin N → ℝ) → Prop} {φ : ℝ → Fin N → ℝ} {a b ρ B Λ M δ L d x : ℝ} {y z : Fin N → ℝ}
    {k : Nat} (hk : k ≤ 12)
    (hf : LipschitzUpTo f φ a b ρ B Λ M δ) (hδ : 0 ≤ δ) (hJ : RowsAtMost J L) (hL0 : 0 ≤ L)
    (hφx : ∀ t ∈ Set.Icc a b, ‖φ t - φ x‖ ≤ B * |t - x|)
    (hΛ : 0 ≤ Λ) (hM : 0 ≤ M) (hB : 0 ≤ B) (hρ : 0 ≤ ρ)
    (hd : 0 < d) (hL : d * L ≤ 1) (hax : a ≤ x) (hxb : x + d ≤ b)
    (hy : ‖y - φ x‖ ≤ ρ / 2) (hH : 3 * d * B ≤ ρ / 2)
    (hs : ExtrapolatedStep J f inside k x y d z) :
    ‖z - (y + d • f x y)‖ ≤ 205 * ((L * B + 2 * Λ * B + M) * d ^ 2 + δ * d) := by
  obtain ⟨r, hr, hz⟩ := hs
  have hrow : ∀ l, l ≤ k → ‖r l - (y + d • f x y)‖ ≤ (L * B + 2 * Λ * B + M) * d ^ 2 + δ * d := by
    intro l hl
    have h2 : (2 : ℝ) ≤ stepNumber l := by
      rw [← nSeq_eq_stepNumber]
      exact_mod_cast nSeq_ge_two l
    have hn0 : (0 : ℝ) < stepNumber l := by linarith
    have hh0 : 0 < d / (stepNumber l : ℝ) := div_pos hd hn0
    have hh2 : d / (stepNumber l : ℝ) ≤ d / 2 := by gcongr
    have hsd : (stepNumber l : ℝ) * (d / (stepNumber l : ℝ)) = d := by field_simp
    have := path_bounds hf hJ hL0 hΛ hM hB hρ hh0 (by nlinarith) hax hxb
      hφx hy hH (hr l hl) 0 (by simp)
      (by simp only [Nat.cast_zero, zero_add]; exact hsd.le) (by simp)
    rw [hsd, ← mul_assoc, hsd] at this
    rw [← sub_sub]
    refine this.trans ?_
    have h5 : 2 * L * B * (d / (stepNumber l : ℝ)) ≤ L * B * d := by
      have : 0 ≤ L * B := mul_nonneg hL0 hB
      nlinarith
    calc _ ≤ d * (L * B * d + (2 * Λ * B + M) * d + δ) := by gcongr
      _ = _ := by ring
  refine (pi_norm_le_iff_of_nonneg (by positivity)).2 fun i => ?_
  have := extrapolant_near_linear hd.ne' hk (fun l => r l i) ((y + d • f x y) i) 0
    ((L * B + 2 * Λ * B + M) * d ^ 2 + δ * d) (Or.inl rfl) (fun l hl => by
      rw [mul_zero, add_zero]
      exact (norm_le_pi_norm (r l - (y + d • f x y)) i).trans (hrow l hl))
  rw [Pi.sub_apply, hz i, Real.norm_eq_abs]
  simpa only [nSeq_eq_stepNumber] using this

theorem step_tangent {J : Fin N → Fin N → ℝ} {f : ℝ → (Fin N → ℝ) → Fin N → ℝ}
    {inside : (Fin N → ℝ) → Prop} {φ : ℝ → Fin N → ℝ} {a b ρ B Λ M L d x : ℝ} {y z : Fin N → ℝ}
    {k : Nat} (hk : k ≤ 12)
    (hf : LipschitzNear f φ a b ρ B Λ M) (hJ : RowsAtMost J L) (hL0 : 0 ≤ L)
    (hφx : ∀ t ∈ Set.Icc a b, ‖φ t - φ x‖ ≤ B * |t - x|)
    (hΛ : 0 ≤ Λ) (hM : 0 ≤ M) (hB : 0 ≤ B) (hρ : 0 ≤ ρ)
    (hd : 0 < d) (hL : d * L ≤ 1) (hax : a ≤ x) (hxb : x + d ≤ b)
    (hy : ‖y - φ x‖ ≤ ρ / 2) (hH : 3 * d * B ≤ ρ / 2)
    (hs : ExtrapolatedStep J f inside k x y d z) :
    ‖z - (y + d • f x y)‖ ≤ 205 * ((L * B + 2 * Λ * B + M) * d ^ 2) := by
  simpa using step_tangent_upTo hk (upTo_zero hf) le_rfl hJ hL0 hφx hΛ hM hB hρ hd hL hax hxb hy hH hs

/-- One extrapolated step in comparison with the exact solution. -/
theorem step_error {J : Fin N → Fin N → ℝ} {f : ℝ → (Fin N → ℝ) → Fin N → ℝ}
    {inside : (Fin N → ℝ) → Prop} {φ : ℝ → Fin N → ℝ} {a b ρ B Λ M L d x e : ℝ} {y z : Fin N → ℝ}
    {k : Nat} (hk : k ≤ 12)
    (hf : LipschitzNear f φ a b ρ B Λ M) (hφ : SolvesOn f φ a b) (hJ : RowsAtMost J L) (hL0 : 0 ≤ L)
    (hΛ : 0 ≤ Λ) (hM : 0 ≤ M) (hB : 0 ≤ B)
    (hd : 0 < d) (hL : d * L ≤ 1) (hax : a ≤ x) (hxb : x + d ≤ b)
    (hy : ‖y - φ x‖ ≤ e) (he : e ≤ ρ / 2) (hH : 3 * d * B ≤ ρ / 2)
    (hs : ExtrapolatedStep J f inside k x y d z) :
    ‖z - φ (x + d)‖ ≤ e * (1 + Λ * d)
      + (205 * (L * B + 2 * Λ * B + M) + (Λ * B + M)) * d ^ 2 := by
  have he0 : 0 ≤ e := (norm_nonneg _).trans hy
  have hρ : 0 ≤ ρ := by linarith
  have h1 := step_tangent hk hf hJ hL0
    (fun t ht => solution_lipschitz hf hφ hρ ⟨hax, by linarith⟩ ht) hΛ hM hB hρ hd hL hax hxb (hy.trans he) hH hs
  have h2 := solution_tangent hf hφ hρ hΛ hM hax hd.le hxb
  have h3 : ‖f x y - f x (φ x)‖ ≤ Λ * e := by
    have := hf.lipschitz x y x (φ x) ⟨⟨hax, by linarith⟩, by linarith⟩
      ⟨⟨hax, by linarith⟩, by simpa using hρ⟩
    rw [sub_self, abs_zero, mul_zero, add_zero] at this
    exact this.trans (mul_le_mul_of_nonneg_left hy hΛ)
  calc ‖z - φ (x + d)‖
      = ‖(z - (y + d • f x y)) - (φ (x + d) - φ x - d • f x (φ x)) + (y - φ x)
          + d • (f x y - f x (φ x))‖ := by congr 1; rw [smul_sub]; abel
    _ ≤ 205 * ((L * B + 2 * Λ * B + M) * d ^ 2) + (Λ * B + M) * d ^ 2 + e + d * (Λ * e) := by
        refine (norm_add_le _ _).trans (add_le_add ((norm_add_le _ _).trans
          (add_le_add ((norm_sub_le _ _).trans (add_le_add h1 h2)) hy)) ?_)
        rw [norm_smul, Real.norm_of_nonneg hd.le]
        exact mul_le_mul_of_nonneg_left h3 hd.le
    _ = _ := by ring

/-- One extrapolated step with a right-hand side `g` in comparison with the exact solution for `f`, if
the two differ by at most `δ`. -/
theorem step_error_perturbed {J : Fin N → Fin N → ℝ} {f g : ℝ → (Fin N → ℝ) → Fin N → ℝ}
    {inside : (Fin N → ℝ) → Prop} {φ : ℝ → Fin N → ℝ} {a b ρ B Λ M δ L d x e : ℝ} {y z : Fin N → ℝ}
    {k : Nat} (hk : k ≤ 12)
    (hf : LipschitzNear f φ a b ρ B Λ M) (hφ : SolvesOn f φ a b)
    (hg : ∀ t z, Near φ a b ρ t z → ‖g t z - f t z‖ ≤ δ) (hδ : 0 ≤ δ)
    (hJ : RowsAtMost J L) (hL0 : 0 ≤ L)
    (hΛ : 0 ≤ Λ) (hM : 0 ≤ M) (hB : 0 ≤ B)
    (hd : 0 < d) (hL : d * L ≤ 1) (hax : a ≤ x) (hxb : x + d ≤ b)
    (hy : ‖y - φ x‖ ≤ e) (he : e ≤ ρ / 2) (hH : 3 * d * (B + δ) ≤ ρ / 2)
    (hs : ExtrapolatedStep J g inside k x y d z) :
    ‖z - φ (x + d)‖ ≤ e * (1 + Λ * d)
      + (205 * (L * (B + δ) + 2 * Λ * (B + δ) + M) + (Λ * B + M)) * d ^ 2 + 411 * δ * d := by
  have he0 : 0 ≤ e := (norm_nonneg _).trans hy
  have hρ : 0 ≤ ρ := by linarith
  have hx : x ∈ Set.Icc a b := ⟨hax, by linarith⟩
  have hG : LipschitzUpTo g φ a b ρ (B + δ) Λ M (2 * δ) := by
    refine ⟨fun t z hz => ?_, fun t z t' z' hz hz' => ?_⟩
    · calc ‖g t z‖ = ‖f t z + (g t z - f t z)‖ := by rw [add_sub_cancel]
        _ ≤ _ := (norm_add_le _ _).trans (add_le_add (hf.bound t z hz) (hg t z hz))
    · calc ‖g t z - g t' z'‖ = ‖(f t z - f t' z') + (g t z - f t z) - (g t' z' - f t' z')‖ := by
            congr 1; abel
        _ ≤ (Λ * ‖z - z'‖ + M * |t - t'|) + δ + δ :=
            (norm_sub_le _ _).trans (add_le_add ((norm_add_le _ _).trans (add_le_add
              (hf.lipschitz t z t' z' hz hz') (hg t z hz))) (hg t' z' hz'))
        _ = _ := by ring
  have h1 := step_tangent_upTo hk hG (by positivity) hJ hL0
    (fun t ht => (solution_lipschitz hf hφ hρ hx ht).trans
      (mul_le_mul_of_nonneg_right (by linarith) (abs_nonneg _))) hΛ hM (by positivity) hρ hd hL hax hxb
    (hy.trans he) hH hs
  have h2 := solution_tangent hf hφ hρ hΛ hM hax hd.le hxb
  have hN : Near φ a b ρ x y := ⟨hx, by linarith⟩
  have h3 : ‖g x y - f x (φ x)‖ ≤ Λ * e + δ := by
    have := hf.lipschitz x y x (φ x) hN ⟨hx, by simpa using hρ⟩
    rw [sub_self, abs_zero, mul_zero, add_zero] at this
    calc ‖g x y - f x (φ x)‖ = ‖(f x y - f x (φ x)) + (g x y - f x y)‖ := by congr 1; abel
      _ ≤ _ := (norm_add_le _ _).trans (add_le_add
        (this.trans (mul_le_mul_of_nonneg_left hy hΛ)) (hg x y hN))
  calc ‖z - φ (x + d)‖
      = ‖(z - (y + d • g x y)) - (φ (x + d) - φ x - d • f x (φ x)) + (y - φ x)
          + d • (g x y - f x (φ x))‖ := by congr 1; rw [smul_sub]; abel
    _ ≤ 205 * ((L * (B + δ) + 2 * Λ * (B + δ) + M) * d ^ 2 + 2 * δ * d) + (Λ * B + M) * d ^ 2 + e
          + d * (Λ * e + δ) := by
        refine (norm_add_le _ _).trans (add_le_add ((norm_add_le _ _).trans
          (add_le_add ((norm_sub_le _ _).trans (add_le_add h1 h2)) hy)) ?_)
        rw [norm_smul, Real.norm_of_nonneg hd.le]
        exact mul_le_mul_of_nonneg_left h3 hd.le
    _ = _ := by ring

theorem chain_lt {A : Type} {R : ℝ × A → ℝ × A → Prop} (hR : ∀ p q, R p q → p.1 < q.1)
    {p q : ℝ × A} (h : Chain R p q) : p.1 < q.1 := by
  induction h with
  | one h => exact hR _ _ h
  | cons h t ih => exact (hR _ _ h).trans ih

/-- Accumulation of errors: if every step multiplies the error by at most `1 + G d` and adds at most
`C H d`, as long as the error is at most `ρ / 2`. -/
theorem chain_error {A : Type} {R : ℝ × A → ℝ × A → Prop} {err : ℝ × A → ℝ} {b ρ C G H : ℝ}
    (hC : 0 ≤ C) (hG : 0 ≤ G) (hH0 : 0 ≤ H)
    (hlt : ∀ p q, R p q → p.1 < q.1) {start : ℝ}
    (hR : ∀ p q e, R p q → start ≤ p.1 → q.1 ≤ b → 0 ≤ e → err p ≤ e → e ≤ ρ / 2 →
      err q ≤ e * (1 + G * (q.1 - p.1)) + C * H * (q.1 - p.1))
    {p q : ℝ × A} (h : Chain R p q) :
    ∀ e, start ≤ p.1 → q.1 ≤ b → 0 ≤ e → err p ≤ e →
      Real.exp (G * (b - p.1)) * (e + C * H * (b - p.1)) ≤ ρ / 2 →
      err q ≤ Real.exp (G * (q.1 - p.1)) * (e + C * H * (q.1 - p.1)) := by
  have hCH : 0 ≤ C * H := mul_nonneg hC hH0
  have small : ∀ (d e : ℝ), 0 ≤ d → 0 ≤ e →
      e * (1 + G * d) + C * H * d ≤ Real.exp (G * d) * (e + C * H * d) := by
    intro d e hd he
    have h1 : 1 + G * d ≤ Real.exp (G * d) := by rw [add_comm]; exact Real.add_one_le_exp _
    have h2 : 1 ≤ Real.exp (G * d) := Real.one_le_exp (mul_nonneg hG hd)
    have h3 : 0 ≤ C * H * d := mul_nonneg hCH hd
    nlinarith [mul_le_mul_of_nonneg_left h1 he, mul_le_mul_of_nonneg_left h2 h3]
  have within : ∀ (d e : ℝ), 0 ≤ d → 0 ≤ e → e ≤ Real.exp (G * d) * (e + C * H * d) := by
    intro d e hd he
    have h2 : 1 ≤ Real.exp (G * d) := Real.one_le_exp (mul_nonneg hG hd)
    have h3 : 0 ≤ C * H * d := mul_nonneg hCH hd
    nlinarith
  induction h with
  | @one p q h =>
    intro e hs hb he0 he hsm
    have hpq := hlt _ _ h
    exact (hR _ _ _ h hs hb he0 he ((within _ _ (by linarith) he0).trans hsm)).trans
      (small _ _ (by linarith) he0)
  | @cons p q r h t ih =>
    intro e hs hb he0 he hsm
    have hpq := hlt _ _ h
    have hqr := chain_lt hlt t
    have hq := (hR _ _ _ h hs (by linarith) he0 he ((within _ _ (by linarith) he0).trans hsm)).trans
      (small _ _ (by linarith) he0)
    have hd0 : 0 ≤ q.1 - p.1 := by linarith
    have grow : ∀ w, q.1 ≤ w →
        Real.exp (G * (w - q.1)) * (Real.exp (G * (q.1 - p.1)) * (e + C * H * (q.1 - p.1))
          + C * H * (w - q.1)) ≤ Real.exp (G * (w - p.1)) * (e + C * H * (w - p.1)) := by
      intro w hw
      have h1 : Real.exp (G * (w - p.1)) = Real.exp (G * (w - q.1)) * Real.exp (G * (q.1 - p.1)) := by
        rw [← Real.exp_add]; congr 1; ring
      rw [h1, mul_assoc (Real.exp (G * (w - q.1)))]
      refine mul_le_mul_of_nonneg_left ?_ (Real.exp_pos _).le
      have h2 : 1 ≤ Real.exp (G * (q.1 - p.1)) := Real.one_le_exp (mul_nonneg hG hd0)
      have h3 : 0 ≤ C * H * (w - q.1) := mul_nonneg hCH (by linarith)
      nlinarith
    exact (ih _ (by linarith) hb (by positivity) hq ((grow b (by linarith)).trans hsm)).trans
      (grow r.1 hqr.le)

/-! ### Second order -/

/-- One sub-step up to terms of third order. -/
theorem substep_second {J : Fin N → Fin N → ℝ} {f : ℝ → (Fin N → ℝ) → Fin N → ℝ}
    {D : ℝ → (Fin N → ℝ) → (Fin N → ℝ) →ₗ[ℝ] (Fin N → ℝ)} {g : ℝ → (Fin N → ℝ) → Fin N → ℝ}
    {φ : ℝ → Fin N → ℝ} {a b ρ B Λ M L Λ₂ Q h H x : ℝ} {y : Fin N → ℝ}
    (hf : LipschitzNear f φ a b ρ B Λ M) (hD : SmoothNear f D g φ a b ρ Λ Λ₂ Q)
    (hJ : RowsAtMost J L) (hL0 : 0 ≤ L)
    (hΛ : 0 ≤ Λ) (hM : 0 ≤ M) (hB : 0 ≤ B) (hρ : 0 ≤ ρ) (hQ : 0 ≤ Q)
    (hh : 0 < h) (hhH : h ≤ H / 2) (hL : h * L ≤ 1 / 2) (hax : a ≤ x) (hxb : x + H ≤ b)
    (hφx : ∀ t ∈ Set.Icc a b, ‖φ t - φ x‖ ≤ B * |t - x|)
    (hy : ‖y - φ x‖ ≤ ρ / 2) (hH : 3 * H * B ≤ ρ / 2) (j : Nat) (xj : ℝ) (yj d : Fin N → ℝ)
    (hxj : xj = x + j * h) (hjH : (j + 1) * h ≤ H) (hyj : ‖yj - y‖ ≤ 2 * (j * h) * B)
    (hyj2 : ‖yj - y - (j * h) • f x y‖ ≤ j * h * ((L * B + 2 * Λ * B + M) * H))
    (hd : EulerIncrement J f h xj yj d) :
    ‖d - (h • f x y + (j * h ^ 2) • D x y (f x y) + ((j + 1) * h ^ 2) • g x y
        + h ^ 2 • (fun i => ∑ k, J i k * f x y k))‖
      ≤ h * ((Q * (2 * B + 1) ^ 2 + (Λ + L) * (L * B + 2 * Λ * B + M)) * H ^ 2) := by
  obtain ⟨n1, n2, n3, n4, -, n6⟩ := substep_bounds (upTo_zero hf) hJ hL0 hΛ hM hB hρ hh hL hax hxb hφx hy hH
    j xj yj d hxj hjH hyj hd
  rw [add_zero] at n6
  have hj0 : (0 : ℝ) ≤ j := Nat.cast_nonneg j
  have hjh : (j : ℝ) * h ≤ H := by nlinarith
  have hH0 : 0 ≤ H := (mul_nonneg hj0 hh.le).trans hjh
  have hC : 0 ≤ L * B + 2 * Λ * B + M := by positivity
  have t1 : ‖f (xj + h) yj - f x y - D x y (yj - y) - (xj + h - x) • g x y‖
      ≤ Q * (2 * B + 1) ^ 2 * H ^ 2 := by
    refine (hD.taylor x y (xj + h) yj n1 n2).trans ?_
    calc Q * (‖yj - y‖ + |xj + h - x|) ^ 2 ≤ Q * (2 * H * B + H) ^ 2 := by gcongr
      _ = _ := by ring
  have t2 : ‖D x y (yj - y - (j * h) • f x y)‖ ≤ Λ * (L * B + 2 * Λ * B + M) * H ^ 2 := by
    refine (hD.derivative x y _ n1).trans ?_
    calc Λ * ‖yj - y - (j * h) • f x y‖
        ≤ Λ * (H * ((L * B + 2 * Λ * B + M) * H)) :=
          mul_le_mul_of_nonneg_left (hyj2.trans (by gcongr)) hΛ
      _ = _ := by ring
  have t3 : ‖(fun i => ∑ k, J i k * (d - h • f x y) k)‖ ≤ L * (L * B + 2 * Λ * B + M) * H ^ 2 := by
    refine (pi_norm_le_iff_of_nonneg (by positivity)).2 fun i => (mulVec_le hJ _ i).trans ?_
    have : ‖d - h • f x y‖ ≤ H * ((L * B + 2 * Λ * B + M) * H) := by
      refine n6.trans ?_
      have h5 : 2 * L * B * h ≤ L * B * H := by
        have : 0 ≤ L * B := mul_nonneg hL0 hB
        nlinarith
      have h6 : 2 * L * B * h + (2 * Λ * B + M) * H ≤ (L * B + 2 * Λ * B + M) * H := by linarith
      have : h ≤ H := by linarith
      gcongr
    calc L * ‖d - h • f x y‖ ≤ L * (H * ((L * B + 2 * Λ * B + M) * H)) := by gcongr
      _ = _ := by ring
  have e : d - (h • f x y + (j * h ^ 2) • D x y (f x y) + ((j + 1) * h ^ 2) • g x y
        + h ^ 2 • (fun i => ∑ k, J i k * f x y k))
      = h • ((f (xj + h) yj - f x y - D x y (yj - y) - (xj + h - x) • g x y)
        + D x y (yj - y - (j * h) • f x y) + (fun i => ∑ k, J i k * (d - h • f x y) k)) := by
    have e1 := increment_eq hh hd
    have e2 : (fun i => ∑ k, J i k * (d - h • f x y) k)
        = (fun i => ∑ k, J i k * d k) - h • (fun i => ∑ k, J i k * f x y k) := by
      funext i
      simp only [Pi.sub_apply, Pi.smul_apply, smul_eq_mul, Finset.mul_sum]
      rw [← Finset.sum_sub_distrib]
      exact Finset.sum_congr rfl fun k _ => by ring
    have e3 : D x y (yj - y - (j * h) • f x y) = D x y (yj - y) - (j * h) • D x y (f x y) := by
      rw [map_sub, map_smul]
    rw [e2, e3, hxj]
    conv_lhs => rw [e1]
    funext i
    simp only [Pi.add_apply, Pi.sub_apply, Pi.smul_apply, smul_eq_mul, hxj]
    ring
  rw [e, norm_smul, Real.norm_of_nonneg hh.le]
  refine mul_le_mul_of_nonneg_left ?_ hh.le
  refine (norm_add_le _ _).trans ((add_le_add ((norm_add_le _ _).trans (add_le_add t1 t2)) t3).trans
    (le_of_eq ?_))
  ring

/-- A path up to terms of third order. -/
theorem path_second {J : Fin N → Fin N → ℝ} {f : ℝ → (Fin N → ℝ) → Fin N → ℝ}
    {D : ℝ → (Fin N → ℝ) → (Fin N → ℝ) →ₗ[ℝ] (Fin N → ℝ)} {g : ℝ → (Fin N → ℝ) → Fin N → ℝ}
    {inside : (Fin N → ℝ) → Prop}
    {φ : ℝ → Fin N → ℝ} {a b ρ B Λ M L Λ₂ Q h H x : ℝ} {y : Fin N → ℝ}
    (hf : LipschitzNear f φ a b ρ B Λ M) (hD : SmoothNear f D g φ a b ρ Λ Λ₂ Q)
    (hJ : RowsAtMost J L) (hL0 : 0 ≤ L)
    (hΛ : 0 ≤ Λ) (hM : 0 ≤ M) (hB : 0 ≤ B) (hρ : 0 ≤ ρ) (hQ : 0 ≤ Q)
    (hh : 0 < h) (hhH : h ≤ H / 2) (hL : h * L ≤ 1 / 2) (hax : a ≤ x) (hxb : x + H ≤ b)
    (hφx : ∀ t ∈ Set.Icc a b, ‖φ t - φ x‖ ≤ B * |t - x|)
    (hy : ‖y - φ x‖ ≤ ρ / 2) (hH : 3 * H * B ≤ ρ / 2) {s : Nat} {xj : ℝ} {yj z : Fin N → ℝ}
    (hp : EulerPath J f inside h s xj yj z) :
    ∀ j : Nat, xj = x + j * h → (j + s) * h ≤ H → ‖yj - y‖ ≤ 2 * (j * h) * B →
      ‖yj - y - (j * h) • f x y‖ ≤ j * h * ((L * B + 2 * Λ * B + M) * H) →
      ‖z - yj - ((s * h) • f x y + ((s * j + s * (s - 1) / 2) * h ^ 2) • D x y (f x y)
          + ((s * j + s * (s + 1) / 2) * h ^ 2) • g x y
          + (s * h ^ 2) • (fun i => ∑ k, J i k * f x y k))‖
        ≤ s * (h * ((Q * (2 * B + 1) ^ 2 + (Λ + L) * (L * B + 2 * Λ * B + M)) * H ^ 2)) := by
  induction hp with
  | @one xj yj d hd =>
    intro j hxj hjH hyj hyj2
    have := substep_second hf hD hJ hL0 hΛ hM hB hρ hQ hh hhH hL hax hxb hφx hy hH j xj yj d hxj
      (by exact_mod_cast hjH) hyj hyj2 hd
    have e : (fun i => yj i + d i) - yj = d := by funext i; simp
    rw [e]
    simp only [Nat.cast_one, one_mul, sub_self, mul_zero, zero_div, add_zero]
    norm_num
    exact this
  | @step s xj yj d z hd hin hrest ih =>
    intro j hxj hjH hyj hyj2
    have hs0 : (0 : ℝ) ≤ s := Nat.cast_nonneg s
    push_cast at hjH
    have hjH1 : ((j : ℝ) + 1) * h ≤ H := by nlinarith
    have o := substep_second hf hD hJ hL0 hΛ hM hB hρ hQ hh hhH hL hax hxb hφx hy hH j xj yj d hxj
      hjH1 hyj hyj2 hd
    obtain ⟨-, -, -, -, o1, o2⟩ := substep_bounds (upTo_zero hf) hJ hL0 hΛ hM hB hρ hh hL hax hxb
      hφx hy hH j xj yj d hxj hjH1 hyj hd
    rw [add_zero] at o2
    have e : (fun i => yj i + d i) = yj + d := by funext i; simp
    rw [e] at ih
    have hi := ih (j + 1) (by rw [hxj]; push_cast; ring) (by push_cast; linarith) (by
      rw [add_sub_right_comm]
      refine (norm_add_le _ _).trans ((add_le_add hyj o1).trans (le_of_eq ?_))
      push_cast; ring) (by
      have e : yj + d - y - (((j + 1 : ℕ) : ℝ) * h) • f x y
          = (yj - y - (j * h) • f x y) + (d - h • f x y) := by
        push_cast; rw [add_mul, one_mul, add_smul]; abel
      rw [e]
      have h5 : 2 * L * B * h ≤ L * B * H := by
        have : 0 ≤ L * B := mul_nonneg hL0 hB
        nlinarith
      have h6 : 2 * L * B * h + (2 * Λ * B + M) * H ≤ (L * B + 2 * Λ * B + M) * H := by linarith
      refine (norm_add_le _ _).trans ((add_le_add hyj2 (o2.trans
        (mul_le_mul_of_nonneg_left h6 hh.le))).trans (le_of_eq ?_))
      push_cast; ring)
    push_cast at hi ⊢
    refine le_trans (le_of_eq ?_) ((norm_add_le _ _).trans ((add_le_add hi o).trans (le_of_eq ?_)))
    · congr 1
      funext i
      simp only [Pi.add_apply, Pi.sub_apply, Pi.smul_apply, smul_eq_mul]
      ring
    · ring

/-- The exact solution up to terms of third order. -/
theorem solution_second {f : ℝ → (Fin N → ℝ) → Fin N → ℝ}
    {D : ℝ → (Fin N → ℝ) → (Fin N → ℝ) →ₗ[ℝ] (Fin N → ℝ)} {g : ℝ → (Fin N → ℝ) → Fin N → ℝ}
    {φ : ℝ → Fin N → ℝ} {a b ρ B Λ M Λ₂ Q : ℝ} (hf : LipschitzNear f φ a b ρ B Λ M)
    (hD : SmoothNear f D g φ a b ρ Λ Λ₂ Q) (hφ : SolvesOn f φ a b) (hρ : 0 ≤ ρ)
    (hΛ : 0 ≤ Λ) (hM : 0 ≤ M) (hQ : 0 ≤ Q) {x H : ℝ} (hax : a ≤ x) (hH : 0 ≤ H) (hxb : x + H ≤ b) :
    ‖φ (x + H) - φ x - (H • f x (φ x) + (H ^ 2 / 2) • (D x (φ x) (f x (φ x)) + g x (φ x)))‖
      ≤ (Q * (B + 1) ^ 2 + Λ * (Λ * B + M)) * H ^ 3 := by
  have hsub : Set.Icc x (x + H) ⊆ Set.Icc a b := Set.Icc_subset_Icc hax hxb
  have hx : x ∈ Set.Icc a b := hsub ⟨le_rfl, by linarith⟩
  have near : ∀ t ∈ Set.Icc a b, Near φ a b ρ t (φ t) := fun t ht => ⟨ht, by simpa using hρ⟩
  have hB : 0 ≤ B := (norm_nonneg _).trans (hf.bound x (φ x) (near x hx))
  set f0 := f x (φ x) with hf0
  set w := D x (φ x) f0 + g x (φ x) with hw
  have key := (convex_Icc x (x + H)).norm_image_sub_le_of_norm_hasDerivWithin_le
    (f := fun t => φ t - (t • f0 + ((t - x) ^ 2 / 2) • w))
    (f' := fun t => f t (φ t) - (f0 + (t - x) • w))
    (C := (Q * (B + 1) ^ 2 + Λ * (Λ * B + M)) * H ^ 2) (x := x) (y := x + H) (by
      intro t ht
      have h1 := (hφ t (hsub ht)).mono hsub
      have h2 : HasDerivWithinAt (fun t : ℝ => t • f0) ((1 : ℝ) • f0)
          (Set.Icc x (x + H)) t := (hasDerivWithinAt_id t _).smul_const _
      rw [one_smul] at h2
      have h3 : HasDerivAt (fun t : ℝ => (t - x) ^ 2 / 2) (t - x) t := by
        have h := (((hasDerivAt_id t).sub_const x).pow 2).div_const 2
        have e : (↑2 * (id t - x) ^ (2 - 1) * 1 : ℝ) / 2 = t - x := by simp
        simp only [Nat.cast_ofNat] at h
        rw [e] at h
        exact h
      exact h1.sub (h2.add (h3.hasDerivWithinAt.smul_const w))) (by
      intro t ht
      have h4 : |t - x| ≤ H := by rw [abs_le]; constructor <;> linarith [ht.1, ht.2]
      have h5 := (solution_lipschitz hf hφ hρ hx (hsub ht)).trans
        (mul_le_mul_of_nonneg_left h4 hB)
      have h6 := solution_tangent hf hφ hρ hΛ hM hax (H := t - x) (by linarith [ht.1])
        (by linarith [(hsub ht).2])
      rw [add_sub_cancel] at h6
      have h7 := hD.taylor x (φ x) t (φ t) (near x hx) (near t (hsub ht))
      have h8 := hD.derivative x (φ x) (φ t - φ x - (t - x) • f0) (near x hx)
      have e : f t (φ t) - (f0 + (t - x) • w)
          = (f t (φ t) - f x (φ x) - D x (φ x) (φ t - φ x) - (t - x) • g x (φ x))
            + D x (φ x) (φ t - φ x - (t - x) • f0) := by
        simp only [map_sub, map_smul, hw, smul_add, hf0]; abel
      rw [e]
      refine (norm_add_le _ _).trans ((add_le_add h7 (h8.trans
        (mul_le_mul_of_nonneg_left h6 hΛ))).trans ?_)
      have h9 : (t - x) ^ 2 ≤ H ^ 2 := by
        rw [← sq_abs]; gcongr
      have h10 : Q * (‖φ t - φ x‖ + |t - x|) ^ 2 ≤ Q * (B * H + H) ^ 2 := by gcongr
      have h11 : Λ * ((Λ * B + M) * (t - x) ^ 2) ≤ Λ * ((Λ * B + M) * H ^ 2) := by gcongr
      calc _ ≤ Q * (B * H + H) ^ 2 + Λ * ((Λ * B + M) * H ^ 2) := add_le_add h10 h11
        _ = _ := by ring) ⟨le_rfl, by linarith⟩ ⟨by linarith, le_rfl⟩
  have e : (φ (x + H) - ((x + H) • f0 + ((x + H - x) ^ 2 / 2) • w))
      - (φ x - (x • f0 + ((x - x) ^ 2 / 2) • w))
      = φ (x + H) - φ x - (H • f0 + (H ^ 2 / 2) • w) := by
    rw [add_sub_cancel_left, sub_self, add_smul]
    simp only [ne_eq, OfNat.ofNat_ne_zero, not_false_eq_true, zero_pow, zero_div, zero_smul, add_zero]
    abel
  rw [e, add_sub_cancel_left, Real.norm_of_nonneg hH] at key
  exact key.trans (le_of_eq (by ring))

/-- One extrapolated step up to terms of third order: the contribution of the first order in the
size of the sub-steps, which depends on the matrix, is removed by the extrapolation. -/
theorem step_second {J : Fin N → Fin N → ℝ} {f : ℝ → (Fin N → ℝ) → Fin N → ℝ}
    {D : ℝ → (Fin N → ℝ) → (Fin N → ℝ) →ₗ[ℝ] (Fin N → ℝ)} {g : ℝ → (Fin N → ℝ) → Fin N → ℝ}
    {inside : (Fin N → ℝ) → Prop} {φ : ℝ → Fin N → ℝ} {a b ρ B Λ M Λ₂ Q L d x : ℝ} {y z : Fin N → ℝ}
    {k : Nat} (hk1 : 1 ≤ k) (hk : k ≤ 12)
    (hf : LipschitzNear f φ a b ρ B Λ M) (hD : SmoothNear f D g φ a b ρ Λ Λ₂ Q)
    (hφ : SolvesOn f φ a b) (hJ : RowsAtMost J L) (hL0 : 0 ≤ L)
    (hΛ : 0 ≤ Λ) (hM : 0 ≤ M) (hB : 0 ≤ B) (hρ : 0 ≤ ρ) (hQ : 0 ≤ Q)
    (hd : 0 < d) (hL : d * L ≤ 1) (hax : a ≤ x) (hxb : x + d ≤ b)
    (hy : ‖y - φ x‖ ≤ ρ / 2) (hH : 3 * d * B ≤ ρ / 2)
    (hs : ExtrapolatedStep J f inside k x y d z) :
    ‖z - (y + (d • f x y + (d ^ 2 / 2) • (D x y (f x y) + g x y)))‖
      ≤ 205 * ((Q * (2 * B + 1) ^ 2 + (Λ + L) * (L * B + 2 * Λ * B + M)) * d ^ 3) := by
  obtain ⟨r, hr, hz⟩ := hs
  set v := (fun i => ∑ k, J i k * f x y k) with hv
  have hrow : ∀ l, l ≤ k → ‖r l - (y + (d • f x y + (d ^ 2 / 2) • (D x y (f x y) + g x y))
      + (d / (stepNumber l : ℝ)) • (d • ((-(1 / 2) : ℝ) • D x y (f x y) + (1 / 2 : ℝ) • g x y + v)))‖
      ≤ (Q * (2 * B + 1) ^ 2 + (Λ + L) * (L * B + 2 * Λ * B + M)) * d ^ 3 := by
    intro l hl
    have h2 : (2 : ℝ) ≤ stepNumber l := by
      rw [← nSeq_eq_stepNumber]
      exact_mod_cast nSeq_ge_two l
    have hn0 : (0 : ℝ) < stepNumber l := by linarith
    have hh0 : 0 < d / (stepNumber l : ℝ) := div_pos hd hn0
    have hh2 : d / (stepNumber l : ℝ) ≤ d / 2 := by gcongr
    have hsd : (stepNumber l : ℝ) * (d / (stepNumber l : ℝ)) = d := by field_simp
    have := path_second hf hD hJ hL0 hΛ hM hB hρ hQ hh0 hh2 (by nlinarith) hax hxb
      (fun t ht => solution_lipschitz hf hφ hρ ⟨hax, by linarith⟩ ht) hy hH (hr l hl) 0 (by simp)
      (by simp only [Nat.cast_zero, zero_add]; exact hsd.le) (by simp) (by simp)
    rw [← mul_assoc, hsd] at this
    refine le_trans (le_of_eq ?_) (this.trans (le_of_eq (by ring)))
    congr 1
    have q1 : ((stepNumber l : ℝ) * (stepNumber l - 1) / 2) * (d / (stepNumber l : ℝ)) ^ 2
        = d ^ 2 / 2 - d / (stepNumber l : ℝ) * d / 2 := by field_simp
    have q2 : ((stepNumber l : ℝ) * (stepNumber l + 1) / 2) * (d / (stepNumber l : ℝ)) ^ 2
        = d ^ 2 / 2 + d / (stepNumber l : ℝ) * d / 2 := by field_simp
    have q3 : (stepNumber l : ℝ) * (d / (stepNumber l : ℝ)) ^ 2
        = d / (stepNumber l : ℝ) * d := by field_simp
    simp only [Nat.cast_zero, mul_zero, zero_add]
    rw [q1, q2, q3]
    funext i
    simp only [Pi.add_apply, Pi.sub_apply, Pi.smul_apply, smul_eq_mul]
    ring
  have hC : 0 ≤ (Q * (2 * B + 1) ^ 2 + (Λ + L) * (L * B + 2 * Λ * B + M)) * d ^ 3 := by positivity
  refine (pi_norm_le_iff_of_nonneg (by positivity)).2 fun i => ?_
  have := extrapolant_near_linear hd.ne' hk (fun l => r l i)
    ((y + (d • f x y + (d ^ 2 / 2) • (D x y (f x y) + g x y))) i)
    ((d • ((-(1 / 2) : ℝ) • D x y (f x y) + (1 / 2 : ℝ) • g x y + v)) i)
    ((Q * (2 * B + 1) ^ 2 + (Λ + L) * (L * B + 2 * Λ * B + M)) * d ^ 3) (Or.inr hk1) (fun l hl => by
      rw [nSeq_eq_stepNumber]
      exact (norm_le_pi_norm (r l - _) i).trans (hrow l hl))
  rw [Pi.sub_apply, hz i, Real.norm_eq_abs]
  simpa only [nSeq_eq_stepNumber] using this

/-- One extrapolated step in comparison with the exact solution, to second order. -/
theorem step_error_second {J : Fin N → Fin N → ℝ} {f : ℝ → (Fin N → ℝ) → Fin N → ℝ}
    {D : ℝ → (Fin N → ℝ) → (Fin N → ℝ) →ₗ[ℝ] (Fin N → ℝ)} {g : ℝ → (Fin N → ℝ) → Fin N → ℝ}
    {inside : (Fin N → ℝ) → Prop} {φ : ℝ → Fin N → ℝ} {a b ρ B Λ M Λ₂ Q L d x e : ℝ}
    {y z : Fin N → ℝ} {k : Nat} (hk1 : 1 ≤ k) (hk : k ≤ 12)
    (hf : LipschitzNear f φ a b ρ B Λ M) (hD : SmoothNear f D g φ a b ρ Λ Λ₂ Q)
    (hφ : SolvesOn f φ a b) (hJ : RowsAtMost J L) (hL0 : 0 ≤ L)
    (hΛ : 0 ≤ Λ) (hM : 0 ≤ M) (hB : 0 ≤ B) (hΛ₂ : 0 ≤ Λ₂) (hQ : 0 ≤ Q)
    (hd : 0 < d) (hL : d * L ≤ 1) (hax : a ≤ x) (hxb : x + d ≤ b)
    (hy : ‖y - φ x‖ ≤ e) (he : e ≤ ρ / 2) (hH : 3 * d * B ≤ ρ / 2)
    (hs : ExtrapolatedStep J f inside k x y d z) :
    ‖z - φ (x + d)‖ ≤ e * (1 + (Λ + Λ₂ * d / 2) * d)
      + (205 * (Q * (2 * B + 1) ^ 2 + (Λ + L) * (L * B + 2 * Λ * B + M))
        + (Q * (B + 1) ^ 2 + Λ * (Λ * B + M))) * d ^ 3 := by
  have he0 : 0 ≤ e := (norm_nonneg _).trans hy
  have hρ : 0 ≤ ρ := by linarith
  have h1 := step_second hk1 hk hf hD hφ hJ hL0 hΛ hM hB hρ hQ hd hL hax hxb (hy.trans he) hH hs
  have h2 := solution_second hf hD hφ hρ hΛ hM hQ hax hd.le hxb
  have n1 : Near φ a b ρ x y := ⟨⟨hax, by linarith⟩, by linarith⟩
  have n2 : Near φ a b ρ x (φ x) := ⟨⟨hax, by linarith⟩, by simpa using hρ⟩
  have h3 : ‖f x y - f x (φ x)‖ ≤ Λ * e := by
    have := hf.lipschitz x y x (φ x) n1 n2
    rw [sub_self, abs_zero, mul_zero, add_zero] at this
    exact this.trans (mul_le_mul_of_nonneg_left hy hΛ)
  have h4 : ‖(D x y (f x y) + g x y) - (D x (φ x) (f x (φ x)) + g x (φ x))‖ ≤ Λ₂ * e :=
    (hD.second x y (φ x) n1 n2).trans (mul_le_mul_of_nonneg_left hy hΛ₂)
  calc ‖z - φ (x + d)‖
      = ‖(z - (y + (d • f x y + (d ^ 2 / 2) • (D x y (f x y) + g x y))))
          - (φ (x + d) - φ x - (d • f x (φ x)
            + (d ^ 2 / 2) • (D x (φ x) (f x (φ x)) + g x (φ x)))) + (y - φ x)
          + d • (f x y - f x (φ x))
          + (d ^ 2 / 2) • ((D x y (f x y) + g x y) - (D x (φ x) (f x (φ x)) + g x (φ x)))‖ := by
        congr 1
        funext i
        simp only [Pi.add_apply, Pi.sub_apply, Pi.smul_apply, smul_eq_mul]
        ring
    _ ≤ 205 * ((Q * (2 * B + 1) ^ 2 + (Λ + L) * (L * B + 2 * Λ * B + M)) * d ^ 3)
        + (Q * (B + 1) ^ 2 + Λ * (Λ * B + M)) * d ^ 3 + e + d * (Λ * e)
        + d ^ 2 / 2 * (Λ₂ * e) := by
        refine (norm_add_le _ _).trans (add_le_add ((norm_add_le _ _).trans (add_le_add
          ((norm_add_le _ _).trans (add_le_add ((norm_sub_le _ _).trans (add_le_add h1 h2)) hy))
          ?_)) ?_)
        · rw [norm_smul, Real.norm_of_nonneg hd.le]
          exact mul_le_mul_of_nonneg_left h3 hd.le
        · rw [norm_smul, Real.norm_of_nonneg (by positivity)]
          exact mul_le_mul_of_nonneg_left h4 (by positivity)
    _ = _ := by ring

end
end DLB
