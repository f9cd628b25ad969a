import Verif.Lemmas.Convergence
/-
The second order of a step (`step_error_second`) if the right-hand side that is integrated is not exactly that of the equations.
-/
set_option autoImplicit false
set_option linter.unusedSectionVars false

namespace DLB
open Spec

variable [MathOps ℝ]

section
variable {N : Nat}

/-- Near `φ`, `G` is Lipschitz continuous up to twice its distance from `f`. -/
theorem upTo_of_near {f G : ℝ → (Fin N → ℝ) → Fin N → ℝ} {φ : ℝ → Fin N → ℝ} {a b ρ B Λ M δ : ℝ} (hf : LipschitzNear f φ a b ρ B Λ M)
    (hG : ∀ t z, Near φ a b ρ t z → ‖G t z - f t z‖ ≤ δ) : LipschitzUpTo G φ a b ρ (B + δ) Λ M (2 * δ) := by
  refine ⟨fun t z hz => ?_, fun t z t' z' hz hz' => ?_⟩
  · calc ‖G t z‖ = ‖f t z + (G t z - f t z)‖ := by rw [add_sub_cancel]
      _ ≤ _ := (norm_add_le _ _).trans (add_le_add (hf.bound t z hz) (hG t z hz))
  · calc ‖G t z - G t' z'‖ = ‖(f t z - f t' z') + (G t z - f t z) - (G t' z' - f t' z')‖ := by
          congr 1; abel
      _ ≤ (Λ * ‖z - z'‖ + M * |t - t'|) + δ + δ :=
          (norm_sub_le _ _).trans (add_le_add ((norm_add_le _ _).trans (add_le_add
            (hf.lipschitz t z t' z' hz hz') (hG t z hz))) (hG t' z' hz'))
      _ = _ := by ring

/-- One sub-step up to terms of third order, and the distance of `G` from `f`. -/
theorem substep_second_perturbed {J : Fin N → Fin N → ℝ} {f G : ℝ → (Fin N → ℝ) → Fin N → ℝ}
    {D : ℝ → (Fin N → ℝ) → (Fin N → ℝ) →ₗ[ℝ] (Fin N → ℝ)} {g : ℝ → (Fin N → ℝ) → Fin N → ℝ}
    {φ : ℝ → Fin N → ℝ} {a b ρ B B' Λ M L Λ₂ Q δ h H x : ℝ} {y : Fin N → ℝ}
    (hf : LipschitzNear f φ a b ρ B Λ M) (hD : SmoothNear f D g φ a b ρ Λ Λ₂ Q)
    (hG : ∀ t z, Near φ a b ρ t z → ‖G t z - f t z‖ ≤ δ) (hδ : 0 ≤ δ) (hB' : B' = B + δ)
    (hJ : RowsAtMost J L) (hL0 : 0 ≤ L)
    (hΛ : 0 ≤ Λ) (hM : 0 ≤ M) (hB : 0 ≤ B) (hρ : 0 ≤ ρ) (hQ : 0 ≤ Q)
    (hh : 0 < h) (hhH : h ≤ H / 2) (hL : h * L ≤ 1 / 2) (hax : a ≤ x) (hxb : x + H ≤ b)
    (hφx : ∀ t ∈ Set.Icc a b, ‖φ t - φ x‖ ≤ B' * |t - x|)
    (hy : ‖y - φ x‖ ≤ ρ / 2) (hH : 3 * H * B' ≤ ρ / 2) (j : Nat) (xj : ℝ) (yj d : Fin N → ℝ)
    (hxj : xj = x + j * h) (hjH : (j + 1) * h ≤ H) (hyj : ‖yj - y‖ ≤ 2 * (j * h) * B')
    (hyj2 : ‖yj - y - (j * h) • f x y‖ ≤ j * h * ((L * B' + 2 * Λ * B' + M) * H + 3 * δ))
    (hd : EulerIncrement J G h xj yj d) :
    ‖d‖ ≤ 2 * h * B' ∧ ‖d - h • f x y‖ ≤ h * ((L * B' + 2 * Λ * B' + M) * H + 3 * δ) ∧
    ‖d - (h • f x y + (j * h ^ 2) • D x y (f x y) + ((j + 1) * h ^ 2) • g x y
        + h ^ 2 • (fun i => ∑ k, J i k * f x y k))‖
      ≤ h * ((Q * (2 * B' + 1) ^ 2 + (Λ + L) * (L * B' + 2 * Λ * B' + M)) * H ^ 2 + (1 + 3 * (Λ + L) * H) * δ) := by
  have hB0 : 0 ≤ B' := by rw [hB']; positivity
  have hU := upTo_of_near hf hG
  rw [← hB'] at hU
  obtain ⟨n1, n2, n3, n4, n5, n6⟩ := substep_bounds hU hJ hL0 hΛ hM hB0 hρ hh hL hax hxb hφx hy hH
    j xj yj d hxj hjH hyj hd
  have hj0 : (0 : ℝ) ≤ j := Nat.cast_nonneg j
  have hjh : (j : ℝ) * h ≤ H := by nlinarith
  have hH0 : 0 ≤ H := (mul_nonneg hj0 hh.le).trans hjh
  have hC : 0 ≤ L * B' + 2 * Λ * B' + M := by positivity
  have n7 : ‖d - h • f x y‖ ≤ h * ((L * B' + 2 * Λ * B' + M) * H + 3 * δ) := by
    have h5 : 2 * L * B' * h ≤ L * B' * H := by
      have : 0 ≤ L * B' := mul_nonneg hL0 hB0
      nlinarith
    calc ‖d - h • f x y‖ = ‖(d - h • G x y) + h • (G x y - f x y)‖ := by congr 1; rw [smul_sub]; abel
      _ ≤ h * (2 * L * B' * h + (2 * Λ * B' + M) * H + 2 * δ) + h * δ := by
          refine (norm_add_le _ _).trans (add_le_add n6 ?_)
          rw [norm_smul, Real.norm_of_nonneg hh.le]
          exact mul_le_mul_of_nonneg_left (hG x y n1) hh.le
      _ = h * (2 * L * B' * h + (2 * Λ * B' + M) * H + 3 * δ) := by ring
      _ ≤ _ := mul_le_mul_of_nonneg_left (by linarith) hh.le
  refine ⟨n5, n7, ?_⟩
  have t1 : ‖G (xj + h) yj - f x y - D x y (yj - y) - (xj + h - x) • g x y‖
      ≤ Q * (2 * B' + 1) ^ 2 * H ^ 2 + δ := by
    calc _ = ‖(f (xj + h) yj - f x y - D x y (yj - y) - (xj + h - x) • g x y) + (G (xj + h) yj - f (xj + h) yj)‖ := by congr 1; abel
      _ ≤ Q * (‖yj - y‖ + |xj + h - x|) ^ 2 + δ := (norm_add_le _ _).trans (add_le_add (hD.taylor x y (xj + h) yj n1 n2) (hG _ _ n2))
      _ ≤ Q * (2 * H * B' + H) ^ 2 + δ := by gcongr
      _ = _ := by ring
  have t2 : ‖D x y (yj - y - (j * h) • f x y)‖ ≤ Λ * (H * ((L * B' + 2 * Λ * B' + M) * H + 3 * δ)) := by
    refine (hD.derivative x y _ n1).trans ?_
    exact mul_le_mul_of_nonneg_left (hyj2.trans (by gcongr)) hΛ
  have t3 : ‖(fun i => ∑ k, J i k * (d - h • f x y) k)‖ ≤ L * (H * ((L * B' + 2 * Λ * B' + M) * H + 3 * δ)) := by
    refine (pi_norm_le_iff_of_nonneg (by positivity)).2 fun i => (mulVec_le hJ _ i).trans ?_
    have : h ≤ H := by linarith
    exact mul_le_mul_of_nonneg_left (n7.trans (by gcongr)) hL0
  have e : d - (h • f x y + (j * h ^ 2) • D x y (f x y) + ((j + 1) * h ^ 2) • g x y
        + h ^ 2 • (fun i => ∑ k, J i k * f x y k))
      = h • ((G (xj + h) yj - f x y - D x y (yj - y) - (xj + h - x) • g x y)
        + D x y (yj - y - (j * h) • f x y) + (fun i => ∑ k, J i k * (d - h • f x y) k)) := by
    have e1 := increment_eq hh hd
    have e2 : (fun i => ∑ k, J i k * (d - h • f x y) k)
        = (fun i => ∑ k, J i k * d k) - h • (fun i => ∑ k, J i k * f x y k) := by
      funext i
      simp only [Pi.sub_apply, Pi.smul_apply, smul_eq_mul, Finset.mul_sum]
      rw [← Finset.sum_sub_distrib]
      exact Finset.sum_congr rfl fun k _ => by ring
    have e3 : D x y (yj - y - (j * h) • f x y) = D x y (yj - y) - (j * h) • D x y (f x y) := by
      rw [map_sub, map_smul]
    rw [e2, e3, hxj]
    conv_lhs => rw [e1]
    funext i
    simp only [Pi.add_apply, Pi.sub_apply, Pi.smul_apply, smul_eq_mul, hxj]
    ring
  rw [e, norm_smul, Real.norm_of_nonneg hh.le]
  refine mul_le_mul_of_nonneg_left ?_ hh.le
  refine (norm_add_le _ _).trans ((add_le_add ((norm_add_le _ _).trans (add_le_add t1 t2)) t3).trans
    (le_of_eq ?_))
  ring

/-- A path up to terms of third order, and the distance of `G` from `f`. -/
theorem path_second_perturbed {J : Fin N → Fin N → ℝ} {f G : ℝ → (Fin N → ℝ) → Fin N → ℝ}
    {D : ℝ → (Fin N → ℝ) → (Fin N → ℝ) →ₗ[ℝ] (Fin N → ℝ)} {g : ℝ → (Fin N → ℝ) → Fin N → ℝ}
    {inside : (Fin N → ℝ) → Prop}
    {φ : ℝ → Fin N → ℝ} {a b ρ B B' Λ M L Λ₂ Q δ h H x : ℝ} {y : Fin N → ℝ}
    (hf : LipschitzNear f φ a b ρ B Λ M) (hD : SmoothNear f D g φ a b ρ Λ Λ₂ Q)
    (hG : ∀ t z, Near φ a b ρ t z → ‖G t z - f t z‖ ≤ δ) (hδ : 0 ≤ δ) (hB' : B' = B + δ)
    (hJ : RowsAtMost J L) (hL0 : 0 ≤ L)
    (hΛ : 0 ≤ Λ) (hM : 0 ≤ M) (hB : 0 ≤ B) (hρ : 0 ≤ ρ) (hQ : 0 ≤ Q)
    (hh : 0 < h) (hhH : h ≤ H / 2) (hL : h * L ≤ 1 / 2) (hax : a ≤ x) (hxb : x + H ≤ b)
    (hφx : ∀ t ∈ Set.Icc a b, ‖φ t - φ x‖ ≤ B' * |t - x|)
    (hy : ‖y - φ x‖ ≤ ρ / 2) (hH : 3 * H * B' ≤ ρ / 2) {s : Nat} {xj : ℝ} {yj z : Fin N → ℝ}
    (hp : EulerPath J G inside h s xj yj z) :
    ∀ j : Nat, xj = x + j * h → (j + s) * h ≤ H → ‖yj - y‖ ≤ 2 * (j * h) * B' →
      ‖yj - y - (j * h) • f x y‖ ≤ j * h * ((L * B' + 2 * Λ * B' + M) * H + 3 * δ) →
      ‖z - yj - ((s * h) • f x y + ((s * j + s * (s - 1) / 2) * h ^ 2) • D x y (f x y)
          + ((s * j + s * (s + 1) / 2) * h ^ 2) • g x y
          + (s * h ^ 2) • (fun i => ∑ k, J i k * f x y k))‖
        ≤ s * (h * ((Q * (2 * B' + 1) ^ 2 + (Λ + L) * (L * B' + 2 * Λ * B' + M)) * H ^ 2 + (1 + 3 * (Λ + L) * H) * δ)) := by
  induction hp with
  | @one xj yj d hd =>
    intro j hxj hjH hyj hyj2
    have := (substep_second_perturbed hf hD hG hδ hB' hJ hL0 hΛ hM hB hρ hQ hh hhH hL hax hxb hφx hy hH j xj yj d hxj
      (by exact_mod_cast hjH) hyj hyj2 hd).2.2
    have e : (fun i => yj i + d i) - yj = d := by funext i; simp
    rw [e]
    simp only [Nat.cast_one, one_mul, sub_self, mul_zero, zero_div, add_zero]
    norm_num
    exact this
  | @step s xj yj d z hd hin hrest ih =>
    intro j hxj hjH hyj hyj2
    have hs0 : (0 : ℝ) ≤ s := Nat.cast_nonneg s
    push_cast at hjH
    have hjH1 : ((j : ℝ) + 1) * h ≤ H := by nlinarith
    obtain ⟨o1, o2, o⟩ := substep_second_perturbed hf hD hG hδ hB' hJ hL0 hΛ hM hB hρ hQ hh hhH hL hax hxb hφx hy hH j xj yj d hxj
      hjH1 hyj hyj2 hd
    have e : (fun i => yj i + d i) = yj + d := by funext i; simp
    rw [e] at ih
    have hi := ih (j + 1) (by rw [hxj]; push_cast; ring) (by push_cast; linarith) (by
      rw [add_sub_right_comm]
      refine (norm_add_le _ _).trans ((add_le_add hyj o1).trans (le_of_eq ?_))
      push_cast; ring) (by
      have e : yj + d - y - (((j + 1 : ℕ) : ℝ) * h) • f x y
          = (yj - y - (j * h) • f x y) + (d - h • f x y) := by
        push_cast; rw [add_mul, one_mul, add_smul]; abel
      rw [e]
      refine (norm_add_le _ _).trans ((add_le_add hyj2 o2).trans (le_of_eq ?_))
      push_cast; ring)
    push_cast at hi ⊢
    refine le_trans (le_of_eq ?_) ((norm_add_le _ _).trans ((add_le_add hi o).trans (le_of_eq ?_)))
    · congr 1
      funext i
      simp only [Pi.add_apply, Pi.sub_apply, Pi.smul_apply, smul_eq_mul]
      ring
    · ring

/-- One extrapolated step up to terms of third order, and the distance of `G` from `f`. -/
theorem step_second_perturbed {J : Fin N → Fin N → ℝ} {f G : ℝ → (Fin N → ℝ) → Fin N → ℝ}
    {D : ℝ → (Fin N → ℝ) → (Fin N → ℝ) →ₗ[ℝ] (Fin N → ℝ)} {g : ℝ → (Fin N → ℝ) → Fin N → ℝ}
    {inside : (Fin N → ℝ) → Prop} {φ : ℝ → Fin N → ℝ} {a b ρ B B' Λ M Λ₂ Q L δ d x : ℝ} {y z : Fin N → ℝ}
    {k : Nat} (hk1 : 1 ≤ k) (hk : k ≤ 12)
    (hf : LipschitzNear f φ a b ρ B Λ M) (hD : SmoothNear f D g φ a b ρ Λ Λ₂ Q)
    (hG : ∀ t z, Near φ a b ρ t z → ‖G t z - f t z‖ ≤ δ) (hδ : 0 ≤ δ) (hB' : B' = B + δ)
    (hφ : SolvesOn f φ a b) (hJ : RowsAtMost J L) (hL0 : 0 ≤ L)
    (hΛ : 0 ≤ Λ) (hM : 0 ≤ M) (hB : 0 ≤ B) (hρ : 0 ≤ ρ) (hQ : 0 ≤ Q)
    (hd : 0 < d) (hL : d * L ≤ 1) (hax : a ≤ x) (hxb : x + d ≤ b)
    (hy : ‖y - φ x‖ ≤ ρ / 2) (hH : 3 * d * B' ≤ ρ / 2)
    (hs : ExtrapolatedStep J G inside k x y d z) :
    ‖z - (y + (d • f x y + (d ^ 2 / 2) • (D x y (f x y) + g x y)))‖
      ≤ 205 * (d * ((Q * (2 * B' + 1) ^ 2 + (Λ + L) * (L * B' + 2 * Λ * B' + M)) * d ^ 2 + (1 + 3 * (Λ + L) * d) * δ)) := by
  obtain ⟨r, hr, hz⟩ := hs
  have hB0 : 0 ≤ B' := by rw [hB']; positivity
  set v := (fun i => ∑ k, J i k * f x y k) with hv
  have hrow : ∀ l, l ≤ k → ‖r l - (y + (d • f x y + (d ^ 2 / 2) • (D x y (f x y) + g x y))
      + (d / (stepNumber l : ℝ)) • (d • ((-(1 / 2) : ℝ) • D x y (f x y) + (1 / 2 : ℝ) • g x y + v)))‖
      ≤ d * ((Q * (2 * B' + 1) ^ 2 + (Λ + L) * (L * B' + 2 * Λ * B' + M)) * d ^ 2 + (1 + 3 * (Λ + L) * d) * δ) := by
    intro l hl
    have h2 : (2 : ℝ) ≤ stepNumber l := by
      rw [← nSeq_eq_stepNumber]
      exact_mod_cast nSeq_ge_two l
    have hn0 : (0 : ℝ) < stepNumber l := by linarith
    have hh0 : 0 < d / (stepNumber l : ℝ) := div_pos hd hn0
    have hh2 : d / (stepNumber l : ℝ) ≤ d / 2 := by gcongr
    have hsd : (stepNumber l : ℝ) * (d / (stepNumber l : ℝ)) = d := by field_simp
    have := path_second_perturbed hf hD hG hδ hB' hJ hL0 hΛ hM hB hρ hQ hh0 hh2 (by nlinarith) hax hxb
      (fun t ht => (solution_lipschitz hf hφ hρ ⟨hax, by linarith⟩ ht).trans
        (mul_le_mul_of_nonneg_right (by rw [hB']; linarith) (abs_nonneg _))) hy hH (hr l hl) 0 (by simp)
      (by simp only [Nat.cast_zero, zero_add]; exact hsd.le) (by simp) (by simp)
    rw [← mul_assoc, hsd] at this
    refine le_trans (le_of_eq ?_) (this.trans (le_of_eq (by ring)))
    congr 1
    have q1 : ((stepNumber l : ℝ) * (stepNumber l - 1) / 2) * (d / (stepNumber l : ℝ)) ^ 2
        = d ^ 2 / 2 - d / (stepNumber l : ℝ) * d / 2 := by field_simp
    have q2 : ((stepNumber l : ℝ) * (stepNumber l + 1) / 2) * (d / (stepNumber l : ℝ)) ^ 2
        = d ^ 2 / 2 + d / (stepNumber l : ℝ) * d / 2 := by field_simp
    have q3 : (stepNumber l : ℝ) * (d / (stepNumber l : ℝ)) ^ 2
        = d / (stepNumber l : ℝ) * d := by field_simp
    simp only [Nat.cast_zero, mul_zero, zero_add]
    rw [q1, q2, q3]
    funext i
    simp only [Pi.add_apply, Pi.sub_apply, Pi.smul_apply, smul_eq_mul]
    ring
  obtain ⟨ε, hε⟩ : ∃ ε, ε = d * ((Q * (2 * B' + 1) ^ 2 + (Λ + L) * (L * B' + 2 * Λ * B' + M)) * d ^ 2 + (1 + 3 * (Λ + L) * d) * δ) := ⟨_, rfl⟩
  have hε0 : 0 ≤ ε := by rw [hε]; positivity
  rw [← hε] at hrow ⊢
  refine (pi_norm_le_iff_of_nonneg (by positivity)).2 fun i => ?_
  have := extrapolant_near_linear hd.ne' hk (fun l => r l i)
    ((y + (d • f x y + (d ^ 2 / 2) • (D x y (f x y) + g x y))) i)
    ((d • ((-(1 / 2) : ℝ) • D x y (f x y) + (1 / 2 : ℝ) • g x y + v)) i)
    ε (Or.inr hk1) (fun l hl => by
      rw [nSeq_eq_stepNumber]
      exact (norm_le_pi_norm (r l - _) i).trans (hrow l hl))
  rw [Pi.sub_apply, hz i, Real.norm_eq_abs]
  simpa only [nSeq_eq_stepNumber] using this

/-- One extrapolated step with `G` in comparison with the exact solution for `f`, to second order. -/
theorem step_error_second_perturbed {J : Fin N → Fin N → ℝ} {f G : ℝ → (Fin N → ℝ) → Fin N → ℝ}
    {D : ℝ → (Fin N → ℝ) → (Fin N → ℝ) →ₗ[ℝ] (Fin N → ℝ)} {g : ℝ → (Fin N → ℝ) → Fin N → ℝ}
    {inside : (Fin N → ℝ) → Prop} {φ : ℝ → Fin N → ℝ} {a b ρ B B' Λ M Λ₂ Q L δ d x e : ℝ}
    {y z : Fin N → ℝ} {k : Nat} (hk1 : 1 ≤ k) (hk : k ≤ 12)
    (hf : LipschitzNear f φ a b ρ B Λ M) (hD : SmoothNear f D g φ a b ρ Λ Λ₂ Q)
    (hG : ∀ t z, Near φ a b ρ t z → ‖G t z - f t z‖ ≤ δ) (hδ : 0 ≤ δ) (hB' : B' = B + δ)
    (hφ : SolvesOn f φ a b) (hJ : RowsAtMost J L) (hL0 : 0 ≤ L)
    (hΛ : 0 ≤ Λ) (hM : 0 ≤ M) (hB : 0 ≤ B) (hΛ₂ : 0 ≤ Λ₂) (hQ : 0 ≤ Q)
    (hd : 0 < d) (hL : d * L ≤ 1) (hax : a ≤ x) (hxb : x + d ≤ b)
    (hy : ‖y - φ x‖ ≤ e) (he : e ≤ ρ / 2) (hH : 3 * d * B' ≤ ρ / 2)
    (hs : ExtrapolatedStep J G inside k x y d z) :
    ‖z - φ (x + d)‖ ≤ e * (1 + (Λ + Λ₂ * d / 2) * d)
      + (205 * (Q * (2 * B' + 1) ^ 2 + (Λ + L) * (L * B' + 2 * Λ * B' + M))
        + (Q * (B + 1) ^ 2 + Λ * (Λ * B + M))) * d ^ 3 + 205 * (1 + 3 * (Λ + L) * d) * δ * d := by
  have he0 : 0 ≤ e := (norm_nonneg _).trans hy
  have hρ : 0 ≤ ρ := by linarith
  have h1 := step_second_perturbed hk1 hk hf hD hG hδ hB' hφ hJ hL0 hΛ hM hB hρ hQ hd hL hax hxb (hy.trans he) hH hs
  have h2 := solution_second hf hD hφ hρ hΛ hM hQ hax hd.le hxb
  have n1 : Near φ a b ρ x y := ⟨⟨hax, by linarith⟩, by linarith⟩
  have n2 : Near φ a b ρ x (φ x) := ⟨⟨hax, by linarith⟩, by simpa using hρ⟩
  have h3 : ‖f x y - f x (φ x)‖ ≤ Λ * e := by
    have := hf.lipschitz x y x (φ x) n1 n2
    rw [sub_self, abs_zero, mul_zero, add_zero] at this
    exact this.trans (mul_le_mul_of_nonneg_left hy hΛ)
  have h4 : ‖(D x y (f x y) + g x y) - (D x (φ x) (f x (φ x)) + g x (φ x))‖ ≤ Λ₂ * e :=
    (hD.second x y (φ x) n1 n2).trans (mul_le_mul_of_nonneg_left hy hΛ₂)
  calc ‖z - φ (x + d)‖
      = ‖(z - (y + (d • f x y + (d ^ 2 / 2) • (D x y (f x y) + g x y))))
          - (φ (x + d) - φ x - (d • f x (φ x)
            + (d ^ 2 / 2) • (D x (φ x) (f x (φ x)) + g x (φ x)))) + (y - φ x)
          + d • (f x y - f x (φ x))
          + (d ^ 2 / 2) • ((D x y (f x y) + g x y) - (D x (φ x) (f x (φ x)) + g x (φ x)))‖ := by
        congr 1
        funext i
        simp only [Pi.add_apply, Pi.sub_apply, Pi.smul_apply, smul_eq_mul]
        ring
    _ ≤ 205 * (d * ((Q * (2 * B' + 1) ^ 2 + (Λ + L) * (L * B' + 2 * Λ * B' + M)) * d ^ 2 + (1 + 3 * (Λ + L) * d) * δ))
        + (Q * (B + 1) ^ 2 + Λ * (Λ * B + M)) * d ^ 3 + e + d * (Λ * e)
        + d ^ 2 / 2 * (Λ₂ * e) := by
        refine (norm_add_le _ _).trans (add_le_add ((norm_add_le _ _).trans (add_le_add
          ((norm_add_le _ _).trans (add_le_add ((norm_sub_le _ _).trans (add_le_add h1 h2)) hy))
          ?_)) ?_)
        · rw [norm_smul, Real.norm_of_nonneg hd.le]
          exact mul_le_mul_of_nonneg_left h3 hd.le
        · rw [norm_smul, Real.norm_of_nonneg (by positivity)]
          exact mul_le_mul_of_nonneg_left h4 (by positivity)
    _ = _ := by ring

end
end DLB
