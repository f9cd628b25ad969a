import Verif.Lemmas.ReactorSolution
/-
Around a solution of the reactor that stays inside the domain, the rates are bounded and Lipschitz continuous with the
same constants all along the solution.
-/
set_option autoImplicit false
set_option linter.unusedSectionVars false

namespace DLB
open scoped Topology NNReal
open Spec

variable {m : Nat} {X : Chemistry}

/-- Up to the distance `ρ` from every state in `s`: bounds as in `Chemistry.Tube`. -/
structure Chemistry.TameNear (X : Chemistry) (s : Set (Fin (m + 2) → ℝ)) (ρ B Λ S : ℝ) : Prop where
  admissible : ∀ x ∈ s, ∀ z, ‖z - x‖ ≤ ρ → NonNegative z → X.Admissible z
  last : ∀ x ∈ s, ∀ z, ‖z - x‖ ≤ ρ → NonNegative z → 0 < stateComposition z m
  terms : ∀ x ∈ s, ∀ z, ‖z - x‖ ≤ ρ → ∀ i, X.stateTerms z i ≤ S
  bound : ∀ x ∈ s, ∀ z, ‖z - x‖ ≤ ρ → ‖X.stateRate z‖ ≤ B
  lipschitz : ∀ x ∈ s, ∀ z z', ‖z - x‖ ≤ ρ → ‖z' - x‖ ≤ ρ → ‖X.stateRate z - X.stateRate z'‖ ≤ Λ * ‖z - z'‖

theorem Chemistry.TameNear.weaken {s : Set (Fin (m + 2) → ℝ)} {ρ ρ' B B' Λ Λ' S S' : ℝ} (h : X.TameNear s ρ B Λ S) (h1 : ρ' ≤ ρ)
    (h2 : B ≤ B') (h3 : Λ ≤ Λ') (h4 : S ≤ S') : X.TameNear s ρ' B' Λ' S' where
  admissible := fun x hx z hz => h.admissible x hx z (hz.trans h1)
  last := fun x hx z hz => h.last x hx z (hz.trans h1)
  terms := fun x hx z hz i => (h.terms x hx z (hz.trans h1) i).trans h4
  bound := fun x hx z hz => (h.bound x hx z (hz.trans h1)).trans h2
  lipschitz := fun x hx z z' hz hz' => (h.lipschitz x hx z z' (hz.trans h1) (hz'.trans h1)).trans
    (mul_le_mul_of_nonneg_right h3 (norm_nonneg _))

variable (hn : X.nsp = m + 1) (hX : ∀ t, 200 ≤ t → t ≤ 5000 → X.ProperAt t)
include hn hX

/-- A state inside the domain has a neighbourhood of this kind. -/
theorem tameNear_of_interior {z : Fin (m + 2) → ℝ} (h : X.Interior z) : ∃ t ∈ 𝓝 z, ∃ ρ B Λ S : ℝ, 0 < ρ ∧ 0 ≤ B ∧ 0 ≤ Λ ∧ 0 ≤ S ∧ X.TameNear t ρ B Λ S := by
  obtain ⟨K, U, hU, hL⟩ := stateRate_lipAt hn hX h
  have hterms : ∀ᶠ x in 𝓝 z, ∀ i, X.stateTerms x i ≤ ∑ k, |X.stateTerms z k| + 1 := by
    refine Filter.eventually_all.2 fun i => ?_
    refine ((stateTerms_lipAt hn hX h i).continuousAt.eventually_lt_const (?_ : X.stateTerms z i < _)).mono fun x hx => hx.le
    have := Finset.single_le_sum (f := fun k => |X.stateTerms z k|) (fun k _ => abs_nonneg _) (Finset.mem_univ i)
    have := le_abs_self (X.stateTerms z i)
    linarith
  obtain ⟨r, hr, hball⟩ := Metric.nhds_basis_closedBall.eventually_iff.1
    ((Filter.eventually_mem_set.2 hU).and ((admissible_eventually hn hX h).and hterms))
  have into : ∀ x ∈ Metric.closedBall z (r / 2), ∀ w, ‖w - x‖ ≤ r / 2 → w ∈ Metric.closedBall z r := by
    intro x hx w hw
    rw [Metric.mem_closedBall] at hx ⊢
    rw [← dist_eq_norm] at hw
    linarith [dist_triangle w x z]
  refine ⟨Metric.closedBall z (r / 2), Metric.closedBall_mem_nhds _ (by positivity), r / 2, ‖X.stateRate z‖ + K * r, K, ∑ k, |X.stateTerms z k| + 1,
    by positivity, by positivity, K.coe_nonneg, by positivity, ?_⟩
  refine ⟨fun x hx w hw h0 => ((hball (into x hx w hw)).2.1 h0).1, fun x hx w hw h0 => ((hball (into x hx w hw)).2.1 h0).2,
    fun x hx w hw => (hball (into x hx w hw)).2.2, fun x hx w hw => ?_,
    fun x hx w w' hw hw' => ?_⟩
  · have hb := into x hx w hw
    have h1 := hL.dist_le_mul w (hball hb).1 z (hball (Metric.mem_closedBall_self hr.le)).1
    rw [dist_eq_norm] at h1
    have h2 := norm_le_norm_add_norm_sub' (X.stateRate w) (X.stateRate z)
    have h3 : (K : ℝ) * dist w z ≤ K * r := mul_le_mul_of_nonneg_left hb K.coe_nonneg
    linarith
  · have := hL.dist_le_mul w (hball (into x hx w hw)).1 w' (hball (into x hx w' hw')).1
    rwa [dist_eq_norm, dist_eq_norm] at this

/-- A compact set of states inside the domain has a neighbourhood of this kind. -/
theorem tameNear_of_compact {s : Set (Fin (m + 2) → ℝ)} (hs : IsCompact s) (h : ∀ z ∈ s, X.Interior z) :
    ∃ ρ B Λ S : ℝ, 0 < ρ ∧ 0 ≤ B ∧ 0 ≤ Λ ∧ 0 ≤ S ∧ X.TameNear s ρ B Λ S := by
  refine hs.induction_on (p := fun s => ∃ ρ B Λ S : ℝ, 0 < ρ ∧ 0 ≤ B ∧ 0 ≤ Λ ∧ 0 ≤ S ∧ X.TameNear s ρ B Λ S) ?_ ?_ ?_ ?_
  · exact ⟨1, 0, 0, 0, one_pos, le_rfl, le_rfl, le_rfl, ⟨fun _ h => h.elim, fun _ h => h.elim, fun _ h => h.elim, fun _ h => h.elim, fun _ h => h.elim⟩⟩
  · rintro s t hst ⟨ρ, B, Λ, S, h1, h2, h3, h4, h⟩
    exact ⟨ρ, B, Λ, S, h1, h2, h3, h4, ⟨fun x hx => h.admissible x (hst hx), fun x hx => h.last x (hst hx), fun x hx => h.terms x (hst hx),
      fun x hx => h.bound x (hst hx), fun x hx => h.lipschitz x (hst hx)⟩⟩
  · rintro s t ⟨ρ, B, Λ, S, h1, h2, h3, h4, h⟩ ⟨ρ', B', Λ', S', h1', h2', h3', h4', h'⟩
    have a := h.weaken (min_le_left ρ ρ') (le_max_left B B') (le_max_left Λ Λ') (le_max_left S S')
    have a' := h'.weaken (min_le_right ρ ρ') (le_max_right B B') (le_max_right Λ Λ') (le_max_right S S')
    exact ⟨min ρ ρ', max B B', max Λ Λ', max S S', lt_min h1 h1', le_max_of_le_left h2, le_max_of_le_left h3, le_max_of_le_left h4,
      ⟨fun x hx => hx.elim (a.admissible x) (a'.admissible x), fun x hx => hx.elim (a.last x) (a'.last x), fun x hx => hx.elim (a.terms x) (a'.terms x),
        fun x hx => hx.elim (a.bound x) (a'.bound x), fun x hx => hx.elim (a.lipschitz x) (a'.lipschitz x)⟩⟩
  · intro x hx
    obtain ⟨t, ht, ht'⟩ := tameNear_of_interior hn hX (h x hx)
    exact ⟨t, mem_nhdsWithin_of_mem_nhds ht, ht'⟩

omit hn hX in
/-- A solution with bounds near all its states, in the terms of `Chemistry.Tube`. -/
theorem tube_of_tame {ψ : ℝ → Fin (m + 2) → ℝ} {τ : ℝ} (hψ : SolvesOn (fun _ => X.stateRate) ψ 0 τ) (hpos : ∀ t ∈ Set.Icc 0 τ, NonNegative (ψ t)) {ρ B Λ S : ℝ} (hρ : 0 < ρ)
    (hB : 0 ≤ B) (h : X.TameNear (ψ '' Set.Icc 0 τ) ρ B Λ S) : X.Tube ψ τ (ρ / 3) B (max Λ (6 * B / ρ)) S := by
  have mem : ∀ {t}, t ∈ Set.Icc 0 τ → ψ t ∈ ψ '' Set.Icc 0 τ := fun ht => ⟨_, ht, rfl⟩
  have le : ∀ {x : ℝ}, x ≤ ρ / 3 → x ≤ ρ := fun hx => by linarith
  refine ⟨hψ,
    fun t z hz => h.admissible _ (mem hz.1) z (le hz.2), fun t z hz _ => h.terms _ (mem hz.1) z (le hz.2),
    fun t z hz _ => h.bound _ (mem hz.1) z (le hz.2), fun t z t' z' hz hz' _ _ => ?_, hpos⟩
  by_cases hd : ‖z - z'‖ ≤ ρ / 3
  · have h1 : ‖z' - ψ t‖ ≤ ρ := by
      have := norm_sub_le_norm_sub_add_norm_sub z' z (ψ t)
      rw [norm_sub_rev] at hd
      have := hz.2
      linarith
    exact (h.lipschitz _ (mem hz.1) z z' (le hz.2) h1).trans (mul_le_mul_of_nonneg_right (le_max_left _ _) (norm_nonneg _))
  · rw [not_le] at hd
    have h1 := norm_sub_le (X.stateRate z) (X.stateRate z')
    have h2 := h.bound _ (mem hz.1) z (le hz.2)
    have h3 := h.bound _ (mem hz'.1) z' (le hz'.2)
    have h4 : 2 * B ≤ 6 * B / ρ * ‖z - z'‖ := by
      have : 6 * B / ρ * (ρ / 3) = 2 * B := by field_simp; ring
      rw [← this]
      exact mul_le_mul_of_nonneg_left hd.le (by positivity)
    have h5 := mul_le_mul_of_nonneg_right (le_max_right Λ (6 * B / ρ)) (norm_nonneg (z - z'))
    linarith

/-- A solution that stays inside the domain has bounds near all its states. -/
theorem tame_of_interior {ψ : ℝ → Fin (m + 2) → ℝ} {τ : ℝ} (hψ : SolvesOn (fun _ => X.stateRate) ψ 0 τ)
    (hI : ∀ t ∈ Set.Icc 0 τ, X.Interior (ψ t)) : ∃ ρ B Λ S : ℝ, 0 < ρ ∧ 0 ≤ B ∧ 0 ≤ Λ ∧ 0 ≤ S ∧ X.TameNear (ψ '' Set.Icc 0 τ) ρ B Λ S := by
  have hc : ContinuousOn ψ (Set.Icc 0 τ) := fun t ht => (hψ t ht).continuousWithinAt
  exact tameNear_of_compact hn hX (isCompact_Icc.image_of_continuousOn hc) (by rintro _ ⟨t, ht, rfl⟩; exact hI t ht)

/-- The same, in the terms of `Chemistry.Tube`. -/
theorem tube_of_interior {ψ : ℝ → Fin (m + 2) → ℝ} {τ : ℝ} (hψ : SolvesOn (fun _ => X.stateRate) ψ 0 τ)
    (hI : ∀ t ∈ Set.Icc 0 τ, X.Interior (ψ t)) : ∃ ρ B Λ S : ℝ, 0 < ρ ∧ 0 ≤ B ∧ 0 ≤ Λ ∧ 0 ≤ S ∧ X.Tube ψ τ ρ B Λ S := by
  obtain ⟨ρ, B, Λ, S, hρ, hB, hΛ, hS, h⟩ := tame_of_interior hn hX hψ hI
  exact ⟨ρ / 3, B, _, S, by positivity, hB, le_max_of_le_left hΛ, hS, tube_of_tame hψ (fun t ht => nonNegative_of (hI t ht).toAdmissible) hρ hB h⟩

omit hn hX in
/-- Picard and Lindelöf's theorem; the solution stays in the ball. -/
theorem picard_mem {f : ℝ → (Fin (m + 2) → ℝ) → Fin (m + 2) → ℝ} {tmin tmax : ℝ} {t₀ : Set.Icc tmin tmax} {z : Fin (m + 2) → ℝ} {a L K : ℝ≥0}
    (hf : IsPicardLindelof f t₀ z a 0 L K) : ∃ φ : ℝ → Fin (m + 2) → ℝ, φ t₀ = z ∧ (∀ t, φ t ∈ Metric.closedBall z a) ∧
      ∀ t ∈ Set.Icc tmin tmax, HasDerivWithinAt φ (f t (φ t)) (Set.Icc tmin tmax) t := by
  obtain ⟨α, hα⟩ := ODE.FunSpace.exists_isFixedPt_next hf (Metric.mem_closedBall_self le_rfl)
  refine ⟨α.compProj, by rw [ODE.FunSpace.compProj_val, ← hα, ODE.FunSpace.next_apply₀], fun t => α.compProj_mem_closedBall hf.mul_max_le, fun t ht => ?_⟩
  apply ODE.hasDerivWithinAt_picard_Icc t₀.2 hf.continuousOn_uncurry
    α.continuous_compProj.continuousOn (fun _ ht' ↦ α.compProj_mem_closedBall hf.mul_max_le)
    z ht |>.congr_of_mem _ ht
  intro t' ht'
  nth_rw 1 [← hα]
  rw [ODE.FunSpace.compProj_of_mem ht', ODE.FunSpace.next_apply]

omit hn hX in
/-- Picard and Lindelöf's theorem, with a solution that stays in the ball in which the equations are Lipschitz continuous. -/
theorem picard_in_ball {f : (Fin (m + 2) → ℝ) → Fin (m + 2) → ℝ} {z : Fin (m + 2) → ℝ} {R B b : ℝ} {K : ℝ≥0} (hR : 0 ≤ R) (hB : 0 ≤ B) (hb : 0 ≤ b)
    (hL : LipschitzOnWith K f (Metric.closedBall z R)) (hbound : ∀ x ∈ Metric.closedBall z R, ‖f x‖ ≤ B) (hBb : B * b ≤ R) :
    ∃ φ : ℝ → Fin (m + 2) → ℝ, φ 0 = z ∧ (∀ t, φ t ∈ Metric.closedBall z R) ∧ ∀ t ∈ Set.Icc 0 b, HasDerivWithinAt φ (f (φ t)) (Set.Icc 0 b) t := by
  have hf : IsPicardLindelof (fun _ : ℝ => f) (tmin := 0) (tmax := b) ⟨0, le_rfl, hb⟩ z ⟨R, hR⟩ 0 ⟨B, hB⟩ K := by
    refine ⟨fun t _ => hL, fun x _ => continuousOn_const, fun t _ x hx => hbound x hx, ?_⟩
    show B * max (b - 0) (0 - 0) ≤ R - 0
    rw [sub_zero, sub_zero, sub_zero, max_eq_left hb]
    exact hBb
  exact picard_mem hf

/-- From every state without negative mass fractions near one in `s` starts a solution, up to a time that depends only on the bounds. -/
theorem tube_from {s : Set (Fin (m + 2) → ℝ)} {ρ B Λ S : ℝ} (hρ : 0 < ρ) (hB : 0 ≤ B) (hΛ : 0 ≤ Λ) (h : X.TameNear s ρ B Λ S) {x z : Fin (m + 2) → ℝ} (hx : x ∈ s)
    (hz : ‖z - x‖ ≤ ρ / 2) (hz0 : NonNegative z) : ∃ φ : ℝ → Fin (m + 2) → ℝ, φ 0 = z ∧ (∀ t, ‖φ t - z‖ ≤ ρ / 4) ∧
      X.Tube φ (ρ / 4 / (B + 1)) (ρ / 4) B Λ S := by
  have near : ∀ {y w : Fin (m + 2) → ℝ}, ‖y - z‖ ≤ ρ / 4 → ‖w - y‖ ≤ ρ / 4 → ‖w - x‖ ≤ ρ := fun {y w} h1 h2 => by
    have a1 := norm_sub_le_norm_sub_add_norm_sub w y z
    have a2 := norm_sub_le_norm_sub_add_norm_sub w z x
    linarith
  have near' : ∀ {y : Fin (m + 2) → ℝ}, ‖y - z‖ ≤ ρ / 4 → ‖y - x‖ ≤ ρ := fun h1 => near h1 (by rw [sub_self, norm_zero]; positivity)
  have hclip : ∀ {y : Fin (m + 2) → ℝ}, ‖y - z‖ ≤ ρ / 4 → ‖clip y - z‖ ≤ ρ / 4 := fun {y} h1 => by
    have := clip_contracts y z
    rw [clip_of_nonNegative hz0] at this
    exact this.trans h1
  have ball : ∀ {y : Fin (m + 2) → ℝ}, y ∈ Metric.closedBall z (ρ / 4) ↔ ‖y - z‖ ≤ ρ / 4 := fun {y} => by rw [Metric.mem_closedBall, dist_eq_norm]
  obtain ⟨φ, h0, hin, hder⟩ := picard_in_ball (m := m) (f := fun y => X.stateRate (clip y)) (z := z) (R := ρ / 4) (B := B) (b := ρ / 4 / (B + 1)) (K := Λ.toNNReal)
    (by positivity) hB (by positivity)
    (LipschitzOnWith.of_dist_le_mul fun y hy y' hy' => by
      rw [dist_eq_norm, dist_eq_norm, Real.coe_toNNReal _ hΛ]
      exact (h.lipschitz x hx _ _ (near' (hclip (ball.1 hy))) (near' (hclip (ball.1 hy')))).trans (mul_le_mul_of_nonneg_left (clip_contracts y y') hΛ))
    (fun y hy => h.bound x hx _ (near' (hclip (ball.1 hy))))
    (by
      have : B * (ρ / 4 / (B + 1)) = ρ / 4 * (B / (B + 1)) := by field_simp
      rw [this]
      exact mul_le_of_le_one_right (by positivity) ((div_le_one (by positivity)).2 (by linarith)))
  have hin' : ∀ t, ‖φ t - z‖ ≤ ρ / 4 := fun t => ball.1 (hin t)
  have hpos : ∀ t ∈ Set.Icc 0 (ρ / 4 / (B + 1)), NonNegative (φ t) := by
    intro t ht j
    refine nonneg_of_barrier (f := fun t => φ t j.castSucc.succ) (f' := fun t => X.stateRate (clip (φ t)) j.castSucc.succ) (by rw [h0]; exact hz0 j)
      (fun t ht => hasDerivWithinAt_pi.1 (hder t ht) _) (fun t ht hle => ?_) t ht
    have hc := near' (hclip (hin' t))
    refine stateRate_of_absent hn hX (h.admissible x hx _ hc (clip_nonNegative _)) (h.last x hx _ hc (clip_nonNegative _)) j ?_
    have := j.isLt
    unfold clip
    rw [if_neg (by simp; omega)]
    exact max_eq_left hle
  refine ⟨φ, h0, hin', fun t ht => ?_, fun t y hy => h.admissible x hx y (near (hin' t) hy.2), fun t y hy _ => h.terms x hx y (near (hin' t) hy.2),
    fun t y hy _ => h.bound x hx y (near (hin' t) hy.2), fun t y t' y' hy hy' _ _ => h.lipschitz x hx y y' (near (hin' t) hy.2) (near (hin' t') hy'.2), hpos⟩
  have := hder t ht
  dsimp only at this ⊢
  rwa [clip_of_nonNegative (hpos t ht)] at this

end DLB
