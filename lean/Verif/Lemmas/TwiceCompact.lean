import Verif.Lemmas.ReactorSmooth
import Verif.Lemmas.ReactorCompact
/-
Around a solution of the reactor along which all species are present, the rates are smooth to second order, with the same
constants all along the solution.
-/
set_option autoImplicit false
set_option linter.unusedSectionVars false

namespace DLB
open scoped Topology
open Spec

variable {m : Nat} {X : Chemistry}

/-- Up to the distance `ρ` from every state in `s`, no mass fraction is negative and the rates are smooth to second order. -/
structure Chemistry.TwiceNear (X : Chemistry) (s : Set (Fin (m + 2) → ℝ)) (ρ Λ Λ₂ Q : ℝ) : Prop where
  nonNegative : ∀ x ∈ s, ∀ z, ‖z - x‖ ≤ ρ → NonNegative z
  taylor : ∀ x ∈ s, ∀ z z', ‖z - x‖ ≤ ρ → ‖z' - x‖ ≤ ρ →
    ‖X.stateRate z' - X.stateRate z - fderiv ℝ (fun x => X.stateRate x) z (z' - z)‖ ≤ Q * ‖z' - z‖ ^ 2
  derivative : ∀ x ∈ s, ∀ z v, ‖z - x‖ ≤ ρ → ‖fderiv ℝ (fun x => X.stateRate x) z v‖ ≤ Λ * ‖v‖
  second : ∀ x ∈ s, ∀ z z', ‖z - x‖ ≤ ρ → ‖z' - x‖ ≤ ρ →
    ‖fderiv ℝ (fun x => X.stateRate x) z (X.stateRate z) - fderiv ℝ (fun x => X.stateRate x) z' (X.stateRate z')‖ ≤ Λ₂ * ‖z - z'‖

theorem Chemistry.TwiceNear.weaken {s : Set (Fin (m + 2) → ℝ)} {ρ ρ' Λ Λ' Λ₂ Λ₂' Q Q' : ℝ} (h : X.TwiceNear s ρ Λ Λ₂ Q) (h1 : ρ' ≤ ρ)
    (h2 : Λ ≤ Λ') (h3 : Λ₂ ≤ Λ₂') (h4 : Q ≤ Q') : X.TwiceNear s ρ' Λ' Λ₂' Q' where
  nonNegative := fun x hx z hz => h.nonNegative x hx z (hz.trans h1)
  taylor := fun x hx z z' hz hz' => (h.taylor x hx z z' (hz.trans h1) (hz'.trans h1)).trans (mul_le_mul_of_nonneg_right h4 (sq_nonneg _))
  derivative := fun x hx z v hz => (h.derivative x hx z v (hz.trans h1)).trans (mul_le_mul_of_nonneg_right h2 (norm_nonneg _))
  second := fun x hx z z' hz hz' => (h.second x hx z z' (hz.trans h1) (hz'.trans h1)).trans (mul_le_mul_of_nonneg_right h3 (norm_nonneg _))

/-- The rates near a solution that stays near one state of `s`, in the terms of `SmoothNear`. -/
theorem smooth_of_twice {s : Set (Fin (m + 2) → ℝ)} {ρ ρ' a d Λ Λ₂ Q : ℝ} (h : X.TwiceNear s ρ Λ Λ₂ Q) (hQ : 0 ≤ Q) {x : Fin (m + 2) → ℝ} (hx : x ∈ s)
    {φ : ℝ → Fin (m + 2) → ℝ} (hφ : ∀ t ∈ Set.Icc 0 d, ‖φ t - x‖ ≤ a) (ha : ρ' + a ≤ ρ) :
    SmoothNear (fun _ x => X.stateRate (clip x)) (fun _ x => (fderiv ℝ (fun x => X.stateRate x) x).toLinearMap) (fun _ _ => 0) φ 0 d ρ' Λ Λ₂ Q := by
  have near : ∀ {t z}, Spec.Near φ 0 d ρ' t z → ‖z - x‖ ≤ ρ := fun {t z} hz => by
    have h1 := norm_sub_le_norm_sub_add_norm_sub z (φ t) x
    have h2 := hφ t hz.1
    have h3 := hz.2
    linarith
  have hclip : ∀ {t z}, Spec.Near φ 0 d ρ' t z → clip z = z := fun hz => clip_of_nonNegative (h.nonNegative x hx _ (near hz))
  refine ⟨fun t z t' z' hz hz' => ?_, fun t z v hz => h.derivative x hx z v (near hz), fun t z z' hz hz' => ?_⟩
  · rw [hclip hz, hclip hz', smul_zero, sub_zero]
    refine (h.taylor x hx z z' (near hz) (near hz')).trans (mul_le_mul_of_nonneg_left ?_ hQ)
    have := abs_nonneg (t' - t)
    gcongr
    linarith
  · rw [hclip hz, hclip hz', add_zero, add_zero]
    exact h.second x hx z z' (near hz) (near hz')

variable (hn : X.nsp = m + 1) (hX : ∀ t, 200 ≤ t → t ≤ 5000 → X.ProperAt t)
include hn hX

/-- A state inside the domain with all species present has a neighbourhood of this kind. -/
theorem twiceNear_of_allPresent {z : Fin (m + 2) → ℝ} (h : X.AllPresent z) :
    ∃ t ∈ 𝓝 z, ∃ ρ Λ Λ₂ Q : ℝ, 0 < ρ ∧ 0 ≤ Λ ∧ 0 ≤ Λ₂ ∧ 0 ≤ Q ∧ X.TwiceNear t ρ Λ Λ₂ Q := by
  obtain ⟨r, Λ, Λ₂, Q, hr, hΛ, hΛ₂, hQ, k1, k2, k3⟩ := twice_nearby
    (stateRate_twice hn hX h.toInterior ⟨h.toAdmissible, h.fits, h.cutOff⟩)
  have hpos : ∀ᶠ x in 𝓝 z, NonNegative x := by
    refine Filter.eventually_all.2 fun i => ?_
    have hi := h.present i.val i.isLt
    unfold stateComposition complement at hi
    rw [if_neg (by omega)] at hi
    dsimp only at hi
    rw [dif_pos i.isLt] at hi
    exact ((lipAt_entry z i.castSucc.succ).continuousAt.eventually_const_lt hi).mono fun x hx => hx.le
  obtain ⟨r', hr', hball⟩ := Metric.nhds_basis_closedBall.eventually_iff.1 hpos
  obtain ⟨s, hs⟩ : ∃ s, s = min r r' := ⟨_, rfl⟩
  have hs0 : 0 < s := by rw [hs]; exact lt_min hr hr'
  have into : ∀ x ∈ Metric.closedBall z (s / 2), ∀ w, ‖w - x‖ ≤ s / 2 → w ∈ Metric.closedBall z s := by
    intro x hx w hw
    rw [Metric.mem_closedBall] at hx ⊢
    rw [← dist_eq_norm] at hw
    linarith [dist_triangle w x z]
  have hin : ∀ x ∈ Metric.closedBall z (s / 2), ∀ w, ‖w - x‖ ≤ s / 2 → w ∈ Metric.closedBall z r := fun x hx w hw =>
    Metric.closedBall_subset_closedBall (by rw [hs]; exact min_le_left _ _) (into x hx w hw)
  refine ⟨Metric.closedBall z (s / 2), Metric.closedBall_mem_nhds _ (by positivity), s / 2, Λ, Λ₂, Q, by positivity, hΛ, hΛ₂, hQ, ?_⟩
  exact ⟨fun x hx w hw => hball (Metric.closedBall_subset_closedBall (by rw [hs]; exact min_le_right _ _) (into x hx w hw)),
    fun x hx w w' hw hw' => k1 w (hin x hx w hw) w' (hin x hx w' hw'), fun x hx w v hw => k2 w (hin x hx w hw) v,
    fun x hx w w' hw hw' => k3 w (hin x hx w hw) w' (hin x hx w' hw')⟩

/-- A compact set of states inside the domain with all species present has a neighbourhood of this kind. -/
theorem twiceNear_of_compact {s : Set (Fin (m + 2) → ℝ)} (hs : IsCompact s) (h : ∀ z ∈ s, X.AllPresent z) :
    ∃ ρ Λ Λ₂ Q : ℝ, 0 < ρ ∧ 0 ≤ Λ ∧ 0 ≤ Λ₂ ∧ 0 ≤ Q ∧ X.TwiceNear s ρ Λ Λ₂ Q := by
  refine hs.induction_on (p := fun s => ∃ ρ Λ Λ₂ Q : ℝ, 0 < ρ ∧ 0 ≤ Λ ∧ 0 ≤ Λ₂ ∧ 0 ≤ Q ∧ X.TwiceNear s ρ Λ Λ₂ Q) ?_ ?_ ?_ ?_
  · exact ⟨1, 0, 0, 0, one_pos, le_rfl, le_rfl, le_rfl, ⟨fun _ h => h.elim, fun _ h => h.elim, fun _ h => h.elim, fun _ h => h.elim⟩⟩
  · rintro s t hst ⟨ρ, Λ, Λ₂, Q, h1, h2, h3, h4, h⟩
    exact ⟨ρ, Λ, Λ₂, Q, h1, h2, h3, h4, ⟨fun x hx => h.nonNegative x (hst hx), fun x hx => h.taylor x (hst hx), fun x hx => h.derivative x (hst hx),
      fun x hx => h.second x (hst hx)⟩⟩
  · rintro s t ⟨ρ, Λ, Λ₂, Q, h1, h2, h3, h4, h⟩ ⟨ρ', Λ', Λ₂', Q', h1', h2', h3', h4', h'⟩
    have a := h.weaken (min_le_left ρ ρ') (le_max_left Λ Λ') (le_max_left Λ₂ Λ₂') (le_max_left Q Q')
    have a' := h'.weaken (min_le_right ρ ρ') (le_max_right Λ Λ') (le_max_right Λ₂ Λ₂') (le_max_right Q Q')
    exact ⟨min ρ ρ', max Λ Λ', max Λ₂ Λ₂', max Q Q', lt_min h1 h1', le_max_of_le_left h2, le_max_of_le_left h3, le_max_of_le_left h4,
      ⟨fun x hx => hx.elim (a.nonNegative x) (a'.nonNegative x), fun x hx => hx.elim (a.taylor x) (a'.taylor x),
        fun x hx => hx.elim (a.derivative x) (a'.derivative x), fun x hx => hx.elim (a.second x) (a'.second x)⟩⟩
  · intro x hx
    obtain ⟨t, ht, ht'⟩ := twiceNear_of_allPresent hn hX (h x hx)
    exact ⟨t, mem_nhdsWithin_of_mem_nhds ht, ht'⟩

end DLB
