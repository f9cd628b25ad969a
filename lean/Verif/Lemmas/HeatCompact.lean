import Verif.Lemmas.ReactorCompact
import Verif.Props.FlowTemperature
/-
The enthalpy of states near a compact set: Lipschitz continuous, and rising with the temperature.
-/
set_option autoImplicit false
set_option linter.unusedSectionVars false

namespace DLB
open scoped Topology NNReal
open Spec

variable {m : Nat}

/-- The enthalpy per mass of a state. -/
noncomputable def Chemistry.stateEnthalpy (X : Chemistry) (z : Fin (m + 2) → ℝ) : ℝ := X.mixtureEnthalpy (z 0) (stateComposition z)

/-- Up to the distance `ρ` from every state in `s` the enthalpy is Lipschitz continuous, and rises with the temperature at a rate of at least `c`. -/
structure Chemistry.HeatNear (X : Chemistry) (s : Set (Fin (m + 2) → ℝ)) (ρ L c : ℝ) : Prop where
  fits : ∀ x ∈ s, ∀ z, ‖z - x‖ ≤ ρ → X.BetweenFits (z 0)
  lipschitz : ∀ x ∈ s, ∀ z z', ‖z - x‖ ≤ ρ → ‖z' - x‖ ≤ ρ → |X.stateEnthalpy z - X.stateEnthalpy z'| ≤ L * ‖z - z'‖
  rises : ∀ x ∈ s, ∀ z z', ‖z - x‖ ≤ ρ → ‖z' - x‖ ≤ ρ → (∀ i, i ≠ 0 → z i = z' i) → z 0 ≤ z' 0 → c * (z' 0 - z 0) ≤ X.stateEnthalpy z' - X.stateEnthalpy z

theorem Chemistry.HeatNear.weaken {X : Chemistry} {s : Set (Fin (m + 2) → ℝ)} {ρ ρ' L L' c c' : ℝ} (h : X.HeatNear s ρ L c) (h1 : ρ' ≤ ρ) (h2 : L ≤ L') (h3 : c' ≤ c) :
    X.HeatNear s ρ' L' c' where
  fits := fun x hx z hz => h.fits x hx z (hz.trans h1)
  lipschitz := fun x hx z z' hz hz' => (h.lipschitz x hx z z' (hz.trans h1) (hz'.trans h1)).trans (mul_le_mul_of_nonneg_right h2 (norm_nonneg _))
  rises := fun x hx z z' hz hz' he hle => le_trans (mul_le_mul_of_nonneg_right h3 (sub_nonneg.2 hle)) (h.rises x hx z z' (hz.trans h1) (hz'.trans h1) he hle)

/-- Mass fractions do not depend on the temperature of the state. -/
theorem stateComposition_congr {z z' : Fin (m + 2) → ℝ} (h : ∀ i, i ≠ 0 → z i = z' i) : stateComposition z = stateComposition z' := by
  have e : (fun i => if h : i < m then z ⟨i + 1, by omega⟩ else 0) = fun i => if h : i < m then z' ⟨i + 1, by omega⟩ else 0 := by
    funext i
    split
    · exact h _ (by simp [Fin.ext_iff])
    · rfl
  unfold stateComposition
  rw [e]

theorem heatNear_of_interior (D : Package) (hD : D ∈ shipped) (hn : D.nsp = m + 1) {z : Fin (m + 2) → ℝ} (hz : D.chemistry.Interior z) :
    ∃ t ∈ 𝓝 z, ∃ ρ L c : ℝ, 0 < ρ ∧ 0 ≤ L ∧ 0 < c ∧ D.chemistry.HeatNear t ρ L c := by
  obtain ⟨ρ0, c, hρ0, hc, rises⟩ := enthalpy_rises D hD hn z hz
  have hlip : LipAt (fun x : Fin (m + 2) → ℝ => D.chemistry.stateEnthalpy x) z := by
    unfold Chemistry.stateEnthalpy Chemistry.mixtureEnthalpy Chemistry.enthalpy
    refine LipAt.sum fun i hi => (stateComposition_lipAt z i).mul ((LipAt.const _ _).mul ?_)
    exact fit_lipAt (T := fun v : Fin (m + 2) → ℝ => v 0) (D.chemistry.fit i) hOverR (lipAt_entry _ 0) (hz.fits i hi)
      fun a => hOverR_lipAt a (lipAt_entry _ 0)
  obtain ⟨K, U, hU, hL⟩ := hlip
  have hY : ∀ᶠ x in 𝓝 z, ∀ i : Fin (m + 1), |stateComposition x i - stateComposition z i| ≤ ρ0 := Filter.eventually_all.2 fun i => by
    have := (stateComposition_lipAt z i).continuousAt.eventually (Metric.closedBall_mem_nhds _ hρ0)
    exact this.mono fun x hx => by rwa [Real.dist_eq] at hx
  have hT : ∀ᶠ x in 𝓝 z, |x 0 - z 0| ≤ ρ0 := by
    have := (lipAt_entry z 0).continuousAt.eventually (Metric.closedBall_mem_nhds _ hρ0)
    exact this.mono fun x hx => by rwa [Real.dist_eq] at hx
  obtain ⟨r, hr, hball⟩ := Metric.nhds_basis_closedBall.eventually_iff.1
    ((Filter.eventually_mem_set.2 hU).and ((betweenFits_eventually hz.fits).and (hY.and hT)))
  have into : ∀ x ∈ Metric.closedBall z (r / 2), ∀ w, ‖w - x‖ ≤ r / 2 → w ∈ Metric.closedBall z r := by
    intro x hx w hw
    rw [Metric.mem_closedBall] at hx ⊢
    rw [← dist_eq_norm] at hw
    linarith [dist_triangle w x z]
  refine ⟨Metric.closedBall z (r / 2), Metric.closedBall_mem_nhds _ (by positivity), r / 2, K, c, by positivity, K.coe_nonneg, hc,
    fun x hx w hw => (hball (into x hx w hw)).2.1, fun x hx w w' hw hw' => ?_, fun x hx w w' hw hw' he hle => ?_⟩
  · have := hL.dist_le_mul w (hball (into x hx w hw)).1 w' (hball (into x hx w' hw')).1
    rwa [Real.dist_eq, dist_eq_norm] at this
  · obtain ⟨-, -, a1, a2⟩ := hball (into x hx w hw)
    obtain ⟨-, -, b1, b2⟩ := hball (into x hx w' hw')
    have := (rises (stateComposition w) fun i hi => a1 ⟨i, hi⟩).2 (w 0) (w' 0) (by linarith [(abs_le.1 a2).1]) hle (by linarith [(abs_le.1 b2).2])
    unfold Chemistry.stateEnthalpy
    rwa [← stateComposition_congr he]

theorem heatNear_of_compact (D : Package) (hD : D ∈ shipped) (hn : D.nsp = m + 1) {s : Set (Fin (m + 2) → ℝ)} (hs : IsCompact s) (h : ∀ z ∈ s, D.chemistry.Interior z) :
    ∃ ρ L c : ℝ, 0 < ρ ∧ 0 ≤ L ∧ 0 < c ∧ D.chemistry.HeatNear s ρ L c := by
  refine hs.induction_on (p := fun s => ∃ ρ L c : ℝ, 0 < ρ ∧ 0 ≤ L ∧ 0 < c ∧ D.chemistry.HeatNear s ρ L c) ?_ ?_ ?_ ?_
  · exact ⟨1, 0, 1, one_pos, le_rfl, one_pos, ⟨fun _ h => h.elim, fun _ h => h.elim, fun _ h => h.elim⟩⟩
  · rintro s t hst ⟨ρ, L, c, h1, h2, h3, h⟩
    exact ⟨ρ, L, c, h1, h2, h3, ⟨fun x hx => h.fits x (hst hx), fun x hx => h.lipschitz x (hst hx), fun x hx => h.rises x (hst hx)⟩⟩
  · rintro s t ⟨ρ, L, c, h1, h2, h3, h⟩ ⟨ρ', L', c', h1', h2', h3', h'⟩
    have a := h.weaken (min_le_left ρ ρ') (le_max_left L L') (min_le_left c c')
    have a' := h'.weaken (min_le_right ρ ρ') (le_max_right L L') (min_le_right c c')
    exact ⟨min ρ ρ', max L L', min c c', lt_min h1 h1', le_max_of_le_left h2, lt_min h3 h3',
      ⟨fun x hx => hx.elim (a.fits x) (a'.fits x), fun x hx => hx.elim (a.lipschitz x) (a'.lipschitz x), fun x hx => hx.elim (a.rises x) (a'.rises x)⟩⟩
  · intro x hx
    obtain ⟨t, ht, ht'⟩ := heatNear_of_interior D hD hn (h x hx)
    exact ⟨t, mem_nhdsWithin_of_mem_nhds ht, ht'⟩

end DLB
