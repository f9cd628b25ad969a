import Verif.Props.ReactorBalance
import Verif.Props.PyJac
import Verif.Model.Validation
import Mathlib.Analysis.Calculus.MeanValue
import Mathlib.Tactic.FinCases
/-
C135: the heat release takes the flow to the temperature that the integration of the cell reached.
-/
set_option autoImplicit false
set_option linter.unusedSectionVars false

namespace DLB
open Spec
open scoped Topology

/-- **C135, enthalpy.** Let a cell at constant pressure take up the reaction rates `rr` over a time step: its mass fractions change by `rr dt / rho`, and its sensible enthalpy (above the enthalpies of formation `hf`) by
the heat release times `dt / rho`, as in the validation test. Then its absolute enthalpy is conserved; and conversely, if it is conserved, the sensible enthalpy is the one set. `ha0` and `ha1` are the absolute
enthalpies of the species at the temperatures before and after. -/
theorem C135_absolute_enthalpy {K : Type} [Field K] [LinearOrder K] [IsStrictOrderedRing K] {m : Nat} (hf rr Y0 Y1 ha0 ha1 : Vec K (m + 1)) (rho dt : K)
    (hY : ∀ i, Y1 i = Y0 i + rr i * dt / rho) :
    ∑ i, Y1 i * (ha1 i - hf i) = psrEnthalpy (∑ i, Y0 i * (ha0 i - hf i)) (pyJacQdot true hf rr) rho dt ↔
      ∑ i, Y1 i * ha1 i = ∑ i, Y0 i * ha0 i := by
  have e1 : ∑ i, Y1 i * (ha1 i - hf i) = ∑ i, Y1 i * ha1 i - ∑ i, Y1 i * hf i := by
    rw [← Finset.sum_sub_distrib]; exact Finset.sum_congr rfl fun i _ => by ring
  have e0 : ∑ i, Y0 i * (ha0 i - hf i) = ∑ i, Y0 i * ha0 i - ∑ i, Y0 i * hf i := by
    rw [← Finset.sum_sub_distrib]; exact Finset.sum_congr rfl fun i _ => by ring
  have e2 : ∑ i, Y1 i * hf i = ∑ i, Y0 i * hf i + (∑ i, hf i * rr i) / rho * dt := by
    rw [Finset.sum_div, Finset.sum_mul, ← Finset.sum_add_distrib]
    exact Finset.sum_congr rfl fun i _ => by rw [hY]; ring
  rw [psrEnthalpy, (C56_heat_release hf rr).1, e1, e0, e2]
  constructor
  · intro h
    have : ∑ i, Y1 i * ha1 i = (∑ i, Y1 i * ha1 i - (∑ i, Y0 i * hf i + (∑ i, hf i * rr i) / rho * dt)) + (∑ i, Y0 i * hf i + (∑ i, hf i * rr i) / rho * dt) := by
      ring
    rw [this, h]; ring
  · intro h
    rw [h]; ring

section
variable {m : Nat}

/-! ### Lemmas -/

/-- Results of short integrations are near the state at the start. -/
theorem returns_close (D : Package) (hD : D ∈ shipped) (hn : D.nsp = m + 1) (z : Fin (m + 2) → ℝ) (hz : D.chemistry.Interior z) (Lj : ℝ) (hL0 : 0 ≤ Lj) {ρ : ℝ} (hρ : 0 < ρ) :
    ∃ b H₀ : ℝ, 0 < b ∧ 0 < H₀ ∧ ∀ dt H r, 0 < dt → dt ≤ b → 0 ≤ H → H ≤ H₀ → IntegratedTo D z Lj H dt r →
      dist (gather (m := m) r.T r.fractions) (gather (z 0) (stateComposition z)) ≤ ρ := by
  have hcont : ContinuousAt (fun x : Fin (m + 2) → ℝ => gather (m := m) (x 0) (stateComposition x)) z := by
    refine continuousAt_pi.2 fun i => ?_
    unfold gather
    by_cases h : i.val = 0
    · simp only [if_pos h]; exact (lipAt_entry z 0).continuousAt
    · simp only [if_neg h]; exact (stateComposition_lipAt z _).continuousAt
  have loc : ∀ T (Y : Nat → ℝ), gather (m := m) T (fractionsOf (gather (m := m) T Y)) = gather T Y := fun T Y => by
    funext i
    unfold gather
    split
    · rfl
    · rename_i h
      have hi := i.isLt
      exact fractionsOf_gather T Y _ (by omega)
  have loc' : ∀ v : Fin (m + 2) → ℝ, gather (m := m) (v 0) (fractionsOf v) = v := fun v => by
    funext i
    unfold gather fractionsOf
    split
    · rename_i h; exact congrArg v (Fin.ext h.symm)
    · rename_i h
      have hi := i.isLt
      rw [dif_pos (by omega)]
      exact congrArg v (Fin.ext (by simp; omega))
  obtain ⟨b, H₀, K, hb, hH0, hK, key⟩ := carry D hD hn z hz Lj hL0
    (fun T Y => -max (dist (gather (m := m) T Y) (gather (z 0) (stateComposition z))) (ρ / 2)) (by
      refine ⟨1, Set.univ, Filter.univ_mem, LipschitzWith.lipschitzOnWith (LipschitzWith.of_dist_le_mul fun v w => ?_)⟩
      simp only [loc', NNReal.coe_one, one_mul]
      rw [Real.dist_eq, show -max (dist v (gather (z 0) (stateComposition z))) (ρ / 2) - -max (dist w (gather (z 0) (stateComposition z))) (ρ / 2) =
        max (dist w (gather (z 0) (stateComposition z))) (ρ / 2) - max (dist v (gather (z 0) (stateComposition z))) (ρ / 2) by ring]
      refine (abs_max_sub_max_le_abs _ _ _).trans ?_
      rw [abs_sub_comm]
      exact abs_dist_sub_le v w _)
    (fun T Y Y' h => by
      have : gather (m := m) T Y = gather T Y' := by
        funext i
        unfold gather
        split
        · rfl
        · rename_i hi
          have := i.isLt
          exact h _ (by omega)
      simp only [this])
    (fun x => dist (gather (m := m) (x 0) (stateComposition x)) (gather (z 0) (stateComposition z)) ≤ ρ / 2)
    (hcont.eventually (Metric.closedBall_mem_nhds _ (half_pos hρ)))
    (fun φ c _ _ _ hP t ht => by
      rw [max_eq_right (hP t ht), dist_self, max_eq_right (by positivity)])
  refine ⟨min b (ρ / 2 / (K * (H₀ + 1) + 1)), H₀, lt_min hb (by positivity), hH0, fun dt H r hdt hdtb hH hHH h => ?_⟩
  have k := key dt H r hdt (hdtb.trans (min_le_left _ _)) hH hHH h
  rw [dist_self, max_eq_right (by positivity)] at k
  have h1 := hdtb.trans (min_le_right _ _)
  rw [le_div_iff₀ (by positivity)] at h1
  have h2 : K * (H + 1 / 10 ^ 9) ≤ K * (H₀ + 1) := mul_le_mul_of_nonneg_left (by norm_num; linarith) hK
  have h3 := mul_le_mul_of_nonneg_right h2 hdt.le
  have h4 := le_max_left (dist (gather (m := m) r.T r.fractions) (gather (z 0) (stateComposition z))) (ρ / 2)
  linarith

theorem enthalpy_deriv {X : Chemistry} {i : Nat} (hi : i < X.nsp) {T : ℝ} (hm : X.BetweenFits T) : HasDerivAt (fun s : ℝ => X.enthalpy s i) (X.cp T i) T := by
  unfold Chemistry.enthalpy Chemistry.cp
  refine (((hOverR_deriv ((X.fit i).at T) T).congr_of_eventuallyEq ?_).const_mul _)
  filter_upwards [at_eventually (X.fit i) (hm i hi)] with s hs
  rw [hs]

/-- Near a state the enthalpy rises with the temperature, at a rate that is bounded from below. -/
theorem enthalpy_rises (D : Package) (hD : D ∈ shipped) (hn : D.nsp = m + 1) (z : Fin (m + 2) → ℝ) (hz : D.chemistry.Interior z) :
    ∃ ρ c : ℝ, 0 < ρ ∧ 0 < c ∧ ∀ Y : Nat → ℝ, (∀ i, i < m + 1 → |Y i - stateComposition z i| ≤ ρ) →
      ContinuousOn (fun T => D.chemistry.mixtureEnthalpy T Y) (Set.Icc (z 0 - ρ) (z 0 + ρ)) ∧
      ∀ T T', z 0 - ρ ≤ T → T ≤ T' → T' ≤ z 0 + ρ →
        c * (T' - T) ≤ D.chemistry.mixtureEnthalpy T' Y - D.chemistry.mixtureEnthalpy T Y := by
  have hns : D.chemistry.nsp = m + 1 := hn
  obtain ⟨v0, hv0⟩ : ∃ v0, v0 = gather (m := m) (z 0) (stateComposition z) := ⟨_, rfl⟩
  have hv00 : v0 0 = z 0 := by rw [hv0]; rfl
  obtain ⟨G, hG⟩ : ∃ G : (Fin (m + 2) → ℝ) → ℝ, G = fun v => ∑ i ∈ Finset.range D.chemistry.nsp, D.chemistry.cp (v 0) i * fractionsOf v i := ⟨_, rfl⟩
  have hGc : ContinuousAt G v0 := by
    rw [hG]
    refine (LipAt.sum fun i hi => ?_ : LipAt _ v0).continuousAt
    refine LipAt.mul ?_ (fractionsOf_lipAt _ i)
    unfold Chemistry.cp
    refine (LipAt.const _ _).mul ?_
    refine fit_lipAt (T := fun v : Fin (m + 2) → ℝ => v 0) (D.chemistry.fit i) cpOverR (lipAt_entry _ 0) ?_ fun a => cpOverR_lipAt a (lipAt_entry _ 0)
    show v0 0 ≠ _
    rw [hv00]
    exact hz.fits i hi
  have hG0 : 0 < G v0 := by
    have := heat_pos (proper_of_shipped hD _ hz.toAdmissible.temperature.1 hz.toAdmissible.temperature.2) (y := stateComposition z)
      (fun i hi => hz.toAdmissible.fractions i (by omega)) ⟨m, by omega, hz.last⟩
    rw [hG]
    refine this.trans_eq (Finset.sum_congr rfl fun i hi => ?_)
    rw [hv00, hv0, fractionsOf_gather _ _ i (by have := Finset.mem_range.1 hi; omega)]
  have hB : ∀ᶠ v in 𝓝 v0, D.chemistry.BetweenFits (v 0) := betweenFits_eventually (m := m) (z := v0) (by rw [hv00]; exact hz.fits)
  obtain ⟨ρ, hρ, hball⟩ := Metric.nhds_basis_closedBall.mem_iff.1 ((hGc.eventually (lt_mem_nhds (half_lt_self hG0))).and hB)
  have inBall : ∀ (Y : Nat → ℝ) (T : ℝ), (∀ i, i < m + 1 → |Y i - stateComposition z i| ≤ ρ) → T ∈ Set.Icc (z 0 - ρ) (z 0 + ρ) →
      gather (m := m) T Y ∈ Metric.closedBall v0 ρ := fun Y T hY hT => by
    rw [Metric.mem_closedBall, dist_pi_le_iff hρ.le]
    intro i
    have hi := i.isLt
    rw [Real.dist_eq, hv0]
    unfold gather
    by_cases h : i.val = 0
    · simp only [if_pos h]
      rw [abs_le]; exact ⟨by linarith [hT.1], by linarith [hT.2]⟩
    · simp only [if_neg h]
      exact hY _ (by omega)
  refine ⟨ρ, G v0 / 2, hρ, half_pos hG0, fun Y hY => ?_⟩
  have hd : ∀ T ∈ Set.Icc (z 0 - ρ) (z 0 + ρ), HasDerivAt (fun T => D.chemistry.mixtureEnthalpy T Y) (G (gather (m := m) T Y)) T := fun T hT => by
    have hb := (hball (inBall Y T hY hT)).2
    have hb : D.chemistry.BetweenFits T := hb
    unfold Chemistry.mixtureEnthalpy
    refine (HasDerivAt.fun_sum fun i hi => (enthalpy_deriv (Finset.mem_range.1 hi) hb).const_mul (Y i)).congr_deriv ?_
    rw [hG]
    refine Finset.sum_congr rfl fun i hi => ?_
    rw [fractionsOf_gather _ _ i (by have := Finset.mem_range.1 hi; omega), mul_comm]
    rfl
  have hc : ContinuousOn (fun T => D.chemistry.mixtureEnthalpy T Y) (Set.Icc (z 0 - ρ) (z 0 + ρ)) := fun T hT => (hd T hT).continuousAt.continuousWithinAt
  refine ⟨hc, fun T T' h1 h2 h3 => ?_⟩
  refine Convex.mul_sub_le_image_sub_of_le_deriv (convex_Icc (z 0 - ρ) (z 0 + ρ)) hc (fun x hx => ?_) (fun x hx => ?_) T ⟨h1, h2.trans h3⟩ T' ⟨h1.trans h2, h3⟩ h2
  · exact (hd x (interior_subset hx)).differentiableAt.differentiableWithinAt
  · rw [(hd x (interior_subset hx)).deriv]
    exact (hball (inBall Y x hY (interior_subset hx))).1.le

/-! ### The property -/

/-- **C135, temperature.** For every shipped mechanism, every state inside the domain and every bound on the Jacobians, there are a time `b`, a step `H₀`, a distance `r₀` and a constant `K` such that: if a cell in this state is
integrated over a time `dt` of at most `b` with steps of at most `H ≤ H₀`, and the flow takes up the resulting reaction rates and heat release at constant pressure (whatever the enthalpies of formation `hf` and the density), there is exactly one
temperature within `r₀` of that of the cell that has the enthalpy of the flow, and it is the temperature that the integration reached, up to `K (H + 10^-9) dt`. -/
theorem C135_temperature (D : Package) (hD : D ∈ shipped) (hn : D.nsp = m + 1) (z : Fin (m + 2) → ℝ) (hz : D.chemistry.Interior z) (Lj : ℝ) (hL0 : 0 ≤ Lj) :
    ∃ b H₀ r₀ K : ℝ, 0 < b ∧ 0 < H₀ ∧ 0 < r₀ ∧ ∀ dt H r, 0 < dt → dt ≤ b → 0 ≤ H → H ≤ H₀ → IntegratedTo D z Lj H dt r →
      ∀ (rho : ℝ) (hf rr Y1 : Vec ℝ (m + 1)), rho ≠ 0 → (∀ i : Fin (m + 1), rr i = (r.fractions i - stateComposition z i) * rho / dt) →
        (∀ i : Fin (m + 1), Y1 i = stateComposition z i + rr i * dt / rho) →
        ∃ T1, (|T1 - z 0| ≤ r₀ ∧ ∑ i : Fin (m + 1), Y1 i * (D.chemistry.enthalpy T1 i - hf i) =
            psrEnthalpy (∑ i : Fin (m + 1), stateComposition z i * (D.chemistry.enthalpy (z 0) i - hf i)) (pyJacQdot true hf rr) rho dt) ∧
          |T1 - r.T| ≤ K * (H + 1 / 10 ^ 9) * dt ∧
          ∀ T, |T - z 0| ≤ r₀ → ∑ i : Fin (m + 1), Y1 i * (D.chemistry.enthalpy T i - hf i) =
            psrEnthalpy (∑ i : Fin (m + 1), stateComposition z i * (D.chemistry.enthalpy (z 0) i - hf i)) (pyJacQdot true hf rr) rho dt → T = T1 := by
  have hns : D.chemistry.nsp = m + 1 := hn
  obtain ⟨ρ, c, hρ, hc, rises⟩ := enthalpy_rises D hD hn z hz
  obtain ⟨b1, H1, hb1, hH1, close⟩ := returns_close D hD hn z hz Lj hL0 (half_pos hρ)
  obtain ⟨b2, H2, K, hb2, hH2, keep⟩ := C120_enthalpy D hD hn z hz Lj hL0
  have hH12 : 0 < min H1 H2 := lt_min hH1 hH2
  refine ⟨min (min b1 b2) (ρ / 2 * c / (|K| * (min H1 H2 + 1) + 1)), min H1 H2, ρ, |K| / c, lt_min (lt_min hb1 hb2) (by positivity), hH12, hρ, ?_⟩
  intro dt H r hdt hdtb hH hHH h rho hf rr Y1 hrho hrr hY1
  have cl := close dt H r hdt ((hdtb.trans (min_le_left _ _)).trans (min_le_left _ _)) hH (hHH.trans (min_le_left _ _)) h
  have ke := keep dt H r hdt ((hdtb.trans (min_le_left _ _)).trans (min_le_right _ _)) hH (hHH.trans (min_le_right _ _)) h
  have hY : ∀ i : Fin (m + 1), Y1 i = r.fractions i := fun i => by
    rw [hY1, hrr]; field_simp; ring
  have conv : ∀ T, (∑ i : Fin (m + 1), Y1 i * (D.chemistry.enthalpy T i - hf i) =
      psrEnthalpy (∑ i : Fin (m + 1), stateComposition z i * (D.chemistry.enthalpy (z 0) i - hf i)) (pyJacQdot true hf rr) rho dt) ↔
      D.chemistry.mixtureEnthalpy T r.fractions = D.chemistry.mixtureEnthalpy (z 0) (stateComposition z) := fun T => by
    rw [C135_absolute_enthalpy hf rr (fun i => stateComposition z i) Y1 (fun i => D.chemistry.enthalpy (z 0) i) (fun i => D.chemistry.enthalpy T i) rho dt hY1]
    unfold Chemistry.mixtureEnthalpy
    rw [hns, Finset.sum_range, Finset.sum_range]
    simp only [hY]
  simp only [conv]
  rw [dist_pi_le_iff (half_pos hρ).le] at cl
  have clT : |r.T - z 0| ≤ ρ / 2 := by
    have := cl 0
    rwa [Real.dist_eq] at this
  have clY : ∀ i, i < m + 1 → |r.fractions i - stateComposition z i| ≤ ρ := fun i hi => by
    have := cl ⟨i + 1, by omega⟩
    rw [Real.dist_eq] at this
    unfold gather at this
    simp only [Nat.add_one_ne_zero, if_false, Nat.add_sub_cancel] at this
    linarith
  obtain ⟨hcont, rise⟩ := rises r.fractions clY
  obtain ⟨E, hE⟩ : ∃ E, E = D.chemistry.mixtureEnthalpy (z 0) (stateComposition z) := ⟨_, rfl⟩
  obtain ⟨F, hF⟩ : ∃ F : ℝ → ℝ, F = fun T => D.chemistry.mixtureEnthalpy T r.fractions := ⟨_, rfl⟩
  have hF' : ∀ T, D.chemistry.mixtureEnthalpy T r.fractions = F T := fun T => by rw [hF]
  rw [← hF] at hcont
  simp only [hF', ← hE] at rise ke ⊢
  obtain ⟨e, he⟩ : ∃ e, e = |K| / c * (H + 1 / 10 ^ 9) * dt := ⟨_, rfl⟩
  have he0 : 0 ≤ e := by rw [he]; positivity
  have hce : c * e = |K| * (H + 1 / 10 ^ 9) * dt := by rw [he]; field_simp
  have heρ : e ≤ ρ / 2 := by
    have h1 := hdtb.trans (min_le_right _ _)
    rw [le_div_iff₀ (by positivity)] at h1
    have h2 : |K| * (H + 1 / 10 ^ 9) ≤ |K| * (min H1 H2 + 1) := mul_le_mul_of_nonneg_left (by norm_num; linarith) (abs_nonneg K)
    have h3 := mul_le_mul_of_nonneg_right h2 hdt.le
    have h4 : c * e ≤ c * (ρ / 2) := by rw [hce]; linarith
    exact le_of_mul_le_mul_left h4 hc
  have keE : |F r.T - E| ≤ c * e := by
    rw [hce]
    exact ke.trans (mul_le_mul_of_nonneg_right (mul_le_mul_of_nonneg_right (le_abs_self K) (by positivity)) hdt.le)
  obtain ⟨k1, k2⟩ := abs_le.1 keE
  obtain ⟨t1, t2⟩ := abs_le.1 clT
  have up := rise r.T (r.T + e) (by linarith) (by linarith) (by linarith)
  have dn := rise (r.T - e) r.T (by linarith) (by linarith) (by linarith)
  have u' : E ≤ F (r.T + e) := by linarith [show c * (r.T + e - r.T) = c * e by ring]
  have d' : F (r.T - e) ≤ E := by linarith [show c * (r.T - (r.T - e)) = c * e by ring]
  obtain ⟨T1, hT1, hFT⟩ := intermediate_value_Icc (by linarith : r.T - e ≤ r.T + e)
    (hcont.mono (Set.Icc_subset_Icc (by linarith) (by linarith))) (show E ∈ Set.Icc (F (r.T - e)) (F (r.T + e)) from ⟨d', u'⟩)
  have in1 : z 0 - ρ ≤ T1 ∧ T1 ≤ z 0 + ρ := ⟨by linarith [hT1.1], by linarith [hT1.2]⟩
  refine ⟨T1, ⟨abs_le.2 ⟨by linarith [in1.1], by linarith [in1.2]⟩, hFT⟩, ?_, fun T hT hFT' => ?_⟩
  · rw [← he, abs_le]; exact ⟨by linarith [hT1.1], by linarith [hT1.2]⟩
  · obtain ⟨a1, a2⟩ := abs_le.1 hT
    rcases le_total T T1 with hle | hle
    · have := rise T T1 (by linarith) hle in1.2
      rw [hFT, hFT', sub_self] at this
      have : T1 - T ≤ 0 := by
        by_contra hh
        have := mul_pos hc (not_le.1 hh)
        linarith
      linarith
    · have := rise T1 T in1.1 hle (by linarith)
      rw [hFT, hFT', sub_self] at this
      have : T - T1 ≤ 0 := by
        by_contra hh
        have := mul_pos hc (not_le.1 hh)
        linarith
      linarith

end

/-! ### Cases

That there are integrations as the theorem assumes them (`IntegratedTo`) is C121. -/

/-- A mixture of all species of drm19, 1 % of each with nitrogen as the rest, is a state inside the domain. -/
example (Lj : ℝ) (hL0 : 0 ≤ Lj) : ∃ p b H₀ r₀ K : ℝ, 0 < b ∧ 0 < H₀ ∧ 0 < r₀ ∧ ∀ dt H r, 0 < dt → dt ≤ b → 0 ≤ H → H ≤ H₀ →
    IntegratedTo drm19 (drm19State (fun _ => 1 / 100) p) Lj H dt r → ∃ T1, |T1 - r.T| ≤ K * (H + 1 / 10 ^ 9) * dt := by
  obtain ⟨p, hp⟩ := drm19State_interior (fun _ => 1 / 100) (fun _ _ => by norm_num) (by simp; norm_num)
  obtain ⟨b, H₀, r₀, K, h1, h2, h3, h⟩ := C135_temperature drm19 (by simp [shipped]) rfl _ hp Lj hL0
  refine ⟨p, b, H₀, r₀, K, h1, h2, h3, fun dt H r a1 a2 a3 a4 a5 => ?_⟩
  obtain ⟨T1, -, h, -⟩ := h dt H r a1 a2 a3 a4 a5 1 0 _ _ one_ne_zero (fun _ => rfl) fun _ => rfl
  exact ⟨T1, h⟩

/-- Two species with the heat capacity 1 and the enthalpies of formation 0 and -100: if a fifth of the first turns into the second, the temperature rises by 20. -/
example : ∑ i, (![4 / 5, 1 / 5] : Vec ℚ 2) i * (![320, 220] i - ![0, -100] i) =
    psrEnthalpy (∑ i, (![1, 0] : Vec ℚ 2) i * (![300, 200] i - ![0, -100] i)) (pyJacQdot true ![0, -100] ![-2, 2]) 1 (1 / 10) :=
  (C135_absolute_enthalpy (m := 1) _ _ _ _ ![300, 200] ![320, 220] _ _ fun i => by fin_cases i <;> norm_num).2 (by
    simp [Fin.sum_univ_two]; norm_num)

end DLB
