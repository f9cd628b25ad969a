import Verif.Lemmas.SmallTimeStep
import Verif.Props.ReactorBalance
/-
C121: over short times the integration of a cell is one step that is accepted at once, and follows the reactor.
-/
set_option autoImplicit false
set_option linter.unusedSectionVars false

namespace DLB
open Spec
open scoped Topology

section
variable {m : Nat}

/-- The equations of the pyJac model are bounded near states inside the domain. -/
theorem pyJac_boundedNear [MathOps ℝ] (D : Package) (hD : D ∈ shipped) (hn : D.nsp = m + 1) (z : Fin (m + 2) → ℝ) (hz : D.chemistry.Interior z)
    (evalJacob : ℝ → Vec ℝ (m + 2) → Nat → ℝ) : BoundedNear (pyJacDerivatives (D.lib m evalJacob)) 0 z := by
  obtain ⟨b, ρ, B, Λ, S, φ, hb, hρ, hB, hΛ, hS, h0, hφ⟩ := exists_tube (X := D.chemistry) hn (proper_of_shipped hD) hz
  refine ⟨ρ, B + S / 10 ^ 9, hρ, fun x' y _ hy i => ?_⟩
  have near : Spec.Near φ 0 b ρ 0 y := by
    refine ⟨⟨le_rfl, hb.le⟩, (pi_norm_le_iff_of_nonneg hρ.le).2 fun i => ?_⟩
    rw [h0, Pi.sub_apply, Real.norm_eq_abs]
    exact hy i
  have h1 := tube_diff hD hn (evalJacob := evalJacob) hS hφ 0 y near
  have h2 := hφ.bound 0 _ (tube_near hφ near) (clip_nonNegative y)
  have h3 : ‖pyJacDerivatives (D.lib m evalJacob) 0 y‖ ≤ B + S / 10 ^ 9 := by
    have := norm_le_norm_add_norm_sub' (pyJacDerivatives (D.lib m evalJacob) 0 y) (D.chemistry.stateRate (clip y))
    linarith
  have h4 := (norm_le_pi_norm (pyJacDerivatives (D.lib m evalJacob) 0 y) i).trans h3
  rw [Real.norm_eq_abs] at h4
  exact h4

/-- **C121, one step.** For every shipped mechanism, every state inside the domain, whatever the Jacobian routine returns and for all
tolerances there is a time `b` such that, for every linear solver that solves regular systems, whatever is in the work arrays, and even if
a step is given only one attempt and the integration only one step: if a cell in this state is integrated over a time `dt` of at most `b`
with an initial step that is not shorter, the integration returns, after one step of size `dt` that is made with the Jacobian at
the initial state. -/
theorem C121_one_step [MathOps ℝ] (hq : SqrtLaws ℝ) (D : Package) (hD : D ∈ shipped) (hn : D.nsp = m + 1)
    (z : Fin (m + 2) → ℝ) (hz : D.chemistry.Interior z) (evalJacob : ℝ → Vec ℝ (m + 2) → Nat → ℝ)
    (absTol relTol : Vec ℝ (m + 2)) (habs : ∀ i, 0 < absTol i) (hrel : ∀ i, 0 < relTol i) :
    ∃ b : ℝ, 0 < b ∧ ∀ (linearSolve : (Nat → ℝ) → Vec ℝ (m + 2) → Vec ℝ (m + 2)) (fuel maxSteps : Nat)
      (scr : Scratch ℝ (m + 1)) (p T : ℝ) (c : List ℝ) (dt sub : ℝ), LapackContract (m + 2) linearSolve → 1 ≤ fuel → 1 ≤ maxSteps →
      Layout p T c z → 0 < dt → dt ≤ b → dt ≤ sub →
      acceptedSteps (seulexSolve (pyJacEnv (D.lib m evalJacob) linearSolve absTol relTol fuel)) 0 dt maxSteps scr 0 z
        (StepState.init sub) = [(dt, pyJacJacobian (D.lib m evalJacob) 0 z)] ∧
      ∃ scr' r, odePyJacSolve (seulexIntegrator (pyJacEnv (D.lib m evalJacob) linearSolve absTol relTol fuel) maxSteps) scr p T c
        dt sub = .ok (scr', r) := by
  have hj : jacRedoOf relTol < ((2 : Nat) : ℝ) * jacRedoOf relTol := by
    have := jacRedoOf_pos hrel
    push_cast
    linarith
  obtain ⟨δ, hδ, key⟩ := first_step_accepted (n := m + 1) hq (pyJacDerivatives (D.lib m evalJacob)) (pyJacJacobian (D.lib m evalJacob))
    absTol relTol (jacRedoOf relTol) hj 0 z hz.inside
    (fun i => by have := mul_nonneg (hrel i).le (abs_nonneg (z i)); have := habs i; linarith)
    (pyJac_boundedNear D hD hn z hz evalJacob)
  refine ⟨δ, hδ, fun linearSolve fuel maxSteps scr p T c dt sub hE hfuel hmax hlay hdt hdtb hsub => ?_⟩
  obtain ⟨p1, p2, p3⟩ := driverPrepare_whole hdt hsub
  obtain ⟨scr', y', step', hstep, hdf⟩ := key linearSolve fuel scr (driverPrepare 0 dt 0 (StepState.init sub)) hE hfuel p1 p2
    (by rw [p3]; exact hdt) (by rw [p3]; exact hdtb)
  rw [p3] at hstep
  obtain ⟨h1, q, hq⟩ := one_step (E := pyJacEnv (D.lib m evalJacob) linearSolve absTol relTol fuel) hmax hstep
  rw [hdf] at h1
  refine ⟨h1, ?_⟩
  have hpack : packPyJac p T (fun i : Fin (m + 1) => c[i.val]'(by have := hlay.size; omega)) = z := by
    exact (packPyJac_layout p T c hlay.size).unique hlay
  unfold odePyJacSolve
  rw [dif_pos hlay.size, hpack]
  unfold seulexIntegrator
  simp only [bind, Except.bind, hq]
  exact ⟨_, _, rfl⟩

/-- Close to the start a solution of the reactor is a straight line, up to the square of the time. -/
theorem second_order (D : Package) (hD : D ∈ shipped) (hn : D.nsp = m + 1) {z : Fin (m + 2) → ℝ} (hz : D.chemistry.Interior z)
    {φ : ℝ → Fin (m + 2) → ℝ} {b : ℝ} (hb : 0 < b) (h0 : φ 0 = z) (hs : SolvesOn (fun _ => D.chemistry.stateRate) φ 0 b) :
    ∃ c M : ℝ, 0 < c ∧ c ≤ b ∧ 0 ≤ M ∧ ∀ t ∈ Set.Icc 0 c, ‖φ t - z - t • D.chemistry.stateRate z‖ ≤ M * t ^ 2 := by
  obtain ⟨K, U, hU, hL⟩ := stateRate_lipAt (X := D.chemistry) hn (proper_of_shipped hD) hz
  obtain ⟨r, hr, hball⟩ := Metric.nhds_basis_closedBall.mem_iff.1 hU
  obtain ⟨c, hc0, hcb, hc⟩ := start_in hb h0 (hs 0 ⟨le_rfl, hb.le⟩).continuousWithinAt (Metric.closedBall_mem_nhds z hr)
  have hder : ∀ t ∈ Set.Icc 0 c, HasDerivWithinAt φ (D.chemistry.stateRate (φ t)) (Set.Icc 0 c) t := fun t ht =>
    (hs t ⟨ht.1, ht.2.trans hcb⟩).mono (Set.Icc_subset_Icc le_rfl hcb)
  have hlip : ∀ t ∈ Set.Icc 0 c, ‖D.chemistry.stateRate (φ t) - D.chemistry.stateRate z‖ ≤ K * ‖φ t - z‖ := fun t ht => by
    have := hL.dist_le_mul _ (hball (hc t ht)) z (hball (Metric.mem_closedBall_self hr.le))
    rwa [dist_eq_norm, dist_eq_norm] at this
  obtain ⟨B, hB⟩ : ∃ B, B = ‖D.chemistry.stateRate z‖ + K * r := ⟨_, rfl⟩
  have hB0 : 0 ≤ B := by rw [hB]; positivity
  have hdist : ∀ t ∈ Set.Icc 0 c, ‖φ t - z‖ ≤ B * t := fun t ht => by
    have hsub : Set.Icc 0 t ⊆ Set.Icc 0 c := Set.Icc_subset_Icc le_rfl ht.2
    have := (convex_Icc (0 : ℝ) t).norm_image_sub_le_of_norm_hasDerivWithin_le (C := B)
      (fun s hs' => (hder s (hsub hs')).mono hsub) (fun s hs' => by
        have h1 := hlip s (hsub hs')
        have h2 := norm_le_norm_add_norm_sub' (D.chemistry.stateRate (φ s)) (D.chemistry.stateRate z)
        have h3 : ‖φ s - z‖ ≤ r := by
          have : dist (φ s) z ≤ r := hc s (hsub hs')
          rwa [dist_eq_norm] at this
        have h4 := mul_le_mul_of_nonneg_left h3 K.2
        rw [hB]
        exact h2.trans (by
          have : (K : ℝ) * ‖φ s - z‖ ≤ K * r := h4
          linarith)) (Set.left_mem_Icc.2 ht.1) (Set.right_mem_Icc.2 ht.1)
    rwa [h0, sub_zero, Real.norm_eq_abs, abs_of_nonneg ht.1] at this
  refine ⟨c, K * B, hc0, hcb, by positivity, fun t ht => ?_⟩
  have hsub : Set.Icc 0 t ⊆ Set.Icc 0 c := Set.Icc_subset_Icc le_rfl ht.2
  have := (convex_Icc (0 : ℝ) t).norm_image_sub_le_of_norm_hasDerivWithin_le (C := K * (B * t))
    (f := fun s => φ s - s • D.chemistry.stateRate z)
    (f' := fun s => D.chemistry.stateRate (φ s) - (1 : ℝ) • D.chemistry.stateRate z)
    (fun s hs' => ((hder s (hsub hs')).mono hsub).sub ((hasDerivWithinAt_id s _).smul_const _)) (fun s hs' => by
      rw [one_smul]
      refine (hlip s (hsub hs')).trans (mul_le_mul_of_nonneg_left ((hdist s (hsub hs')).trans ?_) K.2)
      exact mul_le_mul_of_nonneg_left hs'.2 hB0) (Set.left_mem_Icc.2 ht.1) (Set.right_mem_Icc.2 ht.1)
  rw [sub_zero, Real.norm_eq_abs, abs_of_nonneg ht.1, h0, zero_smul, sub_zero] at this
  calc ‖φ t - z - t • D.chemistry.stateRate z‖ = ‖φ t - t • D.chemistry.stateRate z - z‖ := by congr 1; abel
    _ ≤ K * (B * t) * t := this
    _ = K * B * t ^ 2 := by ring

/-- The same for the mass fractions of all species. -/
theorem second_order_composition (D : Package) (hD : D ∈ shipped) (hn : D.nsp = m + 1) {z v : Fin (m + 2) → ℝ} {t e : ℝ}
    (h : ‖v - z - t • D.chemistry.stateRate z‖ ≤ e) (j : Nat) (hj : j < m + 1) :
    |stateComposition v j - stateComposition z j - t * D.chemistry.dYdt (z 0) (z (Fin.last (m + 1))) (stateComposition z) j| ≤
      (if j = m then m else 1) * e := by
  have one : ∀ k, k < m → |stateComposition v k - stateComposition z k -
      t * D.chemistry.dYdt (z 0) (z (Fin.last (m + 1))) (stateComposition z) k| ≤ e := fun k hk => by
    have := (norm_le_pi_norm (v - z - t • D.chemistry.stateRate z) ⟨k + 1, by omega⟩).trans h
    rw [Real.norm_eq_abs, Pi.sub_apply, Pi.sub_apply, Pi.smul_apply, smul_eq_mul] at this
    unfold Chemistry.stateRate at this
    dsimp only at this
    rw [if_neg (by simp), if_neg (by simp; omega)] at this
    have e1 : ∀ w : Fin (m + 2) → ℝ, stateComposition w k = w ⟨k + 1, by omega⟩ := fun w => by
      unfold stateComposition complement
      rw [if_neg (by omega)]
      dsimp only
      rw [dif_pos hk]
    rw [e1, e1]
    exact this
  by_cases hjm : j = m
  · rw [if_pos hjm, hjm]
    have e1 : ∀ w : Fin (m + 2) → ℝ, stateComposition w m = 1 - ∑ k ∈ Finset.range m, stateComposition w k := fun w => by
      have : ∑ k ∈ Finset.range m, stateComposition w k = ∑ k ∈ Finset.range m, (if h : k < m then w ⟨k + 1, by omega⟩ else 0) :=
        Finset.sum_congr rfl fun k hk => by
          unfold stateComposition complement
          rw [if_neg (by have := Finset.mem_range.1 hk; omega)]
      rw [this]
      unfold stateComposition complement
      rw [if_pos rfl]
    have e2 := dYdt_sum hD (z 0) (z (Fin.last (m + 1))) (stateComposition z)
    rw [hn, Finset.sum_range_succ] at e2
    have e3 : stateComposition v m - stateComposition z m - t * D.chemistry.dYdt (z 0) (z (Fin.last (m + 1))) (stateComposition z) m =
        -∑ k ∈ Finset.range m, (stateComposition v k - stateComposition z k -
          t * D.chemistry.dYdt (z 0) (z (Fin.last (m + 1))) (stateComposition z) k) := by
      rw [e1 v, e1 z, Finset.sum_sub_distrib, Finset.sum_sub_distrib, ← Finset.mul_sum]
      linear_combination -t * e2
    rw [e3, abs_neg]
    refine (Finset.abs_sum_le_sum_abs _ _).trans ((Finset.sum_le_sum fun k hk => one k (Finset.mem_range.1 hk)).trans ?_)
    simp
  · rw [if_neg hjm, Nat.cast_one, one_mul]
    exact one j (by omega)

/-- Integrations over short times, with a number of steps, a time and a first step that meet `Cond`, return, and their steps are as the
theorems on the reactor assume them. -/
def ShortIntegrations [MathOps ℝ] (D : Package) (z : Fin (m + 2) → ℝ) (evalJacob : ℝ → Vec ℝ (m + 2) → Nat → ℝ)
    (absTol relTol : Vec ℝ (m + 2)) (Cond : Nat → ℝ → ℝ → Prop) : Prop :=
  ∃ b Lj : ℝ, 0 < b ∧ 0 ≤ Lj ∧ ∀ (linearSolve : (Nat → ℝ) → Vec ℝ (m + 2) → Vec ℝ (m + 2)) (fuel maxSteps : Nat)
      (p T : ℝ) (c : List ℝ) (dt sub : ℝ), LapackContract (m + 2) linearSolve → 1 ≤ fuel → Cond maxSteps dt sub →
      Layout p T c z → 0 < dt → dt ≤ b → 0 < sub →
      SmallSteps (pyJacEnv (D.lib m evalJacob) linearSolve absTol relTol fuel) maxSteps dt z sub Lj dt ∧
      ∀ scr, ∃ scr' r, odePyJacSolve (seulexIntegrator (pyJacEnv (D.lib m evalJacob) linearSolve absTol relTol fuel) maxSteps)
        scr p T c dt sub = .ok (scr', r)

/-- The steps of an integration over a short time, as the theorems on the reactor assume them. -/
theorem smallSteps_of_one [MathOps ℝ] (hq : SqrtLaws ℝ) (D : Package) (hD : D ∈ shipped) (hn : D.nsp = m + 1)
    (z : Fin (m + 2) → ℝ) (hz : D.chemistry.Interior z) (evalJacob : ℝ → Vec ℝ (m + 2) → Nat → ℝ)
    (absTol relTol : Vec ℝ (m + 2)) (habs : ∀ i, 0 < absTol i) (hrel : ∀ i, 0 < relTol i) :
    ShortIntegrations D z evalJacob absTol relTol (fun maxSteps dt sub => 1 ≤ maxSteps ∧ dt ≤ sub) := by
  obtain ⟨b, hb, key⟩ := C121_one_step hq D hD hn z hz evalJacob absTol relTol habs hrel
  refine ⟨b, ∑ i, ∑ j, |pyJacJacobian (D.lib m evalJacob) 0 z i j|, hb,
    Finset.sum_nonneg fun i _ => Finset.sum_nonneg fun j _ => abs_nonneg _, ?_⟩
  rintro linearSolve fuel maxSteps p T c dt sub hE hfuel ⟨hmax, hsub⟩ hlay hdt hdtb -
  have := fun scr => key linearSolve fuel maxSteps scr p T c dt sub hE hfuel hmax hlay hdt hdtb hsub
  refine ⟨fun scr => ?_, fun scr => (this scr).2⟩
  obtain ⟨h1, -⟩ := this scr
  dsimp only
  rw [h1]
  refine ⟨by simp, fun q hq => ?_⟩
  rw [List.mem_singleton] at hq
  subst hq
  refine ⟨le_rfl, fun i => ?_⟩
  exact Finset.single_le_sum (f := fun i => ∑ j, |pyJacJacobian (D.lib m evalJacob) 0 z i j|)
    (fun i _ => Finset.sum_nonneg fun j _ => abs_nonneg _) (Finset.mem_univ i)

/-- Integrations over short times follow the reactor. -/
theorem ShortIntegrations.follow [MathOps ℝ] (hm : PowLaws ℝ) {D : Package} (hD : D ∈ shipped) (hn : D.nsp = m + 1)
    {z : Fin (m + 2) → ℝ} (hz : D.chemistry.Interior z) {evalJacob : ℝ → Vec ℝ (m + 2) → Nat → ℝ}
    {absTol relTol : Vec ℝ (m + 2)} (hrel : ∀ i, 0 < relTol i) {Cond : Nat → ℝ → ℝ → Prop}
    (hshort : ShortIntegrations D z evalJacob absTol relTol Cond) :
    ∃ φ : ℝ → Fin (m + 2) → ℝ, ∃ b K : ℝ, 0 < b ∧ 0 ≤ K ∧ φ 0 = z ∧ SolvesOn (fun _ => D.chemistry.stateRate) φ 0 b ∧
      (∀ t ∈ Set.Icc 0 b, D.chemistry.Admissible (φ t)) ∧
      ∀ (linearSolve : (Nat → ℝ) → Vec ℝ (m + 2) → Vec ℝ (m + 2)) (fuel maxSteps : Nat)
        (scr : Scratch ℝ (m + 1)) (p T : ℝ) (c : List ℝ) (dt sub : ℝ), LapackContract (m + 2) linearSolve → 1 ≤ fuel →
        Cond maxSteps dt sub → Layout p T c z → 0 < dt → dt ≤ b → 0 < sub →
        ∃ scr' r, odePyJacSolve (seulexIntegrator (pyJacEnv (D.lib m evalJacob) linearSolve absTol relTol fuel) maxSteps) scr p T c
          dt sub = .ok (scr', r) ∧ ReturnsNear r (φ dt) (K * (dt + 1 / 10 ^ 9) * dt) := by
  obtain ⟨b1, Lj, hb1, hL0, small⟩ := hshort
  obtain ⟨φ, b, H₀, K, hb, hH0, h0, hs, ha, key⟩ := C119_cells_follow_the_reactor D hD hn z hz Lj hL0
  refine ⟨φ, min b (min b1 H₀), |K|, lt_min hb (lt_min hb1 hH0), abs_nonneg K, h0,
    fun t ht => (hs t ⟨ht.1, ht.2.trans (min_le_left _ _)⟩).mono (Set.Icc_subset_Icc le_rfl (min_le_left _ _)),
    fun t ht => ha t ⟨ht.1, ht.2.trans (min_le_left _ _)⟩, ?_⟩
  intro linearSolve fuel maxSteps scr p T c dt sub hE hfuel hcond hlay hdt hdtb hsub
  simp only [le_min_iff] at hdtb
  obtain ⟨d1, d2, d3⟩ := hdtb
  obtain ⟨hsteps, hret⟩ := small linearSolve fuel maxSteps p T c dt sub hE hfuel hcond hlay hdt d2 hsub
  obtain ⟨scr', r, h⟩ := hret scr
  obtain ⟨k1, k2, k3⟩ := key hm evalJacob linearSolve absTol relTol fuel maxSteps scr scr' p T c dt sub dt r hE hrel hlay hdt d1
    hsub hdt.le d3 hsteps h
  have hle : K * (dt + 1 / 10 ^ 9) * dt ≤ |K| * (dt + 1 / 10 ^ 9) * dt :=
    mul_le_mul_of_nonneg_right (mul_le_mul_of_nonneg_right (le_abs_self K) (by positivity)) hdt.le
  exact ⟨scr', r, h, k1.trans hle, fun j hj => (k2 j hj).trans hle, k3.trans (mul_le_mul_of_nonneg_left hle (Nat.cast_nonneg m))⟩

/-- Integrations over short times keep enthalpy and atoms. -/
theorem ShortIntegrations.balances [MathOps ℝ] (hm : PowLaws ℝ) {D : Package} (hD : D ∈ shipped) (hn : D.nsp = m + 1)
    {z : Fin (m + 2) → ℝ} (hz : D.chemistry.Interior z) {evalJacob : ℝ → Vec ℝ (m + 2) → Nat → ℝ}
    {absTol relTol : Vec ℝ (m + 2)} (hrel : ∀ i, 0 < relTol i) {Cond : Nat → ℝ → ℝ → Prop}
    (hshort : ShortIntegrations D z evalJacob absTol relTol Cond) (e : Nat) (he : e < D.elements.length) :
    ∃ b K : ℝ, 0 < b ∧ ∀ (linearSolve : (Nat → ℝ) → Vec ℝ (m + 2) → Vec ℝ (m + 2)) (fuel maxSteps : Nat)
        (scr : Scratch ℝ (m + 1)) (p T : ℝ) (c : List ℝ) (dt sub : ℝ), LapackContract (m + 2) linearSolve → 1 ≤ fuel →
        Cond maxSteps dt sub → Layout p T c z → 0 < dt → dt ≤ b → 0 < sub →
        ∃ scr' r, odePyJacSolve (seulexIntegrator (pyJacEnv (D.lib m evalJacob) linearSolve absTol relTol fuel) maxSteps) scr p T c
          dt sub = .ok (scr', r) ∧
          |D.chemistry.mixtureEnthalpy r.T r.fractions - D.chemistry.mixtureEnthalpy (z 0) (stateComposition z)| ≤
            K * (dt + 1 / 10 ^ 9) * dt ∧
          |D.chemistry.atomsPerMass (fun i => D.atomCount i e) r.fractions -
            D.chemistry.atomsPerMass (fun i => D.atomCount i e) (stateComposition z)| ≤ K * (dt + 1 / 10 ^ 9) * dt := by
  obtain ⟨b1, Lj, hb1, hL0, small⟩ := hshort
  obtain ⟨b2, H2, K2, hb2, hH2, key2⟩ := C120_enthalpy D hD hn z hz Lj hL0
  obtain ⟨b3, H3, K3, hb3, hH3, key3⟩ := C120_atoms D hD hn z hz Lj hL0 e he
  refine ⟨min b1 (min (min b2 H2) (min b3 H3)), max K2 K3, by simp [hb1, hb2, hH2, hb3, hH3], ?_⟩
  intro linearSolve fuel maxSteps scr p T c dt sub hE hfuel hcond hlay hdt hdtb hsub
  simp only [le_min_iff] at hdtb
  obtain ⟨d1, ⟨d2, d3⟩, d4, d5⟩ := hdtb
  obtain ⟨hsteps, hret⟩ := small linearSolve fuel maxSteps p T c dt sub hE hfuel hcond hlay hdt d1 hsub
  obtain ⟨scr', r, h⟩ := hret scr
  have hI : IntegratedTo D z Lj dt dt r := ⟨_, evalJacob, linearSolve, absTol, relTol, fuel, maxSteps, scr, scr', p, T, c, sub, hm, hE,
    hrel, hlay, hsub, hsteps, h⟩
  have grow : ∀ K, K ≤ max K2 K3 → K * (dt + 1 / 10 ^ 9) * dt ≤ max K2 K3 * (dt + 1 / 10 ^ 9) * dt := fun K hK =>
    mul_le_mul_of_nonneg_right (mul_le_mul_of_nonneg_right hK (by positivity)) hdt.le
  exact ⟨scr', r, h, (key2 dt dt r hdt d2 hdt.le d3 hI).trans (grow _ (le_max_left _ _)),
    (key3 dt dt r hdt d4 hdt.le d5 hI).trans (grow _ (le_max_right _ _))⟩

/-- Integrations over short times give the rates of the mechanism file. -/
theorem ShortIntegrations.rates [MathOps ℝ] (hm : PowLaws ℝ) {D : Package} (hD : D ∈ shipped) (hnsp : D.nsp = m + 1)
    {z : Fin (m + 2) → ℝ} (hz : D.chemistry.Interior z) {evalJacob : ℝ → Vec ℝ (m + 2) → Nat → ℝ}
    {absTol relTol : Vec ℝ (m + 2)} (hrel : ∀ i, 0 < relTol i) {Cond : Nat → ℝ → ℝ → Prop}
    (hshort : ShortIntegrations D z evalJacob absTol relTol Cond) :
    ∃ b K : ℝ, 0 < b ∧
      ∀ (linearSolve : (Nat → ℝ) → Vec ℝ (m + 2) → Vec ℝ (m + 2)) (fuel maxSteps n : Nat) (base : ChemModel ℝ) (parRun : Bool)
        (sort : List (ChemistryLoad ℝ) → List (ChemistryLoad ℝ)) (clk : Fin n → Nat → ℝ) (flow : Fin n → Flow ℝ)
        (w w' : Fin n → Scratch ℝ (m + 1)) (F : Fin n → RankFields ℝ) (res : Fin n → RankFields ℝ × ℝ) (r : Fin n) (i : Nat),
        LapackContract (m + 2) linearSolve → 1 ≤ fuel →
        0 < n → base.nSpecie = m + 1 → base.chemistry = true → (parRun = true ∨ n = 1) → (∀ l, (sort l).Perm l) →
        (∀ r i, i < (flow r).nCells → 1 / 10 ^ 15 < (flow r).deltaT i) →
        solveWorldW (pyJacModel base (D.lib m evalJacob) linearSolve absTol relTol fuel maxSteps) parRun
          sort clk flow w F = .ok (w', res) →
        i < (flow r).nCells → ¬ Mapped base (flow r) i → 0 ≤ (flow r).rho i →
        Layout ((flow r).p i) ((flow r).T i) (composition base (flow r) i) z →
        ∑ j ∈ Finset.range (m + 1), (flow r).Y j i = 1 →
        (flow r).deltaT i ≤ b → 0 < (F r).deltaTChem i →
        Cond maxSteps ((flow r).deltaT i) ((F r).deltaTChem i) →
        ∀ j, j < m + 1 →
          |(res r).1.RR j i - (flow r).rho i * D.chemistry.dYdt (z 0) (z (Fin.last (m + 1))) (stateComposition z) j| ≤
            (flow r).rho i * (K * ((flow r).deltaT i + 1 / 10 ^ 9)) := by
  obtain ⟨φ, b, K, hb, hK, h0, hs, -, key⟩ := hshort.follow hm hD hnsp hz hrel
  obtain ⟨c, M, hc0, hcb, hM, hsec⟩ := second_order D hD hnsp hz hb h0 hs
  refine ⟨c, (m + 1) * (K + M), hc0, ?_⟩
  intro linearSolve fuel maxSteps n base parRun sort clk flow w w' F res r i hE hfuel hn hsp hchem hpar hsort hdt h hi hmap hrho
    hlay hsum hdb hsub hcond j hj
  have hd : 0 < (flow r).deltaT i := lt_trans (by positivity) (hdt r i hi)
  -- the composition of the cell
  have hspec : ∀ k, k < m → (flow r).Y k i = stateComposition z k := fun k hk => by
    have e1 := hlay.species ⟨k, hk⟩
    have e2 : (composition base (flow r) i)[k]? = some ((flow r).Y k i) := by
      unfold composition
      rw [List.getElem?_map, List.getElem?_range (by omega)]
      rfl
    rw [e2, Option.some.injEq] at e1
    rw [e1]
    unfold stateComposition complement
    rw [if_neg (by omega)]
    dsimp only
    rw [dif_pos hk]
    rfl
  have hlast : (flow r).Y m i = stateComposition z m := by
    rw [Finset.sum_range_succ, Finset.sum_congr rfl fun k hk => hspec k (Finset.mem_range.1 hk)] at hsum
    have : stateComposition z m = 1 - ∑ k ∈ Finset.range m, stateComposition z k := by
      have : ∑ k ∈ Finset.range m, stateComposition z k = ∑ k ∈ Finset.range m, (if h : k < m then z ⟨k + 1, by omega⟩ else 0) :=
        Finset.sum_congr rfl fun k hk => by
          unfold stateComposition complement
          rw [if_neg (by have := Finset.mem_range.1 hk; omega)]
      rw [this]
      unfold stateComposition complement
      rw [if_pos rfl]
    linarith
  have hall : ∀ k, k < m + 1 → (flow r).Y k i = stateComposition z k := fun k hk => by
    by_cases hkm : k = m
    · rw [hkm]; exact hlast
    · exact hspec k (by omega)
  have e : stateComposition z j = (flow r).Y j i := (hall j hj).symm
  have hfac : ((if j = m then m else 1 : Nat) : ℝ) ≤ m + 1 := by
    split
    · linarith
    · push_cast; linarith [(Nat.cast_nonneg m : (0 : ℝ) ≤ m)]
  have := world_rate_near (D.lib m evalJacob) linearSolve absTol relTol hrel fuel
    maxSteps hn base hsp hchem parRun hpar sort hsort clk flow hdt w w' F res h r i hi hmap hrho j hj
    (stateComposition z j + (flow r).deltaT i * D.chemistry.dYdt (z 0) (z (Fin.last (m + 1))) (stateComposition z) j)
    ((m + 1) * (K + M) * ((flow r).deltaT i + 1 / 10 ^ 9) * (flow r).deltaT i)
    fun scr scr' q ho => by
      obtain ⟨scr'', q', ho', k1, k2, k3⟩ := key linearSolve fuel maxSteps scr _ _ _ _ _ hE hfuel hcond hlay hd (hdb.trans hcb) hsub
      rw [ho] at ho'
      cases ho'
      have a1 : |q.c.getD j 0 - stateComposition (φ ((flow r).deltaT i)) j| ≤
          (if j = m then m else 1 : Nat) * (K * ((flow r).deltaT i + 1 / 10 ^ 9) * (flow r).deltaT i) := by
        split
        · rename_i e; rw [e]; exact k3
        · rw [Nat.cast_one, one_mul]; exact k2 j (by omega)
      have a2 := second_order_composition D hD hnsp (hsec _ ⟨hd.le, hdb⟩) j hj
      have p1 : 0 ≤ K * ((flow r).deltaT i + 1 / 10 ^ 9) * (flow r).deltaT i := by positivity
      have p2 : 0 ≤ M * (flow r).deltaT i ^ 2 := by positivity
      have a3 := mul_le_mul_of_nonneg_right hfac p1
      have a4 := mul_le_mul_of_nonneg_right hfac p2
      have a5 : M * (flow r).deltaT i ^ 2 ≤ M * ((flow r).deltaT i + 1 / 10 ^ 9) * (flow r).deltaT i := by
        have : 0 ≤ M * (1 / 10 ^ 9) * (flow r).deltaT i := by positivity
        nlinarith
      have a6 := mul_le_mul_of_nonneg_left a5 (by positivity : (0 : ℝ) ≤ m + 1)
      have a7 := abs_add_le (q.c.getD j 0 - stateComposition (φ ((flow r).deltaT i)) j) (stateComposition (φ ((flow r).deltaT i)) j -
        stateComposition z j - (flow r).deltaT i * D.chemistry.dYdt (z 0) (z (Fin.last (m + 1))) (stateComposition z) j)
      rw [show q.c.getD j 0 - stateComposition (φ ((flow r).deltaT i)) j + (stateComposition (φ ((flow r).deltaT i)) j -
        stateComposition z j - (flow r).deltaT i * D.chemistry.dYdt (z 0) (z (Fin.last (m + 1))) (stateComposition z) j) =
        q.c.getD j 0 - (stateComposition z j + (flow r).deltaT i *
          D.chemistry.dYdt (z 0) (z (Fin.last (m + 1))) (stateComposition z) j) by ring] at a7
      have e8 : (m + 1) * (K + M) * ((flow r).deltaT i + 1 / 10 ^ 9) * (flow r).deltaT i =
        (m + 1) * (K * ((flow r).deltaT i + 1 / 10 ^ 9) * (flow r).deltaT i) +
        (m + 1) * (M * ((flow r).deltaT i + 1 / 10 ^ 9) * (flow r).deltaT i) := by ring
      rw [e8]
      linarith
  rw [e] at this
  have e9 : ((flow r).Y j i + (flow r).deltaT i * D.chemistry.dYdt (z 0) (z (Fin.last (m + 1))) (stateComposition z) j -
      (flow r).Y j i) / (flow r).deltaT i = D.chemistry.dYdt (z 0) (z (Fin.last (m + 1))) (stateComposition z) j := by
    field_simp
    ring
  rw [e9] at this
  refine this.trans (le_of_eq ?_)
  field_simp

/-- **C121, one cell.** For every shipped mechanism, every state inside the domain, whatever the Jacobian routine returns and for all
tolerances, there are a solution of the reactor that starts at the state, a time `b` and a constant `K` such that, for every linear solver
that solves regular systems and whatever is in the work arrays: the integration of a cell in this state over a time `dt` of
at most `b`, with an initial step that is not shorter, returns, and the result is the state of the reactor at `dt`, up to
`K (dt + 10^-9) dt` (`m` times that for the last species). -/
theorem C121_cell_follows_the_reactor [MathOps ℝ] (hm : PowLaws ℝ) (hq : SqrtLaws ℝ) (D : Package) (hD : D ∈ shipped) (hn : D.nsp = m + 1)
    (z : Fin (m + 2) → ℝ) (hz : D.chemistry.Interior z) (evalJacob : ℝ → Vec ℝ (m + 2) → Nat → ℝ)
    (absTol relTol : Vec ℝ (m + 2)) (habs : ∀ i, 0 < absTol i) (hrel : ∀ i, 0 < relTol i) :
    ∃ φ : ℝ → Fin (m + 2) → ℝ, ∃ b K : ℝ, 0 < b ∧ 0 ≤ K ∧ φ 0 = z ∧ SolvesOn (fun _ => D.chemistry.stateRate) φ 0 b ∧
      (∀ t ∈ Set.Icc 0 b, D.chemistry.Admissible (φ t)) ∧
      ∀ (linearSolve : (Nat → ℝ) → Vec ℝ (m + 2) → Vec ℝ (m + 2)) (fuel maxSteps : Nat)
        (scr : Scratch ℝ (m + 1)) (p T : ℝ) (c : List ℝ) (dt sub : ℝ), LapackContract (m + 2) linearSolve → 1 ≤ fuel → 1 ≤ maxSteps →
        Layout p T c z → 0 < dt → dt ≤ b → dt ≤ sub →
        ∃ scr' r, odePyJacSolve (seulexIntegrator (pyJacEnv (D.lib m evalJacob) linearSolve absTol relTol fuel) maxSteps) scr p T c
          dt sub = .ok (scr', r) ∧ ReturnsNear r (φ dt) (K * (dt + 1 / 10 ^ 9) * dt) := by
  obtain ⟨φ, b, K, hb, hK, h0, hs, ha, key⟩ :=
    (smallSteps_of_one hq D hD hn z hz evalJacob absTol relTol habs hrel).follow hm hD hn hz hrel
  exact ⟨φ, b, K, hb, hK, h0, hs, ha, fun linearSolve fuel maxSteps scr p T c dt sub hE hfuel hmax hlay hdt hdtb hsub =>
    key linearSolve fuel maxSteps scr p T c dt sub hE hfuel ⟨hmax, hsub⟩ hlay hdt hdtb (lt_of_lt_of_le hdt hsub)⟩

/-- **C121, balances.** With the same hypotheses the enthalpy per mass of the cell, and the amount of every chemical element in it, change by at
most `K (dt + 10^-9) dt`. -/
theorem C121_balances [MathOps ℝ] (hm : PowLaws ℝ) (hq : SqrtLaws ℝ) (D : Package) (hD : D ∈ shipped) (hn : D.nsp = m + 1)
    (z : Fin (m + 2) → ℝ) (hz : D.chemistry.Interior z) (evalJacob : ℝ → Vec ℝ (m + 2) → Nat → ℝ)
    (absTol relTol : Vec ℝ (m + 2)) (habs : ∀ i, 0 < absTol i) (hrel : ∀ i, 0 < relTol i) (e : Nat) (he : e < D.elements.length) :
    ∃ b K : ℝ, 0 < b ∧ ∀ (linearSolve : (Nat → ℝ) → Vec ℝ (m + 2) → Vec ℝ (m + 2)) (fuel maxSteps : Nat)
        (scr : Scratch ℝ (m + 1)) (p T : ℝ) (c : List ℝ) (dt sub : ℝ), LapackContract (m + 2) linearSolve → 1 ≤ fuel → 1 ≤ maxSteps →
        Layout p T c z → 0 < dt → dt ≤ b → dt ≤ sub →
        ∃ scr' r, odePyJacSolve (seulexIntegrator (pyJacEnv (D.lib m evalJacob) linearSolve absTol relTol fuel) maxSteps) scr p T c
          dt sub = .ok (scr', r) ∧
          |D.chemistry.mixtureEnthalpy r.T r.fractions - D.chemistry.mixtureEnthalpy (z 0) (stateComposition z)| ≤
            K * (dt + 1 / 10 ^ 9) * dt ∧
          |D.chemistry.atomsPerMass (fun i => D.atomCount i e) r.fractions -
            D.chemistry.atomsPerMass (fun i => D.atomCount i e) (stateComposition z)| ≤ K * (dt + 1 / 10 ^ 9) * dt := by
  obtain ⟨b, K, hb, key⟩ :=
    (smallSteps_of_one hq D hD hn z hz evalJacob absTol relTol habs hrel).balances hm hD hn hz hrel e he
  exact ⟨b, K, hb, fun linearSolve fuel maxSteps scr p T c dt sub hE hfuel hmax hlay hdt hdtb hsub =>
    key linearSolve fuel maxSteps scr p T c dt sub hE hfuel ⟨hmax, hsub⟩ hlay hdt hdtb (lt_of_lt_of_le hdt hsub)⟩

/-- **C121, a time step of the model.** For every shipped mechanism, every state inside the domain, whatever the Jacobian routine
returns and for all tolerances there are a time `b` and a constant `K` such that, in a time step of the load-balanced chemistry model on any
number of ranks: the reaction rate of every species in every cell that is not mapped, is in this state (with mass fractions that add up to
one), and is integrated over a time step of at most `b` with an initial chemical time step that is not shorter, is the density of the cell times
the rate of change of the mass fraction according to chem.cti, up to `K (dt + 10^-9)` times the density. -/
theorem C121_reaction_rates [MathOps ℝ] (hm : PowLaws ℝ) (hq : SqrtLaws ℝ) (D : Package) (hD : D ∈ shipped) (hnsp : D.nsp = m + 1)
    (z : Fin (m + 2) → ℝ) (hz : D.chemistry.Interior z) (evalJacob : ℝ → Vec ℝ (m + 2) → Nat → ℝ)
    (absTol relTol : Vec ℝ (m + 2)) (habs : ∀ i, 0 < absTol i) (hrel : ∀ i, 0 < relTol i) :
    ∃ b K : ℝ, 0 < b ∧
      ∀ (linearSolve : (Nat → ℝ) → Vec ℝ (m + 2) → Vec ℝ (m + 2)) (fuel maxSteps n : Nat) (base : ChemModel ℝ) (parRun : Bool)
        (sort : List (ChemistryLoad ℝ) → List (ChemistryLoad ℝ)) (clk : Fin n → Nat → ℝ) (flow : Fin n → Flow ℝ)
        (w w' : Fin n → Scratch ℝ (m + 1)) (F : Fin n → RankFields ℝ) (res : Fin n → RankFields ℝ × ℝ) (r : Fin n) (i : Nat),
        LapackContract (m + 2) linearSolve → 1 ≤ fuel → 1 ≤ maxSteps →
        0 < n → base.nSpecie = m + 1 → base.chemistry = true → (parRun = true ∨ n = 1) → (∀ l, (sort l).Perm l) →
        (∀ r i, i < (flow r).nCells → 1 / 10 ^ 15 < (flow r).deltaT i) →
        solveWorldW (pyJacModel base (D.lib m evalJacob) linearSolve absTol relTol fuel maxSteps) parRun
          sort clk flow w F = .ok (w', res) →
        i < (flow r).nCells → ¬ Mapped base (flow r) i → 0 ≤ (flow r).rho i →
        Layout ((flow r).p i) ((flow r).T i) (composition base (flow r) i) z →
        ∑ j ∈ Finset.range (m + 1), (flow r).Y j i = 1 →
        (flow r).deltaT i ≤ b → (flow r).deltaT i ≤ (F r).deltaTChem i →
        ∀ j, j < m + 1 →
          |(res r).1.RR j i - (flow r).rho i * D.chemistry.dYdt (z 0) (z (Fin.last (m + 1))) (stateComposition z) j| ≤
            (flow r).rho i * (K * ((flow r).deltaT i + 1 / 10 ^ 9)) := by
  obtain ⟨b, K, hb, key⟩ :=
    (smallSteps_of_one hq D hD hnsp z hz evalJacob absTol relTol habs hrel).rates hm hD hnsp hz hrel
  refine ⟨b, K, hb, ?_⟩
  intro linearSolve fuel maxSteps n base parRun sort clk flow w w' F res r i hE hfuel hmax hn hsp hchem hpar hsort hdt h hi hmap hrho
    hlay hsum hdb hsub
  exact key linearSolve fuel maxSteps n base parRun sort clk flow w w' F res r i hE hfuel hn hsp hchem hpar hsort hdt h hi hmap hrho
    hlay hsum hdb (lt_of_lt_of_le (lt_trans (by positivity) (hdt r i hi)) hsub) ⟨hmax, hsub⟩

end

/-! ### Cases -/

/-- The pressure, temperature and mass fractions of a state. -/
theorem exists_layout {m : Nat} (z : Fin (m + 2) → ℝ) :
    Layout (z (Fin.last (m + 1))) (z 0) (List.ofFn fun i : Fin (m + 1) => stateComposition z i.val) z := by
  refine ⟨by simp, rfl, fun i => ?_, rfl⟩
  have := i.isLt
  rw [List.getElem?_ofFn, dif_pos (by omega)]
  unfold stateComposition complement
  rw [if_neg (by simp; omega)]
  dsimp only
  rw [dif_pos i.isLt]
  rfl

/-- A case of C121 and C120: hot compressed air and the mechanism drm19, with a Jacobian routine that returns zeros: there are integrations, with
one step, and they conserve the enthalpy and the oxygen. -/
example (scr : Scratch ℝ 21) : letI := realMath
    ∃ p b K : ℝ, 0 < b ∧ ∀ dt, 0 < dt → dt ≤ b → ∃ scr' r,
      odePyJacSolve (seulexIntegrator (pyJacEnv (drm19.lib 20 fun _ _ _ => 0) (fun a b => (columnMajor 22 a)⁻¹.mulVec b)
        (fun _ => 1 / 10 ^ 8) (fun _ => 1 / 10 ^ 5) 1) 1) scr p 1200
        (List.ofFn fun i : Fin 21 => stateComposition (hotAirState p) i.val) dt dt = .ok (scr', r) ∧
      |drm19.chemistry.mixtureEnthalpy r.T r.fractions - drm19.chemistry.mixtureEnthalpy 1200 (stateComposition (hotAirState p))| ≤
        K * (dt + 1 / 10 ^ 9) * dt ∧
      |drm19.chemistry.atomsPerMass (fun i => drm19.atomCount i 0) r.fractions -
        drm19.chemistry.atomsPerMass (fun i => drm19.atomCount i 0) (stateComposition (hotAirState p))| ≤ K * (dt + 1 / 10 ^ 9) * dt := by
  let := realMath
  obtain ⟨p, hp⟩ := hotAirState_interior
  obtain ⟨b, K, hb, key⟩ := C121_balances realMath_powLaws realMath_sqrtLaws drm19 (by simp [shipped]) rfl _ hp (fun _ _ _ => 0)
    (fun _ => 1 / 10 ^ 8) (fun _ => 1 / 10 ^ 5) (fun _ => by norm_num) (fun _ => by norm_num) 0 (by decide)
  refine ⟨p, b, K, hb, fun dt hdt hdtb => ?_⟩
  have hlay := exists_layout (hotAirState p)
  have e1 : hotAirState p (Fin.last 21) = p := if_pos rfl
  rw [e1] at hlay
  exact key _ 1 1 _ p 1200 _ dt dt (lapackContract_inverse 22) le_rfl le_rfl hlay hdt hdtb le_rfl

end DLB
