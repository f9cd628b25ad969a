import Verif.Lemmas.HeatCompact
import Verif.Props.ManyTimeSteps
import Verif.Props.WholeStep
/-
C136, the flow: a cell of a flow at constant pressure that takes up the reaction rates and the heat release, over many time
steps of the load-balanced model on any number of ranks, follows the reactor.
-/
set_option autoImplicit false
set_option linter.unusedSectionVars false

namespace DLB
open Spec
open scoped Topology

section
variable {m : Nat}

/-- In one time step cell `i` of the flow takes up the reaction rates `RR` and, as a source of sensible enthalpy (above the enthalpies of formation `hf`), the heat release, at constant pressure, as in the
validation test; its new temperature, at most `r₀` from the old one, is one at which it has the enthalpy set. -/
structure TakesUp (X : Chemistry) (hf : Vec ℝ (m + 1)) (r₀ : ℝ) (f f' : Flow ℝ) (RR : Nat → Nat → ℝ) (i : Nat) : Prop where
  pressure : f'.p i = f.p i
  species : ∀ j, j < m + 1 → f'.Y j i = f.Y j i + RR j i * f.deltaT i / f.rho i
  near : |f'.T i - f.T i| ≤ r₀
  enthalpy : ∑ j : Fin (m + 1), f'.Y j i * (X.enthalpy (f'.T i) j - hf j) =
    psrEnthalpy (∑ j : Fin (m + 1), f.Y j i * (X.enthalpy (f.T i) j - hf j)) (pyJacQdot true hf fun j => RR j i) (f.rho i) (f.deltaT i)

/-! ### Lemmas -/

/-- The mass fractions returned by the integration of a cell. -/
theorem returned_fractions {D : Package} {z : Fin (m + 2) → ℝ} {Lj H dt : ℝ} {r : IntegrateResult ℝ} (h : IntegratedTo D z Lj H dt r) :
    (∀ j, j < m → 0 ≤ r.fractions j) ∧ r.fractions m = 1 - ∑ j ∈ Finset.range m, r.fractions j := by
  obtain ⟨_, evalJacob, linearSolve, absTol, relTol, fuel, maxSteps, scr, scr', p, T, c, sub, hm, hE, hrel, hlay, hsub, hsteps, h⟩ := h
  obtain ⟨y₁, y', sub', hy₁, hI, rfl⟩ := odePyJacSolve_ok h
  have e : ∀ j (hj : j < m), IntegrateResult.fractions ⟨y' (Fin.last (m + 1)), y' 0, List.ofFn (clippedComposition y'), dt, sub'⟩ j =
      max 0 (y' (Fin.castSucc (⟨j, hj⟩ : Fin m)).succ) := fun j hj => by
    show (List.ofFn (clippedComposition y')).getD j 0 = _
    rw [List.getD_eq_getElem?_getD, List.getElem?_ofFn, dif_pos (by omega)]
    simp [clippedComposition, snoc_eq_dite, hj]
  refine ⟨fun j hj => by rw [e j hj]; exact le_max_left _ _, ?_⟩
  have e2 : IntegrateResult.fractions ⟨y' (Fin.last (m + 1)), y' 0, List.ofFn (clippedComposition y'), dt, sub'⟩ m =
      1 - ∑ j : Fin m, max 0 (y' j.castSucc.succ) := by
    show (List.ofFn (clippedComposition y')).getD m 0 = _
    rw [List.getD_eq_getElem?_getD, List.getElem?_ofFn, dif_pos (by omega)]
    simp [clippedComposition, snoc_eq_dite]
  rw [e2, ← Fin.sum_univ_eq_sum_range (fun j => IntegrateResult.fractions _ j)]
  congr 1
  exact Finset.sum_congr rfl fun j _ => (e j j.isLt).symm

/-- Mass fractions of a state of which the first entries are `Y`. -/
theorem stateComposition_eq {z : Fin (m + 2) → ℝ} {Y : Nat → ℝ} (h : ∀ j : Fin m, z j.castSucc.succ = Y j) (hl : Y m = 1 - ∑ j ∈ Finset.range m, Y j) (j : Nat) (hj : j < m + 1) :
    stateComposition z j = Y j := by
  unfold stateComposition complement
  have e : ∀ k (hk : k < m), z ⟨k + 1, by omega⟩ = Y k := fun k hk => h ⟨k, hk⟩
  split
  · rename_i hj'
    rw [hj', hl]
    congr 1
    exact Finset.sum_congr rfl fun k hk => by dsimp only; rw [dif_pos (Finset.mem_range.1 hk)]; exact e k (Finset.mem_range.1 hk)
  · have hj' : j < m := by omega
    dsimp only
    rw [dif_pos hj']
    exact e j hj'

theorem returnedState_species (z : Fin (m + 2) → ℝ) (r : IntegrateResult ℝ) (j : Fin m) : returnedState z r j.castSucc.succ = r.fractions j := by
  have := j.isLt
  unfold returnedState
  rw [if_neg (by simp), if_neg (by simp; omega)]
  simp

/-- The temperature of the flow near a compact set of states, within a distance `r₀` of that of the cell that is as small as we like. -/
theorem flow_temperature (D : Package) (hD : D ∈ shipped) (hn : D.nsp = m + 1) {s : Set (Fin (m + 2) → ℝ)} (hs : IsCompact s) (h : ∀ z ∈ s, D.chemistry.Interior z) (Lj : ℝ) (hL0 : 0 ≤ Lj)
    {rmax : ℝ} (hrmax : 0 < rmax) :
    ∃ b H₀ r₀ ρ K : ℝ, 0 < b ∧ 0 < H₀ ∧ 0 < r₀ ∧ r₀ ≤ rmax ∧ 0 < ρ ∧ 0 ≤ K ∧ ∀ x ∈ s, ∀ z, ‖z - x‖ ≤ ρ → NonNegative z → ∀ dt H r, 0 < dt → dt ≤ b → 0 ≤ H → H ≤ H₀ → IntegratedTo D z Lj H dt r →
      (∀ z', (∀ i, i ≠ 0 → z' i = returnedState z r i) → |z' 0 - z 0| ≤ r₀ → D.chemistry.stateEnthalpy z' = D.chemistry.stateEnthalpy z →
        |z' 0 - r.T| ≤ K * (H + 1 / 10 ^ 9) * dt) ∧
      ∃ T, |T - z 0| ≤ r₀ ∧ D.chemistry.stateEnthalpy (Function.update (returnedState z r) 0 T) = D.chemistry.stateEnthalpy z := by
  obtain ⟨ρ1, B, Λ, S, hρ1, hB, hΛ, hS, tame⟩ := tameNear_of_compact (X := D.chemistry) hn (proper_of_shipped hD) hs h
  obtain ⟨ρ2, L, c, hρ2, hL, hc, heat⟩ := heatNear_of_compact D hD hn hs h
  obtain ⟨ρ, hρdef⟩ : ∃ ρ, ρ = min (min ρ1 ρ2) rmax := ⟨_, rfl⟩
  have hρ : 0 < ρ := by rw [hρdef]; exact lt_min (lt_min hρ1 hρ2) hrmax
  replace tame := tame.weaken (ρ' := ρ) (by rw [hρdef]; exact (min_le_left _ _).trans (min_le_left _ _)) le_rfl le_rfl le_rfl
  replace heat := heat.weaken (ρ' := ρ) (by rw [hρdef]; exact (min_le_left _ _).trans (min_le_right _ _)) le_rfl le_rfl
  have hρr : ρ ≤ rmax := by rw [hρdef]; exact min_le_right _ _
  obtain ⟨C, hC⟩ : ∃ C, C = 205 * (Lj * (B + S / 10 ^ 9) + 2 * Λ * (B + S / 10 ^ 9)) + Λ * B := ⟨_, rfl⟩
  have hC0 : 0 ≤ C := by rw [hC]; positivity
  obtain ⟨b0, hb0⟩ : ∃ b0, b0 = ρ / 4 / (B + 1) := ⟨_, rfl⟩
  have hb0pos : 0 < b0 := by rw [hb0]; positivity
  obtain ⟨K, hK⟩ : ∃ K, K = Real.exp (Λ * b0) * (C + 411 * S) := ⟨_, rfl⟩
  have hK0 : 0 ≤ K := by rw [hK]; positivity
  refine ⟨min b0 (min (ρ / 8 / (2 * K + 1)) (ρ / 8 / (2 * (L * K / c) + 1))), min (1 / (Lj + 1)) (min 1 (ρ / 4 / (6 * (B + S / 10 ^ 9) + 1))), ρ / 2, ρ / 2, L * K / c,
    lt_min hb0pos (lt_min (by positivity) (by positivity)),
    lt_min (by positivity) (lt_min one_pos (by positivity)), by positivity, by linarith, by positivity, by positivity, ?_⟩
  intro x hx z hz hz0 dt H r hdt hdtb hH hHH hr
  obtain ⟨φ, h0, hin, tube⟩ := tube_from (X := D.chemistry) hn (proper_of_shipped hD) hρ hB hΛ tame hx hz hz0
  rw [← hb0] at tube
  have hdtb0 : dt ≤ b0 := hdtb.trans (min_le_left _ _)
  have tube' := tube_shift tube le_rfl (d := dt) (by rw [zero_add]; exact hdtb0)
  simp only [zero_add] at tube'
  have hH1 : H ≤ 1 / (Lj + 1) := hHH.trans (min_le_left _ _)
  have hH2 : H ≤ 1 := hHH.trans ((min_le_right _ _).trans (min_le_left _ _))
  have hH3 : H ≤ ρ / 4 / (6 * (B + S / 10 ^ 9) + 1) := hHH.trans ((min_le_right _ _).trans (min_le_right _ _))
  rw [le_div_iff₀ (by positivity)] at hH1 hH3
  obtain ⟨err, herr⟩ : ∃ err, err = Real.exp (Λ * dt) * (0 + (C * H + 411 * (S / 10 ^ 9)) * dt) := ⟨_, rfl⟩
  have hle : err ≤ K * (H + 1 / 10 ^ 9) * dt := by
    rw [herr, hK, zero_add]
    have h1 : Real.exp (Λ * dt) ≤ Real.exp (Λ * b0) := Real.exp_le_exp.2 (mul_le_mul_of_nonneg_left hdtb0 hΛ)
    have h2 : (C * H + 411 * (S / 10 ^ 9)) * dt ≤ ((C + 411 * S) * (H + 1 / 10 ^ 9)) * dt := by
      refine mul_le_mul_of_nonneg_right ?_ hdt.le
      have e : (C + 411 * S) * (H + 1 / 10 ^ 9) = C * H + 411 * (S / 10 ^ 9) + (C / 10 ^ 9 + 411 * S * H) := by ring
      rw [e]
      have : 0 ≤ C / 10 ^ 9 + 411 * S * H := by positivity
      linarith
    calc _ ≤ Real.exp (Λ * b0) * (((C + 411 * S) * (H + 1 / 10 ^ 9)) * dt) := mul_le_mul h1 h2 (by positivity) (Real.exp_pos _).le
      _ = _ := by ring
  have small : ∀ K' : ℝ, 0 ≤ K' → dt ≤ ρ / 8 / (2 * K' + 1) → K' * (H + 1 / 10 ^ 9) * dt ≤ ρ / 8 := fun K' hK' h1 => by
    rw [le_div_iff₀ (by positivity)] at h1
    have h2 : K' * (H + 1 / 10 ^ 9) ≤ 2 * K' + 1 := by
      have : H + 1 / 10 ^ 9 ≤ 2 := by norm_num at hH2 ⊢; linarith
      have := mul_le_mul_of_nonneg_left this hK'
      linarith
    have := mul_le_mul_of_nonneg_right h2 hdt.le
    linarith
  have hsmall := small K hK0 (hdtb.trans ((min_le_right _ _).trans (min_le_left _ _)))
  have hsmall' := small (L * K / c) (by positivity) (hdtb.trans ((min_le_right _ _).trans (min_le_right _ _)))
  have hcell := cell_near D hD hn z hdt hr tube' hΛ hB hS hL0 hH (e := 0) (by rw [h0, sub_self, norm_zero]) hC (by linarith) (by linarith) (by rw [← herr]; linarith)
  rw [← herr] at hcell
  have near : ∀ {y : Fin (m + 2) → ℝ}, ‖y - z‖ ≤ ρ / 2 → ‖y - x‖ ≤ ρ := fun {y} h1 => by
    have := norm_sub_le_norm_sub_add_norm_sub y z x
    linarith
  have hφ : ∀ t, ‖φ t - x‖ ≤ ρ := fun t => near ((hin t).trans (by linarith))
  have hret : ‖returnedState z r - z‖ ≤ ρ / 2 := by
    have := norm_sub_le_norm_sub_add_norm_sub (returnedState z r) (φ dt) z
    have := hin dt
    linarith
  have hdt' : dt ∈ Set.Icc 0 dt := ⟨hdt.le, le_rfl⟩
  have hadm : ∀ t ∈ Set.Icc 0 dt, D.chemistry.Admissible (φ t) := fun t ht => tame.admissible x hx _ (hφ t) (tube'.nonNegative t ht)
  have cons : D.chemistry.stateEnthalpy (φ dt) = D.chemistry.stateEnthalpy z := by
    have := enthalpy_along hD hn tube'.solves hadm (fun t ht => tame.last x hx _ (hφ t) (tube'.nonNegative t ht)) (fun t ht => heat.fits x hx _ (hφ t)) dt hdt'
    rw [h0] at this
    exact this
  have hT0 : returnedState z r 0 = r.T := if_pos rfl
  have e : c * (L * K / c * (H + 1 / 10 ^ 9) * dt) = L * (K * (H + 1 / 10 ^ 9) * dt) := by field_simp
  have hdiff : |D.chemistry.stateEnthalpy (returnedState z r) - D.chemistry.stateEnthalpy z| ≤ c * (L * K / c * (H + 1 / 10 ^ 9) * dt) := by
    rw [e, ← cons]
    exact (heat.lipschitz x hx _ _ (near hret) (hφ dt)).trans (mul_le_mul_of_nonneg_left (hcell.trans hle) hL)
  refine ⟨fun z' hz' hT henth => ?_, ?_⟩
  · have hz'z : ‖z' - z‖ ≤ ρ / 2 := by
      refine (pi_norm_le_iff_of_nonneg (by positivity)).2 fun i => ?_
      by_cases hi : i = 0
      · rw [hi, Pi.sub_apply, Real.norm_eq_abs]
        exact hT
      · rw [Pi.sub_apply, hz' i hi, ← Pi.sub_apply]
        exact (norm_le_pi_norm _ i).trans hret
    rw [← henth] at hdiff
    refine le_of_mul_le_mul_left ?_ hc
    rw [abs_le] at hdiff
    rcases le_total (z' 0) (returnedState z r 0) with hle' | hle'
    · have := heat.rises x hx z' (returnedState z r) (near hz'z) (near hret) hz' hle'
      rw [hT0] at this hle'
      rw [abs_of_nonpos (by linarith)]
      linarith
    · have := heat.rises x hx (returnedState z r) z' (near hret) (near hz'z) (fun i hi => (hz' i hi).symm) hle'
      rw [hT0] at this hle'
      rw [abs_of_nonneg (by linarith)]
      linarith
  · obtain ⟨ε, hε⟩ : ∃ ε, ε = L * K / c * (H + 1 / 10 ^ 9) * dt := ⟨_, rfl⟩
    have hε0 : 0 ≤ ε := by rw [hε]; positivity
    rw [← hε] at hdiff hsmall'
    have hrT : |r.T - z 0| ≤ 3 * ρ / 8 := by
      have h1 := (norm_le_pi_norm (returnedState z r - φ dt) 0).trans (hcell.trans (hle.trans hsmall))
      have h2 := (norm_le_pi_norm (φ dt - z) 0).trans (hin dt)
      rw [Pi.sub_apply, Real.norm_eq_abs, hT0] at h1
      rw [Pi.sub_apply, Real.norm_eq_abs] at h2
      have := abs_sub_le r.T (φ dt 0) (z 0)
      linarith
    obtain ⟨t1, t2⟩ := abs_le.1 hrT
    have inside : ∀ T, r.T - ε ≤ T → T ≤ r.T + ε → ‖Function.update (returnedState z r) 0 T - z‖ ≤ ρ / 2 := fun T h1 h2 => by
      refine (pi_norm_le_iff_of_nonneg (by positivity)).2 fun i => ?_
      by_cases hi : i = 0
      · rw [hi, Pi.sub_apply, Function.update_self, Real.norm_eq_abs, abs_le]
        constructor <;> linarith
      · rw [Pi.sub_apply, Function.update_of_ne hi, ← Pi.sub_apply]
        exact (norm_le_pi_norm _ i).trans hret
    have same : ∀ T T' : ℝ, ∀ i, i ≠ 0 → Function.update (returnedState z r) 0 T i = Function.update (returnedState z r) 0 T' i := fun T T' i hi => by
      rw [Function.update_of_ne hi, Function.update_of_ne hi]
    have hcont : ContinuousOn (fun T => D.chemistry.stateEnthalpy (Function.update (returnedState z r) 0 T)) (Set.Icc (r.T - ε) (r.T + ε)) := by
      refine (LipschitzOnWith.of_dist_le_mul (K := ⟨L, hL⟩) fun T hT T' hT' => ?_).continuousOn
      rw [Real.dist_eq]
      refine (heat.lipschitz x hx _ _ (near (inside T hT.1 hT.2)) (near (inside T' hT'.1 hT'.2))).trans (mul_le_mul_of_nonneg_left ?_ hL)
      refine (pi_norm_le_iff_of_nonneg dist_nonneg).2 fun i => ?_
      by_cases hi : i = 0
      · rw [hi, Pi.sub_apply, Function.update_self, Function.update_self, Real.norm_eq_abs, Real.dist_eq]
      · rw [Pi.sub_apply, same T T' i hi, sub_self, norm_zero]
        exact dist_nonneg
    have hself : Function.update (returnedState z r) 0 r.T = returnedState z r := by rw [← hT0, Function.update_eq_self]
    have up := heat.rises x hx (Function.update (returnedState z r) 0 r.T) (Function.update (returnedState z r) 0 (r.T + ε)) (near (inside _ (by linarith) (by linarith)))
      (near (inside _ (by linarith) le_rfl)) (same _ _) (by rw [Function.update_self, Function.update_self]; linarith)
    have dn := heat.rises x hx (Function.update (returnedState z r) 0 (r.T - ε)) (Function.update (returnedState z r) 0 r.T) (near (inside _ le_rfl (by linarith)))
      (near (inside _ (by linarith) (by linarith))) (same _ _) (by rw [Function.update_self, Function.update_self]; linarith)
    rw [hself, Function.update_self, hT0, add_sub_cancel_left] at up
    rw [hself, Function.update_self, hT0, sub_sub_cancel] at dn
    rw [abs_le] at hdiff
    obtain ⟨T, hT, hFT⟩ := intermediate_value_Icc (by linarith : r.T - ε ≤ r.T + ε) hcont
      (show D.chemistry.stateEnthalpy z ∈ Set.Icc _ _ from ⟨by linarith, by linarith⟩)
    exact ⟨T, abs_le.2 ⟨by linarith [hT.1], by linarith [hT.2]⟩, hFT⟩

/-- The flow, from an error bound `η` for single time steps: in the temperature of the flow, and in the states that the integrations return. -/
theorem flow_follows_of (D : Package) (hnsp : D.nsp = m + 1) (ψ : ℝ → Fin (m + 2) → ℝ) (τ : ℝ) (Lj : ℝ) (η : ℝ → ℝ) {b H1 H2 r₀ ρ1 ρ2 Kd K : ℝ} (hKd : 0 ≤ Kd)
    (temp : ∀ x ∈ ψ '' Set.Icc 0 τ, ∀ z, ‖z - x‖ ≤ ρ1 → NonNegative z → ∀ dt H r, 0 < dt → dt ≤ b → 0 ≤ H → H ≤ H1 → IntegratedTo D z Lj H dt r →
      ∀ z', (∀ i, i ≠ 0 → z' i = returnedState z r i) → |z' 0 - z 0| ≤ r₀ → D.chemistry.stateEnthalpy z' = D.chemistry.stateEnthalpy z → |z' 0 - r.T| ≤ Kd * η H * dt)
    (steps : ∀ (N : Nat) (t d : Nat → ℝ) (z : Nat → Fin (m + 2) → ℝ) (q : Nat → IntegrateResult ℝ) (H : ℝ),
      t 0 = 0 → (∀ k, k < N → t k < t (k + 1)) → (∀ k, k < N → t (k + 1) - t k ≤ b) → t N ≤ τ → 0 ≤ H → H ≤ H2 →
      (∀ k, k < N → IntegratedTo D (z k) Lj H (t (k + 1) - t k) (q k)) → (∀ k, k < N → ‖z (k + 1) - returnedState (z k) (q k)‖ ≤ d k) →
      K * (‖z 0 - ψ 0‖ + η H * t N + ∑ i ∈ Finset.range N, d i) ≤ ρ2 →
      ∀ k, k ≤ N → ‖z k - ψ (t k)‖ ≤ K * (‖z 0 - ψ 0‖ + η H * t k + ∑ i ∈ Finset.range k, d i))
    [MathOps ℝ] (hm : PowLaws ℝ) (evalJacob : ℝ → Vec ℝ (m + 2) → Nat → ℝ)
    (linearSolve : (Nat → ℝ) → Vec ℝ (m + 2) → Vec ℝ (m + 2)) (absTol relTol : Vec ℝ (m + 2))
    (fuel maxSteps n : Nat) (base : ChemModel ℝ) (parRun : Bool)
    (sort : List (ChemistryLoad ℝ) → List (ChemistryLoad ℝ)) (hf : Vec ℝ (m + 1)) (N : Nat) (clk : Nat → Fin n → Nat → ℝ) (flow : Nat → Fin n → Flow ℝ)
    (w w' : Nat → Fin n → Scratch ℝ (m + 1)) (F : Nat → Fin n → RankFields ℝ) (res : Nat → Fin n → RankFields ℝ × ℝ)
    (r : Fin n) (i : Nat) (t : Nat → ℝ) (z : Nat → Fin (m + 2) → ℝ) (H : ℝ)
    (hE : LapackContract (m + 2) linearSolve) (hrel : ∀ i, 0 < relTol i)
    (hn : 0 < n) (hsp : base.nSpecie = m + 1) (hchem : base.chemistry = true) (hpar : parRun = true ∨ n = 1) (hsort : ∀ l, (sort l).Perm l)
    (hdt : ∀ k, k < N → ∀ r i, i < (flow k r).nCells → 1 / 10 ^ 15 < (flow k r).deltaT i)
    (hrun : ∀ k, k < N → solveWorldW (pyJacModel base (D.lib m evalJacob) linearSolve absTol relTol fuel maxSteps) parRun
      sort (clk k) (flow k) (w k) (F k) = .ok (w' k, res k))
    (hcell : ∀ k, k < N → i < (flow k r).nCells ∧ ¬ Mapped base (flow k r) i ∧ (flow k r).rho i ≠ 0 ∧ 0 < (F k r).deltaTChem i ∧ (flow k r).deltaT i ≤ b)
    (hlay : ∀ k, k ≤ N → Layout ((flow k r).p i) ((flow k r).T i) (composition base (flow k r) i) (z k))
    (hz0 : NonNegative (z 0)) (hsum : ∑ j ∈ Finset.range (m + 1), (flow 0 r).Y j i = 1)
    (htake : ∀ k, k < N → TakesUp D.chemistry hf r₀ (flow k r) (flow (k + 1) r) (res k r).1.RR i)
    (ht0 : t 0 = 0) (ht : ∀ k, k < N → t (k + 1) = t k + (flow k r).deltaT i) (htN : t N ≤ τ) (hH : 0 ≤ H) (hHH : H ≤ min H1 H2) (hη : 0 ≤ η H)
    (hsteps : ∀ k, k < N → SmallSteps (pyJacEnv (D.lib m evalJacob) linearSolve absTol relTol fuel) maxSteps ((flow k r).deltaT i) (z k)
      ((F k r).deltaTChem i) Lj H)
    (hsmall : |K| * (1 + Kd) * (‖z 0 - ψ 0‖ + η H * t N) ≤ min ρ1 ρ2) :
    ∀ k, k ≤ N → ‖z k - ψ (t k)‖ ≤ |K| * (1 + Kd) * (‖z 0 - ψ 0‖ + η H * t k) ∧ NonNegative (z k) ∧ ∑ j ∈ Finset.range (m + 1), (flow k r).Y j i = 1 := by
  have hns : D.chemistry.nsp = m + 1 := hnsp
  have hpos : ∀ k, k < N → 0 < (flow k r).deltaT i := fun k hk => lt_trans (by positivity) (hdt k hk r i (hcell k hk).1)
  have htlt : ∀ k, k < N → t k < t (k + 1) := fun k hk => by rw [ht k hk]; linarith [hpos k hk]
  have hdte : ∀ k, k < N → t (k + 1) - t k = (flow k r).deltaT i := fun k hk => by rw [ht k hk]; ring
  have hmono : ∀ k j, k ≤ j → j ≤ N → t k ≤ t j := by
    intro k j hkj
    induction j, hkj using Nat.le_induction with
    | base => intro _; exact le_rfl
    | succ j hj ih => intro h; exact (ih (by omega)).trans (htlt j (by omega)).le
  -- what the integrations return
  have hq : ∀ k, ∃ q : IntegrateResult ℝ, k < N → IntegratedTo D (z k) Lj H ((flow k r).deltaT i) q ∧
      ∀ j, j < m + 1 → (res k r).1.RR j i = (q.fractions j - (flow k r).Y j i) * (flow k r).rho i / (flow k r).deltaT i := by
    intro k
    by_cases hk : k < N
    · obtain ⟨hi, hmap, -, hsub, -⟩ := hcell k hk
      obtain ⟨i₀, hlt, hi₀, scr, scr', q, ho, hqr⟩ := world_rates hn hsp hrel hchem hpar hsort (hdt k hk) (hrun k hk) r i hi
      obtain ⟨rfl, -⟩ : i₀ = i ∧ ¬ Mapped base (flow k r) i := by
        rcases hi₀ with h' | h'
        · exact h'
        · exact absurd h'.1 hmap
      exact ⟨q, fun _ => ⟨⟨_, evalJacob, linearSolve, absTol, relTol, fuel, maxSteps, scr, scr', _, _, _, _, hm, hE, hrel, hlay k hk.le, hsub, hsteps k hk, ho⟩, hqr⟩⟩
    · exact ⟨⟨0, 0, [], 0, 0⟩, fun h => absurd h hk⟩
  choose q hq using hq
  have hY : ∀ k, k < N → ∀ j, j < m + 1 → (flow (k + 1) r).Y j i = (q k).fractions j := fun k hk j hj => by
    rw [(htake k hk).species j hj, (hq k hk).2 j hj]
    have := (hcell k hk).2.2.1
    have := (hpos k hk).ne'
    field_simp
    ring
  have hzY : ∀ k, k ≤ N → ∀ j : Fin m, z k j.castSucc.succ = (flow k r).Y j i := fun k hk j => by
    have h1 := (hlay k hk).species j
    have hj := j.isLt
    unfold composition at h1
    rw [hsp, List.getElem?_map, List.getElem?_range (by omega)] at h1
    simpa using h1.symm
  have hnext : ∀ k, k < N → ∀ l, l ≠ 0 → z (k + 1) l = returnedState (z k) (q k) l := by
    intro k hk l hl
    have hl' : l.val ≠ 0 := fun h => hl (Fin.ext h)
    by_cases h1 : l.val = m + 1
    · obtain rfl : l = Fin.last (m + 1) := Fin.ext h1
      unfold returnedState
      rw [if_neg hl', if_pos h1, (hlay (k + 1) (by omega)).pressure, (hlay k (by omega)).pressure, (htake k hk).pressure]
    · have hlt := l.isLt
      obtain ⟨j, rfl⟩ : ∃ j : Fin m, l = j.castSucc.succ := ⟨⟨l.val - 1, by omega⟩, Fin.ext (by simp; omega)⟩
      rw [returnedState_species, hzY (k + 1) (by omega), hY k hk j (by omega)]
  have hlast : ∀ k, k ≤ N → ∀ j, j < m + 1 → stateComposition (z k) j = (flow k r).Y j i := by
    intro k hk
    refine stateComposition_eq (Y := fun j => (flow k r).Y j i) (hzY k hk) ?_
    cases k with
    | zero => rw [Finset.sum_range_succ] at hsum; linarith
    | succ k =>
      rw [hY k (by omega) m (by omega), (returned_fractions (hq k (by omega)).1).2]
      congr 1
      exact Finset.sum_congr rfl fun j hj => (hY k (by omega) j (by have := Finset.mem_range.1 hj; omega)).symm
  have hnonneg : ∀ k, k ≤ N → NonNegative (z k) := by
    intro k hk
    cases k with
    | zero => exact hz0
    | succ k =>
      intro j
      have hj := j.isLt
      rw [hzY (k + 1) hk, hY k (by omega) j (by omega)]
      exact (returned_fractions (hq k (by omega)).1).1 j hj
  have henth : ∀ k, k < N → D.chemistry.stateEnthalpy (z (k + 1)) = D.chemistry.stateEnthalpy (z k) := by
    intro k hk
    have h1 := (C135_absolute_enthalpy hf (fun j => (res k r).1.RR j i) (fun j => (flow k r).Y j i) (fun j => (flow (k + 1) r).Y j i)
      (fun j => D.chemistry.enthalpy ((flow k r).T i) j) (fun j => D.chemistry.enthalpy ((flow (k + 1) r).T i) j) ((flow k r).rho i) ((flow k r).deltaT i)
      (fun j => (htake k hk).species j j.isLt)).1 (htake k hk).enthalpy
    unfold Chemistry.stateEnthalpy Chemistry.mixtureEnthalpy
    rw [(hlay (k + 1) (by omega)).temperature, (hlay k (by omega)).temperature, hns]
    rw [Fin.sum_univ_eq_sum_range (fun j => (flow (k + 1) r).Y j i * D.chemistry.enthalpy ((flow (k + 1) r).T i) j),
      Fin.sum_univ_eq_sum_range (fun j => (flow k r).Y j i * D.chemistry.enthalpy ((flow k r).T i) j)] at h1
    refine Eq.trans (Finset.sum_congr rfl fun j hj => ?_) (h1.trans (Finset.sum_congr rfl fun j hj => ?_))
    · rw [hlast (k + 1) (by omega) j (Finset.mem_range.1 hj)]
    · rw [hlast k (by omega) j (Finset.mem_range.1 hj)]
  -- the induction
  obtain ⟨d, hd⟩ : ∃ d : Nat → ℝ, d = fun k => Kd * η H * (flow k r).deltaT i := ⟨_, rfl⟩
  have hsumd : ∀ k, k ≤ N → ∑ l ∈ Finset.range k, d l = Kd * η H * t k := by
    intro k
    induction k with
    | zero => intro _; simp [ht0]
    | succ k ih => intro hk; rw [Finset.sum_range_succ, ih (by omega), ht k (by omega), hd]; ring
  have hbound : ∀ k, k ≤ N → K * (‖z 0 - ψ 0‖ + η H * t k + ∑ l ∈ Finset.range k, d l) ≤ |K| * (1 + Kd) * (‖z 0 - ψ 0‖ + η H * t k) := by
    intro k hk
    have h0 : 0 ≤ t k := ht0 ▸ hmono 0 k (Nat.zero_le k) hk
    rw [hsumd k hk]
    have h1 : 0 ≤ ‖z 0 - ψ 0‖ + η H * t k + Kd * η H * t k := by positivity
    have h2 := mul_le_mul_of_nonneg_right (le_abs_self K) h1
    have h3 : 0 ≤ |K| * (Kd * ‖z 0 - ψ 0‖) := by positivity
    have e : |K| * (1 + Kd) * (‖z 0 - ψ 0‖ + η H * t k) =
        |K| * (‖z 0 - ψ 0‖ + η H * t k + Kd * η H * t k) + |K| * (Kd * ‖z 0 - ψ 0‖) := by ring
    rw [e]
    linarith
  have hgrow : ∀ k, k ≤ N → |K| * (1 + Kd) * (‖z 0 - ψ 0‖ + η H * t k) ≤ min ρ1 ρ2 := fun k hk => by
    refine le_trans (mul_le_mul_of_nonneg_left ?_ (by positivity)) hsmall
    have := mul_le_mul_of_nonneg_left (hmono k N hk le_rfl) hη
    linarith
  have main : ∀ k, k ≤ N → (∀ l, l < k → ‖z (l + 1) - returnedState (z l) (q l)‖ ≤ d l) ∧
      ‖z k - ψ (t k)‖ ≤ |K| * (1 + Kd) * (‖z 0 - ψ 0‖ + η H * t k) := by
    intro k
    induction k with
    | zero =>
      intro hk
      refine ⟨fun l hl => absurd hl (Nat.not_lt_zero l), ?_⟩
      have := steps 0 t d z q H ht0 (fun l hl => absurd hl (Nat.not_lt_zero l)) (fun l hl => absurd hl (Nat.not_lt_zero l)) (((hmono 0 N (Nat.zero_le N) le_rfl)).trans htN) hH (hHH.trans (min_le_right _ _))
        (fun l hl => absurd hl (Nat.not_lt_zero l)) (fun l hl => absurd hl (Nat.not_lt_zero l)) (((hbound 0 hk).trans (hgrow 0 hk)).trans (min_le_right _ _)) 0 le_rfl
      exact this.trans (hbound 0 hk)
    | succ k ih =>
      intro hk
      obtain ⟨ih1, ih2⟩ := ih (by omega)
      have hk' : k < N := by omega
      have hdk : ‖z (k + 1) - returnedState (z k) (q k)‖ ≤ d k := by
        have h0 : 0 ≤ t k := ht0 ▸ hmono 0 k (Nat.zero_le k) hk'.le
        have key := (temp (ψ (t k)) ⟨t k, ⟨h0, (hmono k N hk'.le le_rfl).trans htN⟩, rfl⟩ (z k) (ih2.trans ((hgrow k hk'.le).trans (min_le_left _ _))) (hnonneg k hk'.le)
          ((flow k r).deltaT i) H (q k) (hpos k hk') (hcell k hk').2.2.2.2 hH (hHH.trans (min_le_left _ _)) (hq k hk').1) (z (k + 1)) (hnext k hk')
          (by rw [(hlay (k + 1) hk).temperature, (hlay k hk'.le).temperature]; exact (htake k hk').near) (henth k hk')
        have hd0 : 0 ≤ d k := by rw [hd]; have := hpos k hk'; positivity
        refine (pi_norm_le_iff_of_nonneg hd0).2 fun l => ?_
        rw [Pi.sub_apply, Real.norm_eq_abs]
        by_cases hl : l = 0
        · rw [hl, hd]; exact key
        · rw [hnext k hk' l hl, sub_self, abs_zero]; exact hd0
      have all : ∀ l, l < k + 1 → ‖z (l + 1) - returnedState (z l) (q l)‖ ≤ d l := fun l hl => by
        rcases Nat.lt_succ_iff_lt_or_eq.1 hl with h | h
        · exact ih1 l h
        · rw [h]; exact hdk
      refine ⟨all, ?_⟩
      have := steps (k + 1) t d z q H ht0 (fun l hl => htlt l (by omega)) (fun l hl => by rw [hdte l (by omega)]; exact (hcell l (by omega)).2.2.2.2) ((hmono (k + 1) N hk le_rfl).trans htN) hH (hHH.trans (min_le_right _ _))
        (fun l hl => by rw [hdte l (by omega)]; exact (hq l (by omega)).1) all (((hbound (k + 1) hk).trans (hgrow (k + 1) hk)).trans (min_le_right _ _)) (k + 1) le_rfl
      exact this.trans (hbound (k + 1) hk)
  refine fun k hk => ⟨(main k hk).2, hnonneg k hk, ?_⟩
  rw [← stateComposition_total (z k)]
  exact Finset.sum_congr rfl fun j hj => (hlast k hk j (Finset.mem_range.1 hj)).symm

/-! ### The property -/

/-- **C136, the flow.** For every shipped mechanism, every solution `ψ` of the reactor that stays inside the domain up to a time `τ`, and every bound on the Jacobians, there are a time step `b`, a step `H₀`, distances `r₀` and `ρ` and a constant `K` such that: let a
flow make `N` time steps of at most `b` with the load-balanced chemistry model on any number of ranks, whatever the other cells, tolerances, clocks and work arrays, and let a cell that is not mapped be integrated with steps of at most `H ≤ H₀`, and take up its reaction rates
and heat release at constant pressure. Then, as long as the bound `K (e + (H + 10^-9) t)`, with `e` the distance at the start, is at most `ρ`, the temperature and the mass fractions of the cell in the flow are those of the reactor, up to this bound; the mass fractions in the state of the integrator are not negative, and all of them add up to one. -/
theorem C136_flow_follows_the_reactor (D : Package) (hD : D ∈ shipped) (hnsp : D.nsp = m + 1) (ψ : ℝ → Fin (m + 2) → ℝ) (τ : ℝ)
    (hψ : SolvesOn (fun _ => D.chemistry.stateRate) ψ 0 τ) (hI : ∀ t ∈ Set.Icc 0 τ, D.chemistry.Interior (ψ t)) (Lj : ℝ) (hL0 : 0 ≤ Lj) :
    ∃ b H₀ r₀ ρ K : ℝ, 0 < b ∧ 0 < H₀ ∧ 0 < r₀ ∧ 0 < ρ ∧
      ∀ [MathOps ℝ], PowLaws ℝ → ∀ (evalJacob : ℝ → Vec ℝ (m + 2) → Nat → ℝ)
        (linearSolve : (Nat → ℝ) → Vec ℝ (m + 2) → Vec ℝ (m + 2)) (absTol relTol : Vec ℝ (m + 2))
        (fuel maxSteps n : Nat) (base : ChemModel ℝ) (parRun : Bool)
        (sort : List (ChemistryLoad ℝ) → List (ChemistryLoad ℝ)) (hf : Vec ℝ (m + 1)) (N : Nat) (clk : Nat → Fin n → Nat → ℝ) (flow : Nat → Fin n → Flow ℝ)
        (w w' : Nat → Fin n → Scratch ℝ (m + 1)) (F : Nat → Fin n → RankFields ℝ) (res : Nat → Fin n → RankFields ℝ × ℝ)
        (r : Fin n) (i : Nat) (t : Nat → ℝ) (z : Nat → Fin (m + 2) → ℝ) (H : ℝ),
        LapackContract (m + 2) linearSolve → (∀ i, 0 < relTol i) →
        0 < n → base.nSpecie = m + 1 → base.chemistry = true → (parRun = true ∨ n = 1) → (∀ l, (sort l).Perm l) →
        (∀ k, k < N → ∀ r i, i < (flow k r).nCells → 1 / 10 ^ 15 < (flow k r).deltaT i) →
        (∀ k, k < N → solveWorldW (pyJacModel base (D.lib m evalJacob) linearSolve absTol relTol fuel maxSteps) parRun
          sort (clk k) (flow k) (w k) (F k) = .ok (w' k, res k)) →
        (∀ k, k < N → i < (flow k r).nCells ∧ ¬ Mapped base (flow k r) i ∧ (flow k r).rho i ≠ 0 ∧ 0 < (F k r).deltaTChem i ∧ (flow k r).deltaT i ≤ b) →
        (∀ k, k ≤ N → Layout ((flow k r).p i) ((flow k r).T i) (composition base (flow k r) i) (z k)) →
        NonNegative (z 0) → ∑ j ∈ Finset.range (m + 1), (flow 0 r).Y j i = 1 →
        (∀ k, k < N → TakesUp D.chemistry hf r₀ (flow k r) (flow (k + 1) r) (res k r).1.RR i) →
        t 0 = 0 → (∀ k, k < N → t (k + 1) = t k + (flow k r).deltaT i) → t N ≤ τ → 0 ≤ H → H ≤ H₀ →
        (∀ k, k < N → SmallSteps (pyJacEnv (D.lib m evalJacob) linearSolve absTol relTol fuel) maxSteps ((flow k r).deltaT i) (z k)
          ((F k r).deltaTChem i) Lj H) →
        K * (‖z 0 - ψ 0‖ + (H + 1 / 10 ^ 9) * t N) ≤ ρ →
        ∀ k, k ≤ N → ‖z k - ψ (t k)‖ ≤ K * (‖z 0 - ψ 0‖ + (H + 1 / 10 ^ 9) * t k) ∧ NonNegative (z k) ∧ ∑ j ∈ Finset.range (m + 1), (flow k r).Y j i = 1 := by
  have hc : ContinuousOn ψ (Set.Icc 0 τ) := fun t ht => (hψ t ht).continuousWithinAt
  obtain ⟨b, H1, r₀, ρ1, Kd, hb, hH1, hr₀, -, hρ1, hKd, temp⟩ := flow_temperature D hD hnsp (isCompact_Icc.image_of_continuousOn hc)
    (by rintro _ ⟨t, ht, rfl⟩; exact hI t ht) Lj hL0 one_pos
  obtain ⟨H2, ρ2, K, hH2, hρ2, steps⟩ := C136_time_steps_follow_the_reactor D hD hnsp ψ τ hψ hI Lj hL0
  refine ⟨b, min H1 H2, r₀, min ρ1 ρ2, |K| * (1 + Kd), hb, lt_min hH1 hH2, hr₀, lt_min hρ1 hρ2, ?_⟩
  intro _ hm evalJacob linearSolve absTol relTol fuel maxSteps n base parRun sort hf N clk flow w w' F res r i t z H hE hrel hn hsp hchem hpar hsort hdt hrun hcell hlay hz0 hsum
    htake ht0 ht htN hH hHH hsteps hsmall
  exact flow_follows_of D hnsp ψ τ Lj (fun H => H + 1 / 10 ^ 9) hKd (fun x hx z hz hz0 dt H r h1 h2 h3 h4 h5 => (temp x hx z hz hz0 dt H r h1 h2 h3 h4 h5).1)
    (fun N t d z q H h1 h2 _ => steps N t d z q H h1 h2) hm evalJacob linearSolve absTol relTol fuel maxSteps n base parRun sort hf N clk flow w w' F res r i t z H hE hrel hn hsp
    hchem hpar hsort hdt hrun hcell hlay hz0 hsum htake ht0 ht htN hH hHH (by positivity) hsteps hsmall

end

/-! ### Case

The hypotheses on the solution hold for the reactor of drm19 filled with hot compressed air (the case after `C136_solutions_inside_the_domain`). That
integrations and time steps with small steps return is C121 and C123, and that there is exactly one temperature as `TakesUp` asks for is C135. -/

/-- A flow of one cell with the first three species of drm19, which turn into each other so that the temperature stays the same, whatever the enthalpies of formation: no mass is produced, and the heat
released is that of the reaction. -/
example (hf : Vec ℝ 3) : ∃ RR : Nat → Nat → ℝ, RR 0 0 + RR 1 0 + RR 2 0 = 0 ∧
    TakesUp (m := 2) drm19.chemistry hf 1 ⟨1, fun _ _ => 1 / 3, fun _ => 1500, fun _ => 100000, fun _ => 2, fun _ => 1⟩
      ⟨1, fun j _ => 1 / 3 + RR j 0 * 1 / 2, fun _ => 1500, fun _ => 100000, fun _ => 2, fun _ => 1⟩ RR 0 := by
  let h := drm19.chemistry.enthalpy (1500 : ℝ)
  refine ⟨fun j _ => if j = 0 then h 1 - h 2 else if j = 1 then h 2 - h 0 else h 0 - h 1, by simp, rfl, fun _ _ => rfl, by norm_num, ?_⟩
  simp [psrEnthalpy, pyJacQdot, Fin.sum_univ_succ, List.finRange_succ, h]
  ring

end DLB
