import Verif.Lemmas.SlopeLipschitz
import Verif.Props.ReactorModel
import Verif.Props.WholeStep
/-
C125: the Jacobian of the drm19 library is bounded near the states inside the domain, so that short time steps with this library succeed.
-/
set_option autoImplicit false
set_option linter.unusedSectionVars false

namespace DLB
open Spec
open scoped Topology NNReal

section
variable {m : Nat}

theorem pyJacJacobian_clip (L : PyJacLib ℝ m) (t : ℝ) (z : Vec ℝ (m + 2)) : pyJacJacobian L t (clip z) = pyJacJacobian L t z := by
  have h0 : clip z 0 = z 0 := by simp [clip]
  have hp : clip z (pressurePos m) = z (pressurePos m) := by simp [clip, pressurePos]
  unfold pyJacJacobian
  rw [modelComposition_clip, h0, hp]

/-- A derivative of an entry of a function is bounded by its Lipschitz constant. -/
theorem deriv_le_of_lipschitz {N : Nat} {f : (Fin N → ℝ) → Fin N → ℝ} {K : ℝ≥0} {U : Set (Fin N → ℝ)} (hf : LipschitzOnWith K f U)
    {x : Fin N → ℝ} (hU : U ∈ 𝓝 x) {i j : Fin N} {d : ℝ} (hd : HasDerivAt (fun s => f (Function.update x j s) i) d (x j)) : |d| ≤ K := by
  have hc : Filter.Tendsto (fun s => Function.update x j s) (𝓝 (x j)) (𝓝 x) := by
    have : Continuous fun s => Function.update x j s := continuous_const.update j continuous_id
    have h := this.tendsto (x j)
    rwa [Function.update_eq_self] at h
  refine hd.le_of_lipschitzOn (C := K) (hc hU) (LipschitzOnWith.of_dist_le_mul fun a ha b hb => ?_)
  have h1 := hf.dist_le_mul _ ha _ hb
  refine (dist_le_pi_dist _ _ i).trans (h1.trans (mul_le_mul_of_nonneg_left ?_ K.2))
  refine (dist_pi_le_iff dist_nonneg).2 fun k => ?_
  dsimp only
  by_cases h : k = j
  · rw [h, Function.update_self, Function.update_self]
  · rw [Function.update_of_ne h, Function.update_of_ne h, dist_self]
    exact dist_nonneg

end

/-- In drm19 the last species is a third body of all falloff reactions. -/
def lastIsThirdBody (D : Package) : Bool := (number D.reactions).all fun n => match n.r.kind with
  | .falloff eff => decide (0 < (effDec eff (D.nsp - 1)).1)
  | _ => true

theorem drm19_lastIsThirdBody : lastIsThirdBody drm19 = true := by decide +kernel

theorem thirdBodies_of_last (z : Vec ℝ 22) (hz : drm19.chemistry.Interior z) :
    drm19.chemistry.ThirdBodies (drm19.chemistry.concentrations (z 0) (z (Fin.last 21)) (stateComposition z)) := by
  intro n hn eff he
  have hR := regularAt_of (X := drm19.chemistry) rfl (proper_of_shipped (by simp [shipped])) hz
  have hd := density_pos hR.proper hR.pressure hR.fractions hR.some_pos
  have h1 := List.all_eq_true.1 drm19_lastIsThirdBody n hn
  rw [he] at h1
  have h2 : (0 : ℝ) < efficiency eff (drm19.nsp - 1) := by
    unfold efficiency
    have := of_decide_eq_true h1
    exact div_pos (by exact_mod_cast this) (by positivity)
  have hw : 0 < drm19.chemistry.weight 20 := hR.proper.weight 20 (by decide)
  refine Finset.sum_pos' (fun i hi => mul_nonneg ?_ ?_) ⟨20, Finset.mem_range.2 (by decide), mul_pos h2 ?_⟩
  · unfold efficiency; positivity
  · exact div_nonneg (mul_nonneg hd.le (hR.fractions i (Finset.mem_range.1 hi))) (hR.proper.weight i (Finset.mem_range.1 hi)).le
  · exact div_pos (mul_pos hd hz.last) hw

/-- **C125.** The Jacobian that the integrator gets from the drm19 library is bounded near every state inside the domain at which the rates of change are
differentiable: also where mass fractions are zero, and for the intermediate states of the integrator in which they are negative. -/
theorem C125_jacobian_is_bounded (z : Vec ℝ 22) (hz : drm19.chemistry.Interior z) (hs : drm19.chemistry.Smooth z) :
    JacobianBoundedNear (pyJacJacobian drm19Lib) z := by
  have hX : ∀ t, 200 ≤ t → t ≤ 5000 → drm19.chemistry.ProperAt t := proper_of_shipped (by simp [shipped])
  obtain ⟨K, U, hU, hK⟩ := stateRate_lipAt (X := drm19.chemistry) rfl hX hz
  have hb := thirdBodies_of_last z hz
  have hterms : ∀ i j : Fin 22, ∀ᶠ x in 𝓝 z, drm19.chemistry.stateSlopeTerms x i j < drm19.chemistry.stateSlopeTerms z i j + 1 :=
    fun i j => (stateSlopeTerms_lipAt (X := drm19.chemistry) rfl hX hz hb i j).continuousAt.eventually_lt_const (lt_add_one _)
  have hall : ∀ᶠ x in 𝓝 z, (∀ i j : Fin 22, drm19.chemistry.stateSlopeTerms x i j < drm19.chemistry.stateSlopeTerms z i j + 1) ∧
      (NonNegative x → drm19.chemistry.Smooth x) ∧ U ∈ 𝓝 x := by
    have h1 : ∀ᶠ x in 𝓝 z, ∀ i j : Fin 22, drm19.chemistry.stateSlopeTerms x i j < drm19.chemistry.stateSlopeTerms z i j + 1 :=
      Filter.eventually_all.2 fun i => Filter.eventually_all.2 fun j => hterms i j
    exact h1.and ((smooth_eventually (X := drm19.chemistry) rfl hX hz hs.cutOff).and (eventually_eventually_nhds.2 hU))
  obtain ⟨ε, hε, hball⟩ := Metric.eventually_nhds_iff.1 hall
  refine ⟨ε / 2, (22 : ℝ) * (K + 2 / 10 ^ 5 * ∑ i, ∑ j, |drm19.chemistry.stateSlopeTerms z i j + 1|), by positivity, fun t y _ hy i => ?_⟩
  have hnear : dist (clip y) z < ε := by
    have h1 := clip_contracts y z
    rw [clip_of_nonNegative (nonNegative_of hz.toAdmissible)] at h1
    rw [dist_eq_norm]
    refine lt_of_le_of_lt (h1.trans ((pi_norm_le_iff_of_nonneg (by positivity)).2 fun i => hy i)) (by linarith)
  obtain ⟨b1, b2, b3⟩ := hball hnear
  have hsm := b2 (clip_nonNegative y)
  have hsum : ∀ i j : Fin 22, |drm19.chemistry.stateSlopeTerms z i j + 1| ≤ ∑ i, ∑ j, |drm19.chemistry.stateSlopeTerms z i j + 1| := fun i j =>
    (Finset.single_le_sum (f := fun j => |drm19.chemistry.stateSlopeTerms z i j + 1|) (fun _ _ => abs_nonneg _) (Finset.mem_univ j)).trans
      (Finset.single_le_sum (f := fun i => ∑ j, |drm19.chemistry.stateSlopeTerms z i j + 1|)
        (fun _ _ => Finset.sum_nonneg fun _ _ => abs_nonneg _) (Finset.mem_univ i))
  have entry : ∀ j : Fin 22, |pyJacJacobian drm19Lib t y i j| ≤ K + 2 / 10 ^ 5 * ∑ i, ∑ j, |drm19.chemistry.stateSlopeTerms z i j + 1| := by
    intro j
    rw [← pyJacJacobian_clip]
    by_cases hj : j = Fin.last 21
    · have : pyJacJacobian drm19Lib t (clip y) i j = 0 := by
        unfold pyJacJacobian
        rw [if_neg]
        rw [hj]
        simp
      rw [this, abs_zero]
      positivity
    · obtain ⟨d, hd, he⟩ := C88_jacobian t (clip y) hsm i j hj
      have h1 := deriv_le_of_lipschitz hK b3 hd
      have h2 : drm19.chemistry.stateSlopeTerms (clip y) i j ≤ ∑ i, ∑ j, |drm19.chemistry.stateSlopeTerms z i j + 1| :=
        (b1 i j).le.trans ((le_abs_self _).trans (hsum i j))
      have h3 : |pyJacJacobian drm19Lib t (clip y) i j| ≤ |pyJacJacobian drm19Lib t (clip y) i j - d| + |d| := by
        have := abs_add_le (pyJacJacobian drm19Lib t (clip y) i j - d) d
        rwa [sub_add_cancel] at this
      have h4 : (2 : ℝ) / 10 ^ 5 * drm19.chemistry.stateSlopeTerms (clip y) i j ≤
          2 / 10 ^ 5 * ∑ i, ∑ j, |drm19.chemistry.stateSlopeTerms z i j + 1| := mul_le_mul_of_nonneg_left h2 (by norm_num)
      linarith
  refine (Finset.sum_le_card_nsmul _ _ _ fun j _ => entry j).trans (le_of_eq ?_)
  rw [Finset.card_univ, Fintype.card_fin, nsmul_eq_mul]
  norm_num

/-- **C125, one cell.** With the drm19 library as it is shipped: for every state inside the domain at which the rates of change are differentiable, and all
tolerances, there are a solution of the reactor of chem.cti that starts there, a time `b` and a constant `K` such that the integration of a cell in
this state over a time `dt` of at most `b`, with any positive initial step of at least `dt / maxSteps`, returns, and the result is the state of the
reactor at `dt`, up to `K (dt + 10^-9) dt`. -/
theorem C125_cell_follows_the_reactor [MathOps ℝ] (hm : PowLaws ℝ) (hq : SqrtLaws ℝ) (hr : RootLaws ℝ) (z : Vec ℝ 22)
    (hz : drm19.chemistry.Interior z) (hs : drm19.chemistry.Smooth z)
    (absTol relTol : Vec ℝ 22) (habs : ∀ i, 0 < absTol i) (hrel : ∀ i, 0 < relTol i) :
    ∃ φ : ℝ → Fin 22 → ℝ, ∃ b K : ℝ, 0 < b ∧ 0 ≤ K ∧ φ 0 = z ∧ SolvesOn (fun _ => drm19.chemistry.stateRate) φ 0 b ∧
      (∀ t ∈ Set.Icc 0 b, drm19.chemistry.Admissible (φ t)) ∧
      ∀ (linearSolve : (Nat → ℝ) → Vec ℝ 22 → Vec ℝ 22) (fuel maxSteps : Nat)
        (scr : Scratch ℝ 21) (p T : ℝ) (c : List ℝ) (dt sub : ℝ), LapackContract 22 linearSolve → 1 ≤ fuel →
        Layout p T c z → 0 < dt → dt ≤ b → 0 < sub → dt ≤ maxSteps * sub →
        ∃ scr' r, odePyJacSolve (seulexIntegrator (pyJacEnv drm19Lib linearSolve absTol relTol fuel) maxSteps) scr p T c
          dt sub = .ok (scr', r) ∧ ReturnsNear r (φ dt) (K * (dt + 1 / 10 ^ 9) * dt) :=
  C123_cell_follows_the_reactor hm hq hr drm19 (by simp [shipped]) rfl z hz _ (C125_jacobian_is_bounded z hz hs) absTol relTol habs hrel

/-- **C125, a time step.** With the drm19 library as it is shipped: short time steps of the load-balanced model, on any number of ranks, of cells in states
inside the domain at which the rates of change are differentiable, succeed on all ranks, and their reaction rates are those of chem.cti up to
`K (dt + 10^-9)` times the density. -/
theorem C125_time_steps_succeed [MathOps ℝ] (hm : PowLaws ℝ) (hq : SqrtLaws ℝ) (hr : RootLaws ℝ)
    {n : Nat} (hn : 0 < n) (nCells : Fin n → Nat) (z : Fin n → Nat → Fin 22 → ℝ)
    (hz : ∀ r i, i < nCells r → drm19.chemistry.Interior (z r i) ∧ drm19.chemistry.Smooth (z r i))
    (absTol relTol : Vec ℝ 22) (habs : ∀ i, 0 < absTol i) (hrel : ∀ i, 0 < relTol i) :
    ∃ b K : ℝ, 0 < b ∧
      ∀ (linearSolve : (Nat → ℝ) → Vec ℝ 22 → Vec ℝ 22) (fuel maxSteps : Nat) (base : ChemModel ℝ) (parRun : Bool)
        (sort : List (ChemistryLoad ℝ) → List (ChemistryLoad ℝ)) (clk : Fin n → Nat → ℝ) (flow : Fin n → Flow ℝ)
        (w : Fin n → Scratch ℝ 21) (F : Fin n → RankFields ℝ),
        LapackContract 22 linearSolve → 1 ≤ fuel → 1 ≤ base.fuel → base.nSpecie = 21 → base.chemistry = true →
        (base.mapper.active = true → base.nSpecie ≤ base.mapper.mixFrac.alpha.length) →
        (parRun = true ∨ n = 1) → (∀ l, (sort l).Perm l) →
        (∀ r, (flow r).nCells = nCells r) →
        (∀ r i, i < nCells r → Layout ((flow r).p i) ((flow r).T i) (composition base (flow r) i) (z r i) ∧
          ∑ j ∈ Finset.range 21, (flow r).Y j i = 1 ∧ 0 ≤ (flow r).rho i ∧
          0 < (flow r).deltaT i ∧ (flow r).deltaT i ≤ b ∧
          0 < (F r).deltaTChem i ∧ (flow r).deltaT i ≤ maxSteps * (F r).deltaTChem i) →
        ∃ w' res, solveWorldW (pyJacModel base drm19Lib linearSolve absTol relTol fuel maxSteps) parRun
          sort clk flow w F = .ok (w', res) ∧
        ((∀ r i, i < nCells r → 1 / 10 ^ 15 < (flow r).deltaT i) →
          ∀ r i, i < nCells r → ¬ Mapped base (flow r) i → ∀ j, j < 21 →
          |(res r).1.RR j i - (flow r).rho i * drm19.chemistry.dYdt (z r i 0) (z r i (Fin.last 21)) (stateComposition (z r i)) j| ≤
            (flow r).rho i * (K * ((flow r).deltaT i + 1 / 10 ^ 9))) :=
  C124_short_time_steps_succeed hm hq hr drm19 (by simp [shipped]) rfl hn nCells z (fun r i hi => (hz r i hi).1) _
    (fun r i hi => C125_jacobian_is_bounded (z r i) (hz r i hi).1 (hz r i hi).2) absTol relTol habs hrel

/-! ### Cases -/

/-- Hot compressed air is inside the domain, and the rates of change are differentiable there. -/
theorem hotAirState_smooth : ∃ p : ℝ, drm19.chemistry.Interior (hotAirState p) ∧ drm19.chemistry.Smooth (hotAirState p) := by
  have e : hotAir 0 = 1200 := rfl
  obtain ⟨p, hp, h⟩ := C85_domain (hotAir 0) (by rw [e]; norm_num) _ hotAir_ok (by rw [hotAir_nitrogen]; norm_num)
  obtain ⟨h1, h2⟩ := h p le_rfl
  have e0 : hotAirState p 0 = hotAir 0 := rfl
  have ep : hotAirState p (Fin.last 21) = p := if_pos rfl
  have hmid : drm19.chemistry.BetweenFits (hotAirState p 0) := by
    have := noMid_sound drm19_noMid
    rw [e0, e]
    exact_mod_cast this
  have ha : drm19.chemistry.Admissible (hotAirState p) := by
    refine ⟨by rw [e0, e]; norm_num, by rw [ep]; exact hp, ?_, ?_⟩
    · rw [hotAirState_composition]
      exact hotAir_ok
    · rw [hotAirState_composition, e0, ep]
      exact h1
  refine ⟨p, ⟨ha, by rw [e0, e]; norm_num, hmid, ?_⟩, ha, hmid, ?_⟩
  · rw [hotAirState_composition, hotAir_nitrogen]
    norm_num
  · rw [hotAirState_composition, e0, ep]
    exact h2

/-- A case of C125: hot compressed air and the drm19 library with its own Jacobian, first steps of a tenth of the time. -/
example (scr : Scratch ℝ 21) : letI := realMath
    ∃ p b K : ℝ, ∃ φ : ℝ → Fin 22 → ℝ, 0 < b ∧ φ 0 = hotAirState p ∧ ∀ dt, 0 < dt → dt ≤ b → ∃ scr' r,
      odePyJacSolve (seulexIntegrator (pyJacEnv drm19Lib (fun a b => (columnMajor 22 a)⁻¹.mulVec b)
        (fun _ => 1 / 10 ^ 8) (fun _ => 1 / 10 ^ 5) 1) 10) scr p 1200
        (List.ofFn fun i : Fin 21 => stateComposition (hotAirState p) i.val) dt (dt / 10) = .ok (scr', r) ∧
      ReturnsNear r (φ dt) (K * (dt + 1 / 10 ^ 9) * dt) := by
  let := realMath
  obtain ⟨p, hp, hs⟩ := hotAirState_smooth
  obtain ⟨φ, b, K, hb, -, h0, -, -, key⟩ := C125_cell_follows_the_reactor realMath_powLaws realMath_sqrtLaws realMath_rootLaws _ hp hs
    (fun _ => 1 / 10 ^ 8) (fun _ => 1 / 10 ^ 5) (fun _ => by norm_num) (fun _ => by norm_num)
  refine ⟨p, b, K, φ, hb, h0, fun dt hdt hdtb => ?_⟩
  have hlay := exists_layout (hotAirState p)
  have e1 : hotAirState p (Fin.last 21) = p := if_pos rfl
  rw [e1] at hlay
  exact key _ 1 10 scr p 1200 _ dt (dt / 10) (lapackContract_inverse 22) le_rfl hlay hdt hdtb (by positivity)
    (by push_cast; linarith)

end DLB
