import Verif.Lemmas.ReactorBalance
import Verif.Props.ReactorLocal
/-
C120: cells that are integrated with small steps keep their enthalpy and their atoms, do not lose entropy, and stay in equilibrium.
-/
set_option autoImplicit false
set_option linter.unusedSectionVars false

namespace DLB
open Spec
open scoped Topology

section
variable {m : Nat}

/-- A cell in the state `z` (temperature, mass fractions of all species but the last, pressure) is integrated over the time
`dt` with steps of at most `H` that use Jacobians with row sums of at most `Lj`, and the result is `r`: for some Jacobian
routine, tolerances, work arrays and initial step, and a linear solver that solves regular systems. -/
def IntegratedTo (D : Package) (z : Fin (m + 2) → ℝ) (Lj H dt : ℝ) (r : IntegrateResult ℝ) : Prop :=
  ∃ (_ : MathOps ℝ) (evalJacob : ℝ → Vec ℝ (m + 2) → Nat → ℝ) (linearSolve : (Nat → ℝ) → Vec ℝ (m + 2) → Vec ℝ (m + 2))
    (absTol relTol : Vec ℝ (m + 2)) (fuel maxSteps : Nat) (scr scr' : Scratch ℝ (m + 1)) (p T : ℝ) (c : List ℝ) (sub : ℝ),
    PowLaws ℝ ∧ LapackContract (m + 2) linearSolve ∧ (∀ i, 0 < relTol i) ∧ Layout p T c z ∧ 0 < sub ∧
    SmallSteps (pyJacEnv (D.lib m evalJacob) linearSolve absTol relTol fuel) maxSteps dt z sub Lj H ∧
    odePyJacSolve (seulexIntegrator (pyJacEnv (D.lib m evalJacob) linearSolve absTol relTol fuel) maxSteps) scr p T c dt sub =
      .ok (scr', r)

/-- Temperature and mass fractions of all species as a vector. -/
def gather (T : ℝ) (Y : Nat → ℝ) : Fin (m + 2) → ℝ := fun i => if i.val = 0 then T else Y (i.val - 1)

/-- The mass fractions in such a vector. -/
def fractionsOf (v : Fin (m + 2) → ℝ) (i : Nat) : ℝ := if h : i < m + 1 then v ⟨i + 1, by omega⟩ else 0

theorem fractionsOf_gather (T : ℝ) (Y : Nat → ℝ) (i : Nat) (hi : i < m + 1) : fractionsOf (gather (m := m) T Y) i = Y i := by
  unfold fractionsOf gather
  rw [dif_pos hi]
  simp

theorem fractionsOf_lipAt (v : Fin (m + 2) → ℝ) (i : Nat) : LipAt (fun x : Fin (m + 2) → ℝ => fractionsOf x i) v := by
  unfold fractionsOf
  by_cases h : i < m + 1
  · simp only [dif_pos h]; exact lipAt_entry v _
  · simp only [dif_neg h]; exact LipAt.const _ v

/-- The mass fractions returned. -/
def IntegrateResult.fractions (r : IntegrateResult ℝ) (i : Nat) : ℝ := r.c.getD i 0

theorem start_in {φ : ℝ → Fin (m + 2) → ℝ} {z : Fin (m + 2) → ℝ} {b : ℝ} (hb : 0 < b) (h0 : φ 0 = z)
    (hc : ContinuousWithinAt φ (Set.Icc 0 b) 0) {P : (Fin (m + 2) → ℝ) → Prop} (hP : ∀ᶠ x in 𝓝 z, P x) :
    ∃ c, 0 < c ∧ c ≤ b ∧ ∀ t ∈ Set.Icc 0 c, P (φ t) := by
  rw [← h0] at hP
  have := hc.eventually hP
  rw [eventually_nhdsWithin_iff, Metric.eventually_nhds_iff] at this
  obtain ⟨δ, hδ, h⟩ := this
  refine ⟨min b (δ / 2), lt_min hb (by positivity), min_le_left _ _, fun t ht => h ?_ ⟨ht.1, ht.2.trans (min_le_left _ _)⟩⟩
  rw [Real.dist_eq, sub_zero, abs_of_nonneg ht.1]
  exact lt_of_le_of_lt (ht.2.trans (min_le_right _ _)) (by linarith)

/-- What does not decrease along solutions of the reactor does not decrease by much in a cell. -/
theorem carry (D : Package) (hD : D ∈ shipped) (hn : D.nsp = m + 1) (z : Fin (m + 2) → ℝ) (hz : D.chemistry.Interior z)
    (Lj : ℝ) (hL0 : 0 ≤ Lj) (F : ℝ → (Nat → ℝ) → ℝ)
    (hF : LipAt (fun v : Fin (m + 2) → ℝ => F (v 0) (fractionsOf v)) (gather (z 0) (stateComposition z)))
    (hloc : ∀ T (Y Y' : Nat → ℝ), (∀ i, i < m + 1 → Y i = Y' i) → F T Y = F T Y')
    (P : (Fin (m + 2) → ℝ) → Prop) (hP : ∀ᶠ x in 𝓝 z, P x)
    (hrise : ∀ (φ : ℝ → Fin (m + 2) → ℝ) (c : ℝ), φ 0 = z → SolvesOn (fun _ => D.chemistry.stateRate) φ 0 c →
      (∀ t ∈ Set.Icc 0 c, D.chemistry.Admissible (φ t)) → (∀ t ∈ Set.Icc 0 c, P (φ t)) → ∀ t ∈ Set.Icc 0 c,
      F (z 0) (stateComposition z) ≤ F (φ t 0) (stateComposition (φ t))) :
    ∃ b H₀ K : ℝ, 0 < b ∧ 0 < H₀ ∧ 0 ≤ K ∧ ∀ dt H r, 0 < dt → dt ≤ b → 0 ≤ H → H ≤ H₀ → IntegratedTo D z Lj H dt r →
      F (z 0) (stateComposition z) - K * (H + 1 / 10 ^ 9) * dt ≤ F r.T r.fractions := by
  obtain ⟨φ, b, H₀, K, hb, hH0, h0, hs, ha, key⟩ := C119_cells_follow_the_reactor D hD hn z hz Lj hL0
  obtain ⟨Kl, U, hU, hL⟩ := hF
  obtain ⟨ρ, hρ, hball⟩ := Metric.nhds_basis_closedBall.mem_iff.1 hU
  have hcont : ContinuousAt (fun x : Fin (m + 2) → ℝ => gather (m := m) (x 0) (stateComposition x)) z := by
    refine continuousAt_pi.2 fun i => ?_
    unfold gather
    by_cases h : i.val = 0
    · simp only [if_pos h]; exact (lipAt_entry z 0).continuousAt
    · simp only [if_neg h]; exact (stateComposition_lipAt z _).continuousAt
  obtain ⟨c, hc0, hcb, hc⟩ := start_in hb h0 (hs 0 ⟨le_rfl, hb.le⟩).continuousWithinAt
    (hP.and (hcont.eventually (Metric.closedBall_mem_nhds _ (half_pos hρ))))
  have hM : 0 ≤ (m + 1) * |K| * (H₀ + 1) := by positivity
  refine ⟨min c (ρ / 2 / ((m + 1) * |K| * (H₀ + 1) + 1)), H₀, Kl * ((m + 1) * |K|), lt_min hc0 (by positivity), hH0, by positivity, ?_⟩
  rintro dt H r hdt hdtb hH hHH ⟨_, evalJacob, linearSolve, absTol, relTol, fuel, maxSteps, scr, scr', p, T, cl, sub, hm, hE, hrel, hlay,
    hsub, hsteps, h⟩
  obtain ⟨k1, k2, k3⟩ := key hm evalJacob linearSolve absTol relTol fuel maxSteps scr scr' p T cl dt sub H r hE hrel hlay hdt
    ((hdtb.trans (min_le_left _ _)).trans hcb) hsub hH hHH hsteps h
  have ht : dt ∈ Set.Icc 0 c := ⟨hdt.le, hdtb.trans (min_le_left _ _)⟩
  have hrise' := hrise φ c h0 (fun t ht => (hs t ⟨ht.1, ht.2.trans hcb⟩).mono (Set.Icc_subset_Icc le_rfl hcb))
    (fun t ht => ha t ⟨ht.1, ht.2.trans hcb⟩) (fun t ht => (hc t ht).1) dt ht
  have hKle : K * (H + 1 / 10 ^ 9) * dt ≤ |K| * (H + 1 / 10 ^ 9) * dt := by
    refine mul_le_mul_of_nonneg_right (mul_le_mul_of_nonneg_right (le_abs_self K) (by positivity)) hdt.le
  obtain ⟨e, he⟩ : ∃ e, e = (m + 1) * (|K| * (H + 1 / 10 ^ 9) * dt) := ⟨_, rfl⟩
  have he1 : |K| * (H + 1 / 10 ^ 9) * dt ≤ e := by
    rw [he]
    exact le_mul_of_one_le_left (by positivity) (by linarith [(Nat.cast_nonneg m : (0 : ℝ) ≤ m)])
  have he0 : 0 ≤ e := by rw [he]; positivity
  have he2 : (m : ℝ) * (K * (H + 1 / 10 ^ 9) * dt) ≤ e := by
    rw [he]
    have h1 := mul_le_mul_of_nonneg_left hKle (Nat.cast_nonneg m : (0 : ℝ) ≤ m)
    have h2 : 0 ≤ |K| * (H + 1 / 10 ^ 9) * dt := by positivity
    linarith
  have heρ : e ≤ ρ / 2 := by
    have h1 := hdtb.trans (min_le_right _ _)
    rw [le_div_iff₀ (by positivity)] at h1
    have h2 : (m + 1) * |K| * (H + 1 / 10 ^ 9) ≤ (m + 1) * |K| * (H₀ + 1) + 1 := by
      have : (m + 1) * |K| * (H + 1 / 10 ^ 9) ≤ (m + 1) * |K| * (H₀ + 1) :=
        mul_le_mul_of_nonneg_left (by norm_num; linarith) (by positivity)
      linarith
    have h3 := mul_le_mul_of_nonneg_right h2 hdt.le
    rw [he]
    calc _ = (m + 1) * |K| * (H + 1 / 10 ^ 9) * dt := by ring
      _ ≤ _ := h3
      _ ≤ _ := by linarith
  have hdist : dist (gather (m := m) r.T r.fractions) (gather (φ dt 0) (stateComposition (φ dt))) ≤ e := by
    refine (dist_pi_le_iff he0).2 fun i => ?_
    have hi := i.isLt
    rw [Real.dist_eq]
    unfold gather
    by_cases hi0 : i.val = 0
    · simp only [if_pos hi0]
      exact k1.trans (hKle.trans he1)
    · simp only [if_neg hi0]
      by_cases him : i.val - 1 = m
      · rw [him]
        exact k3.trans he2
      · exact (k2 _ (by omega)).trans (hKle.trans he1)
  have in1 : gather (φ dt 0) (stateComposition (φ dt)) ∈ Metric.closedBall (gather (m := m) (z 0) (stateComposition z)) (ρ / 2) := (hc dt ht).2
  have in2 : gather r.T r.fractions ∈ Metric.closedBall (gather (m := m) (z 0) (stateComposition z)) ρ := by
    rw [Metric.mem_closedBall] at in1 ⊢
    linarith [dist_triangle (gather (m := m) r.T r.fractions) (gather (φ dt 0) (stateComposition (φ dt))) (gather (z 0) (stateComposition z))]
  have hlip := hL.dist_le_mul _ (hball in2) _ (hball (Metric.closedBall_subset_closedBall (by linarith) in1))
  have loc : ∀ T Y, F (gather (m := m) T Y 0) (fractionsOf (gather (m := m) T Y)) = F T Y := fun T Y =>
    hloc T _ _ fun i hi => fractionsOf_gather T Y i hi
  rw [loc, loc, Real.dist_eq] at hlip
  have h1 := mul_le_mul_of_nonneg_left hdist Kl.2
  have h2 := (abs_le.1 hlip).1
  have h3 : (Kl : ℝ) * e = Kl * ((m + 1) * |K|) * (H + 1 / 10 ^ 9) * dt := by rw [he]; ring
  have h4 : (Kl : ℝ) * dist (gather (m := m) r.T r.fractions) (gather (φ dt 0) (stateComposition (φ dt))) ≤ Kl * e := h1
  linarith

/-- The same for what is conserved. -/
theorem carry_eq (D : Package) (hD : D ∈ shipped) (hn : D.nsp = m + 1) (z : Fin (m + 2) → ℝ) (hz : D.chemistry.Interior z)
    (Lj : ℝ) (hL0 : 0 ≤ Lj) (F : ℝ → (Nat → ℝ) → ℝ)
    (hF : LipAt (fun v : Fin (m + 2) → ℝ => F (v 0) (fractionsOf v)) (gather (z 0) (stateComposition z)))
    (hloc : ∀ T (Y Y' : Nat → ℝ), (∀ i, i < m + 1 → Y i = Y' i) → F T Y = F T Y')
    (P : (Fin (m + 2) → ℝ) → Prop) (hP : ∀ᶠ x in 𝓝 z, P x)
    (hcons : ∀ (φ : ℝ → Fin (m + 2) → ℝ) (c : ℝ), φ 0 = z → SolvesOn (fun _ => D.chemistry.stateRate) φ 0 c →
      (∀ t ∈ Set.Icc 0 c, D.chemistry.Admissible (φ t)) → (∀ t ∈ Set.Icc 0 c, P (φ t)) → ∀ t ∈ Set.Icc 0 c,
      F (φ t 0) (stateComposition (φ t)) = F (z 0) (stateComposition z)) :
    ∃ b H₀ K : ℝ, 0 < b ∧ 0 < H₀ ∧ ∀ dt H r, 0 < dt → dt ≤ b → 0 ≤ H → H ≤ H₀ → IntegratedTo D z Lj H dt r →
      |F r.T r.fractions - F (z 0) (stateComposition z)| ≤ K * (H + 1 / 10 ^ 9) * dt := by
  obtain ⟨b1, H1, K1, hb1, hH1, hK1, k1⟩ := carry D hD hn z hz Lj hL0 F hF hloc P hP fun φ c a1 a2 a3 a4 t ht =>
    (hcons φ c a1 a2 a3 a4 t ht).ge
  obtain ⟨b2, H2, K2, hb2, hH2, hK2, k2⟩ := carry D hD hn z hz Lj hL0 (fun T Y => -F T Y) hF.neg
    (fun T Y Y' h => by rw [hloc T Y Y' h]) P hP fun φ c a1 a2 a3 a4 t ht => by rw [hcons φ c a1 a2 a3 a4 t ht]
  refine ⟨min b1 b2, min H1 H2, K1 + K2, lt_min hb1 hb2, lt_min hH1 hH2, fun dt H r hdt hb hH hHH h => ?_⟩
  have a1 := k1 dt H r hdt (hb.trans (min_le_left _ _)) hH (hHH.trans (min_le_left _ _)) h
  have a2 := k2 dt H r hdt (hb.trans (min_le_right _ _)) hH (hHH.trans (min_le_right _ _)) h
  have p1 : 0 ≤ K1 * (H + 1 / 10 ^ 9) * dt := by positivity
  have p2 : 0 ≤ K2 * (H + 1 / 10 ^ 9) * dt := by positivity
  have e : (K1 + K2) * (H + 1 / 10 ^ 9) * dt = K1 * (H + 1 / 10 ^ 9) * dt + K2 * (H + 1 / 10 ^ 9) * dt := by ring
  rw [e, abs_le]
  constructor <;> linarith

theorem betweenFits_eventually {X : Chemistry} {z : Fin (m + 2) → ℝ} (h : X.BetweenFits (z 0)) : ∀ᶠ x in 𝓝 z, X.BetweenFits (x 0) := by
  have : ∀ᶠ x in 𝓝 z, ∀ i : Fin X.nsp, x 0 ≠ ((X.fit i).tMid.1 : ℝ) / 10 ^ (X.fit i).tMid.2 :=
    Filter.eventually_all.2 fun i => (lipAt_entry z 0).continuousAt.eventually_ne (h i i.isLt)
  exact this.mono fun x hx i hi => hx ⟨i, hi⟩

/-- **C120, enthalpy.** For every shipped mechanism, every state inside the domain and every bound on the Jacobians, there are a
time `b`, a step `H₀` and a constant `K` such that, whatever the tolerances, the linear solver, the work arrays and the initial step: if
a cell in this state is integrated over a time `dt` of at most `b` with steps of at most `H ≤ H₀`, its enthalpy per mass changes by at
most `K (H + 10^-9) dt`. -/
theorem C120_enthalpy (D : Package) (hD : D ∈ shipped) (hn : D.nsp = m + 1) (z : Fin (m + 2) → ℝ) (hz : D.chemistry.Interior z)
    (Lj : ℝ) (hL0 : 0 ≤ Lj) :
    ∃ b H₀ K : ℝ, 0 < b ∧ 0 < H₀ ∧ ∀ dt H r, 0 < dt → dt ≤ b → 0 ≤ H → H ≤ H₀ → IntegratedTo D z Lj H dt r →
      |D.chemistry.mixtureEnthalpy r.T r.fractions - D.chemistry.mixtureEnthalpy (z 0) (stateComposition z)| ≤
        K * (H + 1 / 10 ^ 9) * dt := by
  have hns : D.chemistry.nsp = m + 1 := hn
  refine carry_eq D hD hn z hz Lj hL0 D.chemistry.mixtureEnthalpy ?_ (fun T Y Y' h => ?_)
    (fun x => D.chemistry.BetweenFits (x 0) ∧ 0 < stateComposition x m)
    ((betweenFits_eventually hz.fits).and ((stateComposition_lipAt z m).continuousAt.eventually_const_lt hz.last))
    fun φ c h0 hs ha hP t ht => ?_
  · unfold Chemistry.mixtureEnthalpy Chemistry.enthalpy
    refine LipAt.sum fun i hi => (fractionsOf_lipAt _ i).mul ((LipAt.const _ _).mul ?_)
    exact fit_lipAt (T := fun v : Fin (m + 2) → ℝ => v 0) (D.chemistry.fit i) hOverR (lipAt_entry _ 0) (hz.fits i hi)
      fun a => hOverR_lipAt a (lipAt_entry _ 0)
  · unfold Chemistry.mixtureEnthalpy
    exact Finset.sum_congr rfl fun i hi => by rw [h i (by have := Finset.mem_range.1 hi; omega)]
  · rw [← h0]
    exact enthalpy_along hD hn hs ha (fun t ht => (hP t ht).2) (fun t ht => (hP t ht).1) t ht

/-- **C120, atoms.** Likewise the amount of every chemical element per mass changes by at most `K (H + 10^-9) dt`. -/
theorem C120_atoms (D : Package) (hD : D ∈ shipped) (hn : D.nsp = m + 1) (z : Fin (m + 2) → ℝ) (hz : D.chemistry.Interior z)
    (Lj : ℝ) (hL0 : 0 ≤ Lj) (e : Nat) (he : e < D.elements.length) :
    ∃ b H₀ K : ℝ, 0 < b ∧ 0 < H₀ ∧ ∀ dt H r, 0 < dt → dt ≤ b → 0 ≤ H → H ≤ H₀ → IntegratedTo D z Lj H dt r →
      |D.chemistry.atomsPerMass (fun i => D.atomCount i e) r.fractions -
        D.chemistry.atomsPerMass (fun i => D.atomCount i e) (stateComposition z)| ≤ K * (H + 1 / 10 ^ 9) * dt := by
  have hns : D.chemistry.nsp = m + 1 := hn
  refine carry_eq D hD hn z hz Lj hL0 (fun _ => D.chemistry.atomsPerMass fun i => D.atomCount i e) ?_ (fun T Y Y' h => ?_)
    (fun _ => True) (Filter.Eventually.of_forall fun _ => trivial) fun φ c h0 hs ha hP t ht => ?_
  · unfold Chemistry.atomsPerMass
    exact LipAt.sum fun i hi => (LipAt.const _ _).mul ((fractionsOf_lipAt _ i).div (LipAt.const _ _)
      (molWeight_pos (checked_of_shipped hD) i hi).ne')
  · unfold Chemistry.atomsPerMass
    exact Finset.sum_congr rfl fun i hi => by rw [h i (by have := Finset.mem_range.1 hi; omega)]
  · rw [← h0]
    exact atoms_along hD hn e he hs t ht

/-- **C120, entropy.** With a mechanism without irreversible reactions, and all species present, the entropy per mass at the
pressure of the cell decreases by at most `K (H + 10^-9) dt`. -/
theorem C120_entropy (D : Package) (hD : D ∈ shipped) (hrev : ∀ n ∈ number D.reactions, n.r.reversible = true) (hn : D.nsp = m + 1)
    (z : Fin (m + 2) → ℝ) (hz : D.chemistry.Interior z) (hpos : ∀ i, i < m + 1 → 0 < stateComposition z i) (Lj : ℝ) (hL0 : 0 ≤ Lj) :
    ∃ b H₀ K : ℝ, 0 < b ∧ 0 < H₀ ∧ ∀ dt H r, 0 < dt → dt ≤ b → 0 ≤ H → H ≤ H₀ → IntegratedTo D z Lj H dt r →
      D.chemistry.entropy (z 0) (z (Fin.last (m + 1))) (stateComposition z) - K * (H + 1 / 10 ^ 9) * dt ≤
        D.chemistry.entropy r.T (z (Fin.last (m + 1))) r.fractions := by
  have hns : D.chemistry.nsp = m + 1 := hn
  have hW : ∀ i, i < D.chemistry.nsp → 0 < D.chemistry.weight i := fun i hi => molWeight_pos (checked_of_shipped hD) i hi
  have hev : ∀ᶠ x in 𝓝 z, D.chemistry.BetweenFits (x 0) ∧ ∀ i : Fin (m + 1), 0 < stateComposition x i :=
    (betweenFits_eventually hz.fits).and (Filter.eventually_all.2 fun i =>
      (stateComposition_lipAt z i).continuousAt.eventually_const_lt (hpos i i.isLt))
  have drop : ∀ {Q : ℝ → ℝ → ℝ → Prop}, (∃ b H₀ K : ℝ, 0 < b ∧ 0 < H₀ ∧ 0 ≤ K ∧ Q b H₀ K) →
      ∃ b H₀ K : ℝ, 0 < b ∧ 0 < H₀ ∧ Q b H₀ K := fun ⟨b, H₀, K, h1, h2, _, h3⟩ => ⟨b, H₀, K, h1, h2, h3⟩
  refine drop (carry D hD hn z hz Lj hL0 (fun T Y => D.chemistry.entropy T (z (Fin.last (m + 1))) Y) ?_
    (fun T Y Y' h => ?_) _ hev fun φ c h0 hs ha hP t ht => ?_)
  · have hv : ∀ i, i < D.chemistry.nsp → fractionsOf (gather (m := m) (z 0) (stateComposition z)) i = stateComposition z i := fun i hi =>
      fractionsOf_gather _ _ i (by omega)
    have hN : 0 < ∑ j ∈ Finset.range D.chemistry.nsp, stateComposition z j / D.chemistry.weight j :=
      Finset.sum_pos (fun i hi => div_pos (hpos i (by have := Finset.mem_range.1 hi; omega)) (hW i (Finset.mem_range.1 hi)))
        ⟨0, Finset.mem_range.2 (by omega)⟩
    have eN : ∑ j ∈ Finset.range D.chemistry.nsp, fractionsOf (gather (m := m) (z 0) (stateComposition z)) j / D.chemistry.weight j =
        ∑ j ∈ Finset.range D.chemistry.nsp, stateComposition z j / D.chemistry.weight j :=
      Finset.sum_congr rfl fun i hi => by rw [hv i (Finset.mem_range.1 hi)]
    have hs0 : (0 : ℝ) < standardPressure := by unfold standardPressure; positivity
    have hp := hz.pressure
    unfold Chemistry.entropy Chemistry.partialEntropy Chemistry.moleFraction
    refine LipAt.sum fun i hi => (fractionsOf_lipAt _ i).mul ((LipAt.const _ _).mul (LipAt.sub ?_ ?_))
    · exact fit_lipAt (T := fun v : Fin (m + 2) → ℝ => v 0) (D.chemistry.fit i) sOverR (lipAt_entry _ 0) (hz.fits i hi)
        fun a => sOverR_lipAt a (lipAt_entry _ 0) (by
          show 0 < z 0
          linarith [hz.inside.1])
    · refine LipAt.log (((((fractionsOf_lipAt _ i).div (LipAt.const _ _) (hW i hi).ne').div (LipAt.sum fun j hj =>
        (fractionsOf_lipAt _ j).div (LipAt.const _ _) (hW j hj).ne') ?_).mul (LipAt.const _ _)).div (LipAt.const _ _) hs0.ne') ?_
      · rw [eN]; exact hN.ne'
      · have := hpos i (by omega)
        have := hW i hi
        rw [eN, hv i hi]
        positivity
  · unfold Chemistry.entropy Chemistry.partialEntropy Chemistry.moleFraction
    have e : ∑ j ∈ Finset.range D.chemistry.nsp, Y j / D.chemistry.weight j = ∑ j ∈ Finset.range D.chemistry.nsp, Y' j / D.chemistry.weight j :=
      Finset.sum_congr rfl fun i hi => by rw [h i (by have := Finset.mem_range.1 hi; omega)]
    exact Finset.sum_congr rfl fun i hi => by rw [e, h i (by have := Finset.mem_range.1 hi; omega)]
  · have := entropy_along hD hrev hn hs ha (fun t ht i hi => (hP t ht).2 ⟨i, hi⟩) (fun t ht => (hP t ht).1) t ht
    rw [h0] at this
    exact this

/-- **C120, equilibrium.** A cell in a state in which the reactor is at rest (chemical equilibrium) stays there, up to
`K (H + 10^-9) dt` (`m` times that for the last species). -/
theorem C120_equilibrium (D : Package) (hD : D ∈ shipped) (hn : D.nsp = m + 1) (z : Fin (m + 2) → ℝ) (hz : D.chemistry.Interior z)
    (hrest : D.chemistry.stateRate z = 0) (Lj : ℝ) (hL0 : 0 ≤ Lj) :
    ∃ b H₀ K : ℝ, 0 < b ∧ 0 < H₀ ∧ ∀ dt H r, 0 < dt → dt ≤ b → 0 ≤ H → H ≤ H₀ → IntegratedTo D z Lj H dt r →
      ReturnsNear r z (K * (H + 1 / 10 ^ 9) * dt) := by
  obtain ⟨φ, b, H₀, K, hb, hH0, h0, hs, ha, key⟩ := C119_cells_follow_the_reactor D hD hn z hz Lj hL0
  obtain ⟨c, ρ, B, Λ, S, ψ, hc, hρ, -, hΛ, -, hψ0, hψ⟩ := exists_tube (X := D.chemistry) hn (proper_of_shipped hD) hz
  have hnn := nonNegative_of hz.toAdmissible
  have hmin : 0 < min b c := lt_min hb hc
  have tube : D.chemistry.Tube ψ (min b c) ρ B Λ S := by
    have mono : ∀ t x, Spec.Near ψ 0 (min b c) ρ t x → Spec.Near ψ 0 c ρ t x := fun t x h =>
      ⟨⟨h.1.1, h.1.2.trans (min_le_right _ _)⟩, h.2⟩
    exact ⟨fun t ht => (hψ.solves t ⟨ht.1, ht.2.trans (min_le_right _ _)⟩).mono (Set.Icc_subset_Icc le_rfl (min_le_right _ _)),
      fun t x h => hψ.admissible t x (mono t x h), fun t x h => hψ.terms t x (mono t x h),
      fun t x h => hψ.bound t x (mono t x h),
      fun t x t' x' h h' => hψ.lipschitz t x t' x' (mono t x h) (mono t' x' h'),
      fun t ht => hψ.nonNegative t ⟨ht.1, ht.2.trans (min_le_right _ _)⟩⟩
  have u1 := C119_solution_unique tube hρ hΛ (ψ := φ)
    (fun t ht => (hs t ⟨ht.1, ht.2.trans (min_le_left _ _)⟩).mono (Set.Icc_subset_Icc le_rfl (min_le_left _ _)))
    (fun t ht => nonNegative_of (ha t ⟨ht.1, ht.2.trans (min_le_left _ _)⟩)) (h0.trans hψ0.symm)
  have u2 := C119_solution_unique tube hρ hΛ (ψ := fun _ => z)
    (fun t _ => by
      show HasDerivWithinAt (fun _ => z) (D.chemistry.stateRate z) _ t
      rw [hrest]; exact hasDerivWithinAt_const _ _ _) (fun _ _ => hnn) hψ0.symm
  refine ⟨min b c, H₀, K, hmin, hH0, ?_⟩
  rintro dt H r hdt hdtb hH hHH ⟨_, evalJacob, linearSolve, absTol, relTol, fuel, maxSteps, scr, scr', p, T, cl, sub, hm, hE, hrel, hlay,
    hsub, hsteps, h⟩
  have := key hm evalJacob linearSolve absTol relTol fuel maxSteps scr scr' p T cl dt sub H r hE hrel hlay hdt
    (hdtb.trans (min_le_left _ _)) hsub hH hHH hsteps h
  rwa [u1 dt ⟨hdt.le, hdtb⟩, ← u2 dt ⟨hdt.le, hdtb⟩] at this

end

/-! ### Cases

That there are integrations as the theorems assume them (`IntegratedTo`) is C121. -/

/-- A mixture of the species of drm19 at 1200 K, with the mass fractions `Y` of all species but nitrogen. -/
noncomputable def drm19State (Y : Nat → ℝ) (p : ℝ) : Fin 22 → ℝ := fun i => if i = Fin.last 21 then p else if i.val = 0 then 1200 else Y (i.val - 1)

theorem drm19State_composition (Y : Nat → ℝ) (p : ℝ) (i : Nat) (hi : i < 21) :
    stateComposition (drm19State Y p) i = if i = 20 then 1 - ∑ k ∈ Finset.range 20, Y k else Y i := by
  have e : ∀ k, k < 20 → (if h : k < 20 then drm19State Y p ⟨k + 1, by omega⟩ else 0) = Y k := fun k hk => by
    rw [dif_pos hk]
    unfold drm19State
    rw [if_neg (by intro h; have := congrArg Fin.val h; simp at this; omega), if_neg (by simp)]
    rfl
  unfold stateComposition complement
  split
  · rw [Finset.sum_congr rfl fun k hk => e k (Finset.mem_range.1 hk)]
  · exact e i (by omega)

/-- At some pressure it is inside the domain, if there is nitrogen. -/
theorem drm19State_interior (Y : Nat → ℝ) (hY : ∀ i, i < 20 → 0 ≤ Y i) (hN : ∑ k ∈ Finset.range 20, Y k < 1) :
    ∃ p : ℝ, drm19.chemistry.Interior (drm19State Y p) := by
  have hp0 : ∀ p i, i < 21 → 0 ≤ stateComposition (drm19State Y p) i := fun p i hi => by
    rw [drm19State_composition Y p i hi]
    split
    · linarith
    · exact hY i (by omega)
  have hlast : ∀ p, 0 < stateComposition (drm19State Y p) 20 := fun p => by
    rw [drm19State_composition Y p 20 (by norm_num), if_pos rfl]
    linarith
  have hindep : ∀ p, stateComposition (drm19State Y p) = stateComposition (drm19State Y 1) := fun p => by
    funext i
    unfold stateComposition
    congr 1
    funext k
    split
    · unfold drm19State
      have : (⟨k + 1, by omega⟩ : Fin 22) ≠ Fin.last 21 := by intro h; have := congrArg Fin.val h; simp at this; omega
      rw [if_neg this, if_neg this]
    · rfl
  obtain ⟨p, hp, h⟩ := C85_domain 1200 (by norm_num) (stateComposition (drm19State Y 1)) (hp0 1) (hlast 1)
  obtain ⟨h1, -⟩ := h p le_rfl
  have e0 : drm19State Y p 0 = 1200 := by
    unfold drm19State
    rw [if_neg (by intro h; have := congrArg Fin.val h; simp at this), if_pos (by simp)]
  have ep : drm19State Y p (Fin.last 21) = p := if_pos rfl
  have hmid : drm19.chemistry.BetweenFits 1200 := by
    have := noMid_sound drm19_noMid
    exact_mod_cast this
  refine ⟨p, ⟨⟨by rw [e0]; norm_num, by rw [ep]; exact hp, hp0 p, ?_⟩, by rw [e0]; norm_num, by rw [e0]; exact hmid, hlast p⟩⟩
  rw [hindep, e0, ep]
  exact h1

/-- A case of C120: a mixture of all species of drm19, 1 % of each with nitrogen as the rest. -/
example (Lj : ℝ) (hL0 : 0 ≤ Lj) : ∃ p b H₀ K : ℝ, 0 < b ∧ 0 < H₀ ∧ ∀ dt H r, 0 < dt → dt ≤ b → 0 ≤ H → H ≤ H₀ →
    IntegratedTo drm19 (drm19State (fun _ => 1 / 100) p) Lj H dt r →
    drm19.chemistry.entropy 1200 p (stateComposition (drm19State (fun _ => 1 / 100) p)) - K * (H + 1 / 10 ^ 9) * dt ≤
      drm19.chemistry.entropy r.T p r.fractions := by
  obtain ⟨p, hp⟩ := drm19State_interior (fun _ => 1 / 100) (fun _ _ => by norm_num) (by simp; norm_num)
  have hr : ∀ n ∈ number drm19.reactions, n.r.reversible = true := by decide +kernel
  exact ⟨p, C120_entropy drm19 (by simp [shipped]) hr rfl _ hp (fun i hi => by
    rw [drm19State_composition _ _ i hi]
    split
    · simp; norm_num
    · norm_num) Lj hL0⟩

/-- A case of C120: nitrogen, which is in equilibrium as it does not react with itself. -/
example (Lj : ℝ) (hL0 : 0 ≤ Lj) : ∃ p b H₀ K : ℝ, 0 < b ∧ 0 < H₀ ∧ ∀ dt H r, 0 < dt → dt ≤ b → 0 ≤ H → H ≤ H₀ →
    IntegratedTo drm19 (drm19State (fun _ => 0) p) Lj H dt r →
    ReturnsNear r (drm19State (fun _ => 0) p) (K * (H + 1 / 10 ^ 9) * dt) := by
  obtain ⟨p, hp⟩ := drm19State_interior (fun _ => 0) (fun _ _ => le_rfl) (by simp)
  refine ⟨p, C120_equilibrium drm19 (by simp [shipped]) rfl _ hp ?_ Lj hL0⟩
  have hreac : ∀ n ∈ number drm19.reactions, (n.r.reactants.any fun s => decide (s < 20)) = true ∧
      (n.r.products.any fun s => decide (s < 20)) = true := by decide +kernel
  have hC : ∀ T p' s, s < 20 → drm19.chemistry.concentrations T p' (stateComposition (drm19State (fun _ => 0) p)) s = 0 := fun T p' s hs => by
    unfold Chemistry.concentrations
    rw [drm19State_composition _ _ s (by omega), if_neg (by omega), mul_zero, zero_div]
  have hprod : ∀ T p' (l : List Nat), (l.any fun s => decide (s < 20)) = true →
      (l.map (drm19.chemistry.concentrations T p' (stateComposition (drm19State (fun _ => 0) p)))).prod = 0 := fun T p' l hl => by
    obtain ⟨s, hs, h⟩ := List.any_eq_true.1 hl
    exact List.prod_eq_zero (List.mem_map.2 ⟨s, hs, hC T p' s (by simpa using h)⟩)
  have hdY : ∀ T p' i, drm19.chemistry.dYdt T p' (stateComposition (drm19State (fun _ => 0) p)) i = 0 := fun T p' i => by
    have : drm19.chemistry.production T (drm19.chemistry.concentrations T p' (stateComposition (drm19State (fun _ => 0) p))) i = 0 := by
      unfold Chemistry.production
      refine List.sum_eq_zero fun v hv => ?_
      obtain ⟨n, hn, rfl⟩ := List.mem_map.1 hv
      obtain ⟨h1, h2⟩ := hreac n hn
      unfold Chemistry.forward Chemistry.reverse
      rw [hprod T p' _ h1, hprod T p' _ h2]
      simp
    unfold Chemistry.dYdt
    rw [this, zero_mul, zero_div]
  funext i
  unfold Chemistry.stateRate
  split
  · unfold Chemistry.dTdt
    rw [Finset.sum_eq_zero fun i _ => by rw [hdY, mul_zero]]
    simp
  split
  · rfl
  · exact hdY _ _ _

end DLB
