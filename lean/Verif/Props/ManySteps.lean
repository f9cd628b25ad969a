import Verif.Lemmas.ManySteps
import Verif.Props.SmallTimeStep
/-
C123: over short times every step of the integration of a cell is accepted at once, whatever the initial step, and the integration
follows the reactor.
-/
set_option autoImplicit false
set_option linter.unusedSectionVars false

namespace DLB
open Spec

/-- The row sums of the Jacobians are bounded near a state. -/
def JacobianBoundedNear {n : Nat} (jacobian : ℝ → Vec ℝ (n + 1) → Mat ℝ (n + 1)) (z : Vec ℝ (n + 1)) : Prop :=
  ∃ ρ L : ℝ, 0 < ρ ∧ ∀ x y, |x| ≤ ρ → (∀ i, |y i - z i| ≤ ρ) → RowsAtMost (jacobian x y) L

section
variable {n : Nat} [MathOps ℝ]

theorem exists_shortTime (derivatives : ℝ → Vec ℝ (n + 1) → Vec ℝ (n + 1)) (jacobian : ℝ → Vec ℝ (n + 1) → Mat ℝ (n + 1))
    (absTol relTol : Vec ℝ (n + 1)) (habs : ∀ i, 0 < absTol i) (hrel : ∀ i, 0 < relTol i) (z : Vec ℝ (n + 1))
    (hz : 200 < z 0 ∧ z 0 < 5000) (hf : BoundedNear derivatives 0 z) (hJ : JacobianBoundedNear jacobian z) :
    ∃ b ρ B L σ : ℝ, 0 < b ∧ 0 ≤ L ∧ ∀ (linearSolve : (Nat → ℝ) → Vec ℝ (n + 1) → Vec ℝ (n + 1)) (jacRedo : ℝ) (fuel : Nat) (dt : ℝ),
      0 < dt → dt ≤ b → ShortTime ⟨derivatives, jacobian, linearSolve, absTol, relTol, jacRedo, fuel⟩ z ρ B L σ dt := by
  obtain ⟨ρ₁, B, hρ₁, hB⟩ := hf
  obtain ⟨ρ₂, L, hρ₂, hL⟩ := hJ
  obtain ⟨mi, -, hmin⟩ := Finset.exists_min_image Finset.univ absTol ⟨0, Finset.mem_univ _⟩
  obtain ⟨ρ, hρ⟩ : ∃ ρ, ρ = min (min ρ₁ ρ₂) (min ((z 0 - 200) / 2) (5000 - z 0)) := ⟨_, rfl⟩
  have hρ0 : 0 < ρ := by
    rw [hρ]
    refine lt_min (lt_min hρ₁ hρ₂) (lt_min ?_ ?_) <;> linarith [hz.1, hz.2]
  have hρ' : ρ ≤ ρ₁ ∧ ρ ≤ ρ₂ ∧ ρ ≤ (z 0 - 200) / 2 ∧ ρ ≤ 5000 - z 0 := by
    have := le_of_eq hρ
    simpa only [le_min_iff, and_assoc] using this
  obtain ⟨r1, r2, r3, r4⟩ := hρ'
  have hB0 : 0 < |B| + 1 := by positivity
  have hL0 : 0 < |L| + 1 := by positivity
  have hσ : 0 < absTol mi := habs mi
  have hN : (0 : ℝ) < ((n + 1 : Nat) : ℝ) := by exact_mod_cast Nat.succ_pos n
  have g : ∀ c t : ℝ, 0 < c → 0 < t → ∃ δ : ℝ, 0 < δ ∧ ∀ d, d ≤ δ → c * d ≤ t := by
    intro c t hc ht
    refine ⟨t / c, div_pos ht hc, fun d hd => ?_⟩
    rw [le_div_iff₀ hc] at hd
    linarith
  obtain ⟨δ1, p1, q1⟩ := g (|L| + 1) (1 / 2) hL0 (by norm_num)
  obtain ⟨δ2, p2, q2⟩ := g (6 * (|B| + 1)) 1 (by positivity) (by norm_num)
  obtain ⟨δ3, p3, q3⟩ := g (6 * (|B| + 1) * ((n + 1 : Nat) : ℝ)) (absTol mi) (by positivity) hσ
  obtain ⟨δ4, p4, q4⟩ := g (2 * (|B| + 1)) (ρ / 2) (by positivity) (by positivity)
  obtain ⟨δ6, p6, q6⟩ := g (16 * 7 ^ 12 * (|B| + 1)) (absTol mi) (by positivity) hσ
  obtain ⟨δ7, p7, q7⟩ := g (7 ^ 12 * 2 * (|B| + 1)) (ρ / 2) (by positivity) (by positivity)
  refine ⟨min δ1 (min δ2 (min δ3 (min δ4 (min (ρ / 2) (min δ6 δ7))))), ρ, |B| + 1, |L| + 1, absTol mi,
    by simp [p1, p2, p3, p4, hρ0, p6, p7], hL0.le, ?_⟩
  intro linearSolve jacRedo fuel dt hdt hb
  simp only [le_min_iff] at hb
  obtain ⟨d1, d2, d3, d4, d5, d6, d7⟩ := hb
  refine ⟨hρ0, hB0, hL0, hσ, ?_, ?_, ?_, ?_, ?_⟩
  · intro x y hx hy i
    have h1 := hB x y (by rw [sub_zero]; exact hx.trans r1) (fun i => (hy i).trans r1) i
    show |derivatives x y i| ≤ |B| + 1
    linarith [le_abs_self B]
  · intro t ht
    rw [abs_le] at ht
    constructor <;> linarith [hz.1, hz.2]
  · intro x y hx hy i
    have h1 := hL x y (hx.trans r2) (fun i => (hy i).trans r2) i
    show ∑ j, |jacobian x y i j| ≤ |L| + 1
    linarith [le_abs_self L]
  · intro i t ht
    have h1 := hmin i (Finset.mem_univ _)
    have h2 := mul_nonneg (hrel i).le ht
    show absTol mi ≤ absTol i + relTol i * t
    linarith
  · have := q1 dt d1; have := q2 dt d2; have := q3 dt d3; have := q4 dt d4; have := q6 dt d6; have := q7 dt d7
    refine ⟨?_, ?_, ?_, ?_, d5, ?_, ?_⟩ <;> linarith

end

section
variable {m : Nat}

/-- **C123, every step is accepted at once.** For every shipped mechanism, every state inside the domain, every Jacobian routine that is
bounded near the state, and all tolerances there are a time `b` and a bound `L` such that, for every linear solver that solves regular systems,
whatever is in the work arrays, and even if every step is given only one attempt: the integration of a cell in this state over a time `dt` of at most
`b`, with any positive initial step, returns if the time is at most `maxSteps` times the initial step; the steps add up to `dt`,
and the Jacobians they are made with have row sums of at most `L`. -/
theorem C123_steps_are_accepted_at_once [MathOps ℝ] (hm : PowLaws ℝ) (hq : SqrtLaws ℝ) (hr : RootLaws ℝ) (D : Package) (hD : D ∈ shipped)
    (hn : D.nsp = m + 1) (z : Fin (m + 2) → ℝ) (hz : D.chemistry.Interior z) (evalJacob : ℝ → Vec ℝ (m + 2) → Nat → ℝ)
    (hJ : JacobianBoundedNear (pyJacJacobian (D.lib m evalJacob)) z)
    (absTol relTol : Vec ℝ (m + 2)) (habs : ∀ i, 0 < absTol i) (hrel : ∀ i, 0 < relTol i) :
    ∃ b L : ℝ, 0 < b ∧ 0 ≤ L ∧ ∀ (linearSolve : (Nat → ℝ) → Vec ℝ (m + 2) → Vec ℝ (m + 2)) (fuel maxSteps : Nat)
      (scr : Scratch ℝ (m + 1)) (p T : ℝ) (c : List ℝ) (dt sub : ℝ), LapackContract (m + 2) linearSolve → 1 ≤ fuel →
      Layout p T c z → 0 < dt → dt ≤ b → 0 < sub → dt ≤ maxSteps * sub →
      (∃ scr' r, odePyJacSolve (seulexIntegrator (pyJacEnv (D.lib m evalJacob) linearSolve absTol relTol fuel) maxSteps) scr p T c
        dt sub = .ok (scr', r)) ∧
      let steps := acceptedSteps (seulexSolve (pyJacEnv (D.lib m evalJacob) linearSolve absTol relTol fuel)) 0 dt maxSteps scr 0 z
        (StepState.init sub)
      (steps.map Prod.fst).sum = dt ∧ ∀ q ∈ steps, 0 < q.1 ∧ RowsAtMost q.2 L := by
  have hj : jacRedoOf relTol < ((2 : Nat) : ℝ) * jacRedoOf relTol := by
    have := jacRedoOf_pos hrel
    push_cast
    linarith
  obtain ⟨b, ρ, B, L, σ, hb, hL, key⟩ := exists_shortTime (pyJacDerivatives (D.lib m evalJacob)) (pyJacJacobian (D.lib m evalJacob))
    absTol relTol habs hrel z hz.inside (pyJac_boundedNear D hD hn z hz evalJacob) hJ
  refine ⟨b, L, hb, hL, fun linearSolve fuel maxSteps scr p T c dt sub hE hfuel hlay hdt hdtb hsub hmax => ?_⟩
  have hS := key linearSolve (jacRedoOf relTol) fuel dt hdt hdtb
  obtain ⟨⟨q, hq', -⟩, h2, h3⟩ := driver_short hm hq hr (E := pyJacEnv (D.lib m evalJacob) linearSolve absTol relTol fuel) hE hfuel hj hS hsub
    maxSteps 0 scr 0 z (StepState.init sub) le_rfl hdt (fun i => by simp) (by simp [StepState.init, hsub]) rfl (Or.inl rfl)
    (Or.inl rfl) le_rfl (by rw [sub_zero]; exact hmax)
  rw [sub_zero] at h2
  refine ⟨?_, h2, fun q hq => ⟨(h3 q hq).1, (h3 q hq).2.2⟩⟩
  have hpack : packPyJac p T (fun i : Fin (m + 1) => c[i.val]'(by have := hlay.size; omega)) = z :=
    (packPyJac_layout p T c hlay.size).unique hlay
  unfold odePyJacSolve
  rw [dif_pos hlay.size, hpack]
  unfold seulexIntegrator driverSolve
  simp only [bind, Except.bind, hq']
  exact ⟨_, _, rfl⟩

/-- The steps, as the theorems on the reactor assume them. -/
theorem smallSteps_of_many [MathOps ℝ] (hm : PowLaws ℝ) (hq : SqrtLaws ℝ) (hr : RootLaws ℝ) (D : Package) (hD : D ∈ shipped)
    (hn : D.nsp = m + 1) (z : Fin (m + 2) → ℝ) (hz : D.chemistry.Interior z) (evalJacob : ℝ → Vec ℝ (m + 2) → Nat → ℝ)
    (hJ : JacobianBoundedNear (pyJacJacobian (D.lib m evalJacob)) z)
    (absTol relTol : Vec ℝ (m + 2)) (habs : ∀ i, 0 < absTol i) (hrel : ∀ i, 0 < relTol i) :
    ShortIntegrations D z evalJacob absTol relTol (fun maxSteps dt sub => dt ≤ maxSteps * sub) := by
  obtain ⟨b, L, hb, hL, key⟩ := C123_steps_are_accepted_at_once hm hq hr D hD hn z hz evalJacob hJ absTol relTol habs hrel
  refine ⟨b, L, hb, hL, fun linearSolve fuel maxSteps p T c dt sub hE hfuel hmax hlay hdt hdtb hsub => ?_⟩
  have h := fun scr => key linearSolve fuel maxSteps scr p T c dt sub hE hfuel hlay hdt hdtb hsub hmax
  refine ⟨fun scr => ?_, fun scr => (h scr).1⟩
  obtain ⟨-, h2, h3⟩ := h scr
  refine ⟨h2, fun q hq => ⟨?_, (h3 q hq).2⟩⟩
  rw [← h2]
  refine List.single_le_sum (fun t ht => ?_) _ (List.mem_map_of_mem hq)
  obtain ⟨q', hq', rfl⟩ := List.mem_map.1 ht
  exact (h3 q' hq').1.le

/-- **C123, one cell.** With the same hypotheses there are a solution of the reactor that starts at the state, a time `b` and a constant
`K` such that the integration of a cell in this state over a time `dt` of at most `b`, with any positive initial step of at least `dt / maxSteps`,
returns, and the result is the state of the reactor at `dt`, up to `K (dt + 10^-9) dt` (`m` times that for the last
species). -/
theorem C123_cell_follows_the_reactor [MathOps ℝ] (hm : PowLaws ℝ) (hq : SqrtLaws ℝ) (hr : RootLaws ℝ) (D : Package) (hD : D ∈ shipped)
    (hn : D.nsp = m + 1) (z : Fin (m + 2) → ℝ) (hz : D.chemistry.Interior z) (evalJacob : ℝ → Vec ℝ (m + 2) → Nat → ℝ)
    (hJ : JacobianBoundedNear (pyJacJacobian (D.lib m evalJacob)) z)
    (absTol relTol : Vec ℝ (m + 2)) (habs : ∀ i, 0 < absTol i) (hrel : ∀ i, 0 < relTol i) :
    ∃ φ : ℝ → Fin (m + 2) → ℝ, ∃ b K : ℝ, 0 < b ∧ 0 ≤ K ∧ φ 0 = z ∧ SolvesOn (fun _ => D.chemistry.stateRate) φ 0 b ∧
      (∀ t ∈ Set.Icc 0 b, D.chemistry.Admissible (φ t)) ∧
      ∀ (linearSolve : (Nat → ℝ) → Vec ℝ (m + 2) → Vec ℝ (m + 2)) (fuel maxSteps : Nat)
        (scr : Scratch ℝ (m + 1)) (p T : ℝ) (c : List ℝ) (dt sub : ℝ), LapackContract (m + 2) linearSolve → 1 ≤ fuel →
        Layout p T c z → 0 < dt → dt ≤ b → 0 < sub → dt ≤ maxSteps * sub →
        ∃ scr' r, odePyJacSolve (seulexIntegrator (pyJacEnv (D.lib m evalJacob) linearSolve absTol relTol fuel) maxSteps) scr p T c
          dt sub = .ok (scr', r) ∧ ReturnsNear r (φ dt) (K * (dt + 1 / 10 ^ 9) * dt) := by
  obtain ⟨φ, b, K, hb, hK, h0, hs, ha, key⟩ :=
    (smallSteps_of_many hm hq hr D hD hn z hz evalJacob hJ absTol relTol habs hrel).follow hm hD hn hz hrel
  exact ⟨φ, b, K, hb, hK, h0, hs, ha, fun linearSolve fuel maxSteps scr p T c dt sub hE hfuel hlay hdt hdtb hsub hmax =>
    key linearSolve fuel maxSteps scr p T c dt sub hE hfuel hmax hlay hdt hdtb hsub⟩

/-- **C123, balances.** With the same hypotheses the enthalpy per mass of the cell, and the amount of every chemical element in it, change by at
most `K (dt + 10^-9) dt`. -/
theorem C123_balances [MathOps ℝ] (hm : PowLaws ℝ) (hq : SqrtLaws ℝ) (hr : RootLaws ℝ) (D : Package) (hD : D ∈ shipped)
    (hn : D.nsp = m + 1) (z : Fin (m + 2) → ℝ) (hz : D.chemistry.Interior z) (evalJacob : ℝ → Vec ℝ (m + 2) → Nat → ℝ)
    (hJ : JacobianBoundedNear (pyJacJacobian (D.lib m evalJacob)) z)
    (absTol relTol : Vec ℝ (m + 2)) (habs : ∀ i, 0 < absTol i) (hrel : ∀ i, 0 < relTol i) (e : Nat) (he : e < D.elements.length) :
    ∃ b K : ℝ, 0 < b ∧ ∀ (linearSolve : (Nat → ℝ) → Vec ℝ (m + 2) → Vec ℝ (m + 2)) (fuel maxSteps : Nat)
        (scr : Scratch ℝ (m + 1)) (p T : ℝ) (c : List ℝ) (dt sub : ℝ), LapackContract (m + 2) linearSolve → 1 ≤ fuel →
        Layout p T c z → 0 < dt → dt ≤ b → 0 < sub → dt ≤ maxSteps * sub →
        ∃ scr' r, odePyJacSolve (seulexIntegrator (pyJacEnv (D.lib m evalJacob) linearSolve absTol relTol fuel) maxSteps) scr p T c
          dt sub = .ok (scr', r) ∧
          |D.chemistry.mixtureEnthalpy r.T r.fractions - D.chemistry.mixtureEnthalpy (z 0) (stateComposition z)| ≤
            K * (dt + 1 / 10 ^ 9) * dt ∧
          |D.chemistry.atomsPerMass (fun i => D.atomCount i e) r.fractions -
            D.chemistry.atomsPerMass (fun i => D.atomCount i e) (stateComposition z)| ≤ K * (dt + 1 / 10 ^ 9) * dt := by
  obtain ⟨b, K, hb, key⟩ :=
    (smallSteps_of_many hm hq hr D hD hn z hz evalJacob hJ absTol relTol habs hrel).balances hm hD hn hz hrel e he
  exact ⟨b, K, hb, fun linearSolve fuel maxSteps scr p T c dt sub hE hfuel hlay hdt hdtb hsub hmax =>
    key linearSolve fuel maxSteps scr p T c dt sub hE hfuel hmax hlay hdt hdtb hsub⟩

/-- **C123, a time step of the model.** With the same hypotheses there are a time `b` and a constant `K` such that, in a time step of the
load-balanced chemistry model on any number of ranks: the reaction rate of every species in every cell that is not mapped, is in this state (with
mass fractions that add up to one), and is integrated over a time step of at most `b` with any positive initial chemical time step of at least
`dt / maxSteps`, is the density of the cell times the rate of change of the mass fraction according to chem.cti, up to
`K (dt + 10^-9)` times the density. -/
theorem C123_reaction_rates [MathOps ℝ] (hm : PowLaws ℝ) (hq : SqrtLaws ℝ) (hr : RootLaws ℝ) (D : Package) (hD : D ∈ shipped)
    (hnsp : D.nsp = m + 1) (z : Fin (m + 2) → ℝ) (hz : D.chemistry.Interior z) (evalJacob : ℝ → Vec ℝ (m + 2) → Nat → ℝ)
    (hJ : JacobianBoundedNear (pyJacJacobian (D.lib m evalJacob)) z)
    (absTol relTol : Vec ℝ (m + 2)) (habs : ∀ i, 0 < absTol i) (hrel : ∀ i, 0 < relTol i) :
    ∃ b K : ℝ, 0 < b ∧
      ∀ (linearSolve : (Nat → ℝ) → Vec ℝ (m + 2) → Vec ℝ (m + 2)) (fuel maxSteps n : Nat) (base : ChemModel ℝ) (parRun : Bool)
        (sort : List (ChemistryLoad ℝ) → List (ChemistryLoad ℝ)) (clk : Fin n → Nat → ℝ) (flow : Fin n → Flow ℝ)
        (w w' : Fin n → Scratch ℝ (m + 1)) (F : Fin n → RankFields ℝ) (res : Fin n → RankFields ℝ × ℝ) (r : Fin n) (i : Nat),
        LapackContract (m + 2) linearSolve → 1 ≤ fuel →
        0 < n → base.nSpecie = m + 1 → base.chemistry = true → (parRun = true ∨ n = 1) → (∀ l, (sort l).Perm l) →
        (∀ r i, i < (flow r).nCells → 1 / 10 ^ 15 < (flow r).deltaT i) →
        solveWorldW (pyJacModel base (D.lib m evalJacob) linearSolve absTol relTol fuel maxSteps) parRun
          sort clk flow w F = .ok (w', res) →
        i < (flow r).nCells → ¬ Mapped base (flow r) i → 0 ≤ (flow r).rho i →
        Layout ((flow r).p i) ((flow r).T i) (composition base (flow r) i) z →
        ∑ j ∈ Finset.range (m + 1), (flow r).Y j i = 1 →
        (flow r).deltaT i ≤ b → 0 < (F r).deltaTChem i →
        (flow r).deltaT i ≤ maxSteps * (F r).deltaTChem i →
        ∀ j, j < m + 1 →
          |(res r).1.RR j i - (flow r).rho i * D.chemistry.dYdt (z 0) (z (Fin.last (m + 1))) (stateComposition z) j| ≤
            (flow r).rho i * (K * ((flow r).deltaT i + 1 / 10 ^ 9)) :=
  (smallSteps_of_many hm hq hr D hD hnsp z hz evalJacob hJ absTol relTol habs hrel).rates hm hD hnsp hz hrel

end

/-! ### Cases -/

/-- The power of the reals meets the law of roots. -/
theorem realMath_rootLaws : letI := realMath; RootLaws ℝ := by
  let := realMath
  refine ⟨fun x a k hx ha h => ?_⟩
  show x ^ ((1.0 : ℝ) / ((k + 1 : Nat) : ℝ)) ≤ a
  have hk : (0 : ℝ) < ((k + 1 : Nat) : ℝ) := by exact_mod_cast Nat.succ_pos k
  rw [show (1.0 : ℝ) = 1 by norm_num]
  calc x ^ (1 / ((k + 1 : Nat) : ℝ)) ≤ (a ^ (k + 1)) ^ (1 / ((k + 1 : Nat) : ℝ)) := Real.rpow_le_rpow hx.le h (by positivity)
    _ = a := by rw [one_div]; exact Real.pow_rpow_inv_natCast ha (Nat.succ_ne_zero k)

/-- A routine that returns zeros. -/
theorem zeroJacobian_bounded {m : Nat} [MathOps ℝ] (D : Package) (z : Fin (m + 2) → ℝ) :
    JacobianBoundedNear (pyJacJacobian (D.lib m fun _ _ _ => 0)) z := by
  refine ⟨1, 0, one_pos, fun x y _ _ i => le_of_eq (Finset.sum_eq_zero fun j _ => ?_)⟩
  have : pyJacJacobian (D.lib m fun _ _ _ => (0 : ℝ)) x y i j = 0 := by
    unfold pyJacJacobian
    dsimp only [Package.lib]
    exact ite_self _
  rw [this, abs_zero]

/-- A case of C123: hot compressed air and the mechanism drm19, with a Jacobian routine that returns zeros: with a first step of a tenth of the
time, and one attempt per step, the integration returns, its steps add up to the time, and it keeps the enthalpy and the
oxygen. -/
example (scr : Scratch ℝ 21) : letI := realMath
    ∃ p b K : ℝ, 0 < b ∧ ∀ dt, 0 < dt → dt ≤ b → (∃ scr' r,
      odePyJacSolve (seulexIntegrator (pyJacEnv (drm19.lib 20 fun _ _ _ => 0) (fun a b => (columnMajor 22 a)⁻¹.mulVec b)
        (fun _ => 1 / 10 ^ 8) (fun _ => 1 / 10 ^ 5) 1) 10) scr p 1200
        (List.ofFn fun i : Fin 21 => stateComposition (hotAirState p) i.val) dt (dt / 10) = .ok (scr', r) ∧
      |drm19.chemistry.mixtureEnthalpy r.T r.fractions - drm19.chemistry.mixtureEnthalpy 1200 (stateComposition (hotAirState p))| ≤
        K * (dt + 1 / 10 ^ 9) * dt ∧
      |drm19.chemistry.atomsPerMass (fun i => drm19.atomCount i 0) r.fractions -
        drm19.chemistry.atomsPerMass (fun i => drm19.atomCount i 0) (stateComposition (hotAirState p))| ≤ K * (dt + 1 / 10 ^ 9) * dt) ∧
      ((acceptedSteps (seulexSolve (pyJacEnv (drm19.lib 20 fun _ _ _ => 0) (fun a b => (columnMajor 22 a)⁻¹.mulVec b)
        (fun _ => 1 / 10 ^ 8) (fun _ => 1 / 10 ^ 5) 1)) 0 dt 10 scr 0 (hotAirState p) (StepState.init (dt / 10))).map
          Prod.fst).sum = dt := by
  let := realMath
  obtain ⟨p, hp⟩ := hotAirState_interior
  have hJ := zeroJacobian_bounded drm19 (hotAirState p)
  have hpos : ∀ _ : Fin 22, (0 : ℝ) < 1 / 10 ^ 8 := fun _ => by norm_num
  have hpos' : ∀ _ : Fin 22, (0 : ℝ) < 1 / 10 ^ 5 := fun _ => by norm_num
  obtain ⟨b, K, hb, key⟩ := C123_balances realMath_powLaws realMath_sqrtLaws realMath_rootLaws drm19 (by simp [shipped]) rfl _ hp
    (fun _ _ _ => 0) hJ (fun _ => 1 / 10 ^ 8) (fun _ => 1 / 10 ^ 5) hpos hpos' 0 (by decide)
  obtain ⟨b', L, hb', -, key'⟩ := C123_steps_are_accepted_at_once realMath_powLaws realMath_sqrtLaws realMath_rootLaws drm19
    (by simp [shipped]) rfl _ hp (fun _ _ _ => 0) hJ (fun _ => 1 / 10 ^ 8) (fun _ => 1 / 10 ^ 5) hpos hpos'
  refine ⟨p, min b b', K, lt_min hb hb', fun dt hdt hdtb => ?_⟩
  have hlay := exists_layout (hotAirState p)
  have e1 : hotAirState p (Fin.last 21) = p := if_pos rfl
  rw [e1] at hlay
  have hmax : dt ≤ ((10 : Nat) : ℝ) * (dt / 10) := by push_cast; linarith
  exact ⟨key _ 1 10 _ p 1200 _ dt (dt / 10) (lapackContract_inverse 22) le_rfl hlay hdt (hdtb.trans (min_le_left _ _)) (by positivity) hmax,
    (key' _ 1 10 scr p 1200 _ dt (dt / 10) (lapackContract_inverse 22) le_rfl hlay hdt (hdtb.trans (min_le_right _ _)) (by positivity)
      hmax).2.1⟩

end DLB
