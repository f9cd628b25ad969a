import Verif.Lemmas.SecondOrder
import Verif.Lemmas.ReactorSmooth
import Verif.Props.BoundedJacobian
/-
C132: where all species are present, cells follow the reactor of chem.cti to second order.
-/
set_option autoImplicit false
set_option linter.unusedSectionVars false

namespace DLB
open Spec

section
variable {n : Nat} [MathOps ℝ]

/-- **C132.** As C116, if the right-hand side that is integrated differs by at most `δ` from that of the
equations which `φ` solves: the error is at most a constant times the square of the largest step, plus
`205 (1 + 3 (Λ + L) H) δ` times the length of the interval, times the growth of errors in the equations. -/
theorem C132_inexact_equations (hm : PowLaws ℝ) (E : SeulexEnv ℝ n)
    (hE : LapackContract (n + 1) E.linearSolve) (hj : E.jacRedo < 2 * E.jacRedo)
    (maxSteps : Nat) (scr : Scratch ℝ n) (xStart xEnd : ℝ) (hlt : xStart < xEnd)
    (y : Vec ℝ (n + 1)) (dxTry : ℝ) (hpos : 0 < dxTry)
    (r : DriverResult ℝ (n + 1) (Scratch ℝ n))
    (h : driverSolve (seulexSolve E) maxSteps scr xStart xEnd y dxTry = .ok r)
    (f : ℝ → Vec ℝ (n + 1) → Vec ℝ (n + 1)) (φ : ℝ → Vec ℝ (n + 1)) (hφ0 : φ xStart = y) (b : ℝ)
    (hb : r.x ≤ b) (hφ : SolvesOn f φ xStart b) (ρ B Λ M Λ₂ Q L H δ C : ℝ)
    (hf : LipschitzNear f φ xStart b ρ B Λ M)
    (D : ℝ → Vec ℝ (n + 1) → Vec ℝ (n + 1) →ₗ[ℝ] Vec ℝ (n + 1))
    (g : ℝ → Vec ℝ (n + 1) → Vec ℝ (n + 1)) (hD : SmoothNear f D g φ xStart b ρ Λ Λ₂ Q)
    (hdiff : ∀ t z, Spec.Near φ xStart b ρ t z → ‖E.derivatives t z - f t z‖ ≤ δ)
    (hΛ : 0 ≤ Λ) (hM : 0 ≤ M) (hB : 0 ≤ B) (hΛ₂ : 0 ≤ Λ₂) (hQ : 0 ≤ Q) (hL0 : 0 ≤ L) (hδ : 0 ≤ δ)
    (hC : C = 205 * (Q * (2 * (B + δ) + 1) ^ 2 + (Λ + L) * (L * (B + δ) + 2 * Λ * (B + δ) + M))
      + (Q * (B + 1) ^ 2 + Λ * (Λ * B + M)))
    (hsteps : ∀ q ∈ acceptedSteps (seulexSolve E) xStart xEnd maxSteps scr xStart y
      (StepState.init dxTry), q.1 ≤ H ∧ RowsAtMost q.2 L)
    (hHL : H * L ≤ 1) (hHB : 3 * H * (B + δ) ≤ ρ / 2)
    (hsmall : Real.exp ((Λ + Λ₂ * H / 2) * (b - xStart)) *
      ((C * H ^ 2 + 205 * (1 + 3 * (Λ + L) * H) * δ) * (b - xStart)) ≤ ρ / 2) :
    ‖r.y - φ r.x‖ ≤ Real.exp ((Λ + Λ₂ * H / 2) * (r.x - xStart)) *
      ((C * H ^ 2 + 205 * (1 + 3 * (Λ + L) * H) * δ) * (r.x - xStart)) := by
  have hj' : E.jacRedo < ((2 : Nat) : ℝ) * E.jacRedo := by exact_mod_cast hj
  have hch := driverLoop_follows hm hE hj' hlt hHL hL0 maxSteps 0 scr xStart y _ r
    (running_start E scr hpos) le_rfl hlt hsteps h
  have hH0 : 0 ≤ H := by
    cases hch with
    | one h => exact (sub_nonneg.2 h.1.le).trans h.2.1
    | cons h _ => exact (sub_nonneg.2 h.1.le).trans h.2.1
  have hC0 : 0 ≤ C := by rw [hC]; positivity
  have hBδ : 0 ≤ B + δ := by positivity
  have := chain_error (err := fun p : ℝ × Vec ℝ (n + 1) => ‖p.2 - φ p.1‖) (b := b) (ρ := ρ)
    (C := C * H ^ 2 + 205 * (1 + 3 * (Λ + L) * H) * δ) (G := Λ + Λ₂ * H / 2) (H := 1) (start := xStart)
    (by positivity) (by positivity) zero_le_one (fun p q h => h.1) (by
      intro p q e hR hs hqb he0 he heρ
      obtain ⟨hpq, hqH, J, k, hJ, hk1, hk, hstep⟩ := hR
      have hd : 0 < q.1 - p.1 := by linarith
      have h1 := step_error_second_perturbed hk1 hk hf hD hdiff hδ rfl hφ hJ hL0 hΛ hM hB hΛ₂ hQ hd
        ((mul_le_mul_of_nonneg_right hqH hL0).trans hHL) hs (by linarith) he heρ
        (by nlinarith) hstep
      rw [add_sub_cancel, ← hC, add_assoc] at h1
      refine h1.trans (add_le_add ?_ ?_)
      · gcongr
      · have : (q.1 - p.1) ^ 2 ≤ H ^ 2 := by gcongr
        calc _ = (C * (q.1 - p.1) ^ 2 + 205 * (1 + 3 * (Λ + L) * (q.1 - p.1)) * δ) * (q.1 - p.1) := by ring
          _ ≤ (C * H ^ 2 + 205 * (1 + 3 * (Λ + L) * H) * δ) * (q.1 - p.1) := by gcongr
          _ = _ := by ring) hch 0 le_rfl hb le_rfl (by simp [hφ0]) (by simpa using hsmall)
  simpa using this

end

section
variable {m : Nat}

/-- The result of a cell is as near as the state that the integrator ends with. -/
theorem returnsNear_of {r : IntegrateResult ℝ} {y z : Vec ℝ (m + 2)} {err : ℝ} (hT : r.T = y 0)
    (hc : r.c = List.ofFn (clippedComposition y)) (hz : NonNegative z) (h : ‖y - z‖ ≤ err) : ReturnsNear r z err := by
  unfold ReturnsNear
  rw [hT, hc]
  have comp : ∀ i, |y i - z i| ≤ err := fun i => by
    have := (norm_le_pi_norm _ i).trans h
    rwa [Real.norm_eq_abs, Pi.sub_apply] at this
  have spec : ∀ j : Fin m, |max 0 (y j.castSucc.succ) - z j.castSucc.succ| ≤ err := by
    intro j
    refine le_trans ?_ (comp j.castSucc.succ)
    have := abs_max_sub_max_le_abs (y j.castSucc.succ) (z j.castSucc.succ) 0
    rwa [max_eq_left (hz j), max_comm] at this
  refine ⟨comp 0, fun j hj => ?_, ?_⟩
  · have e : (List.ofFn (clippedComposition y)).getD j 0 = max 0 (y (Fin.castSucc (⟨j, hj⟩ : Fin m)).succ) := by
      rw [List.getD_eq_getElem?_getD, List.getElem?_ofFn, dif_pos (by omega)]
      simp [clippedComposition, snoc_eq_dite, hj]
    have e' : stateComposition z j = z (Fin.castSucc (⟨j, hj⟩ : Fin m)).succ := by
      unfold stateComposition complement
      rw [if_neg (by omega)]
      dsimp only
      rw [dif_pos hj]
      rfl
    rw [e, e']
    exact spec ⟨j, hj⟩
  · have e2 : (List.ofFn (clippedComposition y)).getD m 0
        = 1 - ∑ j : Fin m, max 0 (y j.castSucc.succ) := by
      rw [List.getD_eq_getElem?_getD, List.getElem?_ofFn, dif_pos (by omega)]
      simp [clippedComposition, snoc_eq_dite]
    have e1 : stateComposition z m = 1 - ∑ j : Fin m, z j.castSucc.succ := by
      unfold stateComposition complement
      rw [if_pos rfl, ← Fin.sum_univ_eq_sum_range]
      congr 1
      refine Finset.sum_congr rfl fun j _ => ?_
      rw [dif_pos j.isLt]
      congr 1
    rw [e1, e2]
    have e3 : 1 - ∑ j : Fin m, max 0 (y j.castSucc.succ) - (1 - ∑ j : Fin m, z j.castSucc.succ)
        = -∑ j : Fin m, (max 0 (y j.castSucc.succ) - z j.castSucc.succ) := by
      rw [Finset.sum_sub_distrib]; ring
    rw [e3, abs_neg]
    refine (Finset.abs_sum_le_sum_abs _ _).trans ((Finset.sum_le_sum fun j _ => spec j).trans ?_)
    simp

/-- **C132.** For every shipped mechanism, every state inside the domain with all species present, and every bound `Lj` on the
Jacobians used, there are a solution of the reactor that starts at the state and remains admissible, a time `b`, a step `H₀` and a
constant `K` such that, whatever the tolerances, the linear solver, the work arrays and the initial step: if a cell in this state is
integrated over a time `dt` of at most `b` with steps of at most `H ≤ H₀`, the result is the state of the reactor at `dt`, up to
`K (H^2 + 10^-9) dt`. -/
theorem C132_cells_follow_the_reactor (D : Package) (hD : D ∈ shipped) (hn : D.nsp = m + 1)
    (z : Fin (m + 2) → ℝ) (hz : D.chemistry.AllPresent z) (Lj : ℝ) (hL0 : 0 ≤ Lj) :
    ∃ φ : ℝ → Fin (m + 2) → ℝ, ∃ b H₀ K : ℝ, 0 < b ∧ 0 < H₀ ∧ 0 ≤ K ∧ φ 0 = z ∧
      SolvesOn (fun _ => D.chemistry.stateRate) φ 0 b ∧ (∀ t ∈ Set.Icc 0 b, D.chemistry.Admissible (φ t)) ∧
      ∀ [MathOps ℝ], PowLaws ℝ → ∀ (evalJacob : ℝ → Vec ℝ (m + 2) → Nat → ℝ)
        (linearSolve : (Nat → ℝ) → Vec ℝ (m + 2) → Vec ℝ (m + 2)) (absTol relTol : Vec ℝ (m + 2))
        (fuel maxSteps : Nat) (scr scr' : Scratch ℝ (m + 1)) (p T : ℝ) (c : List ℝ) (dt sub H : ℝ)
        (r : IntegrateResult ℝ),
        LapackContract (m + 2) linearSolve → (∀ i, 0 < relTol i) → Layout p T c z → 0 < dt → dt ≤ b → 0 < sub →
        0 ≤ H → H ≤ H₀ →
        SmallSteps (pyJacEnv (D.lib m evalJacob) linearSolve absTol relTol fuel) maxSteps dt z sub Lj H →
        odePyJacSolve (seulexIntegrator (pyJacEnv (D.lib m evalJacob) linearSolve absTol relTol fuel)
          maxSteps) scr p T c dt sub = .ok (scr', r) →
        ReturnsNear r (φ dt) (K * (H ^ 2 + 1 / 10 ^ 9) * dt) := by
  obtain ⟨b, ρ, B, Λ, Λ₂, Q, S, φ, Df, hb, hρ, hB, hΛ, hΛ₂, hQ, hS, h0, hφ, hsm⟩ :=
    exists_smooth_tube (X := D.chemistry) hn (proper_of_shipped hD) hz
  obtain ⟨C, hC⟩ : ∃ C, C = 205 * (Q * (2 * (B + S / 10 ^ 9) + 1) ^ 2 + (Λ + Lj) * (Lj * (B + S / 10 ^ 9) + 2 * Λ * (B + S / 10 ^ 9) + 0))
      + (Q * (B + 1) ^ 2 + Λ * (Λ * B + 0)) := ⟨_, rfl⟩
  have hC0 : 0 ≤ C := by rw [hC]; positivity
  obtain ⟨A, hA⟩ : ∃ A, A = 205 * (1 + 3 * (Λ + Lj)) * S := ⟨_, rfl⟩
  have hA0 : 0 ≤ A := by rw [hA]; positivity
  obtain ⟨K, hK⟩ : ∃ K, K = Real.exp ((Λ + Λ₂ / 2) * b) * (C + A) := ⟨_, rfl⟩
  have hK0 : 0 ≤ K := by rw [hK]; positivity
  obtain ⟨H₀, hH0⟩ : ∃ H₀, H₀ = min (1 / (Lj + 1)) (min 1 (ρ / (6 * (B + S / 10 ^ 9) + 1))) := ⟨_, rfl⟩
  have hH0pos : 0 < H₀ := by rw [hH0]; refine lt_min (by positivity) (lt_min one_pos (by positivity))
  obtain ⟨b', hb'⟩ : ∃ b', b' = min b (ρ / 2 / (2 * K + 1)) := ⟨_, rfl⟩
  have hb'b : b' ≤ b := by rw [hb']; exact min_le_left _ _
  have hb'0 : 0 < b' := by rw [hb']; exact lt_min hb (by positivity)
  refine ⟨φ, b', H₀, K, hb'0, hH0pos, hK0, h0, (hφ.restrict hb'b le_rfl le_rfl).solves, fun t ht => ?_, ?_⟩
  · have ht' : t ∈ Set.Icc 0 b := ⟨ht.1, ht.2.trans hb'b⟩
    refine hφ.admissible t _ ⟨ht', ?_⟩ (hφ.nonNegative t ht')
    rw [sub_self, norm_zero]
    exact hρ.le
  intro _ hm evalJacob linearSolve absTol relTol fuel maxSteps scr scr' p T c dt sub H r hE hrel hlay hdt hdtb hsub hH hHH
    hsteps h
  have hdtb' := hdtb.trans hb'b
  have hφ' := hφ.restrict hdtb' le_rfl (le_refl Λ)
  have mono : ∀ t x, Spec.Near φ 0 dt ρ t x → Spec.Near φ 0 b ρ t x := fun t x h => ⟨⟨h.1.1, h.1.2.trans hdtb'⟩, h.2⟩
  have hsm' : SmoothNear (fun _ x => D.chemistry.stateRate (clip x)) Df (fun _ _ => 0) φ 0 dt ρ Λ Λ₂ Q :=
    ⟨fun t x t' x' h1 h2 => hsm.taylor t x t' x' (mono t x h1) (mono t' x' h2),
      fun t x v h1 => hsm.derivative t x v (mono t x h1), fun t x x' h1 h2 => hsm.second t x x' (mono t x h1) (mono t x' h2)⟩
  have hH1 : H ≤ 1 / (Lj + 1) := hHH.trans (by rw [hH0]; exact min_le_left _ _)
  have hH2 : H ≤ 1 := hHH.trans (by rw [hH0]; exact (min_le_right _ _).trans (min_le_left _ _))
  have hH3 : H ≤ ρ / (6 * (B + S / 10 ^ 9) + 1) := hHH.trans (by rw [hH0]; exact (min_le_right _ _).trans (min_le_right _ _))
  obtain ⟨err, herr⟩ : ∃ err, err = Real.exp ((Λ + Λ₂ * H / 2) * dt) *
      ((C * H ^ 2 + 205 * (1 + 3 * (Λ + Lj) * H) * (S / 10 ^ 9)) * dt) := ⟨_, rfl⟩
  have hle : err ≤ K * (H ^ 2 + 1 / 10 ^ 9) * dt := by
    rw [herr, hK]
    have h1 : Real.exp ((Λ + Λ₂ * H / 2) * dt) ≤ Real.exp ((Λ + Λ₂ / 2) * b) := by
      refine Real.exp_le_exp.2 (mul_le_mul ?_ hdtb' hdt.le (by positivity))
      have := mul_le_mul_of_nonneg_left hH2 hΛ₂
      linarith
    have h2 : (C * H ^ 2 + 205 * (1 + 3 * (Λ + Lj) * H) * (S / 10 ^ 9)) * dt ≤ ((C + A) * (H ^ 2 + 1 / 10 ^ 9)) * dt := by
      refine mul_le_mul_of_nonneg_right ?_ hdt.le
      have e : (C + A) * (H ^ 2 + 1 / 10 ^ 9) = C * H ^ 2 + A / 10 ^ 9 + (C / 10 ^ 9 + A * H ^ 2) := by ring
      have h3 : 205 * (1 + 3 * (Λ + Lj) * H) * (S / 10 ^ 9) ≤ A / 10 ^ 9 := by
        rw [hA, mul_div_assoc]
        have : 3 * (Λ + Lj) * H ≤ 3 * (Λ + Lj) := mul_le_of_le_one_right (by positivity) hH2
        gcongr
      have : 0 ≤ C / 10 ^ 9 + A * H ^ 2 := by positivity
      linarith
    calc _ ≤ Real.exp ((Λ + Λ₂ / 2) * b) * (((C + A) * (H ^ 2 + 1 / 10 ^ 9)) * dt) :=
          mul_le_mul h1 h2 (by positivity) (Real.exp_pos _).le
      _ = _ := by ring
  have hsmall : K * (H ^ 2 + 1 / 10 ^ 9) * dt ≤ ρ / 2 := by
    have h1 : dt ≤ ρ / 2 / (2 * K + 1) := hdtb.trans (by rw [hb']; exact min_le_right _ _)
    rw [le_div_iff₀ (by positivity)] at h1
    have h2 : K * (H ^ 2 + 1 / 10 ^ 9) ≤ 2 * K + 1 := by
      have h3 : H ^ 2 ≤ 1 := pow_le_one₀ hH hH2
      have h4 : (1 : ℝ) / 10 ^ 9 ≤ 1 := by norm_num
      have : H ^ 2 + 1 / 10 ^ 9 ≤ 2 := by linarith
      have := mul_le_mul_of_nonneg_left this hK0
      linarith
    have := mul_le_mul_of_nonneg_right h2 hdt.le
    linarith
  obtain ⟨y₁, y', sub', hy₁, hI, rfl⟩ := odePyJacSolve_ok h
  obtain rfl := hlay.unique hy₁
  obtain ⟨q, hq, rfl⟩ := seulexIntegrator_ok hI
  have hj : (pyJacEnv (D.lib m evalJacob) linearSolve absTol relTol fuel).jacRedo
      < 2 * (pyJacEnv (D.lib m evalJacob) linearSolve absTol relTol fuel).jacRedo := by
    have := jacRedoOf_pos hrel
    show jacRedoOf relTol < 2 * jacRedoOf relTol
    linarith
  obtain ⟨hs1, hs2⟩ := hsteps scr
  have hqx : q.x = dt := by
    have := acceptedSteps_sum maxSteps 0 scr 0 _ _ q hq
    rw [hs1] at this
    linarith
  have hsol : SolvesOn (fun _ z => D.chemistry.stateRate (clip z)) φ 0 dt := by
    intro t ht
    have := hφ'.solves t ht
    dsimp only at this ⊢
    rwa [clip_of_nonNegative (hφ'.nonNegative t ht)]
  have key := C132_inexact_equations hm (pyJacEnv (D.lib m evalJacob) linearSolve absTol relTol fuel) hE
    hj maxSteps scr 0 dt hdt z sub hsub q hq _ φ h0 dt hqx.le hsol ρ B Λ 0 Λ₂ Q Lj H (S / 10 ^ 9) C
    (tube_lipschitz hΛ hφ') Df _ hsm' (tube_diff hD hn hS hφ') hΛ le_rfl hB hΛ₂ hQ hL0 (by positivity) hC hs2
    (by
      rw [le_div_iff₀ (by positivity)] at hH1
      linarith)
    (by
      rw [le_div_iff₀ (by positivity)] at hH3
      linarith) (by rw [sub_zero, ← herr]; exact hle.trans hsmall)
  rw [hqx, sub_zero, ← herr] at key
  exact returnsNear_of rfl rfl (hφ'.nonNegative dt ⟨hdt.le, le_rfl⟩) (key.trans hle)

/-- **C132, a time step of the model.** The reaction rates of every cell that is not mapped, is in the state `z`, and is integrated over
a time step of at most `b` with steps of at most `H ≤ H₀`, are the density times the mean rates of change of the mass fractions in the
reactor, up to `K (H^2 + 10^-9)` times the density (`m` times that for the last species), on any number of ranks. -/
theorem C132_reaction_rates (D : Package) (hD : D ∈ shipped) (hnsp : D.nsp = m + 1)
    (z : Fin (m + 2) → ℝ) (hz : D.chemistry.AllPresent z) (Lj : ℝ) (hL0 : 0 ≤ Lj) :
    ∃ φ : ℝ → Fin (m + 2) → ℝ, ∃ b H₀ K : ℝ, 0 < b ∧ 0 < H₀ ∧ φ 0 = z ∧
      SolvesOn (fun _ => D.chemistry.stateRate) φ 0 b ∧ (∀ t ∈ Set.Icc 0 b, D.chemistry.Admissible (φ t)) ∧
      ∀ [MathOps ℝ], PowLaws ℝ → ∀ (evalJacob : ℝ → Vec ℝ (m + 2) → Nat → ℝ)
        (linearSolve : (Nat → ℝ) → Vec ℝ (m + 2) → Vec ℝ (m + 2)) (absTol relTol : Vec ℝ (m + 2))
        (fuel maxSteps n : Nat) (base : ChemModel ℝ) (parRun : Bool)
        (sort : List (ChemistryLoad ℝ) → List (ChemistryLoad ℝ)) (clk : Fin n → Nat → ℝ) (flow : Fin n → Flow ℝ)
        (w w' : Fin n → Scratch ℝ (m + 1)) (F : Fin n → RankFields ℝ) (res : Fin n → RankFields ℝ × ℝ)
        (r : Fin n) (i : Nat) (H : ℝ),
        LapackContract (m + 2) linearSolve → (∀ i, 0 < relTol i) →
        0 < n → base.nSpecie = m + 1 → base.chemistry = true → (parRun = true ∨ n = 1) → (∀ l, (sort l).Perm l) →
        (∀ r i, i < (flow r).nCells → 1 / 10 ^ 15 < (flow r).deltaT i) →
        solveWorldW (pyJacModel base (D.lib m evalJacob) linearSolve absTol relTol fuel maxSteps) parRun
          sort clk flow w F = .ok (w', res) →
        i < (flow r).nCells → ¬ Mapped base (flow r) i → 0 ≤ (flow r).rho i → 0 < (F r).deltaTChem i →
        Layout ((flow r).p i) ((flow r).T i) (composition base (flow r) i) z →
        (flow r).deltaT i ≤ b → 0 ≤ H → H ≤ H₀ →
        SmallSteps (pyJacEnv (D.lib m evalJacob) linearSolve absTol relTol fuel) maxSteps ((flow r).deltaT i) z
          ((F r).deltaTChem i) Lj H →
        ∀ j, j < m + 1 →
          |(res r).1.RR j i - (flow r).rho i * ((stateComposition (φ ((flow r).deltaT i)) j - (flow r).Y j i) / (flow r).deltaT i)|
            ≤ (flow r).rho i * ((if j = m then m else 1) * (K * (H ^ 2 + 1 / 10 ^ 9))) := by
  obtain ⟨φ, b, H₀, K, hb, hH₀, -, h0, hs, ha, key⟩ := C132_cells_follow_the_reactor D hD hnsp z hz Lj hL0
  refine ⟨φ, b, H₀, K, hb, hH₀, h0, hs, ha, ?_⟩
  intro _ hm evalJacob linearSolve absTol relTol fuel maxSteps n base parRun sort clk flow w w' F res r i H hE hrel hn hsp
    hchem hpar hsort hdt h hi hmap hrho hsub hlay hdb hH hHH hsteps j hj
  have hd : 0 < (flow r).deltaT i := lt_trans (by positivity) (hdt r i hi)
  have hcell := fun scr scr' q ho => key hm evalJacob linearSolve absTol relTol fuel maxSteps scr scr' _ _ _ _ _ H q hE hrel
    hlay hd hdb hsub hH hHH hsteps ho
  have := world_rate_near (D.lib m evalJacob) linearSolve absTol relTol hrel fuel
    maxSteps hn base hsp hchem parRun hpar sort hsort clk flow hdt w w' F res h r i hi hmap hrho j hj
    (stateComposition (φ ((flow r).deltaT i)) j) ((if j = m then m else 1) * (K * (H ^ 2 + 1 / 10 ^ 9) * (flow r).deltaT i))
    fun scr scr' q ho => by
      obtain ⟨-, k2, k3⟩ := hcell scr scr' q ho
      split
      · rename_i e; rw [e]; exact k3
      · rw [Nat.cast_one, one_mul]; exact k2 j (by omega)
  refine this.trans (le_of_eq ?_)
  field_simp

end

/-- **C132, one cell with the shipped library.** With the drm19 library and its own Jacobian, for every state inside the domain with all
species present, and all tolerances, there are a solution of the reactor of chem.cti that starts there, a time `b` and a constant `K` such
that the integration of a cell in this state over a time `dt` of at most `b`, with any positive initial step of at least `dt / maxSteps`,
returns, and the result is the state of the reactor at `dt`, up to `K (dt^2 + 10^-9) dt`. -/
theorem C132_shipped_library [MathOps ℝ] (hm : PowLaws ℝ) (hq : SqrtLaws ℝ) (hr : RootLaws ℝ) (z : Vec ℝ 22)
    (hz : drm19.chemistry.AllPresent z)
    (absTol relTol : Vec ℝ 22) (habs : ∀ i, 0 < absTol i) (hrel : ∀ i, 0 < relTol i) :
    ∃ φ : ℝ → Fin 22 → ℝ, ∃ b K : ℝ, 0 < b ∧ 0 ≤ K ∧ φ 0 = z ∧ SolvesOn (fun _ => drm19.chemistry.stateRate) φ 0 b ∧
      (∀ t ∈ Set.Icc 0 b, drm19.chemistry.Admissible (φ t)) ∧
      ∀ (linearSolve : (Nat → ℝ) → Vec ℝ 22 → Vec ℝ 22) (fuel maxSteps : Nat)
        (scr : Scratch ℝ 21) (p T : ℝ) (c : List ℝ) (dt sub : ℝ), LapackContract 22 linearSolve → 1 ≤ fuel →
        Layout p T c z → 0 < dt → dt ≤ b → 0 < sub → dt ≤ maxSteps * sub →
        ∃ scr' r, odePyJacSolve (seulexIntegrator (pyJacEnv drm19Lib linearSolve absTol relTol fuel) maxSteps) scr p T c
          dt sub = .ok (scr', r) ∧ ReturnsNear r (φ dt) (K * (dt ^ 2 + 1 / 10 ^ 9) * dt) := by
  obtain ⟨b1, Lj, hb1, hL0, small⟩ := smallSteps_of_many hm hq hr drm19 (by simp [shipped]) rfl z hz.toInterior _
    (C125_jacobian_is_bounded z hz.toInterior ⟨hz.toAdmissible, hz.fits, hz.cutOff⟩) absTol relTol habs hrel
  obtain ⟨φ, b, H₀, K, hb, hH0, hK0, h0, hs, ha, key⟩ := C132_cells_follow_the_reactor drm19 (by simp [shipped]) rfl z hz Lj hL0
  refine ⟨φ, min b (min b1 H₀), K, lt_min hb (lt_min hb1 hH0), hK0, h0,
    fun t ht => (hs t ⟨ht.1, ht.2.trans (min_le_left _ _)⟩).mono (Set.Icc_subset_Icc le_rfl (min_le_left _ _)),
    fun t ht => ha t ⟨ht.1, ht.2.trans (min_le_left _ _)⟩, ?_⟩
  intro linearSolve fuel maxSteps scr p T c dt sub hE hfuel hlay hdt hdtb hsub hmax
  simp only [le_min_iff] at hdtb
  obtain ⟨d1, d2, d3⟩ := hdtb
  obtain ⟨hsteps, hret⟩ := small linearSolve fuel maxSteps p T c dt sub hE hfuel hmax hlay hdt d2 hsub
  obtain ⟨scr', r, h⟩ := hret scr
  exact ⟨scr', r, h, key hm _ linearSolve absTol relTol fuel maxSteps scr scr' p T c dt sub dt r hE hrel hlay hdt d1
    hsub hdt.le d3 hsteps h⟩

/-! ### Cases -/

/-- A mixture at 1200 K of nitrogen with one percent of every other species of drm19. -/
noncomputable def mixture (p : ℝ) : Vec ℝ 22 := fun i => if i = 0 then 1200 else if i = Fin.last 21 then p else 1 / 100

theorem mixture_composition (p : ℝ) : stateComposition (mixture p) = complement 20 fun i => if i < 20 then 1 / 100 else 0 := by
  refine complement_congr fun i hi => ?_
  by_cases h : i < 20
  · rw [dif_pos h, if_pos h]
    unfold mixture
    rw [if_neg, if_neg]
    all_goals
      intro e
      have := congrArg Fin.val e
      simp at this
      try omega
  · rw [dif_neg h, if_neg h]

theorem mixture_nitrogen : complement 20 (fun i => if i < 20 then (1 / 100 : ℝ) else 0) 20 = 4 / 5 := by
  unfold complement
  rw [if_pos rfl, Finset.sum_congr rfl fun i hi => if_pos (Finset.mem_range.1 hi)]
  simp
  norm_num

theorem mixture_others (i : Nat) (hi : i < 20) : complement 20 (fun i => if i < 20 then (1 / 100 : ℝ) else 0) i = 1 / 100 := by
  unfold complement
  rw [if_neg (by omega)]
  exact if_pos hi

/-- At high pressure the mixture meets the hypotheses. -/
theorem mixture_allPresent : ∃ p : ℝ, drm19.chemistry.AllPresent (mixture p) := by
  have hY : ∀ i, i < drm19.nsp → 0 ≤ complement 20 (fun i => if i < 20 then (1 / 100 : ℝ) else 0) i := by
    intro i hi
    by_cases h : i < 20
    · rw [mixture_others i h]; norm_num
    · have : i = 20 := by
        have : drm19.nsp = 21 := rfl
        omega
      rw [this, mixture_nitrogen]; norm_num
  obtain ⟨p, hp, h⟩ := C85_domain 1200 (by norm_num) _ hY (by rw [mixture_nitrogen]; norm_num)
  obtain ⟨h1, h2⟩ := h p le_rfl
  have e0 : mixture p 0 = 1200 := if_pos rfl
  have ep : mixture p (Fin.last 21) = p := by
    unfold mixture
    rw [if_neg (by decide), if_pos rfl]
  refine ⟨p, ⟨⟨⟨by rw [e0]; norm_num, by rw [ep]; exact hp, ?_, ?_⟩, by rw [e0]; norm_num, ?_, ?_⟩, fun i hi => ?_, ?_⟩⟩
  · rw [mixture_composition]; exact hY
  · rw [mixture_composition, e0, ep]; exact h1
  · rw [e0]
    have := noMid_sound drm19_noMid
    exact_mod_cast this
  · rw [mixture_composition, mixture_nitrogen]; norm_num
  · rw [mixture_composition, mixture_others i hi]; norm_num
  · rw [mixture_composition, e0, ep]; exact h2

/-- A case of C132: the mixture and the drm19 library, first steps of a tenth of the time. -/
example (scr : Scratch ℝ 21) : letI := realMath
    ∃ p b K : ℝ, ∃ φ : ℝ → Fin 22 → ℝ, 0 < b ∧ φ 0 = mixture p ∧ ∀ dt, 0 < dt → dt ≤ b → ∃ scr' r,
      odePyJacSolve (seulexIntegrator (pyJacEnv drm19Lib (fun a b => (columnMajor 22 a)⁻¹.mulVec b)
        (fun _ => 1 / 10 ^ 8) (fun _ => 1 / 10 ^ 5) 1) 10) scr p 1200
        (List.ofFn fun i : Fin 21 => stateComposition (mixture p) i.val) dt (dt / 10) = .ok (scr', r) ∧
      ReturnsNear r (φ dt) (K * (dt ^ 2 + 1 / 10 ^ 9) * dt) := by
  let := realMath
  obtain ⟨p, hp⟩ := mixture_allPresent
  obtain ⟨φ, b, K, hb, -, h0, -, -, key⟩ := C132_shipped_library realMath_powLaws realMath_sqrtLaws realMath_rootLaws _ hp
    (fun _ => 1 / 10 ^ 8) (fun _ => 1 / 10 ^ 5) (fun _ => by norm_num) (fun _ => by norm_num)
  refine ⟨p, b, K, φ, hb, h0, fun dt hdt hdtb => ?_⟩
  have hlay := exists_layout (mixture p)
  have e1 : mixture p (Fin.last 21) = p := by
    unfold mixture
    rw [if_neg (by decide), if_pos rfl]
  have e0 : mixture p 0 = 1200 := if_pos rfl
  rw [e1, e0] at hlay
  exact key _ 1 10 scr p 1200 _ dt (dt / 10) (lapackContract_inverse 22) le_rfl hlay hdt hdtb (by positivity)
    (by push_cast; linarith)

end DLB
