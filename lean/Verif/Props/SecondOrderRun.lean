import Verif.Lemmas.TwiceCompact
import Verif.Props.SecondOrder
import Verif.Props.OwnFields
/-
C137: where all species are present, simulations of many time steps follow the reactor to second order.
-/
set_option autoImplicit false
set_option linter.unusedSectionVars false

namespace DLB
open Spec
open scoped Topology

/-! ### Lemmas -/

section
variable {n : Nat} [MathOps ℝ]

/-- As C132, if the integration starts at a distance of at most `e` from the solution. -/
theorem inexact_second_from (hm : PowLaws ℝ) (E : SeulexEnv ℝ n)
    (hE : LapackContract (n + 1) E.linearSolve) (hj : E.jacRedo < 2 * E.jacRedo)
    (maxSteps : Nat) (scr : Scratch ℝ n) (xStart xEnd : ℝ) (hlt : xStart < xEnd)
    (y : Vec ℝ (n + 1)) (dxTry : ℝ) (hpos : 0 < dxTry)
    (r : DriverResult ℝ (n + 1) (Scratch ℝ n))
    (h : driverSolve (seulexSolve E) maxSteps scr xStart xEnd y dxTry = .ok r)
    (f : ℝ → Vec ℝ (n + 1) → Vec ℝ (n + 1)) (φ : ℝ → Vec ℝ (n + 1)) (e : ℝ) (he0 : 0 ≤ e) (he : ‖y - φ xStart‖ ≤ e) (b : ℝ)
    (hb : r.x ≤ b) (hφ : SolvesOn f φ xStart b) (ρ B Λ M Λ₂ Q L H δ C : ℝ)
    (hf : LipschitzNear f φ xStart b ρ B Λ M)
    (D : ℝ → Vec ℝ (n + 1) → Vec ℝ (n + 1) →ₗ[ℝ] Vec ℝ (n + 1))
    (g : ℝ → Vec ℝ (n + 1) → Vec ℝ (n + 1)) (hD : SmoothNear f D g φ xStart b ρ Λ Λ₂ Q)
    (hdiff : ∀ t z, Spec.Near φ xStart b ρ t z → ‖E.derivatives t z - f t z‖ ≤ δ)
    (hΛ : 0 ≤ Λ) (hM : 0 ≤ M) (hB : 0 ≤ B) (hΛ₂ : 0 ≤ Λ₂) (hQ : 0 ≤ Q) (hL0 : 0 ≤ L) (hδ : 0 ≤ δ)
    (hC : C = 205 * (Q * (2 * (B + δ) + 1) ^ 2 + (Λ + L) * (L * (B + δ) + 2 * Λ * (B + δ) + M))
      + (Q * (B + 1) ^ 2 + Λ * (Λ * B + M)))
    (hsteps : ∀ q ∈ acceptedSteps (seulexSolve E) xStart xEnd maxSteps scr xStart y
      (StepState.init dxTry), q.1 ≤ H ∧ RowsAtMost q.2 L)
    (hHL : H * L ≤ 1) (hHB : 3 * H * (B + δ) ≤ ρ / 2)
    (hsmall : Real.exp ((Λ + Λ₂ * H / 2) * (b - xStart)) *
      (e + (C * H ^ 2 + 205 * (1 + 3 * (Λ + L) * H) * δ) * (b - xStart)) ≤ ρ / 2) :
    ‖r.y - φ r.x‖ ≤ Real.exp ((Λ + Λ₂ * H / 2) * (r.x - xStart)) *
      (e + (C * H ^ 2 + 205 * (1 + 3 * (Λ + L) * H) * δ) * (r.x - xStart)) := by
  have hj' : E.jacRedo < ((2 : Nat) : ℝ) * E.jacRedo := by exact_mod_cast hj
  have hch := driverLoop_follows hm hE hj' hlt hHL hL0 maxSteps 0 scr xStart y _ r
    (running_start E scr hpos) le_rfl hlt hsteps h
  have hH0 : 0 ≤ H := by
    cases hch with
    | one h => exact (sub_nonneg.2 h.1.le).trans h.2.1
    | cons h _ => exact (sub_nonneg.2 h.1.le).trans h.2.1
  have hC0 : 0 ≤ C := by rw [hC]; positivity
  have hBδ : 0 ≤ B + δ := by positivity
  have := chain_error (err := fun p : ℝ × Vec ℝ (n + 1) => ‖p.2 - φ p.1‖) (b := b) (ρ := ρ)
    (C := C * H ^ 2 + 205 * (1 + 3 * (Λ + L) * H) * δ) (G := Λ + Λ₂ * H / 2) (H := 1) (start := xStart)
    (by positivity) (by positivity) zero_le_one (fun p q h => h.1) (by
      intro p q e hR hs hqb he0 he heρ
      obtain ⟨hpq, hqH, J, k, hJ, hk1, hk, hstep⟩ := hR
      have hd : 0 < q.1 - p.1 := by linarith
      have h1 := step_error_second_perturbed hk1 hk hf hD hdiff hδ rfl hφ hJ hL0 hΛ hM hB hΛ₂ hQ hd
        ((mul_le_mul_of_nonneg_right hqH hL0).trans hHL) hs (by linarith) he heρ
        (by nlinarith) hstep
      rw [add_sub_cancel, ← hC, add_assoc] at h1
      refine h1.trans (add_le_add ?_ ?_)
      · gcongr
      · have : (q.1 - p.1) ^ 2 ≤ H ^ 2 := by gcongr
        calc _ = (C * (q.1 - p.1) ^ 2 + 205 * (1 + 3 * (Λ + L) * (q.1 - p.1)) * δ) * (q.1 - p.1) := by ring
          _ ≤ (C * H ^ 2 + 205 * (1 + 3 * (Λ + L) * H) * δ) * (q.1 - p.1) := by gcongr
          _ = _ := by ring) hch e le_rfl hb he0 he (by simpa using hsmall)
  simpa using this

end

section
variable {m : Nat}

/-- The integration of a cell that starts at a distance of at most `e` from a solution along which the rates are smooth. -/
theorem cell_near_second (D : Package) (hD : D ∈ shipped) (hn : D.nsp = m + 1) (z : Fin (m + 2) → ℝ) {dt Lj H : ℝ} (hdt : 0 < dt) {r : IntegrateResult ℝ}
    (h : IntegratedTo D z Lj H dt r) {φ : ℝ → Fin (m + 2) → ℝ} {ρ B Λ Λ₂ Q S C K e : ℝ} (hφ : D.chemistry.Tube φ dt ρ B Λ S)
    {Df : ℝ → Vec ℝ (m + 2) → Vec ℝ (m + 2) →ₗ[ℝ] Vec ℝ (m + 2)}
    (hsm : SmoothNear (fun _ x => D.chemistry.stateRate (clip x)) Df (fun _ _ => 0) φ 0 dt ρ Λ Λ₂ Q)
    (hΛ : 0 ≤ Λ) (hΛ₂ : 0 ≤ Λ₂) (hQ : 0 ≤ Q) (hB : 0 ≤ B) (hS : 0 ≤ S) (hL0 : 0 ≤ Lj) (hH : 0 ≤ H) (hH1 : H ≤ 1) (he : ‖z - φ 0‖ ≤ e)
    (hC : C = 205 * (Q * (2 * (B + S / 10 ^ 9) + 1) ^ 2 + (Λ + Lj) * (Lj * (B + S / 10 ^ 9) + 2 * Λ * (B + S / 10 ^ 9) + 0))
      + (Q * (B + 1) ^ 2 + Λ * (Λ * B + 0)))
    (hK : K = C + 205 * (1 + 3 * (Λ + Lj)) * S)
    (hHL : H * Lj ≤ 1) (hHB : 3 * H * (B + S / 10 ^ 9) ≤ ρ / 2)
    (hsmall : Real.exp ((Λ + Λ₂ / 2) * dt) * (e + K * (H ^ 2 + 1 / 10 ^ 9) * dt) ≤ ρ / 2) :
    ‖returnedState z r - φ dt‖ ≤ Real.exp ((Λ + Λ₂ / 2) * dt) * (e + K * (H ^ 2 + 1 / 10 ^ 9) * dt) := by
  obtain ⟨_, evalJacob, linearSolve, absTol, relTol, fuel, maxSteps, scr, scr', p, T, c, sub, hm, hE, hrel, hlay, hsub, hsteps, h⟩ := h
  obtain ⟨y₁, y', sub', hy₁, hI, rfl⟩ := odePyJacSolve_ok h
  obtain rfl := hlay.unique hy₁
  obtain ⟨q, hq, rfl⟩ := seulexIntegrator_ok hI
  have hj : (pyJacEnv (D.lib m evalJacob) linearSolve absTol relTol fuel).jacRedo
      < 2 * (pyJacEnv (D.lib m evalJacob) linearSolve absTol relTol fuel).jacRedo := by
    have := jacRedoOf_pos hrel
    show jacRedoOf relTol < 2 * jacRedoOf relTol
    linarith
  obtain ⟨hs1, hs2⟩ := hsteps scr
  have hqx : q.x = dt := by
    have := acceptedSteps_sum maxSteps 0 scr 0 _ _ q hq
    rw [hs1] at this
    linarith
  have hsol : SolvesOn (fun _ z => D.chemistry.stateRate (clip z)) φ 0 dt := by
    intro t ht
    have := hφ.solves t ht
    dsimp only at this ⊢
    rwa [clip_of_nonNegative (hφ.nonNegative t ht)]
  have he0 : 0 ≤ e := (norm_nonneg _).trans he
  have hC0 : 0 ≤ C := by rw [hC]; positivity
  have hK0 : 0 ≤ K := by rw [hK]; positivity
  have hexp : Real.exp ((Λ + Λ₂ * H / 2) * dt) ≤ Real.exp ((Λ + Λ₂ / 2) * dt) := by
    refine Real.exp_le_exp.2 (mul_le_mul_of_nonneg_right ?_ hdt.le)
    have := mul_le_mul_of_nonneg_left hH1 hΛ₂
    linarith
  have hlin : (C * H ^ 2 + 205 * (1 + 3 * (Λ + Lj) * H) * (S / 10 ^ 9)) * dt ≤ K * (H ^ 2 + 1 / 10 ^ 9) * dt := by
    refine mul_le_mul_of_nonneg_right ?_ hdt.le
    obtain ⟨A, hA⟩ : ∃ A, A = 205 * (1 + 3 * (Λ + Lj)) * S := ⟨_, rfl⟩
    have hA0 : 0 ≤ A := by rw [hA]; positivity
    have e : K * (H ^ 2 + 1 / 10 ^ 9) = C * H ^ 2 + A / 10 ^ 9 + (C / 10 ^ 9 + A * H ^ 2) := by rw [hK, ← hA]; ring
    have h3 : 205 * (1 + 3 * (Λ + Lj) * H) * (S / 10 ^ 9) ≤ A / 10 ^ 9 := by
      rw [hA, mul_div_assoc]
      have : 3 * (Λ + Lj) * H ≤ 3 * (Λ + Lj) := mul_le_of_le_one_right (by positivity) hH1
      gcongr
    have : 0 ≤ C / 10 ^ 9 + A * H ^ 2 := by positivity
    linarith
  have hall : Real.exp ((Λ + Λ₂ * H / 2) * dt) * (e + (C * H ^ 2 + 205 * (1 + 3 * (Λ + Lj) * H) * (S / 10 ^ 9)) * dt) ≤
      Real.exp ((Λ + Λ₂ / 2) * dt) * (e + K * (H ^ 2 + 1 / 10 ^ 9) * dt) :=
    mul_le_mul hexp (by linarith) (by positivity) (Real.exp_pos _).le
  have key := inexact_second_from hm (pyJacEnv (D.lib m evalJacob) linearSolve absTol relTol fuel) hE
    hj maxSteps scr 0 dt hdt z sub hsub q hq _ φ e he0 he dt hqx.le hsol ρ B Λ 0 Λ₂ Q Lj H (S / 10 ^ 9) C
    (tube_lipschitz hΛ hφ) Df _ hsm (tube_diff hD hn hS hφ) hΛ le_rfl hB hΛ₂ hQ hL0 (by positivity)
    hC hs2 hHL hHB (by rw [sub_zero]; exact hall.trans hsmall)
  rw [hqx, sub_zero] at key
  have hle : e ≤ Real.exp ((Λ + Λ₂ / 2) * dt) * (e + K * (H ^ 2 + 1 / 10 ^ 9) * dt) := by
    have h1 : 1 ≤ Real.exp ((Λ + Λ₂ / 2) * dt) := Real.one_le_exp (by positivity)
    have h2 : 0 ≤ K * (H ^ 2 + 1 / 10 ^ 9) * dt := by positivity
    have h3 := mul_le_mul_of_nonneg_right h1 (add_nonneg he0 h2)
    linarith
  exact returnedState_near (pressure_constant hφ.solves dt ⟨hdt.le, le_rfl⟩) (hφ.nonNegative dt ⟨hdt.le, le_rfl⟩) he hle (key.trans hall) rfl rfl

/-- Errors of many time steps: those of the steps, and what else changes (`d`), times their growth. -/
theorem errors_add_up {N : Nat} {t d err : Nat → ℝ} {G A τ e ρ : ℝ} (hG : 0 ≤ G) (hA : 0 ≤ A) (ht0 : t 0 = 0) (ht : ∀ k, k < N → t k ≤ t (k + 1)) (htN : t N ≤ τ)
    (hd : ∀ k, k < N → 0 ≤ d k) (h0 : err 0 ≤ e) (he : 0 ≤ e)
    (hstep : ∀ k ε, k < N → err k ≤ ε → Real.exp (G * (t (k + 1) - t k)) * (ε + A * (t (k + 1) - t k)) ≤ ρ →
      err (k + 1) ≤ Real.exp (G * (t (k + 1) - t k)) * (ε + A * (t (k + 1) - t k)) + d k)
    (hsmall : Real.exp (G * |τ|) * (e + A * t N + ∑ i ∈ Finset.range N, d i) ≤ ρ) :
    ∀ k, k ≤ N → err k ≤ Real.exp (G * |τ|) * (e + A * t k + ∑ i ∈ Finset.range k, d i) := by
  have hmono : ∀ k j, k ≤ j → j ≤ N → t k ≤ t j := by
    intro k j hkj
    induction j, hkj using Nat.le_induction with
    | base => intro _; exact le_rfl
    | succ j hj ih => intro h; exact (ih (by omega)).trans (ht j (by omega))
  have hpos : ∀ k, k ≤ N → 0 ≤ t k := fun k hk => ht0 ▸ hmono 0 k (Nat.zero_le k) hk
  have hsum : ∀ k j, k ≤ j → j ≤ N → ∑ i ∈ Finset.range k, d i ≤ ∑ i ∈ Finset.range j, d i := fun k j hkj hj =>
    Finset.sum_le_sum_of_subset_of_nonneg (Finset.range_mono hkj) fun i hi _ => hd i (by have := Finset.mem_range.1 hi; omega)
  have hsum0 : ∀ k, k ≤ N → 0 ≤ ∑ i ∈ Finset.range k, d i := fun k hk => Finset.sum_nonneg fun i hi => hd i (by have := Finset.mem_range.1 hi; omega)
  have hle : ∀ k, k ≤ N → Real.exp (G * t k) * (e + A * t k + ∑ i ∈ Finset.range k, d i) ≤ Real.exp (G * |τ|) * (e + A * t k + ∑ i ∈ Finset.range k, d i) := by
    intro k hk
    have h0 := hpos k hk
    have hs := hsum0 k hk
    exact mul_le_mul_of_nonneg_right (Real.exp_le_exp.2 (mul_le_mul_of_nonneg_left (((hmono k N hk le_rfl).trans htN).trans (le_abs_self _)) hG)) (by positivity)
  have key : ∀ k, k ≤ N → err k ≤ Real.exp (G * t k) * (e + A * t k + ∑ i ∈ Finset.range k, d i) := by
    intro k
    induction k with
    | zero => intro _; rw [ht0]; simp [h0]
    | succ k ih =>
      intro hk
      have hi := ih (by omega)
      have hdt : 0 ≤ t (k + 1) - t k := sub_nonneg.2 (ht k (by omega))
      have h0 := hpos k (by omega)
      have h1 := hpos (k + 1) hk
      have hs := hsum0 k (by omega)
      have hdk := hd k (by omega)
      have grow : Real.exp (G * (t (k + 1) - t k)) * (Real.exp (G * t k) * (e + A * t k + ∑ i ∈ Finset.range k, d i) + A * (t (k + 1) - t k)) + d k ≤
          Real.exp (G * t (k + 1)) * (e + A * t (k + 1) + ∑ i ∈ Finset.range (k + 1), d i) := by
        have e1 : Real.exp (G * t (k + 1)) = Real.exp (G * (t (k + 1) - t k)) * Real.exp (G * t k) := by rw [← Real.exp_add]; congr 1; ring
        have e2 : Real.exp (G * (t (k + 1) - t k)) ≤ Real.exp (G * t (k + 1)) := Real.exp_le_exp.2 (mul_le_mul_of_nonneg_left (by linarith) hG)
        have e3 : 1 ≤ Real.exp (G * t (k + 1)) := Real.one_le_exp (by positivity)
        have e4 := mul_le_mul_of_nonneg_right e2 (mul_nonneg hA hdt)
        have e5 := mul_le_mul_of_nonneg_right e3 hdk
        rw [Finset.sum_range_succ]
        have e6 : Real.exp (G * (t (k + 1) - t k)) * (Real.exp (G * t k) * (e + A * t k + ∑ i ∈ Finset.range k, d i) + A * (t (k + 1) - t k)) =
            Real.exp (G * t (k + 1)) * (e + A * t k + ∑ i ∈ Finset.range k, d i) + Real.exp (G * (t (k + 1) - t k)) * (A * (t (k + 1) - t k)) := by rw [e1]; ring
        have e7 : Real.exp (G * t (k + 1)) * (e + A * t (k + 1) + (∑ i ∈ Finset.range k, d i + d k)) =
            Real.exp (G * t (k + 1)) * (e + A * t k + ∑ i ∈ Finset.range k, d i) + Real.exp (G * t (k + 1)) * (A * (t (k + 1) - t k)) +
              Real.exp (G * t (k + 1)) * d k := by ring
        rw [e6, e7]
        linarith
      have last : Real.exp (G * t (k + 1)) * (e + A * t (k + 1) + ∑ i ∈ Finset.range (k + 1), d i) ≤ ρ := by
        refine (hle (k + 1) hk).trans (le_trans (mul_le_mul_of_nonneg_left ?_ (Real.exp_pos _).le) hsmall)
        have a1 := mul_le_mul_of_nonneg_left (hmono (k + 1) N hk le_rfl) hA
        have a2 := hsum (k + 1) N hk le_rfl
        linarith
      have := hstep k _ (by omega) hi (by linarith)
      linarith
  exact fun k hk => (key k hk).trans (hle k hk)

/-- Bounds and smoothness near a compact set of states at which all species are present. -/
theorem tame_twice (D : Package) (hD : D ∈ shipped) (hn : D.nsp = m + 1) {s : Set (Fin (m + 2) → ℝ)} (hs : IsCompact s) (h : ∀ z ∈ s, D.chemistry.AllPresent z) :
    ∃ ρ B Λ Λ₂ Q S : ℝ, 0 < ρ ∧ 0 ≤ B ∧ 0 ≤ Λ ∧ 0 ≤ Λ₂ ∧ 0 ≤ Q ∧ 0 ≤ S ∧ D.chemistry.TameNear s ρ B Λ S ∧ D.chemistry.TwiceNear s ρ Λ Λ₂ Q := by
  obtain ⟨ρ, B, Λ, S, hρ, hB, hΛ, hS, tame⟩ := tameNear_of_compact (X := D.chemistry) hn (proper_of_shipped hD) hs fun z hz => (h z hz).toInterior
  obtain ⟨ρ', Λ', Λ₂, Q, hρ', hΛ', hΛ₂, hQ, twice⟩ := twiceNear_of_compact (X := D.chemistry) hn (proper_of_shipped hD) hs h
  exact ⟨min ρ ρ', B, max Λ Λ', Λ₂, Q, S, lt_min hρ hρ', hB, le_max_of_le_left hΛ, hΛ₂, hQ, hS, tame.weaken (min_le_left _ _) le_rfl (le_max_left _ _) le_rfl,
    twice.weaken (min_le_right _ _) (le_max_right _ _) le_rfl le_rfl⟩

/-- A continuous function on a compact interval changes little over short times. -/
theorem changes_little {ψ : ℝ → Fin (m + 2) → ℝ} {τ : ℝ} (hc : ContinuousOn ψ (Set.Icc 0 τ)) {ε : ℝ} (hε : 0 < ε) :
    ∃ b : ℝ, 0 < b ∧ ∀ t ∈ Set.Icc 0 τ, ∀ t' ∈ Set.Icc 0 τ, |t' - t| ≤ b → ‖ψ t' - ψ t‖ ≤ ε := by
  obtain ⟨δ, hδ, h⟩ := Metric.uniformContinuousOn_iff.1 (isCompact_Icc.uniformContinuousOn_of_continuous hc) ε hε
  refine ⟨δ / 2, by positivity, fun t ht t' ht' hd => ?_⟩
  have := h t' ht' t ht (by rw [Real.dist_eq]; linarith)
  rw [dist_eq_norm] at this
  exact this.le

/-- The temperature of the flow near a compact set of states at which all species are present. -/
theorem flow_temperature_second (D : Package) (hD : D ∈ shipped) (hn : D.nsp = m + 1) {s : Set (Fin (m + 2) → ℝ)} (hs : IsCompact s) (h : ∀ z ∈ s, D.chemistry.AllPresent z)
    (Lj : ℝ) (hL0 : 0 ≤ Lj) :
    ∃ b H₀ r₀ ρ K : ℝ, 0 < b ∧ 0 < H₀ ∧ 0 < r₀ ∧ 0 < ρ ∧ 0 ≤ K ∧ ∀ x ∈ s, ∀ z, ‖z - x‖ ≤ ρ → NonNegative z → ∀ dt H r, 0 < dt → dt ≤ b → 0 ≤ H → H ≤ H₀ → IntegratedTo D z Lj H dt r →
      ∀ z', (∀ i, i ≠ 0 → z' i = returnedState z r i) → |z' 0 - z 0| ≤ r₀ → D.chemistry.stateEnthalpy z' = D.chemistry.stateEnthalpy z →
        |z' 0 - r.T| ≤ K * (H ^ 2 + 1 / 10 ^ 9) * dt := by
  obtain ⟨ρ1, B, Λ, Λ₂, Q, S, hρ1, hB, hΛ, hΛ₂, hQ, hS, tame, twice⟩ := tame_twice D hD hn hs h
  obtain ⟨ρ2, L, c, hρ2, hL, hc, heat⟩ := heatNear_of_compact D hD hn hs fun z hz => (h z hz).toInterior
  obtain ⟨ρ, hρdef⟩ : ∃ ρ, ρ = min ρ1 ρ2 := ⟨_, rfl⟩
  have hρ : 0 < ρ := by rw [hρdef]; exact lt_min hρ1 hρ2
  replace tame := tame.weaken (ρ' := ρ) (by rw [hρdef]; exact min_le_left _ _) le_rfl le_rfl le_rfl
  replace twice := twice.weaken (ρ' := ρ) (by rw [hρdef]; exact min_le_left _ _) le_rfl le_rfl le_rfl
  replace heat := heat.weaken (ρ' := ρ) (by rw [hρdef]; exact min_le_right _ _) le_rfl le_rfl
  obtain ⟨C, hC⟩ : ∃ C, C = 205 * (Q * (2 * (B + S / 10 ^ 9) + 1) ^ 2 + (Λ + Lj) * (Lj * (B + S / 10 ^ 9) + 2 * Λ * (B + S / 10 ^ 9) + 0))
      + (Q * (B + 1) ^ 2 + Λ * (Λ * B + 0)) := ⟨_, rfl⟩
  have hC0 : 0 ≤ C := by rw [hC]; positivity
  obtain ⟨K₁, hK₁⟩ : ∃ K₁, K₁ = C + 205 * (1 + 3 * (Λ + Lj)) * S := ⟨_, rfl⟩
  have hK₁0 : 0 ≤ K₁ := by rw [hK₁]; positivity
  obtain ⟨b0, hb0⟩ : ∃ b0, b0 = ρ / 4 / (B + 1) := ⟨_, rfl⟩
  have hb0pos : 0 < b0 := by rw [hb0]; positivity
  obtain ⟨K, hK⟩ : ∃ K, K = Real.exp ((Λ + Λ₂ / 2) * b0) * K₁ := ⟨_, rfl⟩
  have hK0 : 0 ≤ K := by rw [hK]; positivity
  refine ⟨min b0 (ρ / 8 / (2 * K + 1)), min (1 / (Lj + 1)) (min 1 (ρ / 4 / (6 * (B + S / 10 ^ 9) + 1))), ρ / 2, ρ / 2, L * K / c,
    lt_min hb0pos (by positivity),
    lt_min (by positivity) (lt_min one_pos (by positivity)), by positivity, by positivity, by positivity, ?_⟩
  intro x hx z hz hz0 dt H r hdt hdtb hH hHH hr z' hz' hT henth
  obtain ⟨φ, h0, hin, tube⟩ := tube_from (X := D.chemistry) hn (proper_of_shipped hD) hρ hB hΛ tame hx hz hz0
  rw [← hb0] at tube
  have hdtb0 : dt ≤ b0 := hdtb.trans (min_le_left _ _)
  have tube' := tube.restrict hdtb0 le_rfl (le_refl Λ)
  have hH1 : H ≤ 1 / (Lj + 1) := hHH.trans (min_le_left _ _)
  have hH2 : H ≤ 1 := hHH.trans ((min_le_right _ _).trans (min_le_left _ _))
  have hH3 : H ≤ ρ / 4 / (6 * (B + S / 10 ^ 9) + 1) := hHH.trans ((min_le_right _ _).trans (min_le_right _ _))
  rw [le_div_iff₀ (by positivity)] at hH1 hH3
  have smooth := smooth_of_twice twice hQ hx (φ := φ) (d := dt) (a := 3 * ρ / 4) (ρ' := ρ / 4) (fun t _ => by
    have h1 := norm_sub_le_norm_sub_add_norm_sub (φ t) z x
    have h2 := hin t
    linarith) (by linarith)
  obtain ⟨err, herr⟩ : ∃ err, err = Real.exp ((Λ + Λ₂ / 2) * dt) * (0 + K₁ * (H ^ 2 + 1 / 10 ^ 9) * dt) := ⟨_, rfl⟩
  have hle : err ≤ K * (H ^ 2 + 1 / 10 ^ 9) * dt := by
    rw [herr, hK, zero_add]
    have h1 : Real.exp ((Λ + Λ₂ / 2) * dt) ≤ Real.exp ((Λ + Λ₂ / 2) * b0) := Real.exp_le_exp.2 (mul_le_mul_of_nonneg_left hdtb0 (by positivity))
    calc _ ≤ Real.exp ((Λ + Λ₂ / 2) * b0) * (K₁ * (H ^ 2 + 1 / 10 ^ 9) * dt) := mul_le_mul_of_nonneg_right h1 (by positivity)
      _ = _ := by ring
  have hsmall : K * (H ^ 2 + 1 / 10 ^ 9) * dt ≤ ρ / 8 := by
    have h1 : dt ≤ ρ / 8 / (2 * K + 1) := hdtb.trans (min_le_right _ _)
    rw [le_div_iff₀ (by positivity)] at h1
    have h2 : K * (H ^ 2 + 1 / 10 ^ 9) ≤ 2 * K + 1 := by
      have h3 : H ^ 2 ≤ 1 := pow_le_one₀ hH hH2
      have h4 : (1 : ℝ) / 10 ^ 9 ≤ 1 := by norm_num
      have : H ^ 2 + 1 / 10 ^ 9 ≤ 2 := by linarith
      have := mul_le_mul_of_nonneg_left this hK0
      linarith
    have := mul_le_mul_of_nonneg_right h2 hdt.le
    linarith
  have hcell := cell_near_second D hD hn z hdt hr tube' smooth hΛ hΛ₂ hQ hB hS hL0 hH hH2 (e := 0) (by rw [h0, sub_self, norm_zero]) hC hK₁ (by linarith) (by linarith)
    (by rw [← herr]; linarith)
  rw [← herr] at hcell
  have near : ∀ {y : Fin (m + 2) → ℝ}, ‖y - z‖ ≤ ρ / 2 → ‖y - x‖ ≤ ρ := fun {y} h1 => by
    have := norm_sub_le_norm_sub_add_norm_sub y z x
    linarith
  have hφ : ∀ t, ‖φ t - x‖ ≤ ρ := fun t => near ((hin t).trans (by linarith))
  have hret : ‖returnedState z r - z‖ ≤ ρ / 2 := by
    have := norm_sub_le_norm_sub_add_norm_sub (returnedState z r) (φ dt) z
    have := hin dt
    linarith
  have hdt' : dt ∈ Set.Icc 0 dt := ⟨hdt.le, le_rfl⟩
  have hadm : ∀ t ∈ Set.Icc 0 dt, D.chemistry.Admissible (φ t) := fun t ht => tame.admissible x hx _ (hφ t) (tube'.nonNegative t ht)
  have cons : D.chemistry.stateEnthalpy (φ dt) = D.chemistry.stateEnthalpy z := by
    have := enthalpy_along hD hn tube'.solves hadm (fun t ht => tame.last x hx _ (hφ t) (tube'.nonNegative t ht)) (fun t ht => heat.fits x hx _ (hφ t)) dt hdt'
    rw [h0] at this
    exact this
  have hT0 : returnedState z r 0 = r.T := if_pos rfl
  have e : c * (L * K / c * (H ^ 2 + 1 / 10 ^ 9) * dt) = L * (K * (H ^ 2 + 1 / 10 ^ 9) * dt) := by field_simp
  have hdiff : |D.chemistry.stateEnthalpy (returnedState z r) - D.chemistry.stateEnthalpy z| ≤ c * (L * K / c * (H ^ 2 + 1 / 10 ^ 9) * dt) := by
    rw [e, ← cons]
    exact (heat.lipschitz x hx _ _ (near hret) (hφ dt)).trans (mul_le_mul_of_nonneg_left (hcell.trans hle) hL)
  have hz'z : ‖z' - z‖ ≤ ρ / 2 := by
    refine (pi_norm_le_iff_of_nonneg (by positivity)).2 fun i => ?_
    by_cases hi : i = 0
    · rw [hi, Pi.sub_apply, Real.norm_eq_abs]
      exact hT
    · rw [Pi.sub_apply, hz' i hi, ← Pi.sub_apply]
      exact (norm_le_pi_norm _ i).trans hret
  rw [← henth] at hdiff
  refine le_of_mul_le_mul_left ?_ hc
  rw [abs_le] at hdiff
  rcases le_total (z' 0) (returnedState z r 0) with hle' | hle'
  · have := heat.rises x hx z' (returnedState z r) (near hz'z) (near hret) hz' hle'
    rw [hT0] at this hle'
    rw [abs_of_nonpos (by linarith)]
    linarith
  · have := heat.rises x hx (returnedState z r) z' (near hret) (near hz'z) (fun i hi => (hz' i hi).symm) hle'
    rw [hT0] at this hle'
    rw [abs_of_nonneg (by linarith)]
    linarith

/-! ### The property -/

/-- **C137.** For every shipped mechanism, every solution `ψ` of the reactor that stays inside the domain up to a time `τ` with all species present, and every bound on the Jacobians, there are a time step `b`, a step `H₀`, a distance `ρ` and
a constant `K` such that: let a cell be integrated over any number of consecutive time steps of at most `b`, from `t k` to `t (k + 1)`, with steps of at most `H ≤ H₀`; let the states `z k` at the start of the time steps be
those which the integration before returned, up to `d k`. Then, as long as the bound `K (e + (H² + 10^-9) t + d 0 + d 1 + …)`, with `e` the distance between `z 0` and `ψ 0`, is at most `ρ`, the states of the cell are those of the reactor at these times, up to this bound. -/
theorem C137_time_steps_follow_the_reactor (D : Package) (hD : D ∈ shipped) (hn : D.nsp = m + 1) (ψ : ℝ → Fin (m + 2) → ℝ) (τ : ℝ)
    (hψ : SolvesOn (fun _ => D.chemistry.stateRate) ψ 0 τ) (hI : ∀ t ∈ Set.Icc 0 τ, D.chemistry.AllPresent (ψ t)) (Lj : ℝ) (hL0 : 0 ≤ Lj) :
    ∃ b H₀ ρ K : ℝ, 0 < b ∧ 0 < H₀ ∧ 0 < ρ ∧ ∀ (N : Nat) (t d : Nat → ℝ) (z : Nat → Fin (m + 2) → ℝ) (q : Nat → IntegrateResult ℝ) (H : ℝ),
      t 0 = 0 → (∀ k, k < N → t k < t (k + 1)) → (∀ k, k < N → t (k + 1) - t k ≤ b) → t N ≤ τ → 0 ≤ H → H ≤ H₀ →
      (∀ k, k < N → IntegratedTo D (z k) Lj H (t (k + 1) - t k) (q k)) → (∀ k, k < N → ‖z (k + 1) - returnedState (z k) (q k)‖ ≤ d k) →
      K * (‖z 0 - ψ 0‖ + (H ^ 2 + 1 / 10 ^ 9) * t N + ∑ i ∈ Finset.range N, d i) ≤ ρ →
      ∀ k, k ≤ N → ‖z k - ψ (t k)‖ ≤ K * (‖z 0 - ψ 0‖ + (H ^ 2 + 1 / 10 ^ 9) * t k + ∑ i ∈ Finset.range k, d i) := by
  have hc : ContinuousOn ψ (Set.Icc 0 τ) := fun t ht => (hψ t ht).continuousWithinAt
  obtain ⟨ρ, B, Λ', Λ₂, Q, S, hρ, hB, hΛ', hΛ₂, hQ, hS, tame, twice⟩ := tame_twice D hD hn (isCompact_Icc.image_of_continuousOn hc) (by rintro _ ⟨t, ht, rfl⟩; exact hI t ht)
  have tube := tube_of_tame hψ (fun t ht => nonNegative_of (hI t ht).toAdmissible) hρ hB tame
  replace twice := twice.weaken le_rfl (le_max_left Λ' (6 * B / ρ)) le_rfl le_rfl
  obtain ⟨Λ, hΛdef⟩ : ∃ Λ, Λ = max Λ' (6 * B / ρ) := ⟨_, rfl⟩
  have hΛ : 0 ≤ Λ := by rw [hΛdef]; exact le_max_of_le_left hΛ'
  rw [← hΛdef] at tube twice
  obtain ⟨b, hb, little⟩ := changes_little hc (by positivity : 0 < ρ / 3)
  obtain ⟨C, hC⟩ : ∃ C, C = 205 * (Q * (2 * (B + S / 10 ^ 9) + 1) ^ 2 + (Λ + Lj) * (Lj * (B + S / 10 ^ 9) + 2 * Λ * (B + S / 10 ^ 9) + 0))
      + (Q * (B + 1) ^ 2 + Λ * (Λ * B + 0)) := ⟨_, rfl⟩
  have hC0 : 0 ≤ C := by rw [hC]; positivity
  obtain ⟨K₁, hK₁⟩ : ∃ K₁, K₁ = C + 205 * (1 + 3 * (Λ + Lj)) * S := ⟨_, rfl⟩
  have hK₁0 : 0 ≤ K₁ := by rw [hK₁]; positivity
  refine ⟨b, min (1 / (Lj + 1)) (min 1 (ρ / 3 / (6 * (B + S / 10 ^ 9) + 1))), ρ / 3 / 2, Real.exp ((Λ + Λ₂ / 2) * |τ|) * (1 + K₁), hb,
    lt_min (by positivity) (lt_min one_pos (by positivity)), by positivity, ?_⟩
  intro N t d z q H ht0 ht htb htN hH hHH hq hz hsmall
  have hH1 : H ≤ 1 / (Lj + 1) := hHH.trans (min_le_left _ _)
  have hH2 : H ≤ 1 := hHH.trans ((min_le_right _ _).trans (min_le_left _ _))
  have hH3 : H ≤ ρ / 3 / (6 * (B + S / 10 ^ 9) + 1) := hHH.trans ((min_le_right _ _).trans (min_le_right _ _))
  rw [le_div_iff₀ (by positivity)] at hH1 hH3
  have hd : ∀ k, k < N → 0 ≤ d k := fun k hk => (norm_nonneg _).trans (hz k hk)
  have hmono : ∀ k j, k ≤ j → j ≤ N → t k ≤ t j := by
    intro k j hkj
    induction j, hkj using Nat.le_induction with
    | base => intro _; exact le_rfl
    | succ j hj ih => intro h; exact (ih (by omega)).trans (ht j (by omega)).le
  have hpos : ∀ k, k ≤ N → 0 ≤ t k := fun k hk => ht0 ▸ hmono 0 k (Nat.zero_le k) hk
  have hsum0 : ∀ k, k ≤ N → 0 ≤ ∑ i ∈ Finset.range k, d i := fun k hk => Finset.sum_nonneg fun i hi => hd i (by have := Finset.mem_range.1 hi; omega)
  have hbound : ∀ k, k ≤ N → Real.exp ((Λ + Λ₂ / 2) * |τ|) * (‖z 0 - ψ 0‖ + K₁ * (H ^ 2 + 1 / 10 ^ 9) * t k + ∑ i ∈ Finset.range k, d i) ≤
      Real.exp ((Λ + Λ₂ / 2) * |τ|) * (1 + K₁) * (‖z 0 - ψ 0‖ + (H ^ 2 + 1 / 10 ^ 9) * t k + ∑ i ∈ Finset.range k, d i) := fun k hk => by
    rw [mul_assoc (Real.exp _) (1 + K₁)]
    refine mul_le_mul_of_nonneg_left ?_ (Real.exp_pos _).le
    have h0 := hpos k hk
    have hs := hsum0 k hk
    have p1 : 0 ≤ K₁ * (‖z 0 - ψ 0‖ + ∑ i ∈ Finset.range k, d i) := by positivity
    have p2 : 0 ≤ (H ^ 2 + 1 / 10 ^ 9) * t k := by positivity
    have e : (1 + K₁) * (‖z 0 - ψ 0‖ + (H ^ 2 + 1 / 10 ^ 9) * t k + ∑ i ∈ Finset.range k, d i) =
        ‖z 0 - ψ 0‖ + K₁ * (H ^ 2 + 1 / 10 ^ 9) * t k + ∑ i ∈ Finset.range k, d i + K₁ * (‖z 0 - ψ 0‖ + ∑ i ∈ Finset.range k, d i) + (H ^ 2 + 1 / 10 ^ 9) * t k := by ring
    rw [e]
    linarith
  have key := errors_add_up (err := fun k => ‖z k - ψ (t k)‖) (G := Λ + Λ₂ / 2) (A := K₁ * (H ^ 2 + 1 / 10 ^ 9)) (τ := τ) (e := ‖z 0 - ψ 0‖) (ρ := ρ / 3 / 2) (d := d) (N := N)
    (by positivity) (by positivity) ht0 (fun k hk => (ht k hk).le) htN hd (by simp [ht0]) (norm_nonneg _) (by
      intro k ε hk hε hsm
      have hdt : 0 < t (k + 1) - t k := sub_pos.2 (ht k hk)
      have h0 := hpos k hk.le
      have h1 : t (k + 1) ≤ τ := (hmono (k + 1) N hk le_rfl).trans htN
      have htk : t k ∈ Set.Icc 0 τ := ⟨h0, by linarith⟩
      have smooth := smooth_of_twice twice hQ (x := ψ (t k)) ⟨t k, htk, rfl⟩ (φ := fun s => ψ (t k + s)) (d := t (k + 1) - t k) (a := ρ / 3) (ρ' := ρ / 3) (fun s hs =>
        little (t k) htk (t k + s) ⟨by linarith [hs.1], by linarith [hs.2]⟩ (by
          rw [add_sub_cancel_left, abs_of_nonneg hs.1]
          exact hs.2.trans (htb k hk))) (by linarith)
      have hcell := cell_near_second D hD hn (z k) hdt (hq k hk) (tube_shift tube h0 (d := t (k + 1) - t k) (by linarith)) smooth hΛ hΛ₂ hQ hB hS hL0 hH hH2
        (by simpa using hε) hC hK₁ (by linarith) (by linarith) hsm
      rw [add_sub_cancel] at hcell
      have := norm_sub_le_norm_sub_add_norm_sub (z (k + 1)) (returnedState (z k) (q k)) (ψ (t (k + 1)))
      have := hz k hk
      linarith) ((hbound N le_rfl).trans hsmall)
  exact fun k hk => (key k hk).trans (hbound k hk)

/-- **C137, the flow.** With the same hypotheses, a cell of a flow that is not mapped and takes up its reaction rates and heat release at constant pressure, over any number of time steps of at most `b` of the load-balanced model on any number of ranks, with
integrations whose steps are at most `H ≤ H₀`, follows the reactor up to `K (e + (H² + 10^-9) t)`, as long as this is at most `ρ`. -/
theorem C137_flow_follows_the_reactor (D : Package) (hD : D ∈ shipped) (hnsp : D.nsp = m + 1) (ψ : ℝ → Fin (m + 2) → ℝ) (τ : ℝ)
    (hψ : SolvesOn (fun _ => D.chemistry.stateRate) ψ 0 τ) (hI : ∀ t ∈ Set.Icc 0 τ, D.chemistry.AllPresent (ψ t)) (Lj : ℝ) (hL0 : 0 ≤ Lj) :
    ∃ b H₀ r₀ ρ K : ℝ, 0 < b ∧ 0 < H₀ ∧ 0 < r₀ ∧ 0 < ρ ∧
      ∀ [MathOps ℝ], PowLaws ℝ → ∀ (evalJacob : ℝ → Vec ℝ (m + 2) → Nat → ℝ)
        (linearSolve : (Nat → ℝ) → Vec ℝ (m + 2) → Vec ℝ (m + 2)) (absTol relTol : Vec ℝ (m + 2))
        (fuel maxSteps n : Nat) (base : ChemModel ℝ) (parRun : Bool)
        (sort : List (ChemistryLoad ℝ) → List (ChemistryLoad ℝ)) (hf : Vec ℝ (m + 1)) (N : Nat) (clk : Nat → Fin n → Nat → ℝ) (flow : Nat → Fin n → Flow ℝ)
        (w w' : Nat → Fin n → Scratch ℝ (m + 1)) (F : Nat → Fin n → RankFields ℝ) (res : Nat → Fin n → RankFields ℝ × ℝ)
        (r : Fin n) (i : Nat) (t : Nat → ℝ) (z : Nat → Fin (m + 2) → ℝ) (H : ℝ),
        LapackContract (m + 2) linearSolve → (∀ i, 0 < relTol i) →
        0 < n → base.nSpecie = m + 1 → base.chemistry = true → (parRun = true ∨ n = 1) → (∀ l, (sort l).Perm l) →
        (∀ k, k < N → ∀ r i, i < (flow k r).nCells → 1 / 10 ^ 15 < (flow k r).deltaT i) →
        (∀ k, k < N → solveWorldW (pyJacModel base (D.lib m evalJacob) linearSolve absTol relTol fuel maxSteps) parRun
          sort (clk k) (flow k) (w k) (F k) = .ok (w' k, res k)) →
        (∀ k, k < N → i < (flow k r).nCells ∧ ¬ Mapped base (flow k r) i ∧ (flow k r).rho i ≠ 0 ∧ 0 < (F k r).deltaTChem i ∧ (flow k r).deltaT i ≤ b) →
        (∀ k, k ≤ N → Layout ((flow k r).p i) ((flow k r).T i) (composition base (flow k r) i) (z k)) →
        NonNegative (z 0) → ∑ j ∈ Finset.range (m + 1), (flow 0 r).Y j i = 1 →
        (∀ k, k < N → TakesUp D.chemistry hf r₀ (flow k r) (flow (k + 1) r) (res k r).1.RR i) →
        t 0 = 0 → (∀ k, k < N → t (k + 1) = t k + (flow k r).deltaT i) → t N ≤ τ → 0 ≤ H → H ≤ H₀ →
        (∀ k, k < N → SmallSteps (pyJacEnv (D.lib m evalJacob) linearSolve absTol relTol fuel) maxSteps ((flow k r).deltaT i) (z k)
          ((F k r).deltaTChem i) Lj H) →
        K * (‖z 0 - ψ 0‖ + (H ^ 2 + 1 / 10 ^ 9) * t N) ≤ ρ →
        ∀ k, k ≤ N → ‖z k - ψ (t k)‖ ≤ K * (‖z 0 - ψ 0‖ + (H ^ 2 + 1 / 10 ^ 9) * t k) ∧ NonNegative (z k) ∧ ∑ j ∈ Finset.range (m + 1), (flow k r).Y j i = 1 := by
  have hc : ContinuousOn ψ (Set.Icc 0 τ) := fun t ht => (hψ t ht).continuousWithinAt
  obtain ⟨b1, H1, r₀, ρ1, Kd, hb1, hH1, hr₀, hρ1, hKd, temp⟩ := flow_temperature_second D hD hnsp (isCompact_Icc.image_of_continuousOn hc)
    (by rintro _ ⟨t, ht, rfl⟩; exact hI t ht) Lj hL0
  obtain ⟨b2, H2, ρ2, K, hb2, hH2, hρ2, steps⟩ := C137_time_steps_follow_the_reactor D hD hnsp ψ τ hψ hI Lj hL0
  refine ⟨min b1 b2, min H1 H2, r₀, min ρ1 ρ2, |K| * (1 + Kd), lt_min hb1 hb2, lt_min hH1 hH2, hr₀, lt_min hρ1 hρ2, ?_⟩
  intro _ hm evalJacob linearSolve absTol relTol fuel maxSteps n base parRun sort hf N clk flow w w' F res r i t z H hE hrel hn hsp hchem hpar hsort hdt hrun hcell hlay hz0 hsum
    htake ht0 ht htN hH hHH hsteps hsmall
  exact flow_follows_of D hnsp ψ τ Lj (fun H => H ^ 2 + 1 / 10 ^ 9) hKd (fun x hx z hz hz0 dt H r h1 h2 => temp x hx z hz hz0 dt H r h1 (h2.trans (min_le_left _ _)))
    (fun N t d z q H h1 h2 h3 => steps N t d z q H h1 h2 fun k hk => (h3 k hk).trans (min_le_right _ _)) hm evalJacob linearSolve absTol relTol fuel maxSteps n base parRun sort hf N
    clk flow w w' F res r i t z H hE hrel hn hsp hchem hpar hsort hdt hrun hcell hlay hz0 hsum htake ht0 ht htN hH hHH (by positivity) hsteps hsmall

/-- One cell that is known to stay near the solution: with short time steps it follows the solution to second order. -/
theorem flow_second_short [MathOps ℝ] (hm : PowLaws ℝ) (hq : SqrtLaws ℝ) (hr : RootLaws ℝ) (D : Package) (hD : D ∈ shipped) (hnsp : D.nsp = m + 1) (ψ : ℝ → Fin (m + 2) → ℝ) (τ : ℝ)
    (hψ : SolvesOn (fun _ => D.chemistry.stateRate) ψ 0 τ) (hI : ∀ t ∈ Set.Icc 0 τ, D.chemistry.AllPresent (ψ t)) (evalJacob : ℝ → Vec ℝ (m + 2) → Nat → ℝ)
    (hJ : ∀ t ∈ Set.Icc 0 τ, JacobianBoundedNear (pyJacJacobian (D.lib m evalJacob)) (ψ t))
    (absTol relTol : Vec ℝ (m + 2)) (habs : ∀ i, 0 < absTol i) (hrel : ∀ i, 0 < relTol i) :
    ∃ b σ K : ℝ, 0 < b ∧ 0 < σ ∧
      ∀ (linearSolve : (Nat → ℝ) → Vec ℝ (m + 2) → Vec ℝ (m + 2)) (fuel maxSteps n : Nat) (base : ChemModel ℝ) (parRun : Bool)
        (sort : List (ChemistryLoad ℝ) → List (ChemistryLoad ℝ)) (hf : Vec ℝ (m + 1)) (r₀ : ℝ) (N : Nat) (clk : Nat → Fin n → Nat → ℝ) (flow : Nat → Fin n → Flow ℝ)
        (w w' : Nat → Fin n → Scratch ℝ (m + 1)) (F : Nat → Fin n → RankFields ℝ) (res : Nat → Fin n → RankFields ℝ × ℝ)
        (r : Fin n) (i : Nat) (t : Nat → ℝ) (z : Nat → Fin (m + 2) → ℝ) (h : ℝ),
        LapackContract (m + 2) linearSolve → 1 ≤ fuel →
        0 < n → base.nSpecie = m + 1 → base.chemistry = true → (parRun = true ∨ n = 1) → (∀ l, (sort l).Perm l) →
        (∀ k, k < N → ∀ r i, i < (flow k r).nCells → 1 / 10 ^ 15 < (flow k r).deltaT i) →
        (∀ k, k < N → solveWorldW (pyJacModel base (D.lib m evalJacob) linearSolve absTol relTol fuel maxSteps) parRun
          sort (clk k) (flow k) (w k) (F k) = .ok (w' k, res k)) →
        (∀ k, k < N → i < (flow k r).nCells ∧ ¬ Mapped base (flow k r) i ∧ (flow k r).rho i ≠ 0 ∧ 0 < (F k r).deltaTChem i ∧ (flow k r).deltaT i ≤ h ∧
          (flow k r).deltaT i ≤ maxSteps * (F k r).deltaTChem i) →
        (∀ k, k ≤ N → Layout ((flow k r).p i) ((flow k r).T i) (composition base (flow k r) i) (z k)) →
        NonNegative (z 0) → ∑ j ∈ Finset.range (m + 1), (flow 0 r).Y j i = 1 →
        (∀ k, k < N → TakesUp D.chemistry hf r₀ (flow k r) (flow (k + 1) r) (res k r).1.RR i) →
        t 0 = 0 → (∀ k, k < N → t (k + 1) = t k + (flow k r).deltaT i) → t N ≤ τ → 0 ≤ h → h ≤ b →
        (∀ k, k ≤ N → ‖z k - ψ (t k)‖ ≤ σ) →
        ∀ k, k ≤ N → ‖z k - ψ (t k)‖ ≤ |K| * (‖z 0 - ψ 0‖ + (h ^ 2 + 1 / 10 ^ 9) * t k) := by
  have hc : ContinuousOn ψ (Set.Icc 0 τ) := fun t ht => (hψ t ht).continuousWithinAt
  obtain ⟨rs, bs, Lj, hrs, hbs, hLj, short⟩ := shortNear_of_compact hm hq hr hD hnsp (isCompact_Icc.image_of_continuousOn hc)
    (by rintro _ ⟨t, ht, rfl⟩; exact (hI t ht).toInterior) evalJacob (by rintro _ ⟨t, ht, rfl⟩; exact hJ t ht) absTol relTol habs hrel
  obtain ⟨b, H₀, r₁, ρ, K, hb, hH₀, hr₁, hρ, key⟩ := C137_flow_follows_the_reactor D hD hnsp ψ τ hψ hI Lj hLj
  obtain ⟨bl, hbl, little⟩ := changes_little hc (by positivity : 0 < r₁ / 3)
  refine ⟨min (min bs bl) (min b H₀), min (min ρ rs) (r₁ / 3), K, lt_min (lt_min hbs hbl) (lt_min hb hH₀), lt_min (lt_min hρ hrs) (by positivity), ?_⟩
  intro linearSolve fuel maxSteps n base parRun sort hf r₀ N clk flow w w' F res r i t z h hE hfuel hn hsp hchem hpar hsort hsmall hres hcell hlay hpos hsum htake ht0 ht htN hh hhb hnear k hk
  simp only [le_min_iff] at hhb hnear
  obtain ⟨⟨hb1, hb2⟩, hb3, hb4⟩ := hhb
  have hd : ∀ l, l < N → 0 < (flow l r).deltaT i := fun l hl => lt_trans (by norm_num) (hsmall l hl r i (hcell l hl).1)
  have hmono : ∀ k l, k ≤ l → l ≤ N → t k ≤ t l := by
    intro k l hkl
    induction l, hkl using Nat.le_induction with
    | base => exact fun _ => le_rfl
    | succ l hl ih => exact fun h => (ih (by omega)).trans (by rw [ht l (by omega)]; linarith [hd l (by omega)])
  have h0 : ∀ k, k ≤ N → 0 ≤ t k := fun k hk => ht0 ▸ hmono 0 k (Nat.zero_le k) hk
  have hmem : ∀ k, k ≤ N → t k ∈ Set.Icc 0 τ := fun k hk => ⟨h0 k hk, (hmono k N hk le_rfl).trans htN⟩
  have hX : 0 ≤ ‖z 0 - ψ 0‖ + (h ^ 2 + 1 / 10 ^ 9) * t k := by have := h0 k hk; positivity
  have up : K * (‖z 0 - ψ 0‖ + (h ^ 2 + 1 / 10 ^ 9) * t k) ≤ |K| * (‖z 0 - ψ 0‖ + (h ^ 2 + 1 / 10 ^ 9) * t k) := mul_le_mul_of_nonneg_right (le_abs_self K) hX
  by_cases hle : K * (‖z 0 - ψ 0‖ + (h ^ 2 + 1 / 10 ^ 9) * t k) ≤ ρ
  · refine le_trans (key hm evalJacob linearSolve absTol relTol fuel maxSteps n base parRun sort hf k clk flow w w' F res r i t z h hE hrel hn hsp hchem hpar hsort
      (fun l hl => hsmall l (by omega)) (fun l hl => hres l (by omega))
      (fun l hl => by
        obtain ⟨c1, c2, c3, c4, c5, c6⟩ := hcell l (by omega)
        exact ⟨c1, c2, c3, c4, c5.trans hb3⟩)
      (fun l hl => hlay l (by omega)) hpos hsum (fun l hl => ?_) ht0 (fun l hl => ht l (by omega)) (hmem k hk).2 hh hb4 (fun l hl => ?_) hle k le_rfl).1 up
    · obtain ⟨a1, a2, a3, a4⟩ := htake l (by omega)
      refine ⟨a1, a2, ?_, a4⟩
      have b1 := (hnear l (by omega)).2
      have b2 := (hnear (l + 1) (by omega)).2
      have b3 := little (t l) (hmem l (by omega)) (t (l + 1)) (hmem (l + 1) (by omega)) (by
        rw [ht l (by omega), add_sub_cancel_left, abs_of_pos (hd l (by omega))]
        exact (hcell l (by omega)).2.2.2.2.1.trans hb2)
      have b4 := norm_sub_le_norm_sub_add_norm_sub (z (l + 1)) (ψ (t (l + 1))) (z l)
      have b5 := norm_sub_le_norm_sub_add_norm_sub (ψ (t (l + 1))) (ψ (t l)) (z l)
      rw [norm_sub_rev (ψ (t l))] at b5
      have b6 := norm_le_pi_norm (z (l + 1) - z l) 0
      rw [Pi.sub_apply, Real.norm_eq_abs, (hlay (l + 1) (by omega)).temperature, (hlay l (by omega)).temperature] at b6
      linarith
    · obtain ⟨c1, c2, c3, c4, c5, c6⟩ := hcell l (by omega)
      have := (short (ψ (t l)) ⟨t l, hmem l (by omega), rfl⟩ (z l) (hnear l (by omega)).1.2 linearSolve fuel maxSteps _ _ hE hfuel (hd l (by omega)) (c5.trans hb1) c4 c6).1
      exact fun scr => ⟨(this scr).1, fun q hq => ⟨((this scr).2 q hq).1.trans c5, ((this scr).2 q hq).2⟩⟩
  · exact (hnear k hk).1.1.trans ((not_le.1 hle).le.trans up)

/-- All cells that are known to stay near their solutions: with short time steps they follow them to second order. -/
theorem cells_second [MathOps ℝ] (hm : PowLaws ℝ) (hq : SqrtLaws ℝ) (hr : RootLaws ℝ) (D : Package) (hD : D ∈ shipped) (hnsp : D.nsp = m + 1)
    {n : Nat} (hn : 0 < n) (nCells : Fin n → Nat) (ψ : Fin n → Nat → ℝ → Fin (m + 2) → ℝ) (τ : ℝ)
    (hψ : ∀ r i, i < nCells r → SolvesOn (fun _ => D.chemistry.stateRate) (ψ r i) 0 τ) (hI : ∀ r i, i < nCells r → ∀ t ∈ Set.Icc 0 τ, D.chemistry.AllPresent (ψ r i t))
    (evalJacob : ℝ → Vec ℝ (m + 2) → Nat → ℝ) (hJ : ∀ r i, i < nCells r → ∀ t ∈ Set.Icc 0 τ, JacobianBoundedNear (pyJacJacobian (D.lib m evalJacob)) (ψ r i t))
    (absTol relTol : Vec ℝ (m + 2)) (habs : ∀ i, 0 < absTol i) (hrel : ∀ i, 0 < relTol i) :
    ∃ b σ K : ℝ, 0 < b ∧ 0 < σ ∧ 0 ≤ K ∧
      ∀ (linearSolve : (Nat → ℝ) → Vec ℝ (m + 2) → Vec ℝ (m + 2)) (fuel maxSteps : Nat) (base : ChemModel ℝ) (parRun : Bool)
        (sort : List (ChemistryLoad ℝ) → List (ChemistryLoad ℝ)) (hf : Vec ℝ (m + 1)) (r₀ : ℝ) (N : Nat) (clk : Nat → Fin n → Nat → ℝ) (flow : Nat → Fin n → Flow ℝ)
        (w w' : Nat → Fin n → Scratch ℝ (m + 1)) (F : Nat → Fin n → RankFields ℝ) (res : Nat → Fin n → RankFields ℝ × ℝ)
        (t : Nat → ℝ) (z : Nat → Fin n → Nat → Fin (m + 2) → ℝ) (e h : ℝ),
        LapackContract (m + 2) linearSolve → 1 ≤ fuel → base.nSpecie = m + 1 → base.chemistry = true → (parRun = true ∨ n = 1) → (∀ l, (sort l).Perm l) →
        (∀ k, k ≤ N → ∀ r, (flow k r).nCells = nCells r) →
        (∀ k, k ≤ N → ∀ r i, i < nCells r → Layout ((flow k r).p i) ((flow k r).T i) (composition base (flow k r) i) (z k r i) ∧
          ¬ Mapped base (flow k r) i ∧ (flow k r).rho i ≠ 0 ∧ 1 / 10 ^ 15 < (flow k r).deltaT i ∧ (flow k r).deltaT i ≤ h ∧
          0 < (F k r).deltaTChem i ∧ (flow k r).deltaT i ≤ maxSteps * (F k r).deltaTChem i) →
        (∀ r i, i < nCells r → NonNegative (z 0 r i) ∧ ∑ j ∈ Finset.range (m + 1), (flow 0 r).Y j i = 1 ∧ ‖z 0 r i - ψ r i 0‖ ≤ e) →
        t 0 = 0 → (∀ k, k < N → ∀ r i, i < nCells r → t (k + 1) = t k + (flow k r).deltaT i) → t N ≤ τ → 0 ≤ h → h ≤ b →
        (∀ k, k < N → solveWorldW (pyJacModel base (D.lib m evalJacob) linearSolve absTol relTol fuel maxSteps) parRun sort (clk k) (flow k) (w k) (F k) = .ok (w' k, res k) ∧
          ∀ r i, i < nCells r → TakesUp D.chemistry hf r₀ (flow k r) (flow (k + 1) r) (res k r).1.RR i) →
        (∀ k, k ≤ N → ∀ r i, i < nCells r → ‖z k r i - ψ r i (t k)‖ ≤ σ) →
        ∀ k, k ≤ N → ∀ r i, i < nCells r → ‖z k r i - ψ r i (t k)‖ ≤ K * (e + (h ^ 2 + 1 / 10 ^ 9) * t k) := by
  have h1 := fun x : Σ r : Fin n, Fin (nCells r) => flow_second_short hm hq hr D hD hnsp (ψ x.1 x.2.val) τ (hψ x.1 x.2.val x.2.isLt) (hI x.1 x.2.val x.2.isLt) evalJacob
    (hJ x.1 x.2.val x.2.isLt) absTol relTol habs hrel
  choose b σ K hb hσ key using h1
  obtain ⟨β, κ, hβ, hk⟩ := exists_common b (fun x => |K x|) hb
  obtain ⟨ε, _, hε, hk'⟩ := exists_common σ σ hσ
  refine ⟨β, ε, |κ|, hβ, hε, abs_nonneg κ, ?_⟩
  intro linearSolve fuel maxSteps base parRun sort hf r₀ N clk flow w w' F res t z e h hE hfuel hsp hchem hpar hsort hnc hcell hstart ht0 ht htN hh hhb hrun hnear k hkN r i hi
  have h0 : ∀ k, k ≤ N → 0 ≤ t k := by
    intro k
    induction k with
    | zero => exact fun _ => ht0.ge
    | succ k ih =>
      intro hk
      rw [ht k (by omega) r i hi]
      have h1 := (hcell k (by omega) r i hi).2.2.2.1
      have h2 : (0 : ℝ) < 1 / 10 ^ 15 := by norm_num
      linarith [ih (by omega)]
  have := key ⟨r, ⟨i, hi⟩⟩ linearSolve fuel maxSteps n base parRun sort hf r₀ N clk flow w w' F res r i t (fun k => z k r i) h hE hfuel hn hsp hchem hpar hsort
    (fun k hk r i hi => (hcell k hk.le r i (by rw [← hnc k hk.le r]; exact hi)).2.2.2.1) (fun k hk => (hrun k hk).1)
    (fun k hk => by
      obtain ⟨c1, c2, c3, c4, c5, c6, c7⟩ := hcell k hk.le r i hi
      exact ⟨by rw [hnc k hk.le r]; exact hi, c2, c3, c6, c5, c7⟩)
    (fun k hk => (hcell k hk r i hi).1) (hstart r i hi).1 (hstart r i hi).2.1 (fun k hk => (hrun k hk).2 r i hi)
    ht0 (fun k hk => ht k hk r i hi) htN hh (hhb.trans (hk ⟨r, ⟨i, hi⟩⟩).1) (fun k hk => (hnear k hk r i hi).trans (hk' ⟨r, ⟨i, hi⟩⟩).1) k hkN
  refine this.trans (mul_le_mul ((hk ⟨r, ⟨i, hi⟩⟩).2.trans (le_abs_self κ)) ?_ ?_ (abs_nonneg κ))
  · linarith [(hstart r i hi).2.2]
  · have := h0 k hkN
    positivity

/-- For short time steps the bound to second order keeps the one to first order small. -/
theorem first_of_second {K₁ K₂ e h t τ ρ : ℝ} (h1 : 0 ≤ K₁) (h2 : 0 ≤ K₂) (he : 0 ≤ e) (hh : 0 ≤ h) (ht : 0 ≤ t) (htτ : t ≤ τ) (hb : h ≤ ρ / (2 * (K₁ * |τ|) + 1))
    (hs : (K₁ + K₂) * (e + (h ^ 2 + 1 / 10 ^ 9) * t) ≤ ρ / 2) : K₁ * (e + (h + 1 / 10 ^ 9) * t) ≤ ρ := by
  rw [le_div_iff₀ (by positivity)] at hb
  have a1 : K₁ * h * t ≤ K₁ * h * |τ| := mul_le_mul_of_nonneg_left (htτ.trans (le_abs_self τ)) (by positivity)
  have a2 : 0 ≤ K₂ * (e + (h ^ 2 + 1 / 10 ^ 9) * t) := by positivity
  have a3 : 0 ≤ K₁ * (h ^ 2 * t) := by positivity
  have e1 : K₁ * (e + (h + 1 / 10 ^ 9) * t) = K₁ * (e + 1 / 10 ^ 9 * t) + K₁ * h * t := by ring
  have e2 : (K₁ + K₂) * (e + (h ^ 2 + 1 / 10 ^ 9) * t) = K₁ * (e + 1 / 10 ^ 9 * t) + K₁ * (h ^ 2 * t) + K₂ * (e + (h ^ 2 + 1 / 10 ^ 9) * t) := by ring
  have e3 : h * (2 * (K₁ * |τ|) + 1) = 2 * (K₁ * h * |τ|) + h := by ring
  linarith

/-- **C137, nothing assumed on the steps.** For every shipped mechanism, every number of ranks and cells, every solution of the reactor for each cell that stays inside the domain up to the time `τ` with all species present, every
Jacobian routine that is bounded near the solutions, and all tolerances, there are a time `b`, distances `r₀` and `ρ` and a constant `K` such that, for every linear solver that solves regular systems, every
order of equal loads, with or without load balancing, and whatever is in the work arrays and fields: if the cells start at a distance of at most `e` from their solutions, and the flow has taken up the
reaction rates and the heat release of `N` time steps of lengths of at most `h ≤ b`, then at all times `t` of the time steps the temperature, pressure and mass fractions of every cell are those of its solution up to
`K (e + (h² + 10^-9) t)`, as long as this is at most `ρ`; and the next time step succeeds on all ranks. -/
theorem C137_simulation_follows_the_reactors [MathOps ℝ] (hm : PowLaws ℝ) (hq : SqrtLaws ℝ) (hr : RootLaws ℝ) (D : Package) (hD : D ∈ shipped) (hnsp : D.nsp = m + 1)
    {n : Nat} (hn : 0 < n) (nCells : Fin n → Nat) (ψ : Fin n → Nat → ℝ → Fin (m + 2) → ℝ) (τ : ℝ)
    (hψ : ∀ r i, i < nCells r → SolvesOn (fun _ => D.chemistry.stateRate) (ψ r i) 0 τ) (hI : ∀ r i, i < nCells r → ∀ t ∈ Set.Icc 0 τ, D.chemistry.AllPresent (ψ r i t))
    (evalJacob : ℝ → Vec ℝ (m + 2) → Nat → ℝ) (hJ : ∀ r i, i < nCells r → ∀ t ∈ Set.Icc 0 τ, JacobianBoundedNear (pyJacJacobian (D.lib m evalJacob)) (ψ r i t))
    (absTol relTol : Vec ℝ (m + 2)) (habs : ∀ i, 0 < absTol i) (hrel : ∀ i, 0 < relTol i) :
    ∃ b r₀ ρ K : ℝ, 0 < b ∧ 0 < r₀ ∧ 0 < ρ ∧ 0 ≤ K ∧
      ∀ (linearSolve : (Nat → ℝ) → Vec ℝ (m + 2) → Vec ℝ (m + 2)) (fuel maxSteps : Nat) (base : ChemModel ℝ) (parRun : Bool)
        (sort : List (ChemistryLoad ℝ) → List (ChemistryLoad ℝ)) (hf : Vec ℝ (m + 1)) (N : Nat) (clk : Nat → Fin n → Nat → ℝ) (flow : Nat → Fin n → Flow ℝ)
        (w w' : Nat → Fin n → Scratch ℝ (m + 1)) (F : Nat → Fin n → RankFields ℝ) (res : Nat → Fin n → RankFields ℝ × ℝ)
        (t : Nat → ℝ) (z : Nat → Fin n → Nat → Fin (m + 2) → ℝ) (e h : ℝ),
        LapackContract (m + 2) linearSolve → 1 ≤ fuel → 1 ≤ base.fuel → base.nSpecie = m + 1 → base.chemistry = true →
        (base.mapper.active = true → base.nSpecie ≤ base.mapper.mixFrac.alpha.length) → (parRun = true ∨ n = 1) → (∀ l, (sort l).Perm l) →
        (∀ k, k ≤ N → ∀ r, (flow k r).nCells = nCells r) →
        (∀ k, k ≤ N → ∀ r i, i < nCells r → Layout ((flow k r).p i) ((flow k r).T i) (composition base (flow k r) i) (z k r i) ∧
          ¬ Mapped base (flow k r) i ∧ (flow k r).rho i ≠ 0 ∧ 1 / 10 ^ 15 < (flow k r).deltaT i ∧ (flow k r).deltaT i ≤ h ∧
          0 < (F k r).deltaTChem i ∧ (flow k r).deltaT i ≤ maxSteps * (F k r).deltaTChem i) →
        (∀ r i, i < nCells r → NonNegative (z 0 r i) ∧ ∑ j ∈ Finset.range (m + 1), (flow 0 r).Y j i = 1 ∧ ‖z 0 r i - ψ r i 0‖ ≤ e) →
        t 0 = 0 → (∀ k, k < N → ∀ r i, i < nCells r → t (k + 1) = t k + (flow k r).deltaT i) → (∀ k, k < N → t k ≤ t (k + 1)) → t N ≤ τ → 0 ≤ e → 0 ≤ h → h ≤ b →
        K * (e + (h ^ 2 + 1 / 10 ^ 9) * t N) ≤ ρ →
        (∀ k, k < N → solveWorldW (pyJacModel base (D.lib m evalJacob) linearSolve absTol relTol fuel maxSteps) parRun sort (clk k) (flow k) (w k) (F k) = .ok (w' k, res k) ∧
          ∀ r i, i < nCells r → TakesUp D.chemistry hf r₀ (flow k r) (flow (k + 1) r) (res k r).1.RR i) →
        (∀ k, k ≤ N → ∀ r i, i < nCells r → ‖z k r i - ψ r i (t k)‖ ≤ K * (e + (h ^ 2 + 1 / 10 ^ 9) * t k)) ∧
        ∃ w₁ res₁, solveWorldW (pyJacModel base (D.lib m evalJacob) linearSolve absTol relTol fuel maxSteps) parRun sort (clk N) (flow N) (w N) (F N) = .ok (w₁, res₁) := by
  obtain ⟨b₁, r₀, ρ₁, K₁, hb₁, hr₀, hρ₁, hK₁, first⟩ := C136_simulation_follows_the_reactors hm hq hr D hD hnsp hn nCells ψ τ hψ (fun r i hi t ht => (hI r i hi t ht).toInterior)
    evalJacob hJ absTol relTol habs hrel
  obtain ⟨b₂, σ, K₂, hb₂, hσ, hK₂, second⟩ := cells_second hm hq hr D hD hnsp hn nCells ψ τ hψ hI evalJacob hJ absTol relTol habs hrel
  obtain ⟨ρ, hρdef⟩ : ∃ ρ, ρ = min ρ₁ σ := ⟨_, rfl⟩
  have hρ : 0 < ρ := by rw [hρdef]; exact lt_min hρ₁ hσ
  refine ⟨min (min b₁ b₂) (ρ / (2 * (K₁ * |τ|) + 1)), r₀, ρ / 2, K₁ + K₂, lt_min (lt_min hb₁ hb₂) (by positivity), hr₀, by positivity, by positivity, ?_⟩
  intro linearSolve fuel maxSteps base parRun sort hf N clk flow w w' F res t z e h hE hfuel hbfuel hsp hchem hmapper hpar hsort hnc hcell hstart ht0 ht htle htN he hh hhb hb' hrun
  simp only [le_min_iff] at hhb
  obtain ⟨⟨a1, a2⟩, a3⟩ := hhb
  have hmono : ∀ k l, k ≤ l → l ≤ N → t k ≤ t l := by
    intro k l hkl
    induction l, hkl using Nat.le_induction with
    | base => exact fun _ => le_rfl
    | succ l hl ih => exact fun h => (ih (by omega)).trans (htle l (by omega))
  have h0 : ∀ k, k ≤ N → 0 ≤ t k := fun k hk => ht0 ▸ hmono 0 k (Nat.zero_le k) hk
  have hsmall : K₁ * (e + (h + 1 / 10 ^ 9) * t N) ≤ ρ := first_of_second hK₁ hK₂ he hh (h0 N le_rfl) htN a3 hb'
  obtain ⟨n1, w₁, res₁, hres₁, -⟩ := first linearSolve fuel maxSteps base parRun sort hf N clk flow w w' F res t z e h hE hfuel hbfuel hsp hchem hmapper hpar hsort hnc hcell hstart ht0 ht htN he hh a1
    (hsmall.trans (by rw [hρdef]; exact min_le_left _ _)) hrun
  refine ⟨fun k hk r i hi => ?_, w₁, res₁, hres₁⟩
  have := second linearSolve fuel maxSteps base parRun sort hf r₀ N clk flow w w' F res t z e h hE hfuel hsp hchem hpar hsort hnc hcell hstart ht0 ht htN hh a2 hrun
    (fun k hk r i hi => (n1 k hk r i hi).trans (le_trans (mul_le_mul_of_nonneg_left (by
      have := mul_le_mul_of_nonneg_left (hmono k N hk le_rfl) (by positivity : 0 ≤ h + 1 / 10 ^ 9)
      linarith) hK₁) (hsmall.trans (by rw [hρdef]; exact min_le_right _ _)))) k hk r i hi
  refine this.trans (mul_le_mul_of_nonneg_right (by linarith) ?_)
  have := h0 k hk
  positivity

/-- **C137, the simulation as it runs.** With the same hypotheses on the solutions, the Jacobians and the tolerances, and the mapping switched off: from every flow at a distance of at most `e` from the solutions, all work arrays and all fields, and for all
lengths of the time steps between `s` and `h ≤ b`, where `s` is at most the initial chemical time steps of the first time step and `deltaTChemMax`, and `maxSteps` times `s` is at least `h`, the simulation runs up to the time `τ` or until
`K (e + (h² + 10^-9) t)` exceeds `ρ`: every time step succeeds on all ranks with the work arrays and fields that the one before left, there are flows that take up the reaction rates and the heat release, and the temperature, pressure
and mass fractions of every cell are those of its solution up to `K (e + (h² + 10^-9) t)`. -/
theorem C137_simulation_runs [MathOps ℝ] (hm : PowLaws ℝ) (hq : SqrtLaws ℝ) (hr : RootLaws ℝ) (D : Package) (hD : D ∈ shipped) (hnsp : D.nsp = m + 1)
    {n : Nat} (hn : 0 < n) (nCells : Fin n → Nat) (ψ : Fin n → Nat → ℝ → Fin (m + 2) → ℝ) (τ : ℝ)
    (hψ : ∀ r i, i < nCells r → SolvesOn (fun _ => D.chemistry.stateRate) (ψ r i) 0 τ) (hI : ∀ r i, i < nCells r → ∀ t ∈ Set.Icc 0 τ, D.chemistry.AllPresent (ψ r i t))
    (evalJacob : ℝ → Vec ℝ (m + 2) → Nat → ℝ) (hJ : ∀ r i, i < nCells r → ∀ t ∈ Set.Icc 0 τ, JacobianBoundedNear (pyJacJacobian (D.lib m evalJacob)) (ψ r i t))
    (absTol relTol : Vec ℝ (m + 2)) (habs : ∀ i, 0 < absTol i) (hrel : ∀ i, 0 < relTol i) :
    ∃ b r₀ ρ K : ℝ, 0 < b ∧ 0 < r₀ ∧ 0 < ρ ∧ 0 ≤ K ∧
      ∀ (linearSolve : (Nat → ℝ) → Vec ℝ (m + 2) → Vec ℝ (m + 2)) (fuel maxSteps : Nat) (base : ChemModel ℝ) (parRun : Bool)
        (sort : List (ChemistryLoad ℝ) → List (ChemistryLoad ℝ)) (hf : Vec ℝ (m + 1)) (N : Nat) (clk : Nat → Fin n → Nat → ℝ) (flow₀ : Fin n → Flow ℝ)
        (w₀ : Fin n → Scratch ℝ (m + 1)) (F₀ : Fin n → RankFields ℝ) (t : Nat → ℝ) (e h s : ℝ),
        LapackContract (m + 2) linearSolve → 1 ≤ fuel → 1 ≤ base.fuel → base.nSpecie = m + 1 → base.chemistry = true →
        base.mapper.active = false → (parRun = true ∨ n = 1) → (∀ l, (sort l).Perm l) →
        (∀ r, (flow₀ r).nCells = nCells r) →
        (∀ r i, i < nCells r → (flow₀ r).rho i ≠ 0 ∧ NonNegative (cellState (m := m) (flow₀ r) i) ∧ ∑ j ∈ Finset.range (m + 1), (flow₀ r).Y j i = 1 ∧
          ‖cellState (flow₀ r) i - ψ r i 0‖ ≤ e ∧ s ≤ (F₀ r).deltaTChem i) →
        t 0 = 0 → (∀ k, s ≤ t (k + 1) - t k ∧ t (k + 1) - t k ≤ h) → 1 / 10 ^ 15 < s → s ≤ base.deltaTChemMax → h ≤ maxSteps * s →
        t N ≤ τ → 0 ≤ e → h ≤ b → K * (e + (h ^ 2 + 1 / 10 ^ 9) * t N) ≤ ρ →
        ∃ (flow : Nat → Fin n → Flow ℝ) (w : Nat → Fin n → Scratch ℝ (m + 1)) (F : Nat → Fin n → RankFields ℝ) (next : Nat → Fin n → ℝ),
          (∀ r, flow 0 r = { flow₀ r with deltaT := fun _ => t 1 - t 0 }) ∧ w 0 = w₀ ∧ F 0 = F₀ ∧
          (∀ k, k ≤ N → ∀ r, (flow k r).nCells = nCells r ∧
            ∀ i, i < nCells r → ((flow k r).deltaT i = t (k + 1) - t k ∧ s ≤ (F k r).deltaTChem i) ∧ (flow k r).rho i = (flow₀ r).rho i) ∧
          (∀ k, k < N → solveWorldW (pyJacModel base (D.lib m evalJacob) linearSolve absTol relTol fuel maxSteps) parRun sort (clk k) (flow k) (w k) (F k) =
              .ok (w (k + 1), fun r => (F (k + 1) r, next k r)) ∧
            ∀ r i, i < nCells r → TakesUp D.chemistry hf r₀ (flow k r) (flow (k + 1) r) (F (k + 1) r).RR i) ∧
          ∀ k, k ≤ N → ∀ r i, i < nCells r → ‖cellState (flow k r) i - ψ r i (t k)‖ ≤ K * (e + (h ^ 2 + 1 / 10 ^ 9) * t k) := by
  obtain ⟨b₁, r₀, ρ₁, K₁, hb₁, hr₀, hρ₁, hK₁, first⟩ := C136_simulation_runs hm hq hr D hD hnsp hn nCells ψ τ hψ (fun r i hi t ht => (hI r i hi t ht).toInterior)
    evalJacob hJ absTol relTol habs hrel
  obtain ⟨b₂, σ, K₂, hb₂, hσ, hK₂, second⟩ := cells_second hm hq hr D hD hnsp hn nCells ψ τ hψ hI evalJacob hJ absTol relTol habs hrel
  obtain ⟨ρ, hρdef⟩ : ∃ ρ, ρ = min ρ₁ σ := ⟨_, rfl⟩
  have hρ : 0 < ρ := by rw [hρdef]; exact lt_min hρ₁ hσ
  refine ⟨min (min b₁ b₂) (ρ / (2 * (K₁ * |τ|) + 1)), r₀, ρ / 2, K₁ + K₂, lt_min (lt_min hb₁ hb₂) (by positivity), hr₀, by positivity, by positivity, ?_⟩
  intro linearSolve fuel maxSteps base parRun sort hf N clk flow₀ w₀ F₀ t e h s hE hfuel hbfuel hsp hchem hmapper hpar hsort hnc hstart ht0 hdt hs hsmax hhs htN he hhb hb'
  simp only [le_min_iff] at hhb
  obtain ⟨⟨a1, a2⟩, a3⟩ := hhb
  have hs0 : 0 < s := lt_trans (by norm_num) hs
  have hh : 0 ≤ h := by linarith [(hdt 0).1, (hdt 0).2]
  have hmono : Monotone t := monotone_nat_of_le_succ fun k => by linarith [(hdt k).1]
  have h0 : ∀ k, 0 ≤ t k := fun k => ht0 ▸ hmono (Nat.zero_le k)
  have hmap : ∀ f i, ¬ Mapped base f i := fun f i h => by
    have := h.2.1.1
    rw [hmapper] at this
    exact absurd this (by simp)
  have hsmall : K₁ * (e + (h + 1 / 10 ^ 9) * t N) ≤ ρ := first_of_second hK₁ hK₂ he hh (h0 N) htN a3 hb'
  obtain ⟨flow, w, F, next, h1, hw, hF, h2, h3, h4⟩ := first linearSolve fuel maxSteps base parRun sort hf N clk flow₀ w₀ F₀ t e h s hE hfuel hbfuel hsp hchem hmapper hpar hsort hnc hstart ht0 hdt hs
    hsmax hhs htN he a1 (hsmall.trans (by rw [hρdef]; exact min_le_left _ _))
  refine ⟨flow, w, F, next, h1, hw, hF, h2, h3, fun k hk r i hi => ?_⟩
  have := second linearSolve fuel maxSteps base parRun sort hf r₀ N clk flow w (fun k => w (k + 1)) F (fun k r => (F (k + 1) r, next k r)) t (fun k r i => cellState (flow k r) i) e h
    hE hfuel hsp hchem hpar hsort (fun k hk r => (h2 k hk r).1)
    (fun k hk r i hi => by
      obtain ⟨⟨c1, c2⟩, c3⟩ := (h2 k hk r).2 i hi
      rw [c1]
      exact ⟨cellState_layout hsp _ _, hmap _ _, by rw [c3]; exact (hstart r i hi).1, hs.trans_le (hdt k).1, (hdt k).2, hs0.trans_le c2,
        (hdt k).2.trans (hhs.trans (mul_le_mul_of_nonneg_left c2 (Nat.cast_nonneg _)))⟩)
    (fun r i hi => by
      rw [h1 r]
      obtain ⟨-, c2, c3, c4, -⟩ := hstart r i hi
      exact ⟨c2, c3, c4⟩)
    ht0 (fun k hk r i hi => by rw [((h2 k hk.le r).2 i hi).1.1]; ring) htN hh a2 h3
    (fun k hk r i hi => (h4 k hk r i hi).trans (le_trans (mul_le_mul_of_nonneg_left (by
      have := mul_le_mul_of_nonneg_left (hmono hk) (by positivity : 0 ≤ h + 1 / 10 ^ 9)
      linarith) hK₁) (hsmall.trans (by rw [hρdef]; exact min_le_right _ _)))) k hk r i hi
  refine this.trans (mul_le_mul_of_nonneg_right (by linarith) ?_)
  have := h0 k
  positivity

end

/-- From every composition of drm19 with all species present there is a solution along which they stay present. -/
theorem allPresent_solution (z : Fin 22 → ℝ) (hz : drm19.chemistry.AllPresent z) :
    ∃ τ : ℝ, 0 < τ ∧ ∃ ψ : ℝ → Fin 22 → ℝ, ψ 0 = z ∧ SolvesOn (fun _ => drm19.chemistry.stateRate) ψ 0 τ ∧ ∀ t ∈ Set.Icc 0 τ, drm19.chemistry.AllPresent (ψ t) := by
  obtain ⟨τ, hτ, ψ, h0, hψ, hI⟩ := smooth_solution z hz.toInterior ⟨hz.toAdmissible, hz.fits, hz.cutOff⟩
  obtain ⟨τ', hτ', hle, hP⟩ := start_in hτ h0 (hψ 0 ⟨le_rfl, hτ.le⟩).continuousWithinAt
    (P := fun x => ∀ i : Fin 20, 0 < stateComposition x i.val)
    (Filter.eventually_all.2 fun i => (stateComposition_lipAt z i.val).continuousAt.eventually_const_lt (hz.present i.val i.isLt))
  refine ⟨τ', hτ', ψ, h0, fun t ht => (hψ t ⟨ht.1, ht.2.trans hle⟩).mono (Set.Icc_subset_Icc le_rfl hle), fun t ht => ?_⟩
  obtain ⟨h1, h2⟩ := hI t ⟨ht.1, ht.2.trans hle⟩
  exact ⟨h1, fun i hi => hP t ht ⟨i, hi⟩, h2.cutOff⟩

/-- A rank with two cells of the mixture of all species. -/
noncomputable def mixtureFlow (p : ℝ) : Flow ℝ where
  nCells := 2
  Y := fun j _ => stateComposition (mixture p) j
  T := fun _ => 1200
  p := fun _ => p
  rho := fun _ => 1
  deltaT := fun _ => 0

theorem mixtureFlow_state (p : ℝ) (i : Nat) : cellState (m := 20) (mixtureFlow p) i = mixture p := by
  have hl := cellState_layout (m := 20) (base := ⟨true, 21, 1, fun _ _ _ _ _ => .error .ub, 1, ⟨false, 0, 0, ⟨[], 0, 0⟩⟩, true⟩) rfl (mixtureFlow p) i
  refine hl.unique ?_
  have h := exists_layout (mixture p)
  have e1 : mixture p (Fin.last 21) = p := by
    unfold mixture
    rw [if_neg (by decide), if_pos rfl]
  rw [e1] at h
  have e2 : composition (⟨true, 21, 1, fun _ _ _ _ _ => .error .ub, 1, ⟨false, 0, 0, ⟨[], 0, 0⟩⟩, true⟩ : ChemModel ℝ)
      (mixtureFlow p) i = List.ofFn fun i : Fin 21 => stateComposition (mixture p) i.val := by
    unfold composition mixtureFlow
    rw [List.ofFn_eq_map, ← List.map_coe_finRange_eq_range, List.map_map]
    rfl
  rw [← e2] at h
  exact h

/-- A case of C137: three ranks with two cells of the mixture each, the drm19 library with its own Jacobian, time steps of length `h`, first steps of a tenth of them in the first time step, and one attempt per step: for some `τ > 0` and all
short `h` the simulation runs for `N` time steps, each from the work arrays and fields of the one before, and its cells follow the reactor to second order. -/
example (w₀ : Fin 3 → Scratch ℝ 21) (G : RankFields ℝ) (clk : Nat → Fin 3 → Nat → ℝ) (hf : Vec ℝ 21) (active : Bool) : letI := realMath
    ∃ p τ b ρ K : ℝ, ∃ ψ : ℝ → Fin 22 → ℝ, 0 < τ ∧ 0 < b ∧ 0 < ρ ∧ 0 ≤ K ∧ ψ 0 = mixture p ∧ SolvesOn (fun _ => drm19.chemistry.stateRate) ψ 0 τ ∧
      ∀ (N : Nat) (h : ℝ), 1 / 10 ^ 14 < h → h ≤ b → h ≤ 1 → N * h ≤ τ → K * ((h ^ 2 + 1 / 10 ^ 9) * (N * h)) ≤ ρ →
        ∃ (flow : Nat → Fin 3 → Flow ℝ) (w : Nat → Fin 3 → Scratch ℝ 21) (F : Nat → Fin 3 → RankFields ℝ) (next : Nat → Fin 3 → ℝ),
        w 0 = w₀ ∧ (∀ r, F 0 r = { G with deltaTChem := fun _ => h / 10 }) ∧
        (∀ k, k < N → solveWorldW (pyJacModel ⟨true, 21, 1, fun _ _ _ _ _ => .error .ub, 1, ⟨false, 0, 0, ⟨[], 0, 0⟩⟩, active⟩
          drm19Lib (fun a b => (columnMajor 22 a)⁻¹.mulVec b) (fun _ => 1 / 10 ^ 8) (fun _ => 1 / 10 ^ 5) 1 10) true id (clk k) (flow k) (w k) (F k) =
            .ok (w (k + 1), fun r => (F (k + 1) r, next k r))) ∧
        ∀ k, k ≤ N → ∀ r i, i < 2 → ‖cellState (flow k r) i - ψ (k * h)‖ ≤ K * ((h ^ 2 + 1 / 10 ^ 9) * (k * h)) := by
  let := realMath
  obtain ⟨p, hp⟩ := mixture_allPresent
  obtain ⟨τ, hτ, ψ, h0, hψ, hI⟩ := allPresent_solution _ hp
  obtain ⟨b, r₀, ρ, K, hb, hr₀, hρ, hK, key⟩ := C137_simulation_runs (m := 20) realMath_powLaws realMath_sqrtLaws realMath_rootLaws drm19 (by simp [shipped]) rfl
    (n := 3) (by norm_num) (fun _ => 2) (fun _ _ => ψ) τ (fun _ _ _ => hψ) (fun _ _ _ t ht => hI t ht) _
    (fun _ _ _ t ht => C125_jacobian_is_bounded _ (hI t ht).toInterior ⟨(hI t ht).toAdmissible, (hI t ht).fits, (hI t ht).cutOff⟩) (fun _ => 1 / 10 ^ 8) (fun _ => 1 / 10 ^ 5)
    (fun _ => by norm_num) (fun _ => by norm_num)
  refine ⟨p, τ, b, ρ, K, ψ, hτ, hb, hρ, hK, h0, hψ, fun N h h1 h2 h5 h3 h4 => ?_⟩
  have hh : 0 < h := lt_trans (by norm_num) h1
  have e : ∀ i, cellState (m := 20) (mixtureFlow p) i = mixture p := mixtureFlow_state p
  obtain ⟨flow, w, F, next, -, hw, hF, -, a3, a4⟩ := key _ 1 10 ⟨true, 21, 1, fun _ _ _ _ _ => .error .ub, 1, ⟨false, 0, 0, ⟨[], 0, 0⟩⟩, active⟩ true id hf N clk
    (fun _ => mixtureFlow p) w₀ (fun _ => { G with deltaTChem := fun _ => h / 10 }) (fun k => k * h) 0 h (h / 10) (lapackContract_inverse 22) le_rfl le_rfl rfl rfl rfl
    (Or.inl rfl) (fun l => List.Perm.refl _) (fun _ => rfl)
    (fun r i _ => ⟨one_ne_zero, by rw [e]; exact nonNegative_of hp.toAdmissible, stateComposition_total _, by rw [e, h0, sub_self, norm_zero], le_rfl⟩)
    (by simp) (fun k => by push_cast; constructor <;> linarith) (by rw [lt_div_iff₀ (by norm_num)]; refine lt_of_eq_of_lt ?_ h1; norm_num)
    (by show h / 10 ≤ 1; linarith) (by push_cast; linarith) h3 le_rfl h2 (by rw [zero_add]; exact h4)
  exact ⟨flow, w, F, next, hw, fun r => by rw [hF], fun k hk => (a3 k hk).1, fun k hk r i hi => by simpa using a4 k hk r i hi⟩

end DLB
