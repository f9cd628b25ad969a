import Verif.Lemmas.ReactorCompact
import Verif.Props.ReactorBalance
/-
C136: a cell that is integrated over many time steps follows the reactor for as long as its solution stays inside the
domain.
-/
set_option autoImplicit false
set_option linter.unusedSectionVars false

namespace DLB
open Spec
open scoped Topology

/-! ### Lemmas -/

section
variable {n : Nat} [MathOps ℝ]

/-- As C118, if the integration starts at a distance of at most `e` from the solution. -/
theorem inexact_equations_from (hm : PowLaws ℝ) (E : SeulexEnv ℝ n) (hE : LapackContract (n + 1) E.linearSolve) (hj : E.jacRedo < 2 * E.jacRedo)
    (maxSteps : Nat) (scr : Scratch ℝ n) (xStart xEnd : ℝ) (hlt : xStart < xEnd) (y : Vec ℝ (n + 1)) (dxTry : ℝ) (hpos : 0 < dxTry)
    (r : DriverResult ℝ (n + 1) (Scratch ℝ n)) (h : driverSolve (seulexSolve E) maxSteps scr xStart xEnd y dxTry = .ok r)
    (f : ℝ → Vec ℝ (n + 1) → Vec ℝ (n + 1)) (φ : ℝ → Vec ℝ (n + 1)) (e : ℝ) (he0 : 0 ≤ e) (he : ‖y - φ xStart‖ ≤ e) (b : ℝ) (hb : r.x ≤ b)
    (hφ : SolvesOn f φ xStart b) (ρ B Λ M L H δ C : ℝ) (hf : LipschitzNear f φ xStart b ρ B Λ M)
    (hdiff : ∀ t z, Spec.Near φ xStart b ρ t z → ‖E.derivatives t z - f t z‖ ≤ δ)
    (hΛ : 0 ≤ Λ) (hM : 0 ≤ M) (hB : 0 ≤ B) (hL0 : 0 ≤ L) (hδ : 0 ≤ δ)
    (hC : C = 205 * (L * (B + δ) + 2 * Λ * (B + δ) + M) + (Λ * B + M))
    (hsteps : ∀ q ∈ acceptedSteps (seulexSolve E) xStart xEnd maxSteps scr xStart y (StepState.init dxTry), q.1 ≤ H ∧ RowsAtMost q.2 L)
    (hHL : H * L ≤ 1) (hHB : 3 * H * (B + δ) ≤ ρ / 2) (hsmall : Real.exp (Λ * (b - xStart)) * (e + (C * H + 411 * δ) * (b - xStart)) ≤ ρ / 2) :
    ‖r.y - φ r.x‖ ≤ Real.exp (Λ * (r.x - xStart)) * (e + (C * H + 411 * δ) * (r.x - xStart)) := by
  have hj' : E.jacRedo < ((2 : Nat) : ℝ) * E.jacRedo := by exact_mod_cast hj
  have hch := driverLoop_follows hm hE hj' hlt hHL hL0 maxSteps 0 scr xStart y _ r
    (running_start E scr hpos) le_rfl hlt hsteps h
  have hH0 : 0 ≤ H := by
    cases hch with
    | one h => exact (sub_nonneg.2 h.1.le).trans h.2.1
    | cons h _ => exact (sub_nonneg.2 h.1.le).trans h.2.1
  have hC0 : 0 ≤ C := by rw [hC]; positivity
  have := chain_error (err := fun p : ℝ × Vec ℝ (n + 1) => ‖p.2 - φ p.1‖) (b := b) (ρ := ρ)
    (C := C * H + 411 * δ) (G := Λ) (H := 1) (start := xStart)
    (by positivity) hΛ zero_le_one (fun p q h => h.1) (by
      intro p q e hR hs hqb he0 he heρ
      obtain ⟨hpq, hqH, J, k, hJ, -, hk, hstep⟩ := hR
      have hd : 0 < q.1 - p.1 := by linarith
      have hBδ : 0 ≤ B + δ := by positivity
      have h1 := step_error_perturbed hk hf hφ hdiff hδ hJ hL0 hΛ hM hB hd
        ((mul_le_mul_of_nonneg_right hqH hL0).trans hHL) hs (by linarith) he heρ
        (by nlinarith) hstep
      rw [add_sub_cancel, ← hC, add_assoc] at h1
      refine h1.trans (add_le_add le_rfl ?_)
      have : (q.1 - p.1) ^ 2 ≤ H * (q.1 - p.1) := by nlinarith
      calc _ ≤ C * (H * (q.1 - p.1)) + 411 * δ * (q.1 - p.1) := by gcongr
        _ = _ := by ring) hch e le_rfl hb he0 he (by simpa using hsmall)
  simpa using this

end

section
variable {m : Nat}

/-- The state (temperature, mass fractions of all species but the last, pressure) with temperature and mass fractions as returned by the integration of a cell in
the state `z`, at the pressure of `z`. -/
def returnedState (z : Fin (m + 2) → ℝ) (r : IntegrateResult ℝ) : Fin (m + 2) → ℝ := fun i =>
  if i.val = 0 then r.T else if i.val = m + 1 then z i else r.fractions (i.val - 1)

theorem tube_shift {X : Chemistry} {ψ : ℝ → Fin (m + 2) → ℝ} {τ ρ B Λ S : ℝ} (h : X.Tube ψ τ ρ B Λ S) {a d : ℝ} (ha : 0 ≤ a) (hd : a + d ≤ τ) :
    X.Tube (fun s => ψ (a + s)) d ρ B Λ S := by
  have mem : ∀ {s}, s ∈ Set.Icc 0 d → a + s ∈ Set.Icc 0 τ := fun hs => ⟨by linarith [hs.1], by linarith [hs.2]⟩
  have near : ∀ {t z}, Spec.Near (fun s => ψ (a + s)) 0 d ρ t z → Spec.Near ψ 0 τ ρ (a + t) z := fun h => ⟨mem h.1, h.2⟩
  refine ⟨fun s hs => ?_, fun t z hz => h.admissible _ z (near hz), fun t z hz => h.terms _ z (near hz), fun t z hz => h.bound _ z (near hz),
    fun t z t' z' hz hz' => h.lipschitz _ z _ z' (near hz) (near hz'), fun t ht => h.nonNegative _ (mem ht)⟩
  have h1 : HasDerivWithinAt (fun s : ℝ => a + s) 1 (Set.Icc 0 d) s := ((hasDerivAt_id s).const_add a).hasDerivWithinAt
  have := (h.solves (a + s) (mem hs)).scomp s h1 (fun x hx => mem hx)
  rwa [one_smul] at this

theorem pressure_constant {X : Chemistry} {φ : ℝ → Fin (m + 2) → ℝ} {d : ℝ} (h : SolvesOn (fun _ => X.stateRate) φ 0 d) :
    ∀ t ∈ Set.Icc 0 d, φ t (Fin.last (m + 1)) = φ 0 (Fin.last (m + 1)) := by
  have hd : ∀ t ∈ Set.Icc 0 d, HasDerivWithinAt (fun t => φ t (Fin.last (m + 1))) 0 (Set.Icc 0 d) t := fun t ht => by
    have := hasDerivWithinAt_pi.1 (h t ht) (Fin.last (m + 1))
    dsimp only at this
    have e : X.stateRate (φ t) (Fin.last (m + 1)) = 0 := by
      unfold Chemistry.stateRate
      rw [if_neg (by simp), if_pos (by simp)]
    rwa [e] at this
  exact constant_of_has_deriv_right_zero (fun t ht => (hd t ht).continuousWithinAt) fun t ht =>
    (hd t ⟨ht.1, ht.2.le⟩).mono_of_mem_nhdsWithin (Icc_mem_nhdsGE_of_mem ht)

/-- The state returned is as near to a solution as the state that the integrator ends with. -/
theorem returnedState_near {y z u v : Fin (m + 2) → ℝ} (hp : v (Fin.last (m + 1)) = u (Fin.last (m + 1))) (hv : NonNegative v) {e E : ℝ} (he : ‖z - u‖ ≤ e) (heE : e ≤ E)
    (hy : ‖y - v‖ ≤ E) {r : IntegrateResult ℝ} (hT : r.T = y 0) (hc : r.c = List.ofFn (clippedComposition y)) : ‖returnedState z r - v‖ ≤ E := by
  refine (pi_norm_le_iff_of_nonneg ((norm_nonneg _).trans hy)).2 fun i => ?_
  have comp := (norm_le_pi_norm _ i).trans hy
  rw [Real.norm_eq_abs, Pi.sub_apply] at comp ⊢
  unfold returnedState
  split
  · rename_i h0
    obtain rfl : i = 0 := Fin.ext h0
    rw [hT]
    exact comp
  · rename_i h0
    split
    · rename_i h1
      obtain rfl : i = Fin.last (m + 1) := Fin.ext h1
      rw [hp]
      have := (norm_le_pi_norm (z - u) (Fin.last (m + 1))).trans he
      rw [Real.norm_eq_abs, Pi.sub_apply] at this
      exact this.trans heE
    · rename_i h1
      have hi := i.isLt
      obtain ⟨j, rfl⟩ : ∃ j : Fin m, i = j.castSucc.succ := ⟨⟨i.val - 1, by omega⟩, Fin.ext (by simp; omega)⟩
      have e : (List.ofFn (clippedComposition y)).getD (j.castSucc.succ.val - 1) 0 = max 0 (y j.castSucc.succ) := by
        have := j.isLt
        rw [show (j.castSucc.succ : Fin (m + 2)).val - 1 = j.val by simp, List.getD_eq_getElem?_getD, List.getElem?_ofFn, dif_pos (by omega)]
        simp [clippedComposition, snoc_eq_dite]
      show |r.c.getD (j.castSucc.succ.val - 1) 0 - _| ≤ _
      rw [hc, e]
      refine le_trans ?_ comp
      have := abs_max_sub_max_le_abs (y j.castSucc.succ) (v j.castSucc.succ) 0
      rwa [max_eq_left (hv j), max_comm] at this

/-- The integration of a cell that starts at a distance of at most `e` from a solution. -/
theorem cell_near (D : Package) (hD : D ∈ shipped) (hn : D.nsp = m + 1) (z : Fin (m + 2) → ℝ) {dt Lj H : ℝ} (hdt : 0 < dt) {r : IntegrateResult ℝ}
    (h : IntegratedTo D z Lj H dt r) {φ : ℝ → Fin (m + 2) → ℝ} {ρ B Λ S C e : ℝ} (hφ : D.chemistry.Tube φ dt ρ B Λ S)
    (hΛ : 0 ≤ Λ) (hB : 0 ≤ B) (hS : 0 ≤ S) (hL0 : 0 ≤ Lj) (hH : 0 ≤ H) (he : ‖z - φ 0‖ ≤ e)
    (hC : C = 205 * (Lj * (B + S / 10 ^ 9) + 2 * Λ * (B + S / 10 ^ 9)) + Λ * B)
    (hHL : H * Lj ≤ 1) (hHB : 3 * H * (B + S / 10 ^ 9) ≤ ρ / 2)
    (hsmall : Real.exp (Λ * dt) * (e + (C * H + 411 * (S / 10 ^ 9)) * dt) ≤ ρ / 2) :
    ‖returnedState z r - φ dt‖ ≤ Real.exp (Λ * dt) * (e + (C * H + 411 * (S / 10 ^ 9)) * dt) := by
  obtain ⟨_, evalJacob, linearSolve, absTol, relTol, fuel, maxSteps, scr, scr', p, T, c, sub, hm, hE, hrel, hlay, hsub, hsteps, h⟩ := h
  obtain ⟨y₁, y', sub', hy₁, hI, rfl⟩ := odePyJacSolve_ok h
  obtain rfl := hlay.unique hy₁
  obtain ⟨q, hq, rfl⟩ := seulexIntegrator_ok hI
  have hj : (pyJacEnv (D.lib m evalJacob) linearSolve absTol relTol fuel).jacRedo
      < 2 * (pyJacEnv (D.lib m evalJacob) linearSolve absTol relTol fuel).jacRedo := by
    have := jacRedoOf_pos hrel
    show jacRedoOf relTol < 2 * jacRedoOf relTol
    linarith
  obtain ⟨hs1, hs2⟩ := hsteps scr
  have hqx : q.x = dt := by
    have := acceptedSteps_sum maxSteps 0 scr 0 _ _ q hq
    rw [hs1] at this
    linarith
  have hsol : SolvesOn (fun _ z => D.chemistry.stateRate (clip z)) φ 0 dt := by
    intro t ht
    have := hφ.solves t ht
    dsimp only at this ⊢
    rwa [clip_of_nonNegative (hφ.nonNegative t ht)]
  have he0 : 0 ≤ e := (norm_nonneg _).trans he
  have hC0 : 0 ≤ C := by rw [hC]; positivity
  have key := inexact_equations_from hm (pyJacEnv (D.lib m evalJacob) linearSolve absTol relTol fuel) hE
    hj maxSteps scr 0 dt hdt z sub hsub q hq _ φ e he0 he dt hqx.le hsol ρ B Λ 0 Lj H (S / 10 ^ 9) C
    (tube_lipschitz hΛ hφ) (tube_diff hD hn hS hφ) hΛ le_rfl hB hL0 (by positivity)
    (by rw [hC, add_zero, add_zero]) hs2 hHL hHB (by rw [sub_zero]; exact hsmall)
  rw [hqx, sub_zero] at key
  have hle : e ≤ Real.exp (Λ * dt) * (e + (C * H + 411 * (S / 10 ^ 9)) * dt) := by
    have h1 : 1 ≤ Real.exp (Λ * dt) := Real.one_le_exp (by positivity)
    have h2 : 0 ≤ (C * H + 411 * (S / 10 ^ 9)) * dt := by positivity
    have h3 := mul_le_mul_of_nonneg_right h1 (add_nonneg he0 h2)
    linarith
  have hend := hφ.nonNegative dt ⟨hdt.le, le_rfl⟩
  exact returnedState_near (pressure_constant hφ.solves dt ⟨hdt.le, le_rfl⟩) hend he hle key rfl rfl

/-! ### The property -/

/-- **C136.** For every shipped mechanism, every solution `ψ` of the reactor that stays inside the domain up to a time `τ`, and every bound on the Jacobians, there are a step `H₀`, a distance `ρ` and
a constant `K` such that: let a cell be integrated over any number of consecutive time steps, from `t k` to `t (k + 1)`, with steps of at most `H ≤ H₀`; let the states `z k` at the start of the time steps be
those which the integration before returned, up to `d k` (what else happens in the flow). Then, as long as the bound `K (e + (H + 10^-9) t + d 0 + d 1 + …)`, with `e` the distance between `z 0` and `ψ 0`, is at most `ρ`, the states of the cell are those of the reactor at these times, up to this bound. -/
theorem C136_time_steps_follow_the_reactor (D : Package) (hD : D ∈ shipped) (hn : D.nsp = m + 1) (ψ : ℝ → Fin (m + 2) → ℝ) (τ : ℝ)
    (hψ : SolvesOn (fun _ => D.chemistry.stateRate) ψ 0 τ) (hI : ∀ t ∈ Set.Icc 0 τ, D.chemistry.Interior (ψ t)) (Lj : ℝ) (hL0 : 0 ≤ Lj) :
    ∃ H₀ ρ K : ℝ, 0 < H₀ ∧ 0 < ρ ∧ ∀ (N : Nat) (t d : Nat → ℝ) (z : Nat → Fin (m + 2) → ℝ) (q : Nat → IntegrateResult ℝ) (H : ℝ),
      t 0 = 0 → (∀ k, k < N → t k < t (k + 1)) → t N ≤ τ → 0 ≤ H → H ≤ H₀ →
      (∀ k, k < N → IntegratedTo D (z k) Lj H (t (k + 1) - t k) (q k)) → (∀ k, k < N → ‖z (k + 1) - returnedState (z k) (q k)‖ ≤ d k) →
      K * (‖z 0 - ψ 0‖ + (H + 1 / 10 ^ 9) * t N + ∑ i ∈ Finset.range N, d i) ≤ ρ →
      ∀ k, k ≤ N → ‖z k - ψ (t k)‖ ≤ K * (‖z 0 - ψ 0‖ + (H + 1 / 10 ^ 9) * t k + ∑ i ∈ Finset.range k, d i) := by
  obtain ⟨ρ, B, Λ, S, hρ, hB, hΛ, hS, hT⟩ := tube_of_interior (X := D.chemistry) hn (proper_of_shipped hD) hψ hI
  obtain ⟨C, hC⟩ : ∃ C, C = 205 * (Lj * (B + S / 10 ^ 9) + 2 * Λ * (B + S / 10 ^ 9)) + Λ * B := ⟨_, rfl⟩
  have hC0 : 0 ≤ C := by rw [hC]; positivity
  refine ⟨min (1 / (Lj + 1)) (ρ / (6 * (B + S / 10 ^ 9) + 1)), ρ / 2, Real.exp (Λ * |τ|) * (1 + C + 411 * S), lt_min (by positivity) (by positivity), by positivity, ?_⟩
  intro N t d z q H ht0 ht htN hH hHH hq hz hsmall
  have hd : ∀ k, k < N → 0 ≤ d k := fun k hk => (norm_nonneg _).trans (hz k hk)
  have hmono : ∀ k j, k ≤ j → j ≤ N → t k ≤ t j := by
    intro k j hkj
    induction j, hkj using Nat.le_induction with
    | base => intro _; exact le_rfl
    | succ j hj ih => intro h; exact (ih (by omega)).trans (ht j (by omega)).le
  have hpos : ∀ k, k ≤ N → 0 ≤ t k := fun k hk => ht0 ▸ hmono 0 k (Nat.zero_le k) hk
  have hsum : ∀ k j, k ≤ j → j ≤ N → ∑ i ∈ Finset.range k, d i ≤ ∑ i ∈ Finset.range j, d i := fun k j hkj hj =>
    Finset.sum_le_sum_of_subset_of_nonneg (Finset.range_mono hkj) fun i hi _ => hd i (by have := Finset.mem_range.1 hi; omega)
  have hsum0 : ∀ k, k ≤ N → 0 ≤ ∑ i ∈ Finset.range k, d i := fun k hk => Finset.sum_nonneg fun i hi => hd i (by have := Finset.mem_range.1 hi; omega)
  obtain ⟨A, hA⟩ : ∃ A, A = C * H + 411 * (S / 10 ^ 9) := ⟨_, rfl⟩
  have hA0 : 0 ≤ A := by rw [hA]; positivity
  obtain ⟨e, he⟩ : ∃ e, e = ‖z 0 - ψ 0‖ := ⟨_, rfl⟩
  have he0 : 0 ≤ e := by rw [he]; exact norm_nonneg _
  have hN0 := hpos N le_rfl
  have hle : ∀ k, k ≤ N → Real.exp (Λ * t k) * (e + A * t k + ∑ i ∈ Finset.range k, d i) ≤
      Real.exp (Λ * |τ|) * (1 + C + 411 * S) * (e + (H + 1 / 10 ^ 9) * t k + ∑ i ∈ Finset.range k, d i) := by
    intro k hk
    have h0 := hpos k hk
    have h1 : Real.exp (Λ * t k) ≤ Real.exp (Λ * |τ|) :=
      Real.exp_le_exp.2 (mul_le_mul_of_nonneg_left (((hmono k N hk le_rfl).trans htN).trans (le_abs_self _)) hΛ)
    have h2 : e + A * t k + ∑ i ∈ Finset.range k, d i ≤ (1 + C + 411 * S) * (e + (H + 1 / 10 ^ 9) * t k + ∑ i ∈ Finset.range k, d i) := by
      have hs := hsum0 k hk
      have p1 : 0 ≤ (C + 411 * S) * (e + ∑ i ∈ Finset.range k, d i) := by positivity
      have p2 : 0 ≤ (H + 1 / 10 ^ 9 + C / 10 ^ 9 + 411 * S * H) * t k := by positivity
      have e3 : (1 + C + 411 * S) * (e + (H + 1 / 10 ^ 9) * t k + ∑ i ∈ Finset.range k, d i) =
          e + A * t k + ∑ i ∈ Finset.range k, d i + (C + 411 * S) * (e + ∑ i ∈ Finset.range k, d i) + (H + 1 / 10 ^ 9 + C / 10 ^ 9 + 411 * S * H) * t k := by
        rw [hA]; ring
      linarith
    rw [mul_assoc]
    exact mul_le_mul h1 h2 (by have := hsum0 k hk; positivity) (Real.exp_pos _).le
  rw [← he] at hsmall
  have hH1 : H ≤ 1 / (Lj + 1) := hHH.trans (min_le_left _ _)
  have hH2 : H ≤ ρ / (6 * (B + S / 10 ^ 9) + 1) := hHH.trans (min_le_right _ _)
  rw [le_div_iff₀ (by positivity)] at hH1 hH2
  have key : ∀ k, k ≤ N → ‖z k - ψ (t k)‖ ≤ Real.exp (Λ * t k) * (e + A * t k + ∑ i ∈ Finset.range k, d i) := by
    intro k
    induction k with
    | zero => intro _; rw [ht0]; simp [he]
    | succ k ih =>
      intro hk
      have hi := ih (by omega)
      have hdt : 0 < t (k + 1) - t k := sub_pos.2 (ht k (by omega))
      have h0 := hpos k (by omega)
      have h1 := hpos (k + 1) hk
      have hs := hsum0 k (by omega)
      have hdk := hd k (by omega)
      have grow : Real.exp (Λ * (t (k + 1) - t k)) * (Real.exp (Λ * t k) * (e + A * t k + ∑ i ∈ Finset.range k, d i) + A * (t (k + 1) - t k)) + d k ≤
          Real.exp (Λ * t (k + 1)) * (e + A * t (k + 1) + ∑ i ∈ Finset.range (k + 1), d i) := by
        have e1 : Real.exp (Λ * t (k + 1)) = Real.exp (Λ * (t (k + 1) - t k)) * Real.exp (Λ * t k) := by rw [← Real.exp_add]; congr 1; ring
        have e2 : Real.exp (Λ * (t (k + 1) - t k)) ≤ Real.exp (Λ * t (k + 1)) := Real.exp_le_exp.2 (mul_le_mul_of_nonneg_left (by linarith) hΛ)
        have e3 : 1 ≤ Real.exp (Λ * t (k + 1)) := Real.one_le_exp (by positivity)
        have e4 := mul_le_mul_of_nonneg_right e2 (mul_nonneg hA0 hdt.le)
        have e5 := mul_le_mul_of_nonneg_right e3 hdk
        rw [Finset.sum_range_succ]
        have e6 : Real.exp (Λ * (t (k + 1) - t k)) * (Real.exp (Λ * t k) * (e + A * t k + ∑ i ∈ Finset.range k, d i) + A * (t (k + 1) - t k)) =
            Real.exp (Λ * t (k + 1)) * (e + A * t k + ∑ i ∈ Finset.range k, d i) + Real.exp (Λ * (t (k + 1) - t k)) * (A * (t (k + 1) - t k)) := by rw [e1]; ring
        have e7 : Real.exp (Λ * t (k + 1)) * (e + A * t (k + 1) + (∑ i ∈ Finset.range k, d i + d k)) =
            Real.exp (Λ * t (k + 1)) * (e + A * t k + ∑ i ∈ Finset.range k, d i) + Real.exp (Λ * t (k + 1)) * (A * (t (k + 1) - t k)) +
              Real.exp (Λ * t (k + 1)) * d k := by ring
        rw [e6, e7]
        linarith
      have last : Real.exp (Λ * t (k + 1)) * (e + A * t (k + 1) + ∑ i ∈ Finset.range (k + 1), d i) ≤ ρ / 2 := by
        refine (hle (k + 1) hk).trans (le_trans (mul_le_mul_of_nonneg_left ?_ (by positivity)) hsmall)
        have a1 := mul_le_mul_of_nonneg_left (hmono (k + 1) N hk le_rfl) (by positivity : 0 ≤ H + 1 / 10 ^ 9)
        have a2 := hsum (k + 1) N hk le_rfl
        linarith
      have hcell := cell_near D hD hn (z k) hdt (hq k (by omega)) (tube_shift hT h0 (d := t (k + 1) - t k) (by have := hmono (k + 1) N hk le_rfl; linarith))
        hΛ hB hS hL0 hH (by simpa using hi) hC (by linarith) (by linarith) (by rw [← hA]; linarith)
      rw [← hA] at hcell
      rw [add_sub_cancel] at hcell
      have := norm_sub_le_norm_sub_add_norm_sub (z (k + 1)) (returnedState (z k) (q k)) (ψ (t (k + 1)))
      have := hz k (by omega)
      linarith
  intro k hk
  rw [← he]
  exact (key k hk).trans (hle k hk)

/-- **C136.** There are such solutions: from every state inside the domain starts a solution of the reactor that stays inside the domain up to some time. -/
theorem C136_solutions_inside_the_domain (D : Package) (hD : D ∈ shipped) (hn : D.nsp = m + 1) (z : Fin (m + 2) → ℝ) (hz : D.chemistry.Interior z) :
    ∃ τ : ℝ, 0 < τ ∧ ∃ ψ : ℝ → Fin (m + 2) → ℝ, ψ 0 = z ∧ SolvesOn (fun _ => D.chemistry.stateRate) ψ 0 τ ∧ ∀ t ∈ Set.Icc 0 τ, D.chemistry.Interior (ψ t) := by
  obtain ⟨b, ρ, B, Λ, S, φ, hb, -, -, -, -, h0, hφ⟩ := exists_tube (X := D.chemistry) hn (proper_of_shipped hD) hz
  obtain ⟨τ, hτ, hτb, hP⟩ := start_in hb h0 (hφ.solves 0 ⟨le_rfl, hb.le⟩).continuousWithinAt
    ((admissible_eventually (X := D.chemistry) hn (proper_of_shipped hD) hz).and ((betweenFits_eventually hz.fits).and
      (((lipAt_entry z 0).continuousAt.eventually_const_lt hz.inside.1).and ((lipAt_entry z 0).continuousAt.eventually_lt_const hz.inside.2))))
  refine ⟨τ, hτ, φ, h0, fun t ht => (hφ.solves t ⟨ht.1, ht.2.trans hτb⟩).mono (Set.Icc_subset_Icc le_rfl hτb), fun t ht => ?_⟩
  obtain ⟨h1, h2, h3, h4⟩ := hP t ht
  obtain ⟨a1, a2⟩ := h1 (hφ.nonNegative t ⟨ht.1, ht.2.trans hτb⟩)
  exact ⟨a1, ⟨h3, h4⟩, h2, a2⟩

end

/-! ### Cases

That there are integrations as the theorem assumes them (`IntegratedTo`) is C121. -/

/-- A case of the hypotheses: the reactor of drm19 filled with hot compressed air has a solution that stays inside the domain, and cells follow it over any number of time steps. -/
example (Lj : ℝ) (hL0 : 0 ≤ Lj) : ∃ p τ : ℝ, 0 < τ ∧ ∃ ψ : ℝ → Fin 22 → ℝ, ψ 0 = hotAirState p ∧ SolvesOn (fun _ => drm19.chemistry.stateRate) ψ 0 τ ∧
    ∃ H₀ ρ K : ℝ, 0 < H₀ ∧ 0 < ρ ∧ ∀ (N : Nat) (t : Nat → ℝ) (z : Nat → Fin 22 → ℝ) (q : Nat → IntegrateResult ℝ) (H : ℝ),
      t 0 = 0 → (∀ k, k < N → t k < t (k + 1)) → t N ≤ τ → 0 ≤ H → H ≤ H₀ → z 0 = hotAirState p →
      (∀ k, k < N → IntegratedTo drm19 (z k) Lj H (t (k + 1) - t k) (q k)) → (∀ k, k < N → z (k + 1) = returnedState (z k) (q k)) →
      K * ((H + 1 / 10 ^ 9) * t N) ≤ ρ → ‖z N - ψ (t N)‖ ≤ K * ((H + 1 / 10 ^ 9) * t N) := by
  obtain ⟨p, hp⟩ := hotAirState_interior
  obtain ⟨τ, hτ, ψ, h0, hs, hI⟩ := C136_solutions_inside_the_domain drm19 (by simp [shipped]) rfl _ hp
  obtain ⟨H₀, ρ, K, h1, h2, h⟩ := C136_time_steps_follow_the_reactor drm19 (by simp [shipped]) rfl ψ τ hs hI Lj hL0
  refine ⟨p, τ, hτ, ψ, h0, hs, H₀, ρ, K, h1, h2, fun N t z q H a1 a2 a3 a4 a5 a6 a7 a8 a9 => ?_⟩
  have := h N t (fun _ => 0) z q H a1 a2 a3 a4 a5 a7 (fun k hk => by rw [a8 k hk, sub_self, norm_zero]) (by rw [a6, h0]; simpa using a9) N le_rfl
  rw [a6, h0] at this
  simpa using this

end DLB
