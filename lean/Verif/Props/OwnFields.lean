import Verif.Props.WholeRun
/-
C136, for simulations whose time steps start from the work arrays and fields that the time step before left behind.
-/
set_option autoImplicit false
set_option linter.unusedSectionVars false

namespace DLB
open Spec

/-- **C136, the simulation as it runs.** For every shipped mechanism, every number of ranks and cells, every solution of the reactor for each cell that stays inside the domain up to the time `τ`, every Jacobian routine that is bounded
near the solutions, and all tolerances, there are a time `b`, distances `r₀` and `ρ` and a constant `K` such that, with the mapping switched off, for every linear solver that solves regular systems, every order of equal loads, with or
without load balancing: from every flow at a distance of at most `e` from the solutions, all work arrays and all fields, and for all lengths of the time steps between `s` and `h ≤ b`, where `s` is at most the initial chemical time
steps of the first time step and `deltaTChemMax`, and `maxSteps` times `s` is at least `h`, the simulation runs up to the time `τ` or until `K (e + (h + 10^-9) t)` exceeds `ρ`: every time step succeeds on all ranks with the work arrays and
fields that the one before left, there are flows that take up the reaction rates and the heat release, the initial chemical time steps stay at least `s`, and the temperature, pressure and mass fractions of every cell are those of its
solution up to `K (e + (h + 10^-9) t)`. -/
theorem C136_simulation_runs {m : Nat} [MathOps ℝ] (hm : PowLaws ℝ) (hq : SqrtLaws ℝ) (hr : RootLaws ℝ) (D : Package) (hD : D ∈ shipped) (hnsp : D.nsp = m + 1)
    {n : Nat} (hn : 0 < n) (nCells : Fin n → Nat) (ψ : Fin n → Nat → ℝ → Fin (m + 2) → ℝ) (τ : ℝ)
    (hψ : ∀ r i, i < nCells r → SolvesOn (fun _ => D.chemistry.stateRate) (ψ r i) 0 τ) (hI : ∀ r i, i < nCells r → ∀ t ∈ Set.Icc 0 τ, D.chemistry.Interior (ψ r i t))
    (evalJacob : ℝ → Vec ℝ (m + 2) → Nat → ℝ) (hJ : ∀ r i, i < nCells r → ∀ t ∈ Set.Icc 0 τ, JacobianBoundedNear (pyJacJacobian (D.lib m evalJacob)) (ψ r i t))
    (absTol relTol : Vec ℝ (m + 2)) (habs : ∀ i, 0 < absTol i) (hrel : ∀ i, 0 < relTol i) :
    ∃ b r₀ ρ K : ℝ, 0 < b ∧ 0 < r₀ ∧ 0 < ρ ∧ 0 ≤ K ∧
      ∀ (linearSolve : (Nat → ℝ) → Vec ℝ (m + 2) → Vec ℝ (m + 2)) (fuel maxSteps : Nat) (base : ChemModel ℝ) (parRun : Bool)
        (sort : List (ChemistryLoad ℝ) → List (ChemistryLoad ℝ)) (hf : Vec ℝ (m + 1)) (N : Nat) (clk : Nat → Fin n → Nat → ℝ) (flow₀ : Fin n → Flow ℝ)
        (w₀ : Fin n → Scratch ℝ (m + 1)) (F₀ : Fin n → RankFields ℝ) (t : Nat → ℝ) (e h s : ℝ),
        LapackContract (m + 2) linearSolve → 1 ≤ fuel → 1 ≤ base.fuel → base.nSpecie = m + 1 → base.chemistry = true →
        base.mapper.active = false → (parRun = true ∨ n = 1) → (∀ l, (sort l).Perm l) →
        (∀ r, (flow₀ r).nCells = nCells r) →
        (∀ r i, i < nCells r → (flow₀ r).rho i ≠ 0 ∧ NonNegative (cellState (m := m) (flow₀ r) i) ∧ ∑ j ∈ Finset.range (m + 1), (flow₀ r).Y j i = 1 ∧
          ‖cellState (flow₀ r) i - ψ r i 0‖ ≤ e ∧ s ≤ (F₀ r).deltaTChem i) →
        t 0 = 0 → (∀ k, s ≤ t (k + 1) - t k ∧ t (k + 1) - t k ≤ h) → 1 / 10 ^ 15 < s → s ≤ base.deltaTChemMax → h ≤ maxSteps * s →
        t N ≤ τ → 0 ≤ e → h ≤ b → K * (e + (h + 1 / 10 ^ 9) * t N) ≤ ρ →
        ∃ (flow : Nat → Fin n → Flow ℝ) (w : Nat → Fin n → Scratch ℝ (m + 1)) (F : Nat → Fin n → RankFields ℝ) (next : Nat → Fin n → ℝ),
          (∀ r, flow 0 r = { flow₀ r with deltaT := fun _ => t 1 - t 0 }) ∧ w 0 = w₀ ∧ F 0 = F₀ ∧
          (∀ k, k ≤ N → ∀ r, (flow k r).nCells = nCells r ∧
            ∀ i, i < nCells r → ((flow k r).deltaT i = t (k + 1) - t k ∧ s ≤ (F k r).deltaTChem i) ∧ (flow k r).rho i = (flow₀ r).rho i) ∧
          (∀ k, k < N → solveWorldW (pyJacModel base (D.lib m evalJacob) linearSolve absTol relTol fuel maxSteps) parRun sort (clk k) (flow k) (w k) (F k) =
              .ok (w (k + 1), fun r => (F (k + 1) r, next k r)) ∧
            ∀ r i, i < nCells r → TakesUp D.chemistry hf r₀ (flow k r) (flow (k + 1) r) (F (k + 1) r).RR i) ∧
          ∀ k, k ≤ N → ∀ r i, i < nCells r → ‖cellState (flow k r) i - ψ r i (t k)‖ ≤ K * (e + (h + 1 / 10 ^ 9) * t k) := by
  obtain ⟨b, r₀, ρ, K, hb, hr₀, hρ, hK, key⟩ := C136_simulation_follows_the_reactors hm hq hr D hD hnsp hn nCells ψ τ hψ hI evalJacob hJ absTol relTol habs hrel
  refine ⟨b, r₀, ρ, K, hb, hr₀, hρ, hK, ?_⟩
  intro linearSolve fuel maxSteps base parRun sort hf N clk flow₀ w₀ F₀ t e h s hE hfuel hbfuel hsp hchem hmapper hpar hsort hnc hstart ht0 hdt hs hsmax hhs htN he hhb hbound
  have hs0 : 0 < s := lt_trans (by norm_num) hs
  have hh : 0 ≤ h := by linarith [(hdt 0).1, (hdt 0).2]
  have hmono : Monotone t := monotone_nat_of_le_succ fun k => by linarith [(hdt k).1]
  have hmap : ∀ f i, ¬ Mapped base f i := fun f i h => by
    have := h.2.1.1
    rw [hmapper] at this
    exact absurd this (by simp)
  -- the hypotheses of the theorem on the simulation, from what is kept along it
  have apply : ∀ (M : Nat) (hM : M ≤ N) (flow : Nat → Fin n → Flow ℝ) (w : Nat → Fin n → Scratch ℝ (m + 1)) (F : Nat → Fin n → RankFields ℝ) (next : Nat → Fin n → ℝ),
      (∀ r, flow 0 r = { flow₀ r with deltaT := fun _ => t 1 - t 0 }) →
      (∀ k, k ≤ M → ∀ r, (flow k r).nCells = nCells r ∧ ∀ i, i < nCells r → ((flow k r).deltaT i = t (k + 1) - t k ∧ s ≤ (F k r).deltaTChem i) ∧ (flow k r).rho i = (flow₀ r).rho i) →
      (∀ k, k < M → solveWorldW (pyJacModel base (D.lib m evalJacob) linearSolve absTol relTol fuel maxSteps) parRun sort (clk k) (flow k) (w k) (F k) =
          .ok (w (k + 1), fun r => (F (k + 1) r, next k r)) ∧
        ∀ r i, i < nCells r → TakesUp D.chemistry hf r₀ (flow k r) (flow (k + 1) r) (F (k + 1) r).RR i) → _ := fun M hM flow w F next h1 h2 h3 =>
    key linearSolve fuel maxSteps base parRun sort hf M clk flow w (fun k => w (k + 1)) F (fun k r => (F (k + 1) r, next k r)) t (fun k r i => cellState (flow k r) i) e h
      hE hfuel hbfuel hsp hchem
      (fun ha => by rw [hmapper] at ha; exact absurd ha (by simp)) hpar hsort (fun k hk r => (h2 k hk r).1)
      (fun k hk r i hi => by
        obtain ⟨⟨a1, a2⟩, a3⟩ := (h2 k hk r).2 i hi
        rw [a1]
        exact ⟨cellState_layout hsp _ _, hmap _ _, by rw [a3]; exact (hstart r i hi).1, hs.trans_le (hdt k).1, (hdt k).2, hs0.trans_le a2,
          (hdt k).2.trans (hhs.trans (mul_le_mul_of_nonneg_left a2 (Nat.cast_nonneg _)))⟩)
      (fun r i hi => by
        rw [h1 r]
        obtain ⟨-, a2, a3, a4, -⟩ := hstart r i hi
        exact ⟨a2, a3, a4⟩)
      ht0 (fun k hk r i hi => by rw [((h2 k hk.le r).2 i hi).1.1]; ring) ((hmono hM).trans htN) he hh hhb
      (le_trans (mul_le_mul_of_nonneg_left (by
        have := mul_le_mul_of_nonneg_left (hmono hM) (by positivity : 0 ≤ h + 1 / 10 ^ 9)
        linarith) hK) hbound) h3
  have main : ∀ M, M ≤ N → ∃ (flow : Nat → Fin n → Flow ℝ) (w : Nat → Fin n → Scratch ℝ (m + 1)) (F : Nat → Fin n → RankFields ℝ) (next : Nat → Fin n → ℝ),
      (∀ r, flow 0 r = { flow₀ r with deltaT := fun _ => t 1 - t 0 }) ∧ w 0 = w₀ ∧ F 0 = F₀ ∧
      (∀ k, k ≤ M → ∀ r, (flow k r).nCells = nCells r ∧ ∀ i, i < nCells r → ((flow k r).deltaT i = t (k + 1) - t k ∧ s ≤ (F k r).deltaTChem i) ∧ (flow k r).rho i = (flow₀ r).rho i) ∧
      (∀ k, k < M → solveWorldW (pyJacModel base (D.lib m evalJacob) linearSolve absTol relTol fuel maxSteps) parRun sort (clk k) (flow k) (w k) (F k) =
          .ok (w (k + 1), fun r => (F (k + 1) r, next k r)) ∧
        ∀ r i, i < nCells r → TakesUp D.chemistry hf r₀ (flow k r) (flow (k + 1) r) (F (k + 1) r).RR i) := by
    intro M
    induction M with
    | zero =>
      intro _
      refine ⟨fun _ r => { flow₀ r with deltaT := fun _ => t 1 - t 0 }, fun _ => w₀, fun _ => F₀, fun _ _ => 0, fun _ => rfl, rfl, rfl, fun k hk r => ?_, fun k hk => absurd hk (Nat.not_lt_zero k)⟩
      obtain rfl : k = 0 := by omega
      exact ⟨hnc r, fun i hi => ⟨⟨rfl, (hstart r i hi).2.2.2.2⟩, rfl⟩⟩
    | succ M ih =>
      intro hM
      obtain ⟨flow, w, F, next, h1, hw, hF, h2, h3⟩ := ih (by omega)
      obtain ⟨-, w₁, res₁, hres₁, f', hf', htake⟩ := apply M (by omega) flow w F next h1 h2 h3
      refine ⟨fun k => if k ≤ M then flow k else fun r => { f' r with deltaT := fun _ => t (M + 2) - t (M + 1), rho := (flow M r).rho }, fun k => if k ≤ M then w k else w₁,
        fun k => if k ≤ M then F k else fun r => (res₁ r).1, fun k => if k < M then next k else fun r => (res₁ r).2,
        fun r => by simpa using h1 r, by simpa using hw, by simpa using hF, fun k hk r => ?_, fun k hk => ?_⟩
      · dsimp only
        by_cases hk' : k ≤ M
        · rw [if_pos hk', if_pos hk']
          exact h2 k hk' r
        · obtain rfl : k = M + 1 := by omega
          rw [if_neg hk', if_neg hk']
          refine ⟨hf' r, fun i hi => ⟨⟨rfl, ?_⟩, ((h2 M le_rfl r).2 i hi).2⟩⟩
          obtain ⟨⟨a1, a2⟩, -⟩ := (h2 M le_rfl r).2 i hi
          refine le_trans (le_min (le_min a2 ?_) hsmax) (htake r i hi).2
          rw [a1]
          exact (hdt M).1
      · dsimp only
        by_cases hk' : k < M
        · rw [if_pos hk'.le, if_pos (by omega : k + 1 ≤ M), if_pos hk'.le, if_pos hk'.le, if_pos (by omega : k + 1 ≤ M), if_pos hk', if_pos (by omega : k + 1 ≤ M)]
          exact h3 k hk'
        · obtain rfl : k = M := by omega
          rw [if_pos le_rfl, if_neg (by omega : ¬ k + 1 ≤ k), if_pos le_rfl, if_pos le_rfl, if_neg (by omega : ¬ k + 1 ≤ k), if_neg hk', if_neg (by omega : ¬ k + 1 ≤ k)]
          exact ⟨hres₁, fun r i hi => ⟨(htake r i hi).1.pressure, (htake r i hi).1.species, (htake r i hi).1.near, (htake r i hi).1.enthalpy⟩⟩
  obtain ⟨flow, w, F, next, h1, hw, hF, h2, h3⟩ := main N le_rfl
  exact ⟨flow, w, F, next, h1, hw, hF, h2, h3, (apply N le_rfl flow w F next h1 h2 h3).1⟩

/-- A case: three ranks with two cells of hot compressed air each, the drm19 library with its own Jacobian, time steps of length `h`, first steps of a tenth of them in the first time step, and one attempt per step: for some `τ > 0` and all
short `h` the simulation runs for `N` time steps, each from the work arrays and fields of the one before, and its cells follow the reactor. -/
example (w₀ : Fin 3 → Scratch ℝ 21) (G : RankFields ℝ) (clk : Nat → Fin 3 → Nat → ℝ) (hf : Vec ℝ 21) (active : Bool) : letI := realMath
    ∃ p τ b ρ K : ℝ, ∃ ψ : ℝ → Fin 22 → ℝ, 0 < τ ∧ 0 < b ∧ 0 < ρ ∧ 0 ≤ K ∧ ψ 0 = hotAirState p ∧ SolvesOn (fun _ => drm19.chemistry.stateRate) ψ 0 τ ∧
      ∀ (N : Nat) (h : ℝ), 1 / 10 ^ 14 < h → h ≤ b → h ≤ 1 → N * h ≤ τ → K * ((h + 1 / 10 ^ 9) * (N * h)) ≤ ρ →
        ∃ (flow : Nat → Fin 3 → Flow ℝ) (w : Nat → Fin 3 → Scratch ℝ 21) (F : Nat → Fin 3 → RankFields ℝ) (next : Nat → Fin 3 → ℝ),
        w 0 = w₀ ∧ (∀ r, F 0 r = { G with deltaTChem := fun _ => h / 10 }) ∧
        (∀ k, k < N → solveWorldW (pyJacModel ⟨true, 21, 1, fun _ _ _ _ _ => .error .ub, 1, ⟨false, 0, 0, ⟨[], 0, 0⟩⟩, active⟩
          drm19Lib (fun a b => (columnMajor 22 a)⁻¹.mulVec b) (fun _ => 1 / 10 ^ 8) (fun _ => 1 / 10 ^ 5) 1 10) true id (clk k) (flow k) (w k) (F k) =
            .ok (w (k + 1), fun r => (F (k + 1) r, next k r))) ∧
        ∀ k, k ≤ N → ∀ r i, i < 2 → ‖cellState (flow k r) i - ψ (k * h)‖ ≤ K * ((h + 1 / 10 ^ 9) * (k * h)) := by
  let := realMath
  obtain ⟨p, hp, hs⟩ := hotAirState_smooth
  obtain ⟨τ, hτ, ψ, h0, hψ, hI⟩ := smooth_solution _ hp hs
  obtain ⟨b, r₀, ρ, K, hb, hr₀, hρ, hK, key⟩ := C136_simulation_runs (m := 20) realMath_powLaws realMath_sqrtLaws realMath_rootLaws drm19 (by simp [shipped]) rfl
    (n := 3) (by norm_num) (fun _ => 2) (fun _ _ => ψ) τ (fun _ _ _ => hψ) (fun _ _ _ t ht => (hI t ht).1) _
    (fun _ _ _ t ht => C125_jacobian_is_bounded _ (hI t ht).1 (hI t ht).2) (fun _ => 1 / 10 ^ 8) (fun _ => 1 / 10 ^ 5) (fun _ => by norm_num) (fun _ => by norm_num)
  refine ⟨p, τ, b, ρ, K, ψ, hτ, hb, hρ, hK, h0, hψ, fun N h h1 h2 h5 h3 h4 => ?_⟩
  have hh : 0 < h := lt_trans (by norm_num) h1
  have e : ∀ i, cellState (m := 20) (hotAirFlow p h) i = hotAirState p := fun i => by
    have hl := cellState_layout (m := 20) (base := ⟨true, 21, 1, fun _ _ _ _ _ => .error .ub, 1, ⟨false, 0, 0, ⟨[], 0, 0⟩⟩, active⟩) rfl (hotAirFlow p h) i
    refine hl.unique ?_
    have h := exists_layout (hotAirState p)
    have e1 : hotAirState p (Fin.last 21) = p := if_pos rfl
    rw [e1] at h
    have e2 : composition (⟨true, 21, 1, fun _ _ _ _ _ => .error .ub, 1, ⟨false, 0, 0, ⟨[], 0, 0⟩⟩, active⟩ : ChemModel ℝ)
        (hotAirFlow p 0) i = List.ofFn fun i : Fin 21 => stateComposition (hotAirState p) i.val := by
      unfold composition hotAirFlow
      rw [List.ofFn_eq_map, ← List.map_coe_finRange_eq_range, List.map_map]
      rfl
    rw [← e2] at h
    exact h
  obtain ⟨flow, w, F, next, -, hw, hF, -, a3, a4⟩ := key _ 1 10 ⟨true, 21, 1, fun _ _ _ _ _ => .error .ub, 1, ⟨false, 0, 0, ⟨[], 0, 0⟩⟩, active⟩ true id hf N clk
    (fun _ => hotAirFlow p h) w₀ (fun _ => { G with deltaTChem := fun _ => h / 10 }) (fun k => k * h) 0 h (h / 10) (lapackContract_inverse 22) le_rfl le_rfl rfl rfl rfl
    (Or.inl rfl) (fun l => List.Perm.refl _) (fun _ => rfl)
    (fun r i _ => ⟨one_ne_zero, by rw [e]; exact nonNegative_of hp.toAdmissible, stateComposition_total _, by rw [e, h0, sub_self, norm_zero], le_rfl⟩)
    (by simp) (fun k => by push_cast; constructor <;> linarith) (by rw [lt_div_iff₀ (by norm_num)]; refine lt_of_eq_of_lt ?_ h1; norm_num)
    (by show h / 10 ≤ 1; linarith) (by push_cast; linarith) h3 le_rfl h2 (by rw [zero_add]; exact h4)
  exact ⟨flow, w, F, next, hw, fun r => by rw [hF], fun k hk => (a3 k hk).1, fun k hk r i hi => by simpa using a4 k hk r i hi⟩

end DLB
