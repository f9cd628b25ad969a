import Verif.Props.ReactorConvergence
/-
C119: the reactor of every shipped mechanism has a solution, and cells that are integrated with small steps follow it.
-/
set_option autoImplicit false
set_option linter.unusedSectionVars false

namespace DLB
open Spec
open scoped Topology

section
variable {m : Nat}

/-- **C119.** For every shipped mechanism and every state inside the domain: the equations of the reactor have a
solution that starts at the state, along which no mass fraction is negative and the state remains admissible. -/
theorem C119_reactor_has_a_solution (D : Package) (hD : D ∈ shipped) (hn : D.nsp = m + 1) (z : Fin (m + 2) → ℝ)
    (hz : D.chemistry.Interior z) :
    ∃ b : ℝ, 0 < b ∧ ∃ φ : ℝ → Fin (m + 2) → ℝ, φ 0 = z ∧ SolvesOn (fun _ => D.chemistry.stateRate) φ 0 b ∧
      ∀ t ∈ Set.Icc 0 b, D.chemistry.Admissible (φ t) := by
  obtain ⟨b, ρ, B, Λ, S, φ, hb, hρ, -, -, -, h0, hφ⟩ := exists_tube (X := D.chemistry) hn (proper_of_shipped hD) hz
  refine ⟨b, hb, φ, h0, hφ.solves, fun t ht => hφ.admissible t _ ⟨ht, ?_⟩ (hφ.nonNegative t ht)⟩
  rw [sub_self, norm_zero]
  exact hρ.le

/-- **C119.** It is the only solution without negative mass fractions. -/
theorem C119_solution_unique {X : Chemistry} {φ ψ : ℝ → Fin (m + 2) → ℝ} {b ρ B Λ S : ℝ} (hφ : X.Tube φ b ρ B Λ S)
    (hρ : 0 < ρ) (hΛ : 0 ≤ Λ) (hψ : SolvesOn (fun _ => X.stateRate) ψ 0 b)
    (hpos : ∀ t ∈ Set.Icc 0 b, NonNegative (ψ t)) (h0 : ψ 0 = φ 0) : ∀ t ∈ Set.Icc 0 b, ψ t = φ t := by
  have cψ : ContinuousOn ψ (Set.Icc 0 b) := fun t ht => (hψ t ht).continuousWithinAt
  have cφ : ContinuousOn φ (Set.Icc 0 b) := fun t ht => (hφ.solves t ht).continuousWithinAt
  have hclosed : IsClosed ({t | ψ t = φ t} ∩ Set.Icc 0 b) := by
    have := (cψ.sub cφ).preimage_isClosed_of_isClosed isClosed_Icc (isClosed_singleton (x := (0 : Fin (m + 2) → ℝ)))
    convert! this using 1
    ext t
    simp only [Set.mem_inter_iff, Set.mem_ofPred_eq, Set.mem_preimage, Set.mem_singleton_iff, Pi.sub_apply, sub_eq_zero]
    exact And.comm
  have key := hclosed.Icc_subset_of_forall_mem_nhdsWithin h0 fun x hx => by
    obtain ⟨hx1, hx2⟩ := hx
    have hxI : x ∈ Set.Icc 0 b := ⟨hx2.1, hx2.2.le⟩
    obtain ⟨δ, hδ, hnear⟩ := Metric.continuousWithinAt_iff.1 ((cψ.sub cφ) x hxI) ρ hρ
    have e0 : ψ x - φ x = 0 := sub_eq_zero.2 hx1
    set c := min b (x + δ / 2) with hc
    have hxc : x < c := lt_min hx2.2 (by linarith)
    have hsub : Set.Icc x c ⊆ Set.Icc 0 b := fun t ht => ⟨hx2.1.trans ht.1, ht.2.trans (min_le_left _ _)⟩
    have hIci : ∀ t ∈ Set.Ico x c, Set.Icc 0 b ∈ 𝓝[≥] t := fun t ht =>
      Icc_mem_nhdsGE_of_mem ⟨hx2.1.trans ht.1, lt_of_lt_of_le ht.2 (min_le_left _ _)⟩
    have huniq := ODE_solution_unique_of_mem_Icc_right (v := fun _ => X.stateRate) (K := Λ.toNNReal) (f := ψ) (g := φ)
      (a := x) (b := c) (s := fun t => {z | Spec.Near φ 0 b ρ t z ∧ NonNegative z})
      (fun t ht => LipschitzOnWith.of_dist_le_mul fun z hz z' hz' => by
        rw [dist_eq_norm, dist_eq_norm, Real.coe_toNNReal _ hΛ]
        exact hφ.lipschitz t z t z' hz.1 hz'.1 hz.2 hz'.2)
      (cψ.mono hsub) (fun t ht => (hψ t (hsub ⟨ht.1, ht.2.le⟩)).mono_of_mem_nhdsWithin (hIci t ht))
      (fun t ht => by
        have htI := hsub ⟨ht.1, ht.2.le⟩
        refine ⟨⟨htI, ?_⟩, hpos t htI⟩
        have := hnear htI (by
          rw [Real.dist_eq, abs_of_nonneg (by linarith [ht.1])]
          have := lt_of_lt_of_le ht.2 (min_le_right b (x + δ / 2))
          linarith)
        simp only [Pi.sub_apply] at this
        rw [e0, dist_zero_right] at this
        exact this.le)
      (cφ.mono hsub) (fun t ht => (hφ.solves t (hsub ⟨ht.1, ht.2.le⟩)).mono_of_mem_nhdsWithin (hIci t ht))
      (fun t ht => by
        have htI := hsub ⟨ht.1, ht.2.le⟩
        refine ⟨⟨htI, ?_⟩, hφ.nonNegative t htI⟩
        rw [sub_self, norm_zero]
        exact hρ.le)
      hx1
    exact Filter.mem_of_superset (Ioo_mem_nhdsGT hxc) fun t ht => huniq ⟨ht.1.le, ht.2.le⟩
  exact fun t ht => key ht

end

section
variable {m : Nat}

/-- What is returned by the integration of a cell is near the state `z`: temperature and mass fractions of all
species but the last up to `err`, the last one up to `m err`. -/
def ReturnsNear (r : IntegrateResult ℝ) (z : Fin (m + 2) → ℝ) (err : ℝ) : Prop :=
  |r.T - z 0| ≤ err ∧ (∀ j, j < m → |r.c.getD j 0 - stateComposition z j| ≤ err) ∧
    |r.c.getD m 0 - stateComposition z m| ≤ m * err

/-- **C119.** For every shipped mechanism, every state inside the domain and every bound `Lj` on the Jacobians used,
there are a solution of the reactor that starts at the state and remains admissible, a time `b`, a step `H₀` and a constant `K` such that, whatever
the tolerances, the linear solver, the work arrays and the initial step: if a cell in this state is integrated over a
time `dt` of at most `b` with steps of at most `H ≤ H₀`, the result is the state of the reactor at `dt`, up to
`K (H + 10^-9) dt`. -/
theorem C119_cells_follow_the_reactor (D : Package) (hD : D ∈ shipped) (hn : D.nsp = m + 1)
    (z : Fin (m + 2) → ℝ) (hz : D.chemistry.Interior z) (Lj : ℝ) (hL0 : 0 ≤ Lj) :
    ∃ φ : ℝ → Fin (m + 2) → ℝ, ∃ b H₀ K : ℝ, 0 < b ∧ 0 < H₀ ∧ φ 0 = z ∧
      SolvesOn (fun _ => D.chemistry.stateRate) φ 0 b ∧ (∀ t ∈ Set.Icc 0 b, D.chemistry.Admissible (φ t)) ∧
      ∀ [MathOps ℝ], PowLaws ℝ → ∀ (evalJacob : ℝ → Vec ℝ (m + 2) → Nat → ℝ)
        (linearSolve : (Nat → ℝ) → Vec ℝ (m + 2) → Vec ℝ (m + 2)) (absTol relTol : Vec ℝ (m + 2))
        (fuel maxSteps : Nat) (scr scr' : Scratch ℝ (m + 1)) (p T : ℝ) (c : List ℝ) (dt sub H : ℝ)
        (r : IntegrateResult ℝ),
        LapackContract (m + 2) linearSolve → (∀ i, 0 < relTol i) → Layout p T c z → 0 < dt → dt ≤ b → 0 < sub →
        0 ≤ H → H ≤ H₀ →
        SmallSteps (pyJacEnv (D.lib m evalJacob) linearSolve absTol relTol fuel) maxSteps dt z sub Lj H →
        odePyJacSolve (seulexIntegrator (pyJacEnv (D.lib m evalJacob) linearSolve absTol relTol fuel)
          maxSteps) scr p T c dt sub = .ok (scr', r) →
        ReturnsNear r (φ dt) (K * (H + 1 / 10 ^ 9) * dt) := by
  obtain ⟨b, ρ, B, Λ, S, φ, hb, hρ, hB, hΛ, hS, h0, hφ⟩ := exists_tube (X := D.chemistry) hn (proper_of_shipped hD) hz
  obtain ⟨C, hC⟩ : ∃ C, C = 205 * (Lj * (B + S / 10 ^ 9) + 2 * Λ * (B + S / 10 ^ 9)) + Λ * B := ⟨_, rfl⟩
  have hC0 : 0 ≤ C := by rw [hC]; positivity
  obtain ⟨K, hK⟩ : ∃ K, K = Real.exp (Λ * b) * (C + 411 * S) := ⟨_, rfl⟩
  have hK0 : 0 ≤ K := by rw [hK]; positivity
  obtain ⟨H₀, hH0⟩ : ∃ H₀, H₀ = min (1 / (Lj + 1)) (min 1 (ρ / (6 * (B + S / 10 ^ 9) + 1))) := ⟨_, rfl⟩
  have hH0pos : 0 < H₀ := by rw [hH0]; refine lt_min (by positivity) (lt_min one_pos (by positivity))
  obtain ⟨b', hb'⟩ : ∃ b', b' = min b (ρ / 2 / (2 * K + 1)) := ⟨_, rfl⟩
  have hb'b : b' ≤ b := by rw [hb']; exact min_le_left _ _
  have hb'0 : 0 < b' := by rw [hb']; exact lt_min hb (by positivity)
  have restrict : ∀ c, 0 < c → c ≤ b → D.chemistry.Tube φ c ρ B Λ S := fun c _ hcb => by
    have mono : ∀ t x, Spec.Near φ 0 c ρ t x → Spec.Near φ 0 b ρ t x := fun t x h =>
      ⟨⟨h.1.1, h.1.2.trans hcb⟩, h.2⟩
    exact ⟨fun t ht => (hφ.solves t ⟨ht.1, ht.2.trans hcb⟩).mono (Set.Icc_subset_Icc le_rfl hcb),
      fun t x h => hφ.admissible t x (mono t x h), fun t x h => hφ.terms t x (mono t x h),
      fun t x h => hφ.bound t x (mono t x h),
      fun t x t' x' h h' => hφ.lipschitz t x t' x' (mono t x h) (mono t' x' h'),
      fun t ht => hφ.nonNegative t ⟨ht.1, ht.2.trans hcb⟩⟩
  refine ⟨φ, b', H₀, K, hb'0, hH0pos, h0, (restrict b' hb'0 hb'b).solves, fun t ht => ?_, ?_⟩
  · have ht' : t ∈ Set.Icc 0 b := ⟨ht.1, ht.2.trans hb'b⟩
    refine hφ.admissible t _ ⟨ht', ?_⟩ (hφ.nonNegative t ht')
    rw [sub_self, norm_zero]
    exact hρ.le
  intro _ hm evalJacob linearSolve absTol relTol fuel maxSteps scr scr' p T c dt sub H r hE hrel hlay hdt hdtb hsub hH hHH
    hsteps h
  have hdtb' := hdtb.trans hb'b
  obtain ⟨err, herr⟩ : ∃ err, err = Real.exp (Λ * dt) * ((C * H + 411 * (S / 10 ^ 9)) * dt) := ⟨_, rfl⟩
  have hle : err ≤ K * (H + 1 / 10 ^ 9) * dt := by
    rw [herr, hK]
    have h1 : Real.exp (Λ * dt) ≤ Real.exp (Λ * b) := Real.exp_le_exp.2 (mul_le_mul_of_nonneg_left hdtb' hΛ)
    have h2 : (C * H + 411 * (S / 10 ^ 9)) * dt ≤ ((C + 411 * S) * (H + 1 / 10 ^ 9)) * dt := by
      refine mul_le_mul_of_nonneg_right ?_ hdt.le
      have e : (C + 411 * S) * (H + 1 / 10 ^ 9) = C * H + 411 * (S / 10 ^ 9) + (C / 10 ^ 9 + 411 * S * H) := by ring
      rw [e]
      have : 0 ≤ C / 10 ^ 9 + 411 * S * H := by positivity
      linarith
    calc _ ≤ Real.exp (Λ * b) * (((C + 411 * S) * (H + 1 / 10 ^ 9)) * dt) :=
          mul_le_mul h1 h2 (by positivity) (Real.exp_pos _).le
      _ = _ := by ring
  have hH1 : H ≤ 1 / (Lj + 1) := hHH.trans (by rw [hH0]; exact min_le_left _ _)
  have hH2 : H ≤ 1 := hHH.trans (by rw [hH0]; exact (min_le_right _ _).trans (min_le_left _ _))
  have hH3 : H ≤ ρ / (6 * (B + S / 10 ^ 9) + 1) := hHH.trans (by rw [hH0]; exact (min_le_right _ _).trans (min_le_right _ _))
  have hsmall : K * (H + 1 / 10 ^ 9) * dt ≤ ρ / 2 := by
    have h1 : dt ≤ ρ / 2 / (2 * K + 1) := hdtb.trans (by rw [hb']; exact min_le_right _ _)
    rw [le_div_iff₀ (by positivity)] at h1
    have h2 : K * (H + 1 / 10 ^ 9) ≤ 2 * K + 1 := by
      have : H + 1 / 10 ^ 9 ≤ 2 := by norm_num at hH2 ⊢; linarith
      have := mul_le_mul_of_nonneg_left this hK0
      linarith
    have := mul_le_mul_of_nonneg_right h2 hdt.le
    linarith
  rw [← h0] at hlay hsteps
  obtain ⟨k1, k2, k3⟩ := C118_cell_follows_the_reactor hm D hD hn evalJacob linearSolve hE absTol relTol hrel fuel maxSteps scr
    scr' p T c dt sub hdt hsub r h φ hlay ρ B Λ S Lj H C err (restrict dt hdt hdtb') hΛ hB hS hL0 hsteps hC herr
    (by
      rw [le_div_iff₀ (by positivity)] at hH1
      linarith)
    (by
      rw [le_div_iff₀ (by positivity)] at hH3
      linarith) (hle.trans hsmall)
  refine ⟨k1.trans hle, fun j hj => ?_, k3.trans (mul_le_mul_of_nonneg_left hle (Nat.cast_nonneg m))⟩
  have := (k2 ⟨j, hj⟩).trans hle
  have e : stateComposition (φ dt) j = φ dt (Fin.castSucc (⟨j, hj⟩ : Fin m)).succ := by
    unfold stateComposition complement
    rw [if_neg (by omega)]
    dsimp only
    rw [dif_pos hj]
    rfl
  rw [e]
  exact this

/-- **C119.** The same for a time step of the load-balanced chemistry model on any number of ranks: the reaction rates of
every cell that is not mapped, is in the state `z`, and is integrated over a time step of at most `b` with steps of at most `H ≤ H₀`, are
the density times the mean rates of change of the mass fractions in the reactor, up to `K (H + 10^-9)` times the density
(`m` times that for the last species). -/
theorem C119_reaction_rates (D : Package) (hD : D ∈ shipped) (hnsp : D.nsp = m + 1)
    (z : Fin (m + 2) → ℝ) (hz : D.chemistry.Interior z) (Lj : ℝ) (hL0 : 0 ≤ Lj) :
    ∃ φ : ℝ → Fin (m + 2) → ℝ, ∃ b H₀ K : ℝ, 0 < b ∧ 0 < H₀ ∧ φ 0 = z ∧
      SolvesOn (fun _ => D.chemistry.stateRate) φ 0 b ∧ (∀ t ∈ Set.Icc 0 b, D.chemistry.Admissible (φ t)) ∧
      ∀ [MathOps ℝ], PowLaws ℝ → ∀ (evalJacob : ℝ → Vec ℝ (m + 2) → Nat → ℝ)
        (linearSolve : (Nat → ℝ) → Vec ℝ (m + 2) → Vec ℝ (m + 2)) (absTol relTol : Vec ℝ (m + 2))
        (fuel maxSteps n : Nat) (base : ChemModel ℝ) (parRun : Bool)
        (sort : List (ChemistryLoad ℝ) → List (ChemistryLoad ℝ)) (clk : Fin n → Nat → ℝ) (flow : Fin n → Flow ℝ)
        (w w' : Fin n → Scratch ℝ (m + 1)) (F : Fin n → RankFields ℝ) (res : Fin n → RankFields ℝ × ℝ)
        (r : Fin n) (i : Nat) (H : ℝ),
        LapackContract (m + 2) linearSolve → (∀ i, 0 < relTol i) →
        0 < n → base.nSpecie = m + 1 → base.chemistry = true → (parRun = true ∨ n = 1) → (∀ l, (sort l).Perm l) →
        (∀ r i, i < (flow r).nCells → 1 / 10 ^ 15 < (flow r).deltaT i) →
        solveWorldW (pyJacModel base (D.lib m evalJacob) linearSolve absTol relTol fuel maxSteps) parRun
          sort clk flow w F = .ok (w', res) →
        i < (flow r).nCells → ¬ Mapped base (flow r) i → 0 ≤ (flow r).rho i → 0 < (F r).deltaTChem i →
        Layout ((flow r).p i) ((flow r).T i) (composition base (flow r) i) z →
        (flow r).deltaT i ≤ b → 0 ≤ H → H ≤ H₀ →
        SmallSteps (pyJacEnv (D.lib m evalJacob) linearSolve absTol relTol fuel) maxSteps ((flow r).deltaT i) z
          ((F r).deltaTChem i) Lj H →
        ∀ j, j < m + 1 →
          |(res r).1.RR j i - (flow r).rho i * ((stateComposition (φ ((flow r).deltaT i)) j - (flow r).Y j i) / (flow r).deltaT i)|
            ≤ (flow r).rho i * ((if j = m then m else 1) * (K * (H + 1 / 10 ^ 9))) := by
  obtain ⟨φ, b, H₀, K, hb, hH₀, h0, hs, ha, key⟩ := C119_cells_follow_the_reactor D hD hnsp z hz Lj hL0
  refine ⟨φ, b, H₀, K, hb, hH₀, h0, hs, ha, ?_⟩
  intro _ hm evalJacob linearSolve absTol relTol fuel maxSteps n base parRun sort clk flow w w' F res r i H hE hrel hn hsp
    hchem hpar hsort hdt h hi hmap hrho hsub hlay hdb hH hHH hsteps j hj
  have hd : 0 < (flow r).deltaT i := lt_trans (by positivity) (hdt r i hi)
  have hcell := fun scr scr' q ho => key hm evalJacob linearSolve absTol relTol fuel maxSteps scr scr' _ _ _ _ _ H q hE hrel
    hlay hd hdb hsub hH hHH hsteps ho
  have := world_rate_near (D.lib m evalJacob) linearSolve absTol relTol hrel fuel
    maxSteps hn base hsp hchem parRun hpar sort hsort clk flow hdt w w' F res h r i hi hmap hrho j hj
    (stateComposition (φ ((flow r).deltaT i)) j) ((if j = m then m else 1) * (K * (H + 1 / 10 ^ 9) * (flow r).deltaT i))
    fun scr scr' q ho => by
      obtain ⟨-, k2, k3⟩ := hcell scr scr' q ho
      split
      · rename_i e; rw [e]; exact k3
      · rw [Nat.cast_one, one_mul]; exact k2 j (by omega)
  refine this.trans (le_of_eq ?_)
  field_simp

end

/-! ### Cases -/

/-- Cases of the hypotheses: hot compressed air and the mechanism drm19; the reactor has a solution. -/
example : ∃ p b : ℝ, 0 < b ∧ ∃ φ : ℝ → Fin 22 → ℝ, φ 0 = hotAirState p ∧ SolvesOn (fun _ => drm19.chemistry.stateRate) φ 0 b := by
  obtain ⟨p, hp⟩ := hotAirState_interior
  obtain ⟨b, hb, φ, h0, hs, -⟩ := C119_reactor_has_a_solution drm19 (by simp [shipped]) rfl _ hp
  exact ⟨p, b, hb, φ, h0, hs⟩

end DLB
