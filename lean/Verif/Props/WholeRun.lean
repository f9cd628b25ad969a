import Verif.Props.FlowRun
import Verif.Props.BoundedJacobian
/-
C136, with nothing assumed on the steps: near a solution inside the domain, all time steps that are short enough succeed on all ranks, and the
cells follow their solutions.
-/
set_option autoImplicit false
set_option linter.unusedSectionVars false

namespace DLB
open Spec
open scoped Topology

/-! ### Lemmas -/

/-- What is a short time for a state is, divided by two, a short time for all states near it. -/
theorem ShortTime.near {n : Nat} [MathOps ℝ] {E : SeulexEnv ℝ n} {z y : Vec ℝ (n + 1)} {ρ B L σ dt : ℝ} (h : ShortTime E z ρ B L σ (2 * dt)) (hdt : 0 ≤ dt)
    (hy : ∀ i, |y i - z i| ≤ ρ / 2) : ShortTime E y (ρ / 2) B L σ dt := by
  have hρ := h.ρpos
  have hB := h.Bpos
  have hL := h.Lpos
  have le : ∀ (u : Vec ℝ (n + 1)), (∀ i, |u i - y i| ≤ ρ / 2) → ∀ i, |u i - z i| ≤ ρ := fun u hu i => by
    have := abs_sub_le (u i) (y i) (z i)
    have := hu i
    have := hy i
    linarith
  obtain ⟨t1, t2, t3, t4, t5, t6, t7⟩ := h.time
  have p1 : 0 ≤ dt * L := mul_nonneg hdt hL.le
  have p2 : 0 ≤ dt * B := mul_nonneg hdt hB.le
  have p3 : 0 ≤ dt * B * ((n + 1 : Nat) : ℝ) := mul_nonneg p2 (Nat.cast_nonneg _)
  refine ⟨by positivity, hB, hL, h.σpos, fun x u hx hu => h.bound x u (by linarith) (le u hu), fun t ht => h.temp t ?_,
    fun x u hx hu => h.rows x u (by linarith) (le u hu), h.scale, by linarith, by linarith, ?_, by linarith, by linarith, by linarith, by linarith⟩
  · have := abs_sub_le t (y 0) (z 0)
    have := hy 0
    linarith
  · have e1 : 6 * (2 * dt) * B * ((n + 1 : Nat) : ℝ) = 12 * (dt * B * ((n + 1 : Nat) : ℝ)) := by ring
    have e2 : 6 * dt * B * ((n + 1 : Nat) : ℝ) = 6 * (dt * B * ((n + 1 : Nat) : ℝ)) := by ring
    rw [e1] at t3
    rw [e2]
    linarith

section
variable {m : Nat}

/-- The initial chemical time step of the next problem of a cell: what its integration returned, limited twice. -/
theorem solveSingle_sub {base : ChemModel ℝ} [MathOps ℝ] {L : PyJacLib ℝ m} {linearSolve : (Nat → ℝ) → Vec ℝ (m + 2) → Vec ℝ (m + 2)} {absTol relTol : Vec ℝ (m + 2)}
    {fuel maxSteps : Nat} {w : Scratch ℝ (m + 1)} {t : ℝ} {q : ChemistryProblem ℝ} {s : ChemistrySolution ℝ} (hdt : 1 / 10 ^ 15 < q.deltaT)
    (h : solveSingle ((pyJacModel base L linearSolve absTol relTol fuel maxSteps).forgetful w) t q = .ok s) :
    ∃ w' r, odePyJacSolve (seulexIntegrator (pyJacEnv L linearSolve absTol relTol fuel) maxSteps) w q.pi q.Ti q.c q.deltaT q.deltaTChem = .ok (w', r) ∧
      s.deltaTChem = foamMin r.subDeltaT base.deltaTChemMax := by
  obtain ⟨w', r, ho, hlen, -⟩ := solveSingle_pyJac hdt h
  refine ⟨w', r, ho, ?_⟩
  have hrd : r.deltaT = q.deltaT := by
    obtain ⟨_, _, _, _, _, rfl⟩ := odePyJacSolve_ok ho
    rfl
  have hS : (Consts.SMALL : ℝ) < q.deltaT := hdt
  have hl : subStepLoop ((pyJacModel base L linearSolve absTol relTol fuel maxSteps).forgetful w).integrate
      ((pyJacModel base L linearSolve absTol relTol fuel maxSteps).forgetful w).fuel q.pi q.Ti q.c q.deltaTChem q.deltaT = .ok (r.c, r.subDeltaT) := by
    unfold solveSingle at h
    cases hb : ((pyJacModel base L linearSolve absTol relTol fuel maxSteps).forgetful w).fuel with
    | zero =>
      rw [hb] at h
      unfold subStepLoop at h
      rw [if_pos hS] at h
      cases h
    | succ f =>
      unfold subStepLoop
      rw [if_pos hS]
      simp only [bind, Except.bind, StatefulModel.forgetful, pyJacModel, ho, Except.map]
      rw [subStepLoop_stop (by rw [hrd, sub_self])]
  unfold solveSingle at h
  rw [hl] at h
  simp only [bind, Except.bind, hlen, if_true] at h
  cases h
  rfl

/-- The initial chemical time step a cell that was integrated is left with. -/
theorem world_sub [MathOps ℝ] {n : Nat} (hn : 0 < n) {base : ChemModel ℝ} {L : PyJacLib ℝ m} {linearSolve : (Nat → ℝ) → Vec ℝ (m + 2) → Vec ℝ (m + 2)}
    {absTol relTol : Vec ℝ (m + 2)} (hrel : ∀ i, 0 < relTol i) {fuel maxSteps : Nat} (hchem : base.chemistry = true) {parRun : Bool}
    (hpar : parRun = true ∨ n = 1) {sort : List (ChemistryLoad ℝ) → List (ChemistryLoad ℝ)}
    (hsort : ∀ l, (sort l).Perm l) {clk : Fin n → Nat → ℝ} {flow : Fin n → Flow ℝ}
    (hdt : ∀ r i, i < (flow r).nCells → 1 / 10 ^ 15 < (flow r).deltaT i)
    {w w' : Fin n → Scratch ℝ (m + 1)} {F : Fin n → RankFields ℝ} {res : Fin n → RankFields ℝ × ℝ}
    (h : solveWorldW (pyJacModel base L linearSolve absTol relTol fuel maxSteps) parRun sort clk flow w F = .ok (w', res)) (r : Fin n) (i : Nat) (hi : i < (flow r).nCells)
    (hmap : ¬ Mapped base (flow r) i) :
    ∃ scr scr' q, odePyJacSolve (seulexIntegrator (pyJacEnv L linearSolve absTol relTol fuel) maxSteps) scr ((flow r).p i) ((flow r).T i) (composition base (flow r) i)
        ((flow r).deltaT i) ((F r).deltaTChem i) = .ok (scr', q) ∧ (res r).1.deltaTChem i = min (min q.subDeltaT base.deltaTChemMax) base.deltaTChemMax := by
  have hj : jacRedoOf relTol < ((2 : Nat) : ℝ) * jacRedoOf relTol := by
    have := jacRedoOf_pos hrel
    push_cast
    linarith
  have hw := C69_solver_memory_has_no_effect base L linearSolve absTol relTol hj fuel maxSteps parRun sort clk flow w (w r) F
  rw [h] at hw
  rcases C27_every_cell_carries_rate_of_this_step hn ((pyJacModel base L linearSolve absTol relTol fuel maxSteps).forgetful (w r)) hchem parRun hpar sort
    hsort clk flow F res hw.symm r i hi with ⟨a, t, s, b, c⟩ | ⟨a, r0, t, s, b, c, d⟩
  · obtain ⟨scr', q, ho, hs⟩ := solveSingle_sub (hdt r i hi) b
    refine ⟨w r, scr', q, ho, ?_⟩
    have := c.2.1
    rw [hs, foamMin_eq_min, foamMin_eq_min] at this
    exact this
  · exact absurd a hmap

/-- All integrations over times of at most `b`, of cells within `r` of the states `s`, return a next step that is not shorter than the first one and the whole time, and their steps are as the theorems on the
reactor assume them. -/
def ShortNear [MathOps ℝ] (D : Package) (s : Set (Fin (m + 2) → ℝ)) (evalJacob : ℝ → Vec ℝ (m + 2) → Nat → ℝ) (absTol relTol : Vec ℝ (m + 2)) (r b Lj : ℝ) : Prop :=
  ∀ x ∈ s, ∀ z, ‖z - x‖ ≤ r → ∀ (linearSolve : (Nat → ℝ) → Vec ℝ (m + 2) → Vec ℝ (m + 2)) (fuel maxSteps : Nat) (dt sub : ℝ),
    LapackContract (m + 2) linearSolve → 1 ≤ fuel → 0 < dt → dt ≤ b → 0 < sub → dt ≤ maxSteps * sub →
    SmallSteps (pyJacEnv (D.lib m evalJacob) linearSolve absTol relTol fuel) maxSteps dt z sub Lj dt ∧
    ∀ scr p T c, Layout p T c z → ∃ scr' q, odePyJacSolve (seulexIntegrator (pyJacEnv (D.lib m evalJacob) linearSolve absTol relTol fuel) maxSteps)
      scr p T c dt sub = .ok (scr', q) ∧ min sub dt ≤ q.subDeltaT

theorem ShortNear.weaken [MathOps ℝ] {D : Package} {s : Set (Fin (m + 2) → ℝ)} {evalJacob : ℝ → Vec ℝ (m + 2) → Nat → ℝ} {absTol relTol : Vec ℝ (m + 2)} {r b Lj r' b' Lj' : ℝ}
    (h : ShortNear D s evalJacob absTol relTol r b Lj) (h1 : r' ≤ r) (h2 : b' ≤ b) (h3 : Lj ≤ Lj') : ShortNear D s evalJacob absTol relTol r' b' Lj' := by
  intro x hx z hz linearSolve fuel maxSteps dt sub hE hf hdt hb hsub hmax
  obtain ⟨a1, a2⟩ := h x hx z (hz.trans h1) linearSolve fuel maxSteps dt sub hE hf hdt (hb.trans h2) hsub hmax
  exact ⟨fun scr => ⟨(a1 scr).1, fun q hq => ⟨((a1 scr).2 q hq).1, fun i => (((a1 scr).2 q hq).2 i).trans h3⟩⟩, a2⟩

theorem shortNear_of_interior [MathOps ℝ] (hm : PowLaws ℝ) (hq : SqrtLaws ℝ) (hr : RootLaws ℝ) {D : Package} (hD : D ∈ shipped)
    (hn : D.nsp = m + 1) {z : Fin (m + 2) → ℝ} (hz : D.chemistry.Interior z) (evalJacob : ℝ → Vec ℝ (m + 2) → Nat → ℝ)
    (hJ : JacobianBoundedNear (pyJacJacobian (D.lib m evalJacob)) z)
    (absTol relTol : Vec ℝ (m + 2)) (habs : ∀ i, 0 < absTol i) (hrel : ∀ i, 0 < relTol i) :
    ∃ t ∈ 𝓝 z, ∃ r b Lj : ℝ, 0 < r ∧ 0 < b ∧ 0 ≤ Lj ∧ ShortNear D t evalJacob absTol relTol r b Lj := by
  have hj : jacRedoOf relTol < ((2 : Nat) : ℝ) * jacRedoOf relTol := by
    have := jacRedoOf_pos hrel
    push_cast
    linarith
  obtain ⟨b, ρ, B, L, σ, hb, hL, key⟩ := exists_shortTime (pyJacDerivatives (D.lib m evalJacob)) (pyJacJacobian (D.lib m evalJacob))
    absTol relTol habs hrel z hz.inside (pyJac_boundedNear D hD hn z hz evalJacob) hJ
  have hρ : 0 < ρ := (key (fun _ x => x) 0 0 b hb le_rfl).ρpos
  refine ⟨Metric.closedBall z (ρ / 4), Metric.closedBall_mem_nhds z (by positivity), ρ / 4, b / 2, L, by positivity, by positivity, hL, ?_⟩
  intro x hx y hy linearSolve fuel maxSteps dt sub hE hfuel hdt hdtb hsub hmax
  rw [Metric.mem_closedBall, dist_eq_norm] at hx
  have hyz : ‖y - z‖ ≤ ρ / 2 := by
    have := norm_sub_le_norm_sub_add_norm_sub y x z
    linarith
  have hS := (key linearSolve (jacRedoOf relTol) fuel (2 * dt) (by linarith) (by linarith)).near hdt.le (y := y) fun i => by
    have := (norm_le_pi_norm (y - z) i).trans hyz
    rwa [Pi.sub_apply, Real.norm_eq_abs] at this
  have run := fun scr => driver_short hm hq hr (E := pyJacEnv (D.lib m evalJacob) linearSolve absTol relTol fuel) hE hfuel hj hS hsub
    maxSteps 0 scr 0 y (StepState.init sub) le_rfl hdt (fun i => by simp) (by simp [StepState.init, hsub]) rfl (Or.inl rfl)
    (Or.inl rfl) le_rfl (by rw [sub_zero]; exact hmax)
  refine ⟨fun scr => ?_, fun scr p T c hlay => ?_⟩
  · obtain ⟨-, h2, h3⟩ := run scr
    rw [sub_zero] at h2
    refine ⟨h2, fun q hq => ⟨?_, (h3 q hq).2.2⟩⟩
    conv_rhs => rw [← h2]
    refine List.single_le_sum (fun t ht => ?_) _ (List.mem_map_of_mem hq)
    obtain ⟨q', hq', rfl⟩ := List.mem_map.1 ht
    exact (h3 q' hq').1.le
  · obtain ⟨⟨q, hq', hsub'⟩, -, -⟩ := run scr
    have hpack : packPyJac p T (fun i : Fin (m + 1) => c[i.val]'(by have := hlay.size; omega)) = y :=
      (packPyJac_layout p T c hlay.size).unique hlay
    unfold odePyJacSolve
    rw [dif_pos hlay.size, hpack]
    unfold seulexIntegrator driverSolve
    simp only [bind, Except.bind, hq']
    exact ⟨_, _, rfl, hsub' fun _ => rfl⟩

theorem shortNear_of_compact [MathOps ℝ] (hm : PowLaws ℝ) (hq : SqrtLaws ℝ) (hr : RootLaws ℝ) {D : Package} (hD : D ∈ shipped)
    (hn : D.nsp = m + 1) {s : Set (Fin (m + 2) → ℝ)} (hs : IsCompact s) (hz : ∀ z ∈ s, D.chemistry.Interior z) (evalJacob : ℝ → Vec ℝ (m + 2) → Nat → ℝ)
    (hJ : ∀ z ∈ s, JacobianBoundedNear (pyJacJacobian (D.lib m evalJacob)) z)
    (absTol relTol : Vec ℝ (m + 2)) (habs : ∀ i, 0 < absTol i) (hrel : ∀ i, 0 < relTol i) :
    ∃ r b Lj : ℝ, 0 < r ∧ 0 < b ∧ 0 ≤ Lj ∧ ShortNear D s evalJacob absTol relTol r b Lj := by
  refine hs.induction_on (p := fun s => ∃ r b Lj : ℝ, 0 < r ∧ 0 < b ∧ 0 ≤ Lj ∧ ShortNear D s evalJacob absTol relTol r b Lj) ?_ ?_ ?_ ?_
  · exact ⟨1, 1, 0, one_pos, one_pos, le_rfl, fun _ h => h.elim⟩
  · rintro s t hst ⟨r, b, Lj, h1, h2, h3, h⟩
    exact ⟨r, b, Lj, h1, h2, h3, fun x hx => h x (hst hx)⟩
  · rintro s t ⟨r, b, Lj, h1, h2, h3, h⟩ ⟨r', b', Lj', h1', h2', h3', h'⟩
    have a := h.weaken (min_le_left r r') (min_le_left b b') (le_max_left Lj Lj')
    have a' := h'.weaken (min_le_right r r') (min_le_right b b') (le_max_right Lj Lj')
    exact ⟨min r r', min b b', max Lj Lj', lt_min h1 h1', lt_min h2 h2', le_max_of_le_left h3, fun x hx => hx.elim (a x) (a' x)⟩
  · intro x hx
    obtain ⟨t, ht, ht'⟩ := shortNear_of_interior hm hq hr hD hn (hz x hx) evalJacob (hJ x hx) absTol relTol habs hrel
    exact ⟨t, mem_nhdsWithin_of_mem_nhds ht, ht'⟩

/-- One cell: the theorem on the flow, with the assumption on the steps replaced by short time steps. -/
theorem flow_short [MathOps ℝ] (hm : PowLaws ℝ) (hq : SqrtLaws ℝ) (hr : RootLaws ℝ) (D : Package) (hD : D ∈ shipped) (hnsp : D.nsp = m + 1) (ψ : ℝ → Fin (m + 2) → ℝ) (τ : ℝ)
    (hψ : SolvesOn (fun _ => D.chemistry.stateRate) ψ 0 τ) (hI : ∀ t ∈ Set.Icc 0 τ, D.chemistry.Interior (ψ t)) (evalJacob : ℝ → Vec ℝ (m + 2) → Nat → ℝ)
    (hJ : ∀ t ∈ Set.Icc 0 τ, JacobianBoundedNear (pyJacJacobian (D.lib m evalJacob)) (ψ t))
    (absTol relTol : Vec ℝ (m + 2)) (habs : ∀ i, 0 < absTol i) (hrel : ∀ i, 0 < relTol i) :
    ∃ r₁ : ℝ, 0 < r₁ ∧ ∀ r₀, 0 < r₀ → r₀ ≤ r₁ → ∃ b ρ K : ℝ, 0 < b ∧ 0 < ρ ∧
      ∀ (linearSolve : (Nat → ℝ) → Vec ℝ (m + 2) → Vec ℝ (m + 2)) (fuel maxSteps n : Nat) (base : ChemModel ℝ) (parRun : Bool)
        (sort : List (ChemistryLoad ℝ) → List (ChemistryLoad ℝ)) (hf : Vec ℝ (m + 1)) (N : Nat) (clk : Nat → Fin n → Nat → ℝ) (flow : Nat → Fin n → Flow ℝ)
        (w w' : Nat → Fin n → Scratch ℝ (m + 1)) (F : Nat → Fin n → RankFields ℝ) (res : Nat → Fin n → RankFields ℝ × ℝ)
        (r : Fin n) (i : Nat) (t : Nat → ℝ) (z : Nat → Fin (m + 2) → ℝ) (h : ℝ),
        LapackContract (m + 2) linearSolve → 1 ≤ fuel →
        0 < n → base.nSpecie = m + 1 → base.chemistry = true → (parRun = true ∨ n = 1) → (∀ l, (sort l).Perm l) →
        (∀ k, k < N → ∀ r i, i < (flow k r).nCells → 1 / 10 ^ 15 < (flow k r).deltaT i) →
        (∀ k, k < N → solveWorldW (pyJacModel base (D.lib m evalJacob) linearSolve absTol relTol fuel maxSteps) parRun
          sort (clk k) (flow k) (w k) (F k) = .ok (w' k, res k)) →
        (∀ k, k < N → i < (flow k r).nCells ∧ ¬ Mapped base (flow k r) i ∧ (flow k r).rho i ≠ 0 ∧ 0 < (F k r).deltaTChem i ∧ (flow k r).deltaT i ≤ h ∧
          (flow k r).deltaT i ≤ maxSteps * (F k r).deltaTChem i) →
        (∀ k, k ≤ N → Layout ((flow k r).p i) ((flow k r).T i) (composition base (flow k r) i) (z k)) →
        NonNegative (z 0) → ∑ j ∈ Finset.range (m + 1), (flow 0 r).Y j i = 1 →
        (∀ k, k < N → TakesUp D.chemistry hf r₀ (flow k r) (flow (k + 1) r) (res k r).1.RR i) →
        t 0 = 0 → (∀ k, k < N → t (k + 1) = t k + (flow k r).deltaT i) → t N ≤ τ → 0 ≤ h → h ≤ b →
        K * (‖z 0 - ψ 0‖ + (h + 1 / 10 ^ 9) * t N) ≤ ρ →
        (∀ k, k ≤ N → ‖z k - ψ (t k)‖ ≤ K * (‖z 0 - ψ 0‖ + (h + 1 / 10 ^ 9) * t k)) ∧
        (∀ dt sub scr p T c, 0 < dt → dt ≤ b → 0 < sub → dt ≤ maxSteps * sub → Layout p T c (z N) →
          ∃ scr' q, odePyJacSolve (seulexIntegrator (pyJacEnv (D.lib m evalJacob) linearSolve absTol relTol fuel) maxSteps) scr p T c dt sub = .ok (scr', q) ∧ min sub dt ≤ q.subDeltaT) ∧
        ∀ (clk₁ : Fin n → Nat → ℝ) (w₁ w₂ : Fin n → Scratch ℝ (m + 1)) (F₁ : Fin n → RankFields ℝ) (res₁ : Fin n → RankFields ℝ × ℝ),
          (∀ r i, i < (flow N r).nCells → 1 / 10 ^ 15 < (flow N r).deltaT i) →
          solveWorldW (pyJacModel base (D.lib m evalJacob) linearSolve absTol relTol fuel maxSteps) parRun sort clk₁ (flow N) w₁ F₁ = .ok (w₂, res₁) →
          i < (flow N r).nCells → ¬ Mapped base (flow N r) i → (flow N r).rho i ≠ 0 → 0 < (F₁ r).deltaTChem i → (flow N r).deltaT i ≤ b →
          (flow N r).deltaT i ≤ maxSteps * (F₁ r).deltaTChem i →
          ∃ T₁, ∀ f' : Flow ℝ, f'.p i = (flow N r).p i → f'.T i = T₁ → (∀ j, j < m + 1 → f'.Y j i = (flow N r).Y j i + (res₁ r).1.RR j i * (flow N r).deltaT i / (flow N r).rho i) →
            TakesUp D.chemistry hf r₀ (flow N r) f' (res₁ r).1.RR i := by
  have hc : ContinuousOn ψ (Set.Icc 0 τ) := fun t ht => (hψ t ht).continuousWithinAt
  obtain ⟨rs, bs, Lj, hrs, hbs, hLj, short⟩ := shortNear_of_compact hm hq hr hD hnsp (isCompact_Icc.image_of_continuousOn hc)
    (by rintro _ ⟨t, ht, rfl⟩; exact hI t ht) evalJacob (by rintro _ ⟨t, ht, rfl⟩; exact hJ t ht) absTol relTol habs hrel
  obtain ⟨b, H₀, r₁, ρ, K, hb, hH₀, hr₁, hρ, key⟩ := C136_flow_follows_the_reactor D hD hnsp ψ τ hψ hI Lj hLj
  refine ⟨r₁, hr₁, fun r₀ hr₀ hr₀₁ => ?_⟩
  obtain ⟨bt, Ht, rt, ρt, Kt, hbt, hHt, hrt, hrtr, hρt, hKt, temp⟩ := flow_temperature D hD hnsp (isCompact_Icc.image_of_continuousOn hc)
    (by rintro _ ⟨t, ht, rfl⟩; exact hI t ht) Lj hLj hr₀
  refine ⟨min (min bs (min b H₀)) (min bt Ht), min (min ρ rs) ρt, |K|, lt_min (lt_min hbs (lt_min hb hH₀)) (lt_min hbt hHt), lt_min (lt_min hρ hrs) hρt, ?_⟩
  intro linearSolve fuel maxSteps n base parRun sort hf N clk flow w w' F res r i t z h hE hfuel hn hsp hchem hpar hsort hsmall hres hcell hlay hpos hsum htake ht0 ht htN hh hhb' hb'
  have hhb : h ≤ min bs (min b H₀) := hhb'.trans (min_le_left _ _)
  have htlt : ∀ k, k < N → t k ≤ t (k + 1) := fun k hk => by
    have h1 := hsmall k hk r i (hcell k hk).1
    have h2 : (0 : ℝ) < 1 / 10 ^ 15 := by norm_num
    rw [ht k hk]
    linarith
  have hmono : ∀ k l, k ≤ l → l ≤ N → t k ≤ t l := by
    intro k l hkl
    induction l, hkl using Nat.le_induction with
    | base => exact fun _ => le_rfl
    | succ l hl ih => exact fun h => (ih (by omega)).trans (htlt l (by omega))
  have h0 : ∀ k, k ≤ N → 0 ≤ t k := fun k hk => ht0 ▸ hmono 0 k (Nat.zero_le k) hk
  have h9 : (0 : ℝ) ≤ h + 1 / 10 ^ 9 := by positivity
  have hgrow : ∀ k, k ≤ N → K * (‖z 0 - ψ 0‖ + (h + 1 / 10 ^ 9) * t k) ≤ |K| * (‖z 0 - ψ 0‖ + (h + 1 / 10 ^ 9) * t k) ∧
      |K| * (‖z 0 - ψ 0‖ + (h + 1 / 10 ^ 9) * t k) ≤ min (min ρ rs) ρt := fun k hk => by
    have a := mul_le_mul_of_nonneg_left (hmono k N hk le_rfl) h9
    have a0 := mul_nonneg h9 (h0 k hk)
    refine ⟨mul_le_mul_of_nonneg_right (le_abs_self K) (by positivity), (mul_le_mul_of_nonneg_left ?_ (abs_nonneg K)).trans hb'⟩
    linarith
  -- up to the k-th time step, if the steps before were small
  have upTo : ∀ k, k ≤ N → (∀ l, l < k → SmallSteps (pyJacEnv (D.lib m evalJacob) linearSolve absTol relTol fuel) maxSteps ((flow l r).deltaT i) (z l)
      ((F l r).deltaTChem i) Lj h) → ∀ l, l ≤ k → ‖z l - ψ (t l)‖ ≤ |K| * (‖z 0 - ψ 0‖ + (h + 1 / 10 ^ 9) * t l) ∧
        NonNegative (z l) ∧ ∑ j ∈ Finset.range (m + 1), (flow l r).Y j i = 1 := by
    intro k hk hsteps l hl
    have := key hm evalJacob linearSolve absTol relTol fuel maxSteps n base parRun sort hf k clk flow w w' F res r i t z h hE hrel hn hsp hchem hpar hsort
      (fun l hl => hsmall l (by omega)) (fun l hl => hres l (by omega))
      (fun l hl => by
        obtain ⟨c1, c2, c3, c4, c5, c6⟩ := hcell l (by omega)
        exact ⟨c1, c2, c3, c4, c5.trans (hhb.trans ((min_le_right _ _).trans (min_le_left _ _)))⟩)
      (fun l hl => hlay l (by omega)) hpos hsum (fun l hl => ⟨(htake l (by omega)).pressure, (htake l (by omega)).species, (htake l (by omega)).near.trans hr₀₁, (htake l (by omega)).enthalpy⟩) ht0 (fun l hl => ht l (by omega)) ((hmono k N hk le_rfl).trans htN) hh
      (hhb.trans ((min_le_right _ _).trans (min_le_right _ _))) hsteps (((hgrow k hk).1.trans (hgrow k hk).2).trans ((min_le_left _ _).trans (min_le_left _ _))) l hl
    exact ⟨this.1.trans (hgrow l (by omega)).1, this.2⟩
  have hnear : ∀ k, k ≤ N → ‖z k - ψ (t k)‖ ≤ |K| * (‖z 0 - ψ 0‖ + (h + 1 / 10 ^ 9) * t k) → ∀ dt sub, 0 < dt → dt ≤ bs → 0 < sub → dt ≤ maxSteps * sub →
      SmallSteps (pyJacEnv (D.lib m evalJacob) linearSolve absTol relTol fuel) maxSteps dt (z k) sub Lj dt ∧
      ∀ scr p T c, Layout p T c (z k) → ∃ scr' q, odePyJacSolve (seulexIntegrator (pyJacEnv (D.lib m evalJacob) linearSolve absTol relTol fuel) maxSteps)
        scr p T c dt sub = .ok (scr', q) ∧ min sub dt ≤ q.subDeltaT := fun k hk hz dt sub h1 h2 h3 h4 =>
    short (ψ (t k)) ⟨t k, ⟨h0 k hk, (hmono k N hk le_rfl).trans htN⟩, rfl⟩ (z k) ((hz.trans (hgrow k hk).2).trans ((min_le_left _ _).trans (min_le_right _ _))) linearSolve fuel maxSteps dt sub
      hE hfuel h1 h2 h3 h4
  have main : ∀ k, k ≤ N → ∀ l, l < k → SmallSteps (pyJacEnv (D.lib m evalJacob) linearSolve absTol relTol fuel) maxSteps ((flow l r).deltaT i) (z l)
      ((F l r).deltaTChem i) Lj h := by
    intro k
    induction k with
    | zero => exact fun _ l hl => absurd hl (Nat.not_lt_zero l)
    | succ k ih =>
      intro hk l hl
      have ih' := ih (by omega)
      rcases Nat.lt_succ_iff_lt_or_eq.1 hl with h1 | rfl
      · exact ih' l h1
      · obtain ⟨c1, c2, c3, c4, c5, c6⟩ := hcell l (by omega)
        have hd : 0 < (flow l r).deltaT i := lt_trans (by norm_num) (hsmall l (by omega) r i c1)
        have := (hnear l (by omega) (upTo l (by omega) ih' l le_rfl).1 _ _ hd (c5.trans (hhb.trans (min_le_left _ _))) c4 c6).1
        exact fun scr => ⟨(this scr).1, fun q hq => ⟨((this scr).2 q hq).1.trans c5, ((this scr).2 q hq).2⟩⟩
  have all := upTo N le_rfl (main N le_rfl)
  refine ⟨fun k hk => (all k hk).1, fun dt sub scr p T c h1 h2 h3 h4 hl =>
    (hnear N le_rfl (all N le_rfl).1 dt sub h1 (h2.trans ((min_le_left _ _).trans (min_le_left _ _))) h3 h4).2 scr p T c hl, ?_⟩
  intro clk₁ w₁ w₂ F₁ res₁ hsmall₁ hres₁ hi hmap hrho hsub hdtb hmax
  obtain ⟨near, hpos', hsum'⟩ := all N le_rfl
  have hd : 0 < (flow N r).deltaT i := lt_trans (by norm_num) (hsmall₁ r i hi)
  obtain ⟨i₀, hlt, hi₀, scr, scr', q, ho, hqr⟩ := world_rates hn hsp hrel hchem hpar hsort hsmall₁ hres₁ r i hi
  obtain ⟨rfl, -⟩ : i₀ = i ∧ ¬ Mapped base (flow N r) i := by
    rcases hi₀ with h' | h'
    · exact h'
    · exact absurd h'.1 hmap
  have hq' : IntegratedTo D (z N) Lj ((flow N r).deltaT i₀) ((flow N r).deltaT i₀) q :=
    ⟨_, evalJacob, linearSolve, absTol, relTol, fuel, maxSteps, scr, scr', _, _, _, _, hm, hE, hrel, hlay N le_rfl, hsub,
      (hnear N le_rfl near _ _ hd (hdtb.trans ((min_le_left _ _).trans (min_le_left _ _))) hsub hmax).1, ho⟩
  obtain ⟨-, T₁, hT₁, hE₁⟩ := temp (ψ (t N)) ⟨t N, ⟨h0 N le_rfl, htN⟩, rfl⟩ (z N) ((near.trans (hgrow N le_rfl).2).trans (min_le_right _ _)) hpos' _ _ q hd
    (hdtb.trans ((min_le_right _ _).trans (min_le_left _ _))) hd.le (hdtb.trans ((min_le_right _ _).trans (min_le_right _ _))) hq'
  have hzY : ∀ j : Fin m, z N j.castSucc.succ = (flow N r).Y j i₀ := fun j => by
    have h1 := (hlay N le_rfl).species j
    have hj := j.isLt
    unfold composition at h1
    rw [hsp, List.getElem?_map, List.getElem?_range (by omega)] at h1
    simpa using h1.symm
  have hlast : ∀ j, j < m + 1 → stateComposition (z N) j = (flow N r).Y j i₀ :=
    stateComposition_eq (Y := fun j => (flow N r).Y j i₀) hzY (by rw [Finset.sum_range_succ] at hsum'; linarith)
  have hret : ∀ j, j < m + 1 → stateComposition (Function.update (returnedState (z N) q) 0 T₁) j = q.fractions j :=
    stateComposition_eq (Y := q.fractions) (fun j => by rw [Function.update_of_ne (Fin.succ_ne_zero _), returnedState_species]) (returned_fractions hq').2
  refine ⟨T₁, fun f' e1 e2 e3 => ⟨e1, e3, ?_, ?_⟩⟩
  · rw [e2, ← (hlay N le_rfl).temperature]
    exact hT₁.trans hrtr
  · refine (C135_absolute_enthalpy hf (fun j => (res₁ r).1.RR j i₀) (fun j => (flow N r).Y j i₀) (fun j => f'.Y j i₀)
      (fun j => D.chemistry.enthalpy ((flow N r).T i₀) j) (fun j => D.chemistry.enthalpy (f'.T i₀) j) ((flow N r).rho i₀) ((flow N r).deltaT i₀)
      (fun j => e3 j j.isLt)).2 ?_
    have hns : D.chemistry.nsp = m + 1 := hnsp
    unfold Chemistry.stateEnthalpy Chemistry.mixtureEnthalpy at hE₁
    rw [(hlay N le_rfl).temperature, hns, Function.update_self] at hE₁
    rw [Fin.sum_univ_eq_sum_range (fun j => f'.Y j i₀ * D.chemistry.enthalpy (f'.T i₀) j),
      Fin.sum_univ_eq_sum_range (fun j => (flow N r).Y j i₀ * D.chemistry.enthalpy ((flow N r).T i₀) j), e2]
    refine Eq.trans (Finset.sum_congr rfl fun j hj => ?_) (hE₁.trans (Finset.sum_congr rfl fun j hj => ?_))
    · have e4 : f'.Y j i₀ = q.fractions j := by
        rw [e3 j (Finset.mem_range.1 hj), hqr j (Finset.mem_range.1 hj)]
        have hd' := hd.ne'
        field_simp
        rw [add_sub_cancel]
        rfl
      rw [hret j (Finset.mem_range.1 hj), e4]
    · rw [hlast j (Finset.mem_range.1 hj)]

/-! ### The theorems -/

/-- **C136, nothing assumed on the steps.** For every shipped mechanism, every number of ranks and cells, every solution of the reactor for each cell that stays inside the domain up to the time `τ`, every
Jacobian routine that is bounded near the solutions, and all tolerances, there are a time `b`, distances `r₀` and `ρ` and a constant `K` such that, for every linear solver that solves regular systems, every
order of equal loads, with or without load balancing, and whatever is in the work arrays and fields: if the cells start at a distance of at most `e` from their solutions, and the flow has taken up the
reaction rates and the heat release of `N` time steps of lengths of at most `h ≤ b`, then at all times `t` of the time steps the temperature, pressure and mass fractions of every cell are those of its solution up to
`K (e + (h + 10^-9) t)`, as long as this is at most `ρ`; and the next time step succeeds on all ranks, if it is at most `h` too and `maxSteps` times the initial chemical time steps reach it, there are temperatures with which the flow can take up what
it returns, and the initial chemical time steps that it leaves for the next one are not shorter than those it was given, its own length and `deltaTChemMax`. -/
theorem C136_simulation_follows_the_reactors [MathOps ℝ] (hm : PowLaws ℝ) (hq : SqrtLaws ℝ) (hr : RootLaws ℝ) (D : Package) (hD : D ∈ shipped) (hnsp : D.nsp = m + 1)
    {n : Nat} (hn : 0 < n) (nCells : Fin n → Nat) (ψ : Fin n → Nat → ℝ → Fin (m + 2) → ℝ) (τ : ℝ)
    (hψ : ∀ r i, i < nCells r → SolvesOn (fun _ => D.chemistry.stateRate) (ψ r i) 0 τ) (hI : ∀ r i, i < nCells r → ∀ t ∈ Set.Icc 0 τ, D.chemistry.Interior (ψ r i t))
    (evalJacob : ℝ → Vec ℝ (m + 2) → Nat → ℝ) (hJ : ∀ r i, i < nCells r → ∀ t ∈ Set.Icc 0 τ, JacobianBoundedNear (pyJacJacobian (D.lib m evalJacob)) (ψ r i t))
    (absTol relTol : Vec ℝ (m + 2)) (habs : ∀ i, 0 < absTol i) (hrel : ∀ i, 0 < relTol i) :
    ∃ b r₀ ρ K : ℝ, 0 < b ∧ 0 < r₀ ∧ 0 < ρ ∧ 0 ≤ K ∧
      ∀ (linearSolve : (Nat → ℝ) → Vec ℝ (m + 2) → Vec ℝ (m + 2)) (fuel maxSteps : Nat) (base : ChemModel ℝ) (parRun : Bool)
        (sort : List (ChemistryLoad ℝ) → List (ChemistryLoad ℝ)) (hf : Vec ℝ (m + 1)) (N : Nat) (clk : Nat → Fin n → Nat → ℝ) (flow : Nat → Fin n → Flow ℝ)
        (w w' : Nat → Fin n → Scratch ℝ (m + 1)) (F : Nat → Fin n → RankFields ℝ) (res : Nat → Fin n → RankFields ℝ × ℝ)
        (t : Nat → ℝ) (z : Nat → Fin n → Nat → Fin (m + 2) → ℝ) (e h : ℝ),
        LapackContract (m + 2) linearSolve → 1 ≤ fuel → 1 ≤ base.fuel → base.nSpecie = m + 1 → base.chemistry = true →
        (base.mapper.active = true → base.nSpecie ≤ base.mapper.mixFrac.alpha.length) → (parRun = true ∨ n = 1) → (∀ l, (sort l).Perm l) →
        (∀ k, k ≤ N → ∀ r, (flow k r).nCells = nCells r) →
        (∀ k, k ≤ N → ∀ r i, i < nCells r → Layout ((flow k r).p i) ((flow k r).T i) (composition base (flow k r) i) (z k r i) ∧
          ¬ Mapped base (flow k r) i ∧ (flow k r).rho i ≠ 0 ∧ 1 / 10 ^ 15 < (flow k r).deltaT i ∧ (flow k r).deltaT i ≤ h ∧
          0 < (F k r).deltaTChem i ∧ (flow k r).deltaT i ≤ maxSteps * (F k r).deltaTChem i) →
        (∀ r i, i < nCells r → NonNegative (z 0 r i) ∧ ∑ j ∈ Finset.range (m + 1), (flow 0 r).Y j i = 1 ∧ ‖z 0 r i - ψ r i 0‖ ≤ e) →
        t 0 = 0 → (∀ k, k < N → ∀ r i, i < nCells r → t (k + 1) = t k + (flow k r).deltaT i) → t N ≤ τ → 0 ≤ e → 0 ≤ h → h ≤ b → K * (e + (h + 1 / 10 ^ 9) * t N) ≤ ρ →
        (∀ k, k < N → solveWorldW (pyJacModel base (D.lib m evalJacob) linearSolve absTol relTol fuel maxSteps) parRun sort (clk k) (flow k) (w k) (F k) = .ok (w' k, res k) ∧
          ∀ r i, i < nCells r → TakesUp D.chemistry hf r₀ (flow k r) (flow (k + 1) r) (res k r).1.RR i) →
        (∀ k, k ≤ N → ∀ r i, i < nCells r → ‖z k r i - ψ r i (t k)‖ ≤ K * (e + (h + 1 / 10 ^ 9) * t k)) ∧
        ∃ w₁ res₁, solveWorldW (pyJacModel base (D.lib m evalJacob) linearSolve absTol relTol fuel maxSteps) parRun sort (clk N) (flow N) (w N) (F N) = .ok (w₁, res₁) ∧
          ∃ f' : Fin n → Flow ℝ, (∀ r, (f' r).nCells = nCells r) ∧ ∀ r i, i < nCells r → TakesUp D.chemistry hf r₀ (flow N r) (f' r) (res₁ r).1.RR i ∧
            min (min ((F N r).deltaTChem i) ((flow N r).deltaT i)) base.deltaTChemMax ≤ (res₁ r).1.deltaTChem i := by
  classical
  have h1 := fun x : Σ r : Fin n, Fin (nCells r) => flow_short hm hq hr D hD hnsp (ψ x.1 x.2.val) τ (hψ x.1 x.2.val x.2.isLt) (hI x.1 x.2.val x.2.isLt) evalJacob
    (hJ x.1 x.2.val x.2.isLt) absTol relTol habs hrel
  choose r₁ hr₁ h1 using h1
  obtain ⟨δ, κ', hδ, hk'⟩ := exists_common r₁ r₁ hr₁
  have h1 := fun x => h1 x δ hδ (hk' x).1
  choose b ρ K hb hρ key using h1
  obtain ⟨β, κ, hβ, hk⟩ := exists_common b K hb
  obtain ⟨ε, κ'', hε, hk''⟩ := exists_common ρ K hρ
  refine ⟨β, δ, ε, |κ|, hβ, hδ, hε, abs_nonneg κ, ?_⟩
  intro linearSolve fuel maxSteps base parRun sort hf N clk flow w w' F res t z e h hE hfuel hbfuel hsp hchem hmapper hpar hsort hnc hcell hstart ht0 ht htN he hh hhb hb' hrun
  have hj : jacRedoOf relTol < ((2 : Nat) : ℝ) * jacRedoOf relTol := by
    have := jacRedoOf_pos hrel
    push_cast
    linarith
  have hself : ∀ x : ℝ, ¬ Consts.SMALL < x - x := fun x => by
    rw [sub_self]
    exact not_lt.2 SMALL_pos.le
  have cell : ∀ r i (hi : i < nCells r), (∀ k, k ≤ N → ‖z k r i - ψ r i (t k)‖ ≤ |κ| * (e + (h + 1 / 10 ^ 9) * t k)) ∧
      (∀ dt sub scr p T c, 0 < dt → dt ≤ b ⟨r, ⟨i, hi⟩⟩ → 0 < sub → dt ≤ maxSteps * sub → Layout p T c (z N r i) →
        ∃ scr' q, odePyJacSolve (seulexIntegrator (pyJacEnv (D.lib m evalJacob) linearSolve absTol relTol fuel) maxSteps) scr p T c dt sub = .ok (scr', q) ∧ min sub dt ≤ q.subDeltaT) ∧
      ∀ w₂ res₁, solveWorldW (pyJacModel base (D.lib m evalJacob) linearSolve absTol relTol fuel maxSteps) parRun sort (clk N) (flow N) (w N) (F N) = .ok (w₂, res₁) →
          ∃ T₁, ∀ f' : Flow ℝ, f'.p i = (flow N r).p i → f'.T i = T₁ →
            (∀ j, j < m + 1 → f'.Y j i = (flow N r).Y j i + (res₁ r).1.RR j i * (flow N r).deltaT i / (flow N r).rho i) →
            TakesUp D.chemistry hf δ (flow N r) f' (res₁ r).1.RR i := by
    intro r i hi
    have htlt : ∀ k, k < N → t k ≤ t (k + 1) := fun k hk => by
      have h1 := (hcell k hk.le r i hi).2.2.2.1
      have h2 : (0 : ℝ) < 1 / 10 ^ 15 := by norm_num
      rw [ht k hk r i hi]
      linarith
    have h0 : ∀ k, k ≤ N → 0 ≤ t k := by
      intro k
      induction k with
      | zero => exact fun _ => ht0.ge
      | succ k ih => exact fun h => (ih (by omega)).trans (htlt k (by omega))
    have h9 : (0 : ℝ) ≤ h + 1 / 10 ^ 9 := by positivity
    have up : ∀ k, k ≤ N → K ⟨r, ⟨i, hi⟩⟩ * (‖z 0 r i - ψ r i 0‖ + (h + 1 / 10 ^ 9) * t k) ≤ |κ| * (e + (h + 1 / 10 ^ 9) * t k) := fun k hk1 => by
      have a0 := mul_nonneg h9 (h0 k hk1)
      have a1 := (hstart r i hi).2.2
      have a2 : K ⟨r, ⟨i, hi⟩⟩ ≤ |κ| := (hk ⟨r, ⟨i, hi⟩⟩).2.trans (le_abs_self κ)
      have a3 := norm_nonneg (z 0 r i - ψ r i 0)
      exact (mul_le_mul_of_nonneg_right a2 (by linarith)).trans (mul_le_mul_of_nonneg_left (by linarith) (abs_nonneg κ))
    obtain ⟨c1, c2, c3⟩ := key ⟨r, ⟨i, hi⟩⟩ linearSolve fuel maxSteps n base parRun sort hf N clk flow w w' F res r i t (fun k => z k r i) h hE hfuel hn hsp hchem hpar hsort
      (fun k hk r i hi => (hcell k hk.le r i (by rw [← hnc k hk.le r]; exact hi)).2.2.2.1) (fun k hk => (hrun k hk).1)
      (fun k hk => by
        obtain ⟨c1, c2, c3, c4, c5, c6, c7⟩ := hcell k hk.le r i hi
        exact ⟨by rw [hnc k hk.le r]; exact hi, c2, c3, c6, c5, c7⟩)
      (fun k hk => (hcell k hk r i hi).1) (hstart r i hi).1 (hstart r i hi).2.1
      (fun k hk => (hrun k hk).2 r i hi)
      ht0 (fun k hk => ht k hk r i hi) htN hh (hhb.trans (hk ⟨r, ⟨i, hi⟩⟩).1) (((up N le_rfl).trans hb').trans (hk'' ⟨r, ⟨i, hi⟩⟩).1)
    obtain ⟨d1, d2, d3, d4, d5, d6, d7⟩ := hcell N le_rfl r i hi
    exact ⟨fun k hk => (c1 k hk).trans (up k hk), c2, fun w₂ res₁ hres₁ => c3 (clk N) (w N) w₂ (F N) res₁
      (fun r i hi => (hcell N le_rfl r i (by rw [← hnc N le_rfl r]; exact hi)).2.2.2.1) hres₁ (by rw [hnc N le_rfl r]; exact hi) d2 d3 d6
      (d5.trans (hhb.trans (hk ⟨r, ⟨i, hi⟩⟩).1)) d7⟩
  refine ⟨fun k hk r i hi => (cell r i hi).1 k hk, ?_⟩
  obtain ⟨w₁, res₁, hres₁⟩ := C124_returns hself hn (base := base) (L := D.lib m evalJacob) (linearSolve := linearSolve)
    (absTol := absTol) (relTol := relTol) hj (fuel := fuel) (maxSteps := maxSteps) hchem hpar hsort (clk := clk N) (flow := flow N)
    (w := w N) (F := F N) hbfuel hmapper (w N ⟨0, hn⟩) fun r i hi _ => by
      have hi' : i < nCells r := by rw [← hnc N le_rfl r]; exact hi
      obtain ⟨c1, c2, c3, c4, c5, c6, c7⟩ := hcell N le_rfl r i hi'
      obtain ⟨scr', q, hq, -⟩ := (cell r i hi').2.1 _ _ (w N ⟨0, hn⟩) _ _ _ (lt_trans (by norm_num) c4) (c5.trans (hhb.trans (hk ⟨r, ⟨i, hi'⟩⟩).1)) c6 c7 c1
      exact ⟨scr', q, hq⟩
  have hT : ∀ r i, ∃ T₁, i < nCells r → ∀ f' : Flow ℝ, f'.p i = (flow N r).p i → f'.T i = T₁ →
      (∀ j, j < m + 1 → f'.Y j i = (flow N r).Y j i + (res₁ r).1.RR j i * (flow N r).deltaT i / (flow N r).rho i) →
      TakesUp D.chemistry hf δ (flow N r) f' (res₁ r).1.RR i := fun r i => by
    by_cases hi : i < nCells r
    · obtain ⟨T₁, h⟩ := (cell r i hi).2.2 w₁ res₁ hres₁
      exact ⟨T₁, fun _ => h⟩
    · exact ⟨0, fun h => absurd h hi⟩
  choose T₁ hT using hT
  refine ⟨w₁, res₁, hres₁, fun r => { flow N r with T := T₁ r, Y := fun j i => (flow N r).Y j i + (res₁ r).1.RR j i * (flow N r).deltaT i / (flow N r).rho i },
    fun r => hnc N le_rfl r, fun r i hi => ⟨hT r i hi _ rfl rfl fun _ _ => rfl, ?_⟩⟩
  obtain ⟨d1, d2, d3, d4, d5, d6, d7⟩ := hcell N le_rfl r i hi
  obtain ⟨scr, scr', q, ho, hq'⟩ := world_sub hn hrel hchem hpar hsort (fun r i hi => (hcell N le_rfl r i (by rw [← hnc N le_rfl r]; exact hi)).2.2.2.1) hres₁ r i
    (by rw [hnc N le_rfl r]; exact hi) d2
  obtain ⟨scr'', q', ho', hle⟩ := (cell r i hi).2.1 _ _ scr _ _ _ (lt_trans (by norm_num) d4) (d5.trans (hhb.trans (hk ⟨r, ⟨i, hi⟩⟩).1)) d6 d7 d1
  rw [ho] at ho'
  cases ho'
  rw [hq']
  exact le_min (le_min ((min_le_left _ _).trans hle) (min_le_right _ _)) (min_le_right _ _)

end

/-- **C136, the drm19 library as it is shipped.** With its own Jacobian nothing is assumed on the Jacobians either; the rates of change have to be differentiable along the solutions. -/
theorem C136_simulation_with_drm19 [MathOps ℝ] (hm : PowLaws ℝ) (hq : SqrtLaws ℝ) (hr : RootLaws ℝ)
    {n : Nat} (hn : 0 < n) (nCells : Fin n → Nat) (ψ : Fin n → Nat → ℝ → Fin 22 → ℝ) (τ : ℝ)
    (hψ : ∀ r i, i < nCells r → SolvesOn (fun _ => drm19.chemistry.stateRate) (ψ r i) 0 τ)
    (hI : ∀ r i, i < nCells r → ∀ t ∈ Set.Icc 0 τ, drm19.chemistry.Interior (ψ r i t) ∧ drm19.chemistry.Smooth (ψ r i t))
    (absTol relTol : Vec ℝ 22) (habs : ∀ i, 0 < absTol i) (hrel : ∀ i, 0 < relTol i) :
    ∃ b r₀ ρ K : ℝ, 0 < b ∧ 0 < r₀ ∧ 0 < ρ ∧ 0 ≤ K ∧
      ∀ (linearSolve : (Nat → ℝ) → Vec ℝ 22 → Vec ℝ 22) (fuel maxSteps : Nat) (base : ChemModel ℝ) (parRun : Bool)
        (sort : List (ChemistryLoad ℝ) → List (ChemistryLoad ℝ)) (hf : Vec ℝ 21) (N : Nat) (clk : Nat → Fin n → Nat → ℝ) (flow : Nat → Fin n → Flow ℝ)
        (w w' : Nat → Fin n → Scratch ℝ 21) (F : Nat → Fin n → RankFields ℝ) (res : Nat → Fin n → RankFields ℝ × ℝ)
        (t : Nat → ℝ) (z : Nat → Fin n → Nat → Fin 22 → ℝ) (e h : ℝ),
        LapackContract 22 linearSolve → 1 ≤ fuel → 1 ≤ base.fuel → base.nSpecie = 21 → base.chemistry = true →
        (base.mapper.active = true → base.nSpecie ≤ base.mapper.mixFrac.alpha.length) → (parRun = true ∨ n = 1) → (∀ l, (sort l).Perm l) →
        (∀ k, k ≤ N → ∀ r, (flow k r).nCells = nCells r) →
        (∀ k, k ≤ N → ∀ r i, i < nCells r → Layout ((flow k r).p i) ((flow k r).T i) (composition base (flow k r) i) (z k r i) ∧
          ¬ Mapped base (flow k r) i ∧ (flow k r).rho i ≠ 0 ∧ 1 / 10 ^ 15 < (flow k r).deltaT i ∧ (flow k r).deltaT i ≤ h ∧
          0 < (F k r).deltaTChem i ∧ (flow k r).deltaT i ≤ maxSteps * (F k r).deltaTChem i) →
        (∀ r i, i < nCells r → NonNegative (z 0 r i) ∧ ∑ j ∈ Finset.range 21, (flow 0 r).Y j i = 1 ∧ ‖z 0 r i - ψ r i 0‖ ≤ e) →
        t 0 = 0 → (∀ k, k < N → ∀ r i, i < nCells r → t (k + 1) = t k + (flow k r).deltaT i) → t N ≤ τ → 0 ≤ e → 0 ≤ h → h ≤ b → K * (e + (h + 1 / 10 ^ 9) * t N) ≤ ρ →
        (∀ k, k < N → solveWorldW (pyJacModel base drm19Lib linearSolve absTol relTol fuel maxSteps) parRun sort (clk k) (flow k) (w k) (F k) = .ok (w' k, res k) ∧
          ∀ r i, i < nCells r → TakesUp drm19.chemistry hf r₀ (flow k r) (flow (k + 1) r) (res k r).1.RR i) →
        (∀ k, k ≤ N → ∀ r i, i < nCells r → ‖z k r i - ψ r i (t k)‖ ≤ K * (e + (h + 1 / 10 ^ 9) * t k)) ∧
        ∃ w₁ res₁, solveWorldW (pyJacModel base drm19Lib linearSolve absTol relTol fuel maxSteps) parRun sort (clk N) (flow N) (w N) (F N) = .ok (w₁, res₁) ∧
          ∃ f' : Fin n → Flow ℝ, (∀ r, (f' r).nCells = nCells r) ∧ ∀ r i, i < nCells r → TakesUp drm19.chemistry hf r₀ (flow N r) (f' r) (res₁ r).1.RR i ∧
            min (min ((F N r).deltaTChem i) ((flow N r).deltaT i)) base.deltaTChemMax ≤ (res₁ r).1.deltaTChem i :=
  C136_simulation_follows_the_reactors hm hq hr drm19 (by simp [shipped]) rfl hn nCells ψ τ hψ (fun r i hi t ht => (hI r i hi t ht).1) _
    (fun r i hi t ht => C125_jacobian_is_bounded _ (hI r i hi t ht).1 (hI r i hi t ht).2) absTol relTol habs hrel

/-! ### Simulations -/

/-- The state of a cell of the flow, in the order of the integrator: temperature, mass fractions without the last species, pressure. -/
def cellState {m : Nat} (f : Flow ℝ) (i : Nat) : Fin (m + 2) → ℝ := packPyJac (f.p i) (f.T i) fun j : Fin (m + 1) => f.Y j i

theorem cellState_layout {m : Nat} {base : ChemModel ℝ} (h : base.nSpecie = m + 1) (f : Flow ℝ) (i : Nat) :
    Layout (f.p i) (f.T i) (composition base f i) (cellState (m := m) f i) := by
  have hl : (composition base f i).length = m + 1 := by simp [composition, h]
  have := packPyJac_layout (f.p i) (f.T i) (composition base f i) hl
  unfold cellState
  convert this using 2
  funext j
  simp [composition]

/-- **C136, simulations.** With the same hypotheses, and the mapping switched off, there are simulations as the theorem is about: from every flow at a distance of at most `e` from the solutions, and for all lengths
of the time steps of at most `h ≤ b`, there is a sequence of states of the flow, each of which takes up the reaction rates and the heat release that the load-balanced model computes for the one before, up to the time `τ` or until
`K (e + (h + 10^-9) t)` exceeds `ρ`; in all its time steps the model succeeds on all ranks, and the temperature, pressure and mass fractions of every cell are those of its solution up to `K (e + (h + 10^-9) t)`. -/
theorem C136_simulations_exist {m : Nat} [MathOps ℝ] (hm : PowLaws ℝ) (hq : SqrtLaws ℝ) (hr : RootLaws ℝ) (D : Package) (hD : D ∈ shipped) (hnsp : D.nsp = m + 1)
    {n : Nat} (hn : 0 < n) (nCells : Fin n → Nat) (ψ : Fin n → Nat → ℝ → Fin (m + 2) → ℝ) (τ : ℝ)
    (hψ : ∀ r i, i < nCells r → SolvesOn (fun _ => D.chemistry.stateRate) (ψ r i) 0 τ) (hI : ∀ r i, i < nCells r → ∀ t ∈ Set.Icc 0 τ, D.chemistry.Interior (ψ r i t))
    (evalJacob : ℝ → Vec ℝ (m + 2) → Nat → ℝ) (hJ : ∀ r i, i < nCells r → ∀ t ∈ Set.Icc 0 τ, JacobianBoundedNear (pyJacJacobian (D.lib m evalJacob)) (ψ r i t))
    (absTol relTol : Vec ℝ (m + 2)) (habs : ∀ i, 0 < absTol i) (hrel : ∀ i, 0 < relTol i) :
    ∃ b r₀ ρ K : ℝ, 0 < b ∧ 0 < r₀ ∧ 0 < ρ ∧ 0 ≤ K ∧
      ∀ (linearSolve : (Nat → ℝ) → Vec ℝ (m + 2) → Vec ℝ (m + 2)) (fuel maxSteps : Nat) (base : ChemModel ℝ) (parRun : Bool)
        (sort : List (ChemistryLoad ℝ) → List (ChemistryLoad ℝ)) (hf : Vec ℝ (m + 1)) (N : Nat) (clk : Nat → Fin n → Nat → ℝ) (flow₀ : Fin n → Flow ℝ)
        (w : Nat → Fin n → Scratch ℝ (m + 1)) (F : Nat → Fin n → RankFields ℝ) (t : Nat → ℝ) (e h : ℝ),
        LapackContract (m + 2) linearSolve → 1 ≤ fuel → 1 ≤ base.fuel → base.nSpecie = m + 1 → base.chemistry = true →
        base.mapper.active = false → (parRun = true ∨ n = 1) → (∀ l, (sort l).Perm l) →
        (∀ r, (flow₀ r).nCells = nCells r) →
        (∀ r i, i < nCells r → (flow₀ r).rho i ≠ 0 ∧ NonNegative (cellState (m := m) (flow₀ r) i) ∧ ∑ j ∈ Finset.range (m + 1), (flow₀ r).Y j i = 1 ∧
          ‖cellState (flow₀ r) i - ψ r i 0‖ ≤ e) →
        t 0 = 0 → (∀ k, 1 / 10 ^ 15 < t (k + 1) - t k ∧ t (k + 1) - t k ≤ h) →
        (∀ k r i, i < nCells r → 0 < (F k r).deltaTChem i ∧ t (k + 1) - t k ≤ maxSteps * (F k r).deltaTChem i) →
        t N ≤ τ → 0 ≤ e → h ≤ b → K * (e + (h + 1 / 10 ^ 9) * t N) ≤ ρ →
        ∃ (flow : Nat → Fin n → Flow ℝ) (w' : Nat → Fin n → Scratch ℝ (m + 1)) (res : Nat → Fin n → RankFields ℝ × ℝ),
          (∀ r i, i < nCells r → cellState (m := m) (flow 0 r) i = cellState (flow₀ r) i) ∧
          (∀ k, k ≤ N → ∀ r, (flow k r).nCells = nCells r ∧ ∀ i, i < nCells r → (flow k r).deltaT i = t (k + 1) - t k) ∧
          (∀ k, k < N → solveWorldW (pyJacModel base (D.lib m evalJacob) linearSolve absTol relTol fuel maxSteps) parRun sort (clk k) (flow k) (w k) (F k) = .ok (w' k, res k) ∧
            ∀ r i, i < nCells r → TakesUp D.chemistry hf r₀ (flow k r) (flow (k + 1) r) (res k r).1.RR i) ∧
          ∀ k, k ≤ N → ∀ r i, i < nCells r → ‖cellState (flow k r) i - ψ r i (t k)‖ ≤ K * (e + (h + 1 / 10 ^ 9) * t k) := by
  obtain ⟨b, r₀, ρ, K, hb, hr₀, hρ, hK, key⟩ := C136_simulation_follows_the_reactors hm hq hr D hD hnsp hn nCells ψ τ hψ hI evalJacob hJ absTol relTol habs hrel
  refine ⟨b, r₀, ρ, K, hb, hr₀, hρ, hK, ?_⟩
  intro linearSolve fuel maxSteps base parRun sort hf N clk flow₀ w F t e h hE hfuel hbfuel hsp hchem hmapper hpar hsort hnc hstart ht0 hdt hF htN he hhb hbound
  have h15 : (0 : ℝ) < 1 / 10 ^ 15 := by norm_num
  have hh : 0 ≤ h := by linarith [(hdt 0).1, (hdt 0).2]
  have hmono : Monotone t := monotone_nat_of_le_succ fun k => by linarith [(hdt k).1]
  have hmap : ∀ f i, ¬ Mapped base f i := fun f i h => by
    have := h.2.1.1
    rw [hmapper] at this
    exact absurd this (by simp)
  have main : ∀ M, M ≤ N → ∃ (flow : Nat → Fin n → Flow ℝ) (w' : Nat → Fin n → Scratch ℝ (m + 1)) (res : Nat → Fin n → RankFields ℝ × ℝ),
      (∀ r, flow 0 r = { flow₀ r with deltaT := fun _ => t 1 - t 0 }) ∧
      (∀ k, k ≤ M → ∀ r, (flow k r).nCells = nCells r ∧ ∀ i, i < nCells r → (flow k r).deltaT i = t (k + 1) - t k ∧ (flow k r).rho i ≠ 0) ∧
      (∀ k, k < M → solveWorldW (pyJacModel base (D.lib m evalJacob) linearSolve absTol relTol fuel maxSteps) parRun sort (clk k) (flow k) (w k) (F k) = .ok (w' k, res k) ∧
        ∀ r i, i < nCells r → TakesUp D.chemistry hf r₀ (flow k r) (flow (k + 1) r) (res k r).1.RR i) := by
    intro M
    induction M with
    | zero =>
      intro _
      refine ⟨fun _ r => { flow₀ r with deltaT := fun _ => t 1 - t 0 }, fun _ => w 0, fun _ _ => (F 0 ⟨0, hn⟩, 0), fun _ => rfl, fun k hk r => ?_, fun k hk => absurd hk (Nat.not_lt_zero k)⟩
      obtain rfl : k = 0 := by omega
      exact ⟨hnc r, fun i hi => ⟨rfl, (hstart r i hi).1⟩⟩
    | succ M ih =>
      intro hM
      obtain ⟨flow, w', res, h1, h2, h3⟩ := ih (by omega)
      obtain ⟨-, w₁, res₁, hres₁, f', hf', htake⟩ := key linearSolve fuel maxSteps base parRun sort hf M clk flow w w' F res t (fun k r i => cellState (flow k r) i) e h hE hfuel hbfuel hsp hchem
        (fun ha => by rw [hmapper] at ha; exact absurd ha (by simp)) hpar hsort (fun k hk r => (h2 k hk r).1)
        (fun k hk r i hi => by
          obtain ⟨a1, a2⟩ := (h2 k hk r).2 i hi
          rw [a1]
          exact ⟨cellState_layout hsp _ _, hmap _ _, a2, (hdt k).1, (hdt k).2, (hF k r i hi).1, (hF k r i hi).2⟩)
        (fun r i hi => by
          rw [h1 r]
          exact (hstart r i hi).2)
        ht0 (fun k hk r i hi => by rw [((h2 k hk.le r).2 i hi).1]; ring) ((hmono (by omega : M ≤ N)).trans htN) he hh hhb
        (le_trans (mul_le_mul_of_nonneg_left (by
          have := mul_le_mul_of_nonneg_left (hmono (by omega : M ≤ N)) (by positivity : 0 ≤ h + 1 / 10 ^ 9)
          linarith) hK) hbound) h3
      refine ⟨fun k => if k ≤ M then flow k else fun r => { f' r with deltaT := fun _ => t (M + 2) - t (M + 1), rho := (flow M r).rho }, fun k => if k < M then w' k else w₁, fun k => if k < M then res k else res₁,
        fun r => by simpa using h1 r, fun k hk r => ?_, fun k hk => ?_⟩
      · dsimp only
        by_cases hk' : k ≤ M
        · rw [if_pos hk']
          exact h2 k hk' r
        · obtain rfl : k = M + 1 := by omega
          rw [if_neg hk']
          exact ⟨hf' r, fun i hi => ⟨rfl, ((h2 M le_rfl r).2 i hi).2⟩⟩
      · dsimp only
        by_cases hk' : k < M
        · rw [if_pos hk', if_pos hk'.le, if_pos hk', if_pos (by omega)]
          exact h3 k hk'
        · obtain rfl : k = M := by omega
          rw [if_neg hk', if_pos le_rfl, if_neg hk', if_neg (by omega)]
          exact ⟨hres₁, fun r i hi => ⟨(htake r i hi).1.pressure, (htake r i hi).1.species, (htake r i hi).1.near, (htake r i hi).1.enthalpy⟩⟩
  obtain ⟨flow, w', res, h1, h2, h3⟩ := main N le_rfl
  refine ⟨flow, w', res, fun r i hi => by rw [h1 r]; rfl, fun k hk r => ⟨(h2 k hk r).1, fun i hi => ((h2 k hk r).2 i hi).1⟩, h3, ?_⟩
  exact (key linearSolve fuel maxSteps base parRun sort hf N clk flow w w' F res t (fun k r i => cellState (flow k r) i) e h hE hfuel hbfuel hsp hchem
    (fun ha => by rw [hmapper] at ha; exact absurd ha (by simp)) hpar hsort (fun k hk r => (h2 k hk r).1)
    (fun k hk r i hi => by
      obtain ⟨a1, a2⟩ := (h2 k hk r).2 i hi
      rw [a1]
      exact ⟨cellState_layout hsp _ _, hmap _ _, a2, (hdt k).1, (hdt k).2, (hF k r i hi).1, (hF k r i hi).2⟩)
    (fun r i hi => by
      rw [h1 r]
      exact (hstart r i hi).2)
    ht0 (fun k hk r i hi => by rw [((h2 k hk.le r).2 i hi).1]; ring) htN he hh hhb hbound h3).1

/-! ### Case -/

/-- Solutions along which the rates of change of drm19 are differentiable. -/
theorem smooth_solution (z : Fin 22 → ℝ) (hz : drm19.chemistry.Interior z) (hs : drm19.chemistry.Smooth z) :
    ∃ τ : ℝ, 0 < τ ∧ ∃ ψ : ℝ → Fin 22 → ℝ, ψ 0 = z ∧ SolvesOn (fun _ => drm19.chemistry.stateRate) ψ 0 τ ∧
      ∀ t ∈ Set.Icc 0 τ, drm19.chemistry.Interior (ψ t) ∧ drm19.chemistry.Smooth (ψ t) := by
  obtain ⟨τ, hτ, ψ, h0, hψ, hI⟩ := C136_solutions_inside_the_domain drm19 (by simp [shipped]) rfl z hz
  obtain ⟨τ', hτ', hle, hP⟩ := start_in hτ h0 (hψ 0 ⟨le_rfl, hτ.le⟩).continuousWithinAt
    (smooth_eventually (X := drm19.chemistry) rfl (proper_of_shipped (by simp [shipped])) hz hs.cutOff)
  exact ⟨τ', hτ', ψ, h0, fun t ht => (hψ t ⟨ht.1, ht.2.trans hle⟩).mono (Set.Icc_subset_Icc le_rfl hle),
    fun t ht => ⟨hI t ⟨ht.1, ht.2.trans hle⟩, hP t ht (nonNegative_of (hI t ⟨ht.1, ht.2.trans hle⟩).toAdmissible)⟩⟩

/-- A case of C136: three ranks with two cells of hot compressed air each, the drm19 library with its own Jacobian, time steps of length `h`, first steps of a tenth of them, and one attempt per step: for some `τ > 0` and all short `h` there is
a simulation of `N` time steps, and its cells follow the reactor. -/
example (w : Fin 3 → Scratch ℝ 21) (G : RankFields ℝ) (clk : Nat → Fin 3 → Nat → ℝ) (hf : Vec ℝ 21) (active : Bool) : letI := realMath
    ∃ p τ b ρ K : ℝ, ∃ ψ : ℝ → Fin 22 → ℝ, 0 < τ ∧ 0 < b ∧ 0 < ρ ∧ 0 ≤ K ∧ ψ 0 = hotAirState p ∧ SolvesOn (fun _ => drm19.chemistry.stateRate) ψ 0 τ ∧
      ∀ (N : Nat) (h : ℝ), 1 / 10 ^ 15 < h → h ≤ b → N * h ≤ τ → K * ((h + 1 / 10 ^ 9) * (N * h)) ≤ ρ →
        ∃ (flow : Nat → Fin 3 → Flow ℝ) (w' : Nat → Fin 3 → Scratch ℝ 21) (res : Nat → Fin 3 → RankFields ℝ × ℝ),
        (∀ k, k < N → solveWorldW (pyJacModel ⟨true, 21, 1, fun _ _ _ _ _ => .error .ub, 1, ⟨false, 0, 0, ⟨[], 0, 0⟩⟩, active⟩
          drm19Lib (fun a b => (columnMajor 22 a)⁻¹.mulVec b) (fun _ => 1 / 10 ^ 8) (fun _ => 1 / 10 ^ 5) 1 10) true id (clk k) (flow k) w
          (fun _ => { G with deltaTChem := fun _ => h / 10 }) = .ok (w' k, res k)) ∧
        ∀ k, k ≤ N → ∀ r i, i < 2 → ‖cellState (flow k r) i - ψ (k * h)‖ ≤ K * ((h + 1 / 10 ^ 9) * (k * h)) := by
  let := realMath
  obtain ⟨p, hp, hs⟩ := hotAirState_smooth
  obtain ⟨τ, hτ, ψ, h0, hψ, hI⟩ := smooth_solution _ hp hs
  obtain ⟨b, r₀, ρ, K, hb, hr₀, hρ, hK, key⟩ := C136_simulations_exist (m := 20) realMath_powLaws realMath_sqrtLaws realMath_rootLaws drm19 (by simp [shipped]) rfl
    (n := 3) (by norm_num) (fun _ => 2) (fun _ _ => ψ) τ (fun _ _ _ => hψ) (fun _ _ _ t ht => (hI t ht).1) _
    (fun _ _ _ t ht => C125_jacobian_is_bounded _ (hI t ht).1 (hI t ht).2) (fun _ => 1 / 10 ^ 8) (fun _ => 1 / 10 ^ 5) (fun _ => by norm_num) (fun _ => by norm_num)
  refine ⟨p, τ, b, ρ, K, ψ, hτ, hb, hρ, hK, h0, hψ, fun N h h1 h2 h3 h4 => ?_⟩
  have hh : 0 < h := lt_trans (by norm_num) h1
  have e : ∀ i, cellState (m := 20) (hotAirFlow p h) i = hotAirState p := fun i => by
    have hl := cellState_layout (m := 20) (base := ⟨true, 21, 1, fun _ _ _ _ _ => .error .ub, 1, ⟨false, 0, 0, ⟨[], 0, 0⟩⟩, active⟩) rfl (hotAirFlow p h) i
    refine hl.unique ?_
    have h := exists_layout (hotAirState p)
    have e1 : hotAirState p (Fin.last 21) = p := if_pos rfl
    rw [e1] at h
    have e2 : composition (⟨true, 21, 1, fun _ _ _ _ _ => .error .ub, 1, ⟨false, 0, 0, ⟨[], 0, 0⟩⟩, active⟩ : ChemModel ℝ)
        (hotAirFlow p 0) i = List.ofFn fun i : Fin 21 => stateComposition (hotAirState p) i.val := by
      unfold composition hotAirFlow
      rw [List.ofFn_eq_map, ← List.map_coe_finRange_eq_range, List.map_map]
      rfl
    rw [← e2] at h
    exact h
  obtain ⟨flow, w', res, -, -, a3, a4⟩ := key _ 1 10 ⟨true, 21, 1, fun _ _ _ _ _ => .error .ub, 1, ⟨false, 0, 0, ⟨[], 0, 0⟩⟩, active⟩ true id hf N clk
    (fun _ => hotAirFlow p h) (fun _ => w) (fun _ _ => { G with deltaTChem := fun _ => h / 10 }) (fun k => k * h) 0 h (lapackContract_inverse 22) le_rfl le_rfl rfl rfl rfl
    (Or.inl rfl) (fun l => List.Perm.refl _) (fun _ => rfl)
    (fun r i _ => ⟨one_ne_zero, by rw [e]; exact nonNegative_of hp.toAdmissible, stateComposition_total _, by rw [e, h0, sub_self, norm_zero]⟩)
    (by simp) (fun k => by push_cast; constructor <;> linarith)
    (fun k r i _ => ⟨by show 0 < h / 10; positivity, by show ((k + 1 : Nat) : ℝ) * h - k * h ≤ ((10 : Nat) : ℝ) * (h / 10); push_cast; linarith⟩)
    h3 le_rfl h2 (by rw [zero_add]; exact h4)
  exact ⟨flow, w', res, fun k hk => (a3 k hk).1, fun k hk r i hi => by simpa using a4 k hk r i hi⟩

end DLB
