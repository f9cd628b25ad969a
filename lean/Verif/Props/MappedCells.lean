import Verif.Props.WholeStep
/-
C142: what the reaction rates of mapped cells are. All mapped cells of a rank, the reference cell included, carry the rates of the
reference cell, with its density; for short time steps these are the rates of chem.cti in the state of the reference cell, and the error for
another mapped cell is proportional to its distance from the reference cell in state and density.
-/
set_option autoImplicit false
set_option linter.unusedSectionVars false

namespace DLB
open Spec

theorem isReference_unique {K : Type} [Field K] [LinearOrder K] [IsStrictOrderedRing K] {M : ChemModel K} {fl : Flow K} {i i' : Nat}
    (h : IsReference M fl i) (h' : IsReference M fl i') : i = i' := by
  rcases lt_trichotomy i i' with hl | hl | hl
  · exact absurd h.2.1 (h'.2.2 i hl)
  · exact hl
  · exact absurd h'.2.1 (h.2.2 i' hl)

section
variable {K : Type} [Field K] [LinearOrder K] [IsStrictOrderedRing K] [MathOps K] {m : Nat}

/-- The rates of a mapped cell are those of the integration of the reference cell, started with the work arrays `w r`. -/
theorem mapped_rates {n : Nat} (hn : 0 < n) {base : ChemModel K} (hsp : base.nSpecie = m + 1)
    {L : PyJacLib K m} {linearSolve : (Nat → K) → Vec K (m + 2) → Vec K (m + 2)}
    {absTol relTol : Vec K (m + 2)} (hrel : ∀ i, 0 < relTol i) {fuel maxSteps : Nat}
    (hchem : base.chemistry = true) {parRun : Bool}
    (hpar : parRun = true ∨ n = 1) {sort : List (ChemistryLoad K) → List (ChemistryLoad K)}
    (hsort : ∀ l, (sort l).Perm l) {clk : Fin n → Nat → K} {flow : Fin n → Flow K}
    (hdt : ∀ r i, i < (flow r).nCells → 1 / 10 ^ 15 < (flow r).deltaT i)
    {w w' : Fin n → Scratch K (m + 1)} {F : Fin n → RankFields K} {res : Fin n → RankFields K × K}
    (h : solveWorldW (pyJacModel base L linearSolve absTol relTol fuel maxSteps) parRun sort clk flow w
      F = .ok (w', res)) (r : Fin n) (i : Nat) (hi : i < (flow r).nCells) (hmap : Mapped base (flow r) i) (i₀ : Nat)
    (hi₀ : IsReference base (flow r) i₀) :
    ∃ scr' q, odePyJacSolve (seulexIntegrator (pyJacEnv L linearSolve absTol relTol fuel)
          maxSteps) (w r) ((flow r).p i₀) ((flow r).T i₀) (composition base (flow r) i₀)
          ((flow r).deltaT i₀) ((F r).deltaTChem i₀) = .ok (scr', q) ∧
        ∀ j, j < m + 1 → (res r).1.RR j i
          = (q.c.getD j 0 - (flow r).Y j i₀) * (flow r).rho i₀ / (flow r).deltaT i₀ := by
  obtain ⟨i₁, hi₁, t, s, hs, hrr⟩ := world_cell hn hrel hchem hpar hsort h r i hi (w r)
  obtain rfl : i₁ = i₀ := by
    rcases hi₁ with h' | h'
    · exact absurd hmap h'.2
    · exact isReference_unique h'.2 hi₀
  have hlt : i₁ < (flow r).nCells := isReference_lt hi₀
  obtain ⟨scr', q, ho, hlen, hq⟩ := solveSingle_pyJac (hdt r i₁ hlt) hs
  refine ⟨scr', q, ho, fun j hj => ?_⟩
  have h1 := hrr j (by omega)
  have hcl : (cellProblem base (flow r) (F r) i₁).c.length = m + 1 := by
    simp [cellProblem, hsp]
  have hl1 : j < q.c.length := by omega
  have hl2 : j < (cellProblem base (flow r) (F r) i₁).c.length := by omega
  rw [hq, List.getElem?_zipWith, List.getElem?_eq_getElem hl1, List.getElem?_eq_getElem hl2] at h1
  simp only [Option.some.injEq] at h1
  rw [← h1, List.getD_eq_getElem _ _ hl1]
  simp [cellProblem]

/-- **C142, mapped cells share their rates.** With the pyJac model and the repository's integrator, after a step on any number of ranks, with or
without load balancing: any two mapped cells of a rank have the same reaction rates. They are the change of the composition of the reference
cell in its integration, times its density over its time step; hence, with a common time step, the mass of a species that appears per volume is the
same in all of them, and the mass fractions of a mapped cell (whose change is the rate times the time step over its own density) change by the
ratio of the densities times the change in the reference cell. -/
theorem C142_mapped_cells_share_their_rates {n : Nat} (hn : 0 < n) (base : ChemModel K) (hsp : base.nSpecie = m + 1)
    (L : PyJacLib K m) (linearSolve : (Nat → K) → Vec K (m + 2) → Vec K (m + 2))
    (absTol relTol : Vec K (m + 2)) (hrel : ∀ i, 0 < relTol i) (fuel maxSteps : Nat)
    (hchem : base.chemistry = true) (parRun : Bool) (hpar : parRun = true ∨ n = 1)
    (sort : List (ChemistryLoad K) → List (ChemistryLoad K)) (hsort : ∀ l, (sort l).Perm l)
    (clk : Fin n → Nat → K) (flow : Fin n → Flow K)
    (hdt : ∀ r i, i < (flow r).nCells → 1 / 10 ^ 15 < (flow r).deltaT i)
    (w w' : Fin n → Scratch K (m + 1)) (F : Fin n → RankFields K) (res : Fin n → RankFields K × K)
    (h : solveWorldW (pyJacModel base L linearSolve absTol relTol fuel maxSteps) parRun sort clk flow w
      F = .ok (w', res)) (r : Fin n) :
    (∀ i i', Mapped base (flow r) i → Mapped base (flow r) i' → ∀ j, j < m + 1 → (res r).1.RR j i = (res r).1.RR j i') ∧
    ∀ i₀, IsReference base (flow r) i₀ → ∀ i, Mapped base (flow r) i →
      ∃ scr' q, odePyJacSolve (seulexIntegrator (pyJacEnv L linearSolve absTol relTol fuel)
          maxSteps) (w r) ((flow r).p i₀) ((flow r).T i₀) (composition base (flow r) i₀)
          ((flow r).deltaT i₀) ((F r).deltaTChem i₀) = .ok (scr', q) ∧
        ∀ j, j < m + 1 → 0 < (flow r).rho i → (flow r).deltaT i = (flow r).deltaT i₀ →
          (res r).1.RR j i * (flow r).deltaT i / (flow r).rho i
            = (flow r).rho i₀ / (flow r).rho i * (q.c.getD j 0 - (flow r).Y j i₀) := by
  refine ⟨fun i i' hi hi' j hj => ?_, fun i₀ hi₀ i hi => ?_⟩
  · obtain ⟨i₀, hi₀, -⟩ := hi.2.2
    obtain ⟨s1, q1, h1, e1⟩ := mapped_rates hn hsp hrel hchem hpar hsort hdt h r i hi.1 hi i₀ hi₀
    obtain ⟨s2, q2, h2, e2⟩ := mapped_rates hn hsp hrel hchem hpar hsort hdt h r i' hi'.1 hi' i₀ hi₀
    rw [h1] at h2
    cases h2
    rw [e1 j hj, e2 j hj]
  · obtain ⟨s1, q1, h1, e1⟩ := mapped_rates hn hsp hrel hchem hpar hsort hdt h r i hi.1 hi i₀ hi₀
    refine ⟨s1, q1, h1, fun j hj hrho hd => ?_⟩
    have hd0 : 0 < (flow r).deltaT i₀ := lt_trans (by positivity) (hdt r i₀ (isReference_lt hi₀))
    rw [e1 j hj, hd]
    field_simp

end

section
variable {m : Nat}

/-- The composition of a state is affine. -/
theorem stateComposition_shift (a b v : Fin (m + 2) → ℝ) (j : Nat) :
    stateComposition (a + v) j - stateComposition a j = stateComposition (b + v) j - stateComposition b j := by
  unfold stateComposition complement
  split
  · have : ∀ a : Fin (m + 2) → ℝ, ∑ k ∈ Finset.range m, (if h : k < m then (a + v) ⟨k + 1, by omega⟩ else 0) =
        ∑ k ∈ Finset.range m, (if h : k < m then a ⟨k + 1, by omega⟩ else 0) +
        ∑ k ∈ Finset.range m, (if h : k < m then v ⟨k + 1, by omega⟩ else 0) := fun a => by
      rw [← Finset.sum_add_distrib]
      refine Finset.sum_congr rfl fun k hk => ?_
      rw [dif_pos (Finset.mem_range.1 hk), dif_pos (Finset.mem_range.1 hk), dif_pos (Finset.mem_range.1 hk), Pi.add_apply]
    rw [this a, this b]
    ring
  · dsimp only
    split
    · simp only [Pi.add_apply]
      ring
    · ring

/-- The rates of the species differ by no more than those of the state (`m` times that for the last species). -/
theorem dYdt_close (D : Package) (hD : D ∈ shipped) (hn : D.nsp = m + 1) {y z : Fin (m + 2) → ℝ} {e : ℝ}
    (h : ‖D.chemistry.stateRate y - D.chemistry.stateRate z‖ ≤ e) (j : Nat) (hj : j < m + 1) :
    |D.chemistry.dYdt (y 0) (y (Fin.last (m + 1))) (stateComposition y) j -
      D.chemistry.dYdt (z 0) (z (Fin.last (m + 1))) (stateComposition z) j| ≤ (m + 1) * e := by
  have he : 0 ≤ e := (norm_nonneg _).trans h
  have h1 := second_order_composition D hD hn (z := z) (v := z + D.chemistry.stateRate y) (t := 1) (e := e)
    (by rw [one_smul, add_sub_cancel_left]; exact h) j hj
  have h2 := second_order_composition D hD hn (z := y) (v := y + D.chemistry.stateRate y) (t := 1) (e := 0)
    (by rw [one_smul, add_sub_cancel_left, sub_self, norm_zero]) j hj
  rw [mul_zero, abs_nonpos_iff, one_mul] at h2
  rw [stateComposition_shift z y, one_mul] at h1
  have e1 : stateComposition (y + D.chemistry.stateRate y) j - stateComposition y j =
      D.chemistry.dYdt (y 0) (y (Fin.last (m + 1))) (stateComposition y) j := by linarith
  rw [e1] at h1
  refine h1.trans ?_
  have hfac : ((if j = m then m else 1 : Nat) : ℝ) ≤ m + 1 := by
    split
    · linarith
    · push_cast; linarith [(Nat.cast_nonneg m : (0 : ℝ) ≤ m)]
  exact mul_le_mul_of_nonneg_right hfac he

/-- The composition of a cell with mass fractions that add up to one is that of its state. -/
theorem composition_of_layout {base : ChemModel ℝ} (hsp : base.nSpecie = m + 1) {fl : Flow ℝ} {i : Nat} {z : Fin (m + 2) → ℝ}
    (hlay : Layout (fl.p i) (fl.T i) (composition base fl i) z) (hsum : ∑ j ∈ Finset.range (m + 1), fl.Y j i = 1) (j : Nat)
    (hj : j < m + 1) : fl.Y j i = stateComposition z j := by
  have hspec : ∀ k, k < m → fl.Y k i = stateComposition z k := fun k hk => by
    have e1 := hlay.species ⟨k, hk⟩
    have e2 : (composition base fl i)[k]? = some (fl.Y k i) := by
      unfold composition
      rw [List.getElem?_map, List.getElem?_range (by omega)]
      rfl
    rw [e2, Option.some.injEq] at e1
    rw [e1]
    unfold stateComposition complement
    rw [if_neg (by omega)]
    dsimp only
    rw [dif_pos hk]
    rfl
  by_cases hkm : j = m
  · rw [hkm]
    rw [Finset.sum_range_succ, Finset.sum_congr rfl fun k hk => hspec k (Finset.mem_range.1 hk)] at hsum
    have : stateComposition z m = 1 - ∑ k ∈ Finset.range m, stateComposition z k := by
      have : ∑ k ∈ Finset.range m, stateComposition z k = ∑ k ∈ Finset.range m, (if h : k < m then z ⟨k + 1, by omega⟩ else 0) :=
        Finset.sum_congr rfl fun k hk => by
          unfold stateComposition complement
          rw [if_neg (by have := Finset.mem_range.1 hk; omega)]
      rw [this]
      unfold stateComposition complement
      rw [if_pos rfl]
    linarith
  · exact hspec j (by omega)

/-- The mean rate of change of the composition in an integration over a short time is the rate of the mechanism file. -/
theorem mean_rate_of_short [MathOps ℝ] (hm : PowLaws ℝ) (hq : SqrtLaws ℝ) (hr : RootLaws ℝ) (D : Package) (hD : D ∈ shipped)
    (hnsp : D.nsp = m + 1) (z : Fin (m + 2) → ℝ) (hz : D.chemistry.Interior z) (evalJacob : ℝ → Vec ℝ (m + 2) → Nat → ℝ)
    (hJ : JacobianBoundedNear (pyJacJacobian (D.lib m evalJacob)) z)
    (absTol relTol : Vec ℝ (m + 2)) (habs : ∀ i, 0 < absTol i) (hrel : ∀ i, 0 < relTol i) :
    ∃ b K : ℝ, 0 < b ∧ 0 ≤ K ∧ ∀ (linearSolve : (Nat → ℝ) → Vec ℝ (m + 2) → Vec ℝ (m + 2)) (fuel maxSteps : Nat)
        (scr scr' : Scratch ℝ (m + 1)) (p T : ℝ) (c : List ℝ) (dt sub : ℝ) (q : IntegrateResult ℝ), LapackContract (m + 2) linearSolve → 1 ≤ fuel →
        Layout p T c z → 0 < dt → dt ≤ b → 0 < sub → dt ≤ maxSteps * sub →
        odePyJacSolve (seulexIntegrator (pyJacEnv (D.lib m evalJacob) linearSolve absTol relTol fuel) maxSteps) scr p T c
          dt sub = .ok (scr', q) →
        ∀ j, j < m + 1 → |(q.c.getD j 0 - stateComposition z j) / dt -
          D.chemistry.dYdt (z 0) (z (Fin.last (m + 1))) (stateComposition z) j| ≤ K * (dt + 1 / 10 ^ 9) := by
  obtain ⟨φ, b, K, hb, hK, h0, hs, -, key⟩ := C123_cell_follows_the_reactor hm hq hr D hD hnsp z hz evalJacob hJ absTol relTol habs hrel
  obtain ⟨c, M, hc0, hcb, hM, hsec⟩ := second_order D hD hnsp hz hb h0 hs
  refine ⟨c, (m + 1) * (K + M), hc0, by positivity, ?_⟩
  intro linearSolve fuel maxSteps scr scr' p T cc dt sub q hE hfuel hlay hd hdb hsub hmax ho j hj
  obtain ⟨scr'', q', ho', k1, k2, k3⟩ := key linearSolve fuel maxSteps scr p T cc dt sub hE hfuel hlay hd (hdb.trans hcb) hsub hmax
  rw [ho] at ho'
  cases ho'
  have hfac : ((if j = m then m else 1 : Nat) : ℝ) ≤ m + 1 := by
    split
    · linarith
    · push_cast; linarith [(Nat.cast_nonneg m : (0 : ℝ) ≤ m)]
  obtain ⟨y, hy⟩ : ∃ y, y = D.chemistry.dYdt (z 0) (z (Fin.last (m + 1))) (stateComposition z) j := ⟨_, rfl⟩
  have a1 : |q.c.getD j 0 - stateComposition (φ dt) j| ≤ (if j = m then m else 1 : Nat) * (K * (dt + 1 / 10 ^ 9) * dt) := by
    split
    · rename_i e; rw [e]; exact k3
    · rw [Nat.cast_one, one_mul]; exact k2 j (by omega)
  have a2 := second_order_composition D hD hnsp (hsec _ ⟨hd.le, hdb⟩) j hj
  rw [← hy] at a2 ⊢
  have p1 : 0 ≤ K * (dt + 1 / 10 ^ 9) * dt := by positivity
  have p2 : 0 ≤ M * dt ^ 2 := by positivity
  have a3 := mul_le_mul_of_nonneg_right hfac p1
  have a4 := mul_le_mul_of_nonneg_right hfac p2
  have a5 : M * dt ^ 2 ≤ M * (dt + 1 / 10 ^ 9) * dt := by
    have : 0 ≤ M * (1 / 10 ^ 9) * dt := by positivity
    nlinarith
  have a6 := mul_le_mul_of_nonneg_left a5 (by positivity : (0 : ℝ) ≤ m + 1)
  have a7 := abs_add_le (q.c.getD j 0 - stateComposition (φ dt) j) (stateComposition (φ dt) j - stateComposition z j - dt * y)
  rw [show q.c.getD j 0 - stateComposition (φ dt) j + (stateComposition (φ dt) j - stateComposition z j - dt * y) =
    q.c.getD j 0 - stateComposition z j - dt * y by ring] at a7
  have e8 : (m + 1) * (K + M) * (dt + 1 / 10 ^ 9) * dt =
    (m + 1) * (K * (dt + 1 / 10 ^ 9) * dt) + (m + 1) * (M * (dt + 1 / 10 ^ 9) * dt) := by ring
  have e9 : (q.c.getD j 0 - stateComposition z j) / dt - y = (q.c.getD j 0 - stateComposition z j - dt * y) / dt := by
    field_simp
  rw [e9, abs_div, abs_of_pos hd, div_le_iff₀ hd, e8]
  linarith

/-- **C142, rates of mapped cells.** For every shipped mechanism, every state `z` inside the domain, every Jacobian routine that is bounded near it
and all positive tolerances there are a time `b`, a radius `δ` and a constant `K` such that, in a time step of the load-balanced chemistry model on
any number of ranks: if the reference cell of a rank is in the state `z` and is integrated over a time step of at most `b`, the reaction
rates of every mapped cell of the rank (the reference cell included) are the density of the reference cell times the rates of chem.cti in
the state `z`, up to `K (dt + 10^-9)` times that density; and if the state `y` of a mapped cell is within `δ` of `z`, they are its own density times
the rates of chem.cti in its own state, up to `K` times the density of the reference cell times `dt + 10^-9 + ‖y - z‖`, plus `K` times the difference
of the densities. -/
theorem C142_rates_of_mapped_cells [MathOps ℝ] (hm : PowLaws ℝ) (hq : SqrtLaws ℝ) (hr : RootLaws ℝ) (D : Package) (hD : D ∈ shipped)
    (hnsp : D.nsp = m + 1) (z : Fin (m + 2) → ℝ) (hz : D.chemistry.Interior z) (evalJacob : ℝ → Vec ℝ (m + 2) → Nat → ℝ)
    (hJ : JacobianBoundedNear (pyJacJacobian (D.lib m evalJacob)) z)
    (absTol relTol : Vec ℝ (m + 2)) (habs : ∀ i, 0 < absTol i) (hrel : ∀ i, 0 < relTol i) :
    ∃ b δ K : ℝ, 0 < b ∧ 0 < δ ∧
      ∀ (linearSolve : (Nat → ℝ) → Vec ℝ (m + 2) → Vec ℝ (m + 2)) (fuel maxSteps n : Nat) (base : ChemModel ℝ) (parRun : Bool)
        (sort : List (ChemistryLoad ℝ) → List (ChemistryLoad ℝ)) (clk : Fin n → Nat → ℝ) (flow : Fin n → Flow ℝ)
        (w w' : Fin n → Scratch ℝ (m + 1)) (F : Fin n → RankFields ℝ) (res : Fin n → RankFields ℝ × ℝ) (r : Fin n) (i₀ : Nat),
        LapackContract (m + 2) linearSolve → 1 ≤ fuel →
        0 < n → base.nSpecie = m + 1 → base.chemistry = true → (parRun = true ∨ n = 1) → (∀ l, (sort l).Perm l) →
        (∀ r i, i < (flow r).nCells → 1 / 10 ^ 15 < (flow r).deltaT i) →
        solveWorldW (pyJacModel base (D.lib m evalJacob) linearSolve absTol relTol fuel maxSteps) parRun
          sort clk flow w F = .ok (w', res) →
        IsReference base (flow r) i₀ → 0 ≤ (flow r).rho i₀ →
        Layout ((flow r).p i₀) ((flow r).T i₀) (composition base (flow r) i₀) z →
        ∑ j ∈ Finset.range (m + 1), (flow r).Y j i₀ = 1 →
        (flow r).deltaT i₀ ≤ b → 0 < (F r).deltaTChem i₀ →
        (flow r).deltaT i₀ ≤ maxSteps * (F r).deltaTChem i₀ →
        ∀ i, Mapped base (flow r) i → ∀ j, j < m + 1 →
          |(res r).1.RR j i - (flow r).rho i₀ * D.chemistry.dYdt (z 0) (z (Fin.last (m + 1))) (stateComposition z) j| ≤
            (flow r).rho i₀ * (K * ((flow r).deltaT i₀ + 1 / 10 ^ 9)) ∧
          ∀ y, Layout ((flow r).p i) ((flow r).T i) (composition base (flow r) i) y → ‖y - z‖ ≤ δ →
            |(res r).1.RR j i - (flow r).rho i * D.chemistry.dYdt (y 0) (y (Fin.last (m + 1))) (stateComposition y) j| ≤
              (flow r).rho i₀ * (K * ((flow r).deltaT i₀ + 1 / 10 ^ 9 + ‖y - z‖)) + K * |(flow r).rho i₀ - (flow r).rho i| := by
  obtain ⟨b, K, hb, hK, key⟩ := mean_rate_of_short hm hq hr D hD hnsp z hz evalJacob hJ absTol relTol habs hrel
  obtain ⟨Λ, U, hU, hL⟩ := stateRate_lipAt (X := D.chemistry) hnsp (proper_of_shipped hD) hz
  obtain ⟨δ, hδ, hball⟩ := Metric.nhds_basis_closedBall.mem_iff.1 hU
  have hΛ : (0 : ℝ) ≤ Λ := Λ.2
  obtain ⟨R, hR⟩ : ∃ R : ℝ, R = ∑ j ∈ Finset.range (m + 1),
    |D.chemistry.dYdt (z 0) (z (Fin.last (m + 1))) (stateComposition z) j| := ⟨_, rfl⟩
  have hR0 : 0 ≤ R := by rw [hR]; exact Finset.sum_nonneg fun _ _ => abs_nonneg _
  have q1 : 0 ≤ (m + 1) * (Λ : ℝ) := by positivity
  refine ⟨b, δ, K + (m + 1) * Λ + (R + (m + 1) * (Λ * δ)), hb, hδ, ?_⟩
  intro linearSolve fuel maxSteps n base parRun sort clk flow w w' F res r i₀ hE hfuel hn hsp hchem hpar hsort hdt h hi₀ hrho hlay hsum
    hdb hsub hmax i hi j hj
  have hd : 0 < (flow r).deltaT i₀ := lt_trans (by positivity) (hdt r i₀ (isReference_lt hi₀))
  obtain ⟨scr', q, ho, hqr⟩ := mapped_rates hn hsp hrel hchem hpar hsort hdt h r i hi.1 hi i₀ hi₀
  have k1 := key linearSolve fuel maxSteps _ _ _ _ _ _ _ q hE hfuel hlay hd hdb hsub hmax ho j hj
  rw [← composition_of_layout hsp hlay hsum j hj] at k1
  have hRj : |D.chemistry.dYdt (z 0) (z (Fin.last (m + 1))) (stateComposition z) j| ≤ R := by
    rw [hR]
    exact Finset.single_le_sum (f := fun j => |D.chemistry.dYdt (z 0) (z (Fin.last (m + 1))) (stateComposition z) j|)
      (fun _ _ => abs_nonneg _) (Finset.mem_range.2 hj)
  obtain ⟨d, hdd⟩ : ∃ d, d = D.chemistry.dYdt (z 0) (z (Fin.last (m + 1))) (stateComposition z) j := ⟨_, rfl⟩
  rw [← hdd] at k1 hRj ⊢
  have e1 : (res r).1.RR j i - (flow r).rho i₀ * d =
      (flow r).rho i₀ * ((q.c.getD j 0 - (flow r).Y j i₀) / (flow r).deltaT i₀ - d) := by
    rw [hqr j hj]; ring
  have b1 : |(res r).1.RR j i - (flow r).rho i₀ * d| ≤ (flow r).rho i₀ * (K * ((flow r).deltaT i₀ + 1 / 10 ^ 9)) := by
    rw [e1, abs_mul, abs_of_nonneg hrho]
    exact mul_le_mul_of_nonneg_left k1 hrho
  have hx : 0 ≤ (flow r).deltaT i₀ + 1 / 10 ^ 9 := by positivity
  obtain ⟨x, hxx⟩ : ∃ x, x = (flow r).deltaT i₀ + 1 / 10 ^ 9 := ⟨_, rfl⟩
  rw [← hxx] at b1 hx ⊢
  have q2 : 0 ≤ R + (m + 1) * (Λ * δ) := by positivity
  constructor
  · refine b1.trans (mul_le_mul_of_nonneg_left (mul_le_mul_of_nonneg_right ?_ hx) hrho)
    linarith
  · intro y hy hyz
    have l1 : ‖D.chemistry.stateRate y - D.chemistry.stateRate z‖ ≤ Λ * ‖y - z‖ := by
      have := hL.dist_le_mul y (hball (by rw [Metric.mem_closedBall, dist_eq_norm]; exact hyz)) z
        (hball (Metric.mem_closedBall_self hδ.le))
      rwa [dist_eq_norm, dist_eq_norm] at this
    have l2 := dYdt_close D hD hnsp l1 j hj
    rw [← hdd] at l2
    obtain ⟨v, hv⟩ : ∃ v, v = D.chemistry.dYdt (y 0) (y (Fin.last (m + 1))) (stateComposition y) j := ⟨_, rfl⟩
    rw [← hv] at l2 ⊢
    obtain ⟨ε, hε⟩ : ∃ ε, ε = ‖y - z‖ := ⟨_, rfl⟩
    have hε0 : 0 ≤ ε := by rw [hε]; exact norm_nonneg _
    rw [← hε] at l2 hyz ⊢
    obtain ⟨ρ, hρ⟩ : ∃ ρ, ρ = (flow r).rho i₀ := ⟨_, rfl⟩
    obtain ⟨σ, hσ⟩ : ∃ σ, σ = (flow r).rho i := ⟨_, rfl⟩
    rw [← hρ] at b1 hrho ⊢
    rw [← hσ]
    have l3 : (m + 1) * (Λ * ε) ≤ (m + 1) * ((Λ : ℝ) * δ) :=
      mul_le_mul_of_nonneg_left (mul_le_mul_of_nonneg_left hyz hΛ) (by positivity)
    have l4 : |v| ≤ R + (m + 1) * (Λ * δ) := by
      have := abs_sub_abs_le_abs_sub v d
      linarith
    have e2 : (res r).1.RR j i - σ * v = ((res r).1.RR j i - ρ * d) + (ρ * (d - v) + (ρ - σ) * v) := by ring
    rw [e2]
    have t1 := abs_add_le ((res r).1.RR j i - ρ * d) (ρ * (d - v) + (ρ - σ) * v)
    have t2 := abs_add_le (ρ * (d - v)) ((ρ - σ) * v)
    rw [abs_mul, abs_of_nonneg hrho, abs_mul, abs_sub_comm d v] at t2
    have t3 := mul_le_mul_of_nonneg_left l2 hrho
    have t4 := mul_le_mul_of_nonneg_left l4 (abs_nonneg (ρ - σ))
    have s1 : 0 ≤ ρ * (((m + 1) * Λ + (R + (m + 1) * (Λ * δ))) * x) := by positivity
    have s2 : 0 ≤ ρ * ((K + (R + (m + 1) * (Λ * δ))) * ε) := by positivity
    have s3 : 0 ≤ (K + (m + 1) * Λ) * |ρ - σ| := by positivity
    have e3 : ρ * ((K + (m + 1) * Λ + (R + (m + 1) * (Λ * δ))) * (x + ε)) + (K + (m + 1) * Λ + (R + (m + 1) * (Λ * δ))) * |ρ - σ| =
      ρ * (K * x) + ρ * (((m + 1) * Λ + (R + (m + 1) * (Λ * δ))) * x) + ρ * ((m + 1) * (Λ * ε)) +
      ρ * ((K + (R + (m + 1) * (Λ * δ))) * ε) + |ρ - σ| * (R + (m + 1) * (Λ * δ)) + (K + (m + 1) * Λ) * |ρ - σ| := by ring
    rw [e3]
    linarith

end

/-! ### Cases -/

/-- A rank with two cells of hot compressed air, the second of twice the density. -/
noncomputable def twoDensities (p dt : ℝ) : Flow ℝ := { hotAirFlow p dt with rho := fun i => if i = 0 then 1 else 2 }

/-- A case of C142: a rank with two cells of hot compressed air, of different densities, and the mechanism drm19. For all coefficients of the mixture
fraction there is a tolerance with which both cells are mapped; short time steps succeed, and the second cell carries the rates of the
first, which are those of chem.cti with the density of the first, half of its own. -/
example (w : Fin 1 → Scratch ℝ 21) (G : RankFields ℝ) (clk : Fin 1 → Nat → ℝ) (active : Bool) (alpha : List ℝ) (ha : alpha.length = 21) :
    letI := realMath
    ∃ p b K Z : ℝ, 0 < b ∧ ∀ dt, 0 < dt → dt ≤ b → ∃ w' res,
      solveWorldW (pyJacModel ⟨true, 21, 1, fun _ _ _ _ _ => .error .ub, 1, ⟨true, Z, 1, ⟨alpha, 0, 1⟩⟩, active⟩
        (drm19.lib 20 fun _ _ _ => 0) (fun a b => (columnMajor 22 a)⁻¹.mulVec b) (fun _ => 1 / 10 ^ 8) (fun _ => 1 / 10 ^ 5) 1 10) true
        id clk (fun _ => twoDensities p dt) w (fun _ => { G with deltaTChem := fun _ => dt / 10 }) = .ok (w', res) ∧
      (1 / 10 ^ 15 < dt → ∀ j, j < 21 → (res 0).1.RR j 1 = (res 0).1.RR j 0 ∧
        |(res 0).1.RR j 1 - drm19.chemistry.dYdt 1200 p (stateComposition (hotAirState p)) j| ≤ K * (dt + 1 / 10 ^ 9)) := by
  let := realMath
  obtain ⟨p, hp⟩ := hotAirState_interior
  have hpos : ∀ _ : Fin 22, (0 : ℝ) < 1 / 10 ^ 8 := fun _ => by norm_num
  have hpos' : ∀ _ : Fin 22, (0 : ℝ) < 1 / 10 ^ 5 := fun _ => by norm_num
  obtain ⟨b1, K1, hb1, key1⟩ := C124_short_time_steps_succeed realMath_powLaws realMath_sqrtLaws realMath_rootLaws drm19 (by simp [shipped]) rfl
    (n := 1) (by norm_num) (fun _ => 2) (fun _ _ => hotAirState p) (fun _ _ _ => hp) (fun _ _ _ => 0)
    (fun _ _ _ => zeroJacobian_bounded _ _) (fun _ => 1 / 10 ^ 8) (fun _ => 1 / 10 ^ 5) hpos hpos'
  obtain ⟨b2, δ, K, hb2, hδ, key2⟩ := C142_rates_of_mapped_cells realMath_powLaws realMath_sqrtLaws realMath_rootLaws drm19 (by simp [shipped]) rfl
    (hotAirState p) hp (fun _ _ _ => 0) (zeroJacobian_bounded _ _) (fun _ => 1 / 10 ^ 8) (fun _ => 1 / 10 ^ 5) hpos hpos'
  obtain ⟨v, hv⟩ := dotAcc_returns alpha (List.ofFn fun i : Fin 21 => stateComposition (hotAirState p) i.val) 0 (by simp [ha])
  refine ⟨p, min b1 b2, K, v + 1, lt_min hb1 hb2, fun dt hdt hdtb => ?_⟩
  obtain ⟨base, hbase⟩ : ∃ base : ChemModel ℝ,
    base = ⟨true, 21, 1, fun _ _ _ _ _ => .error .ub, 1, ⟨true, v + 1, 1, ⟨alpha, 0, 1⟩⟩, active⟩ := ⟨_, rfl⟩
  have hcomp : ∀ i, composition base (twoDensities p dt) i = List.ofFn fun i : Fin 21 => stateComposition (hotAirState p) i.val := by
    intro i
    rw [hbase]
    unfold composition twoDensities hotAirFlow
    rw [List.ofFn_eq_map, ← List.map_coe_finRange_eq_range, List.map_map]
    rfl
  have hlay : ∀ i, Layout p 1200 (composition base (twoDensities p dt) i) (hotAirState p) := by
    intro i
    have h := exists_layout (hotAirState p)
    have e1 : hotAirState p (Fin.last 21) = p := if_pos rfl
    rw [e1] at h
    rw [hcomp]
    exact h
  have hcand : ∀ i, Candidate base (twoDensities p dt) i := fun i => by
    refine ⟨by rw [hbase], (v - 0) / (1 - 0), ?_, by rw [hbase]; show (v - 0) / (1 - 0) < v + 1; norm_num⟩
    unfold massFractionToMixtureFraction
    rw [hcomp, hbase]
    simp only [hv]
    rfl
  have href : IsReference base (twoDensities p dt) 0 := ⟨by show 0 < 2; norm_num, hcand 0, fun i hi => absurd hi (by omega)⟩
  have hmap : ∀ i, i < 2 → Mapped base (twoDensities p dt) i := fun i hi => ⟨hi, hcand i, 0, href, by
    rw [hbase, absS_eq_abs]
    show |(1200 : ℝ) - 1200| < 1
    norm_num⟩
  rw [← hbase]
  have hrho : ∀ i, 0 ≤ (twoDensities p dt).rho i := fun i => by
    unfold twoDensities
    dsimp only
    split <;> norm_num
  have hsub : 0 < dt / 10 := by positivity
  have hmax : dt ≤ ((10 : Nat) : ℝ) * (dt / 10) := by push_cast; linarith
  obtain ⟨w', res, h, -⟩ := key1 _ 1 10 base true id clk
    (fun _ => twoDensities p dt) w (fun _ => { G with deltaTChem := fun _ => dt / 10 }) (lapackContract_inverse 22) le_rfl (by rw [hbase])
    (by rw [hbase]) (by rw [hbase]) (fun _ => by rw [hbase]; exact ha.ge) (Or.inl rfl) (fun l => List.Perm.refl _) (fun _ => rfl)
    (fun r i _ => ⟨hlay i, stateComposition_total _, hrho i, hdt, hdtb.trans (min_le_left _ _), hsub, hmax⟩)
  refine ⟨w', res, h, fun hsmall j hj => ⟨?_, ?_⟩⟩
  · exact (C142_mapped_cells_share_their_rates (by norm_num) base (by rw [hbase]) _ _ _ _ hpos' _ _ (by rw [hbase]) true (Or.inl rfl) id
      (fun l => List.Perm.refl _) clk _ (fun _ _ _ => hsmall) w w' _ res h 0).1 1 0 (hmap 1 (by norm_num)) (hmap 0 (by norm_num)) j hj
  · have := (key2 _ 1 10 1 base true id clk (fun _ => twoDensities p dt) w w' (fun _ => { G with deltaTChem := fun _ => dt / 10 }) res 0 0
      (lapackContract_inverse 22) le_rfl (by norm_num) (by rw [hbase]) (by rw [hbase]) (Or.inl rfl) (fun l => List.Perm.refl _)
      (fun _ _ _ => hsmall) h href (hrho 0) (hlay 0) (stateComposition_total _) (hdtb.trans (min_le_right _ _)) hsub hmax 1
      (hmap 1 (by norm_num)) j hj).1
    have e1 : hotAirState p (Fin.last 21) = p := if_pos rfl
    have e0 : (twoDensities p dt).rho 0 = 1 := by simp [twoDensities]
    rw [e1, e0, one_mul, one_mul] at this
    exact this

end DLB
