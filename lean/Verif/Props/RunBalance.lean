import Verif.Props.SecondOrderRun
import Verif.Props.FullStackChemistry
/-
C138: what every cell keeps over any number of time steps, whatever the accuracy of the integration.
-/
set_option autoImplicit false
set_option linter.unusedSectionVars false

namespace DLB
open Spec

section
variable {K : Type} [Field K] [LinearOrder K] [IsStrictOrderedRing K] {m : Nat}

/-- In one time step a cell of the flow takes up the reaction rates `RR` and, as a source of sensible enthalpy (above the enthalpies of formation `hf`), the heat release, at constant pressure, as in the validation test;
`ha T j` is the absolute enthalpy of species `j` at the temperature `T`. -/
structure FlowStep (ha : K → Fin (m + 1) → K) (hf : Vec K (m + 1)) (f f' : Flow K) (RR : Nat → Nat → K) (i : Nat) : Prop where
  pressure : f'.p i = f.p i
  species : ∀ j, j < m + 1 → f'.Y j i = f.Y j i + RR j i * f.deltaT i / f.rho i
  enthalpy : ∑ j : Fin (m + 1), f'.Y j i * (ha (f'.T i) j - hf j) =
    psrEnthalpy (∑ j : Fin (m + 1), f.Y j i * (ha (f.T i) j - hf j)) (pyJacQdot true hf fun j => RR j i) (f.rho i) (f.deltaT i)

/-- **C138.** With the pyJac model and the repository's integrator, over any number of time steps on any number of ranks, with or without load balancing and mapping, whatever the library, the Jacobian routine and the linear solver compute
and however large the steps are: if the flow takes up the reaction rates and the heat release at constant pressure, and the mass fractions of each cell sum to one at the start, then at all times each cell, mapped or
integrated, has the pressure and the absolute enthalpy that it started with, and its mass fractions sum to one. -/
theorem C138_cells_keep_mass_pressure_and_enthalpy [MathOps K] {n : Nat} (hn : 0 < n) (base : ChemModel K) (hsp : base.nSpecie = m + 1) (hchem : base.chemistry = true)
    (L : PyJacLib K m) (linearSolve : (Nat → K) → Vec K (m + 2) → Vec K (m + 2)) (absTol relTol : Vec K (m + 2)) (hrel : ∀ i, 0 < relTol i) (fuel maxSteps : Nat)
    (parRun : Bool) (hpar : parRun = true ∨ n = 1) (sort : List (ChemistryLoad K) → List (ChemistryLoad K)) (hsort : ∀ l, (sort l).Perm l)
    (ha : K → Fin (m + 1) → K) (hf : Vec K (m + 1)) (nCells : Fin n → Nat) (N : Nat) (clk : Nat → Fin n → Nat → K) (flow : Nat → Fin n → Flow K)
    (w w' : Nat → Fin n → Scratch K (m + 1)) (F : Nat → Fin n → RankFields K) (res : Nat → Fin n → RankFields K × K)
    (hnc : ∀ k, k ≤ N → ∀ r, (flow k r).nCells = nCells r) (hdt : ∀ k, k < N → ∀ r i, i < nCells r → 1 / 10 ^ 15 < (flow k r).deltaT i)
    (hrun : ∀ k, k < N → solveWorldW (pyJacModel base L linearSolve absTol relTol fuel maxSteps) parRun sort (clk k) (flow k) (w k) (F k) = .ok (w' k, res k))
    (hflow : ∀ k, k < N → ∀ r i, i < nCells r → FlowStep ha hf (flow k r) (flow (k + 1) r) (res k r).1.RR i)
    (hY : ∀ r i, i < nCells r → ∑ j ∈ Finset.range (m + 1), (flow 0 r).Y j i = 1) :
    ∀ k, k ≤ N → ∀ r i, i < nCells r →
      (flow k r).p i = (flow 0 r).p i ∧ ∑ j ∈ Finset.range (m + 1), (flow k r).Y j i = 1 ∧
      ∑ j : Fin (m + 1), (flow k r).Y j i * ha ((flow k r).T i) j = ∑ j : Fin (m + 1), (flow 0 r).Y j i * ha ((flow 0 r).T i) j := by
  intro k
  induction k with
  | zero => exact fun _ r i hi => ⟨rfl, hY r i hi, rfl⟩
  | succ k ih =>
    intro hk r i hi
    have ih := ih (by omega)
    obtain ⟨h1, h2, h3⟩ := ih r i hi
    have hs := hflow k (by omega) r i hi
    have hz := C74_rates_sum_to_zero hn base hsp L linearSolve absTol relTol hrel fuel maxSteps hchem parRun hpar sort hsort (clk k) (flow k)
      (fun r i hi => hdt k (by omega) r i (by rw [← hnc k (by omega) r]; exact hi))
      (fun r i hi => (ih r i (by rw [← hnc k (by omega) r]; exact hi)).2.1) (w k) (w' k) (F k) (res k) (hrun k (by omega)) r i (by rw [hnc k (by omega) r]; exact hi)
    refine ⟨hs.pressure.trans h1, ?_, ?_⟩
    · rw [Finset.sum_congr rfl fun j hj => hs.species j (Finset.mem_range.1 hj), Finset.sum_add_distrib, h2, ← Finset.sum_div, ← Finset.sum_mul, hz]
      simp
    · exact ((C135_absolute_enthalpy hf (fun j => (res k r).1.RR j i) (fun j => (flow k r).Y j i) (fun j => (flow (k + 1) r).Y j i) (ha ((flow k r).T i)) (ha ((flow (k + 1) r).T i)) _ _
        fun j => hs.species j j.isLt).1 hs.enthalpy).trans h3

/-- **C138, mass fractions.** A cell that is integrated and takes up its reaction rates has afterwards no negative mass fraction but possibly that of the last species, whatever it had before. -/
theorem C138_integrated_cells_are_not_negative [MathOps K] {n : Nat} (hn : 0 < n) (base : ChemModel K) (hsp : base.nSpecie = m + 1) (hchem : base.chemistry = true)
    (L : PyJacLib K m) (linearSolve : (Nat → K) → Vec K (m + 2) → Vec K (m + 2)) (absTol relTol : Vec K (m + 2)) (hrel : ∀ i, 0 < relTol i) (fuel maxSteps : Nat)
    (parRun : Bool) (hpar : parRun = true ∨ n = 1) (sort : List (ChemistryLoad K) → List (ChemistryLoad K)) (hsort : ∀ l, (sort l).Perm l)
    (ha : K → Fin (m + 1) → K) (hf : Vec K (m + 1)) (clk : Fin n → Nat → K) (flow flow' : Fin n → Flow K)
    (w w' : Fin n → Scratch K (m + 1)) (F : Fin n → RankFields K) (res : Fin n → RankFields K × K)
    (hdt : ∀ r i, i < (flow r).nCells → 1 / 10 ^ 15 < (flow r).deltaT i)
    (hrun : solveWorldW (pyJacModel base L linearSolve absTol relTol fuel maxSteps) parRun sort clk flow w F = .ok (w', res))
    (r : Fin n) (i : Nat) (hi : i < (flow r).nCells) (hmap : ¬ Mapped base (flow r) i) (hrho : (flow r).rho i ≠ 0)
    (hflow : FlowStep ha hf (flow r) (flow' r) (res r).1.RR i) :
    ∀ j, j < m → 0 ≤ (flow' r).Y j i := by
  intro j hj
  obtain ⟨i₀, hlt, hi₀, scr, scr', q, ho, hq⟩ := world_rates hn hsp hrel hchem hpar hsort hdt hrun r i hi
  obtain ⟨rfl, -⟩ : i₀ = i ∧ ¬ Mapped base (flow r) i := by
    rcases hi₀ with h' | h'
    · exact h'
    · exact absurd h'.1 hmap
  have hd : (flow r).deltaT i₀ ≠ 0 := (lt_trans (by positivity) (hdt r i₀ hlt)).ne'
  rw [hflow.species j (by omega), hq j (by omega)]
  have e : (flow r).Y j i₀ + (q.c.getD j 0 - (flow r).Y j i₀) * (flow r).rho i₀ / (flow r).deltaT i₀ * (flow r).deltaT i₀ / (flow r).rho i₀ = q.c.getD j 0 := by
    field_simp
    ring
  rw [e]
  obtain ⟨y, y', sub', hy, hI, rfl⟩ := odePyJacSolve_ok ho
  show 0 ≤ (List.ofFn (clippedComposition y')).getD j 0
  rw [List.getD_eq_getElem _ _ (by rw [List.length_ofFn]; omega), List.getElem_ofFn]
  have : (⟨j, by omega⟩ : Fin (m + 1)) = Fin.castSucc ⟨j, hj⟩ := rfl
  rw [this]
  simp only [clippedComposition, Fin.snoc_castSucc]
  exact le_max_left _ _

/-- **C138, elements.** For every shipped mechanism, with a Jacobian routine that conserves the element and a linear solver that satisfies the equation of its amount: over any number of time steps, no cell, mapped or integrated, ever loses any
element that the last species does not contain. -/
theorem C138_no_element_is_lost [MathOps K] [CMath K] (hm : PowLaws K) (D : Package) (hD : D ∈ shipped) (hD1 : D.nsp = m + 1) :
    ∃ wt rt : Nat → K, CloseWeights D wt rt ∧ ∀ (e : Nat), e < D.elements.length → D.atomCount (D.nsp - 1) e = 0 →
    ∀ (evalJacob : K → Vec K (m + 2) → Nat → K), JacobianConserves D wt e evalJacob →
    ∀ (linearSolve : (Nat → K) → Vec K (m + 2) → Vec K (m + 2)) (absTol relTol : Vec K (m + 2)), (∀ i, 0 < relTol i) →
    ∀ (fuel maxSteps : Nat), SolvesCombination (pyJacEnv (D.lib m evalJacob) linearSolve absTol relTol fuel) (elementVector D wt e) →
    ∀ {n : Nat}, 0 < n → ∀ (base : ChemModel K), base.nSpecie = m + 1 → base.chemistry = true → ∀ (parRun : Bool), (parRun = true ∨ n = 1) →
    ∀ sort : List (ChemistryLoad K) → List (ChemistryLoad K), (∀ l, (sort l).Perm l) →
    ∀ (ha : K → Fin (m + 1) → K) (hf : Vec K (m + 1)) (nCells : Fin n → Nat) (N : Nat) (clk : Nat → Fin n → Nat → K) (flow : Nat → Fin n → Flow K)
      (w w' : Nat → Fin n → Scratch K (m + 1)) (F : Nat → Fin n → RankFields K) (res : Nat → Fin n → RankFields K × K),
    (∀ k, k ≤ N → ∀ r, (flow k r).nCells = nCells r) →
    (∀ k, k < N → ∀ r i, i < nCells r → 1 / 10 ^ 15 < (flow k r).deltaT i ∧ 0 < (flow k r).rho i ∧ 0 < (F k r).deltaTChem i) →
    (∀ k, k < N → solveWorldW (pyJacModel base (D.lib m evalJacob) linearSolve absTol relTol fuel maxSteps) parRun sort (clk k) (flow k) (w k) (F k) = .ok (w' k, res k)) →
    (∀ k, k < N → ∀ r i, i < nCells r → FlowStep ha hf (flow k r) (flow (k + 1) r) (res k r).1.RR i) →
    ∀ k l, k ≤ l → l ≤ N → ∀ r i, i < nCells r →
      ∑ s ∈ Finset.range D.nsp, (D.atomCount s e : K) / wt s * (flow k r).Y s i ≤ ∑ s ∈ Finset.range D.nsp, (D.atomCount s e : K) / wt s * (flow l r).Y s i := by
  obtain ⟨wt, rt, hwt, key⟩ := C72_rates_conserve_elements hm D hD hD1
  refine ⟨wt, rt, hwt, ?_⟩
  intro e he hlast jac hjac solve absTol relTol hrel fuel maxSteps hsolve n hn base hsp hchem parRun hpar sort hsort ha hf nCells N clk flow w w' F res hnc hcell hrun hflow k l hkl
  induction l, hkl using Nat.le_induction with
  | base => exact fun _ r i _ => le_rfl
  | succ l hl ih =>
    intro hlN r i hi
    refine (ih (by omega) r i hi).trans ?_
    have hc : ∀ r i, i < (flow l r).nCells → i < nCells r := fun r i h => by rw [← hnc l (by omega) r]; exact h
    have h0 := (key e he hlast jac hjac solve absTol relTol hrel fuel maxSteps hsolve hn base hsp hchem parRun hpar sort hsort (clk l) (flow l)
      (fun r i h => (hcell l (by omega) r i (hc r i h)).1) (fun r i h => (hcell l (by omega) r i (hc r i h)).2.1) (w l) (w' l) (F l)
      (fun r i h => (hcell l (by omega) r i (hc r i h)).2.2) (res l) (hrun l (by omega)) r i (by rw [hnc l (by omega) r]; exact hi)).1
    have hs := hflow l (by omega) r i hi
    obtain ⟨a1, a2, -⟩ := hcell l (by omega) r i hi
    have hd : 0 < (flow l r).deltaT i := lt_trans (by positivity) a1
    have e1 : ∑ s ∈ Finset.range D.nsp, (D.atomCount s e : K) / wt s * (flow (l + 1) r).Y s i =
        ∑ s ∈ Finset.range D.nsp, (D.atomCount s e : K) / wt s * (flow l r).Y s i +
        (∑ s ∈ Finset.range D.nsp, (D.atomCount s e : K) / wt s * (res l r).1.RR s i) * ((flow l r).deltaT i / (flow l r).rho i) := by
      rw [Finset.sum_mul, ← Finset.sum_add_distrib]
      refine Finset.sum_congr rfl fun s hs' => ?_
      rw [hs.species s (by rw [← hD1]; exact Finset.mem_range.1 hs')]
      ring
    rw [e1]
    exact le_add_of_nonneg_right (mul_nonneg h0 (div_pos hd a2).le)

end

/-! ### Cases -/

namespace Example

/-- The two ranks of the example of C69 with the mapping switched on: all cells of rank 0 are mapped to its first cell. -/
def mappedBase : ChemModel ℚ :=
  { chemistry := true, nSpecie := 2, deltaTChemMax := 1, fuel := 3, active := true,
    integrate := fun _ _ _ _ _ => .error .fatal, mapper := ⟨true, 1 / 2, 100, ⟨[1, 0], 0, 1⟩⟩ }

/-- One time step of this case. -/
def mappedStep : Except Fault ((Fin 2 → Scratch ℚ 2) × (Fin 2 → RankFields ℚ × ℚ)) :=
  letI := ratMath
  solveWorldW (pyJacModel mappedBase stackLib stackSolve (fun _ => 1) (fun _ => 1 / 10000) 10 10) true sort (fun _ _ => 1) stackFlow (fun _ => stackScratch 0) stackFields

/-- Enthalpies of formation of the two species. -/
def formation : Vec ℚ 2 := fun j => if j = 0 then 0 else 50000

/-- The flow takes up the rates; the species have the same heat capacity of 1000, the second the enthalpy of formation 50000. -/
def takeUp (f : Flow ℚ) (RR : Nat → Nat → ℚ) : Flow ℚ :=
  { f with
    Y := fun j i => f.Y j i + RR j i * f.deltaT i / f.rho i
    T := fun i => f.T i + pyJacQdot (m := 1) true formation (fun j => RR j i) / f.rho i * f.deltaT i / 1000 }

end Example

/-- A case of C138: the first two cells of rank 0 carry the same rates because the second is mapped; both take them up and keep mass and enthalpy, while their temperatures and mass fractions change. -/
example : ∃ w' res, Example.mappedStep = .ok (w', res) ∧ (res 0).1.RR 0 0 ≠ 0 ∧ (res 0).1.RR 0 1 = (res 0).1.RR 0 0 ∧
    let f := Example.takeUp (Example.stackFlow 0) (res 0).1.RR
    f.T 1 ≠ (Example.stackFlow 0).T 1 ∧ ∑ j ∈ Finset.range 2, f.Y j 1 = 1 ∧
    ∑ j : Fin 2, f.Y j 1 * (1000 * f.T 1 + Example.formation j) = 1 / 4 * (1000 * 1002) + 3 / 4 * (1000 * 1002 + 50000) := by
  let := ratMath
  have hok : (Example.mappedStep.toOption.map fun v => ((v.2 0).1.RR 0 0 ≠ 0 ∧ (v.2 0).1.RR 0 1 = (v.2 0).1.RR 0 0 ∧
      (Example.takeUp (Example.stackFlow 0) (v.2 0).1.RR).T 1 ≠ (Example.stackFlow 0).T 1 : Bool)) = some true := by decide +kernel
  rcases h : Example.mappedStep with e | ⟨w', res⟩
  · rw [h] at hok
    simp [Except.toOption] at hok
  · rw [h] at hok
    simp only [Except.toOption, Option.map_some, Option.some.injEq, decide_eq_true_eq] at hok
    refine ⟨w', res, rfl, hok.1, hok.2.1, hok.2.2, ?_⟩
    have hY : ∀ (r : Fin 2) i, ∑ j ∈ Finset.range 2, (Example.stackFlow r).Y j i = 1 := fun r i => by
      fin_cases r <;> norm_num [Example.stackFlow, Finset.sum_range_succ]
    have hdt : ∀ (r : Fin 2) i, (1 : ℚ) / 10 ^ 15 < (Example.stackFlow r).deltaT i := fun r i => by
      fin_cases r <;> norm_num [Example.stackFlow]
    have hrel : ∀ i : Fin 3, (0 : ℚ) < (fun _ => 1 / 10000) i := fun _ => by norm_num
    have hz : ∀ r i, i < (Example.stackFlow r).nCells → (res r).1.RR 0 i + (res r).1.RR 1 i = 0 := fun r i hi => by
      have := C74_rates_sum_to_zero (m := 1) (n := 2) (by norm_num) Example.mappedBase rfl Example.stackLib Example.stackSolve (fun _ => 1) (fun _ => 1 / 10000) hrel 10 10 rfl true (Or.inl rfl) Example.sort
        Example.sort_perm (fun _ _ => 1) Example.stackFlow (fun r i _ => hdt r i) (fun r i _ => hY r i) _ w' Example.stackFields res h r i hi
      simpa [Finset.sum_range_succ] using this
    have hflow : ∀ r i, i < (Example.stackFlow r).nCells → FlowStep (m := 1) (fun T j => 1000 * T + Example.formation j) Example.formation (Example.stackFlow r)
        (Example.takeUp (Example.stackFlow r) (res r).1.RR) (res r).1.RR i := fun r i hi => by
      refine ⟨rfl, fun j _ => rfl, ?_⟩
      have h1 := hz r i hi
      have h2 := hY r i
      rw [Finset.sum_range_succ, Finset.sum_range_one] at h2
      rw [psrEnthalpy]
      simp only [Example.takeUp]
      have h3 : (Example.stackFlow r).Y 0 i + (res r).1.RR 0 i * (Example.stackFlow r).deltaT i / (Example.stackFlow r).rho i +
          ((Example.stackFlow r).Y 1 i + (res r).1.RR 1 i * (Example.stackFlow r).deltaT i / (Example.stackFlow r).rho i) = 1 := by
        have : (res r).1.RR 1 i = - (res r).1.RR 0 i := by linarith
        rw [this, ← h2]
        ring
      generalize pyJacQdot true Example.formation (fun j => (res r).1.RR j i) = q at *
      have e1 : ∀ T : ℚ, ∀ j, 1000 * T + Example.formation j - Example.formation j = 1000 * T := fun T j => by ring
      simp only [e1]
      have e2 : ∀ f : Fin (1 + 1) → ℚ, ∑ j, f j = f 0 + f 1 := fun f => Fin.sum_univ_two f
      rw [e2, e2, ← add_mul, ← add_mul]
      show ((Example.stackFlow r).Y 0 i + (res r).1.RR 0 i * (Example.stackFlow r).deltaT i / (Example.stackFlow r).rho i +
          ((Example.stackFlow r).Y 1 i + (res r).1.RR 1 i * (Example.stackFlow r).deltaT i / (Example.stackFlow r).rho i)) * _ =
        ((Example.stackFlow r).Y 0 i + (Example.stackFlow r).Y 1 i) * _ + _
      rw [h3, h2]
      ring
    have := C138_cells_keep_mass_pressure_and_enthalpy (m := 1) (n := 2) (by norm_num) Example.mappedBase rfl rfl Example.stackLib Example.stackSolve (fun _ => 1) (fun _ => 1 / 10000) hrel 10 10 true
      (Or.inl rfl) Example.sort Example.sort_perm (fun T j => 1000 * T + Example.formation j) Example.formation (fun r => (Example.stackFlow r).nCells) 1 (fun _ _ _ => 1)
      (fun k r => if k = 0 then Example.stackFlow r else Example.takeUp (Example.stackFlow r) (res r).1.RR) (fun _ _ => Example.stackScratch 0) (fun _ => w') (fun _ => Example.stackFields)
      (fun _ => res) (fun k _ r => by show (if k = 0 then _ else _ : Flow ℚ).nCells = _; split <;> rfl) (fun k hk r i _ => by rw [Nat.lt_one_iff.1 hk]; exact hdt r i)
      (fun k hk => by rw [Nat.lt_one_iff.1 hk]; exact h) (fun k hk r i hi => by rw [Nat.lt_one_iff.1 hk]; exact hflow r i hi)
      (fun r i _ => hY r i) 1 le_rfl 0 1 (by show 1 < 4; norm_num)
    obtain ⟨-, a, b⟩ := this
    refine ⟨a, b.trans ?_⟩
    have e2 : ∀ f : Fin (1 + 1) → ℚ, ∑ j, f j = f 0 + f 1 := fun f => Fin.sum_univ_two f
    rw [e2]
    norm_num [Example.stackFlow, Example.formation]

namespace Example

/-- A cold rank in which the first species is consumed: the first cell has it, the second has not; both are mapped to the first. -/
def lackingFlow : Fin 1 → Flow ℚ := fun _ =>
  { nCells := 2, Y := fun j i => if i = 0 then (if j = 0 then 1 / 4 else 3 / 4) else (if j = 0 then 0 else 1), T := fun _ => 990,
    p := fun _ => 100000, rho := fun _ => 1, deltaT := fun _ => 1 / 100 }

/-- One time step of this case. -/
def lackingStep : Except Fault ((Fin 1 → Scratch ℚ 2) × (Fin 1 → RankFields ℚ × ℚ)) :=
  letI := ratMath
  solveWorldW (pyJacModel mappedBase stackLib stackSolve (fun _ => 1) (fun _ => 1 / 10000) 10 10) true sort (fun _ _ => 1) lackingFlow (fun _ => stackScratch 0) (fun _ => stackFields 0)

end Example

/-- **C138 does not extend to mapped cells.** A mapped cell takes up the rates of its reference cell: if the reference cell consumes a species that the mapped cell does not have, its mass fraction becomes negative there. -/
theorem C138_mapped_cells_can_become_negative :
    ∃ w' res, Example.lackingStep = .ok (w', res) ∧ Mapped Example.mappedBase (Example.lackingFlow 0) 1 ∧ (∀ j i, 0 ≤ (Example.lackingFlow 0).Y j i) ∧
      (Example.lackingFlow 0).Y 0 1 + (res 0).1.RR 0 1 * (Example.lackingFlow 0).deltaT 1 / (Example.lackingFlow 0).rho 1 < 0 := by
  have hok : (Example.lackingStep.toOption.map fun v =>
      ((Example.lackingFlow 0).Y 0 1 + (v.2 0).1.RR 0 1 * (Example.lackingFlow 0).deltaT 1 / (Example.lackingFlow 0).rho 1 < 0 : Bool)) = some true := by decide +kernel
  rcases h : Example.lackingStep with e | ⟨w', res⟩
  · rw [h] at hok
    simp [Except.toOption] at hok
  · rw [h] at hok
    simp only [Except.toOption, Option.map_some, Option.some.injEq, decide_eq_true_eq] at hok
    refine ⟨w', res, rfl, ?_, fun j i => ?_, hok⟩
    · have hc : ∀ i, i < 2 → Candidate Example.mappedBase (Example.lackingFlow 0) i := fun i hi => by
        refine ⟨rfl, ?_⟩
        interval_cases i
        · exact ⟨1 / 4, by decide +kernel, by decide +kernel⟩
        · exact ⟨0, by decide +kernel, by decide +kernel⟩
      exact ⟨by decide, hc 1 (by norm_num), 0, ⟨by decide, hc 0 (by norm_num), fun i hi => absurd hi (Nat.not_lt_zero i)⟩, by decide +kernel⟩
    · simp only [Example.lackingFlow]
      split <;> split <;> norm_num

theorem takesUp_flowStep {m : Nat} {X : Chemistry} {hf : Vec ℝ (m + 1)} {r₀ : ℝ} {f f' : Flow ℝ} {RR : Nat → Nat → ℝ} {i : Nat} (h : TakesUp X hf r₀ f f' RR i) :
    FlowStep (fun T j => X.enthalpy T j) hf f f' RR i := ⟨h.pressure, h.species, h.enthalpy⟩

/-- A case of C138 over many time steps, and of the statement on the elements: three ranks with two cells of the mixture of all species of drm19 each, a Jacobian routine that returns zeros, time steps of length `h`. For some `τ > 0` and all
short `h` there are simulations of `N` time steps, in which all cells keep mass, pressure and enthalpy, and lose no carbon. -/
example (w₀ : Fin 3 → Scratch ℝ 21) (G : RankFields ℝ) (clk : Nat → Fin 3 → Nat → ℝ) (hf : Vec ℝ 21) (active : Bool) : letI := realMath
    ∃ (p τ b ρ K : ℝ) (wt : Nat → ℝ), 0 < τ ∧ 0 < b ∧ 0 < ρ ∧ 0 ≤ K ∧
      ∀ (N : Nat) (h : ℝ), 1 / 10 ^ 14 < h → h ≤ b → h ≤ 1 → N * h ≤ τ → K * ((h ^ 2 + 1 / 10 ^ 9) * (N * h)) ≤ ρ →
        ∃ (flow : Nat → Fin 3 → Flow ℝ) (w : Nat → Fin 3 → Scratch ℝ 21) (F : Nat → Fin 3 → RankFields ℝ) (next : Nat → Fin 3 → ℝ),
        (∀ r i, i < 2 → cellState (flow 0 r) i = mixture p) ∧
        (∀ k, k < N → solveWorldW (pyJacModel ⟨true, 21, 1, fun _ _ _ _ _ => .error .ub, 1, ⟨false, 0, 0, ⟨[], 0, 0⟩⟩, active⟩
          (drm19.lib 20 fun _ _ _ => 0) (fun a b => (columnMajor 22 a)⁻¹.mulVec b) (fun _ => 1 / 10 ^ 8) (fun _ => 1 / 10 ^ 5) 1 10) true id (clk k) (flow k) (w k) (F k) =
            .ok (w (k + 1), fun r => (F (k + 1) r, next k r))) ∧
        ∀ k, k ≤ N → ∀ r i, i < 2 → (flow k r).p i = p ∧ ∑ j ∈ Finset.range 21, (flow k r).Y j i = 1 ∧
          ∑ j : Fin 21, (flow k r).Y j i * drm19.chemistry.enthalpy ((flow k r).T i) j = ∑ j : Fin 21, (flow 0 r).Y j i * drm19.chemistry.enthalpy 1200 j ∧
          ∑ s ∈ Finset.range drm19.nsp, (drm19.atomCount s (drm19.elements.idxOf "C") : ℝ) / wt s * (flow 0 r).Y s i ≤
            ∑ s ∈ Finset.range drm19.nsp, (drm19.atomCount s (drm19.elements.idxOf "C") : ℝ) / wt s * (flow k r).Y s i := by
  let := realMath
  obtain ⟨p, hp⟩ := mixture_allPresent
  obtain ⟨τ, hτ, ψ, h0, hψ, hI⟩ := allPresent_solution _ hp
  obtain ⟨b, r₀, ρ, K, hb, hr₀, hρ, hK, key⟩ := C137_simulation_runs (m := 20) realMath_powLaws realMath_sqrtLaws realMath_rootLaws drm19 (by simp [shipped]) rfl
    (n := 3) (by norm_num) (fun _ => 2) (fun _ _ => ψ) τ (fun _ _ _ => hψ) (fun _ _ _ t ht => hI t ht) (fun _ _ _ => 0)
    (fun _ _ _ t ht => zeroJacobian_bounded _ _) (fun _ => 1 / 10 ^ 8) (fun _ => 1 / 10 ^ 5) (fun _ => by norm_num) (fun _ => by norm_num)
  obtain ⟨wt, rt, -, elements⟩ := C138_no_element_is_lost (m := 20) (K := ℝ) realMath_powLaws drm19 (by simp [shipped]) rfl
  refine ⟨p, τ, b, ρ, K, wt, hτ, hb, hρ, hK, fun N h h1 h2 h5 h3 h4 => ?_⟩
  have hh : 0 < h := lt_trans (by norm_num) h1
  have e := mixtureFlow_state p
  have hs : (1 : ℝ) / 10 ^ 15 < h / 10 := by
    rw [lt_div_iff₀ (by norm_num)]
    refine lt_of_eq_of_lt ?_ h1
    norm_num
  obtain ⟨flow, w, F, next, a0, -, -, a2, a3, -⟩ := key _ 1 10 ⟨true, 21, 1, fun _ _ _ _ _ => .error .ub, 1, ⟨false, 0, 0, ⟨[], 0, 0⟩⟩, active⟩ true id hf N clk
    (fun _ => mixtureFlow p) w₀ (fun _ => { G with deltaTChem := fun _ => h / 10 }) (fun k => k * h) 0 h (h / 10) (lapackContract_inverse 22) le_rfl le_rfl rfl rfl rfl
    (Or.inl rfl) (fun l => List.Perm.refl _) (fun _ => rfl)
    (fun r i _ => ⟨one_ne_zero, by rw [e]; exact nonNegative_of hp.toAdmissible, stateComposition_total _, by rw [e, h0, sub_self, norm_zero], le_rfl⟩)
    (by simp) (fun k => by push_cast; constructor <;> linarith) hs
    (by show h / 10 ≤ 1; linarith) (by push_cast; linarith) h3 le_rfl h2 (by rw [zero_add]; exact h4)
  have hdt : ∀ k, k ≤ N → ∀ r i, i < 2 → 1 / 10 ^ 15 < (flow k r).deltaT i := fun k hk r i hi => by
    rw [((a2 k hk r).2 i hi).1.1]
    push_cast
    linarith
  refine ⟨flow, w, F, next, fun r i _ => by rw [a0 r]; exact e i, fun k hk => (a3 k hk).1, fun k hk r i hi => ?_⟩
  obtain ⟨b1, b2, b3⟩ := C138_cells_keep_mass_pressure_and_enthalpy (m := 20) (n := 3) (by norm_num) _ (by rfl) (by rfl) _ _ _ _ (fun _ => by norm_num) _ _ true (Or.inl rfl) id
    (fun l => List.Perm.refl _) (fun T j => drm19.chemistry.enthalpy T j) hf (fun _ => 2) N clk flow w (fun k => w (k + 1)) F (fun k r => (F (k + 1) r, next k r)) (fun k hk r => (a2 k hk r).1)
    (fun k hk => hdt k hk.le) (fun k hk => (a3 k hk).1) (fun k hk r i hi => takesUp_flowStep ((a3 k hk).2 r i hi))
    (fun r i _ => by rw [a0 r]; exact stateComposition_total _) k hk r i hi
  have hcomb : SolvesCombination (pyJacEnv (drm19.lib 20 (fun _ _ _ => (0 : ℝ))) (fun a b => (columnMajor 22 a)⁻¹.mulVec b) (fun _ => 1 / 10 ^ 8) (fun _ => 1 / 10 ^ 5) 1)
      (elementVector drm19 wt (drm19.elements.idxOf "C")) := by
    refine solvesCombination_of_regular (lapackContract_inverse 22) (fun x z h hh => ?_) _
    have : Matrix.of ((pyJacEnv (drm19.lib 20 (fun _ _ _ => (0 : ℝ))) (fun a b => (columnMajor 22 a)⁻¹.mulVec b) (fun _ => 1 / 10 ^ 8)
        (fun _ => 1 / 10 ^ 5) 1).jacobian x z) = 0 := by
      ext i j
      simp [pyJacEnv, pyJacJacobian, Package.lib]
    unfold Regular
    rw [this, sub_zero, Matrix.det_smul, Matrix.det_one, mul_one]
    positivity
  have b4 := elements (drm19.elements.idxOf "C") (by decide +kernel) (by decide +kernel) (fun _ _ _ => 0) (fun p y j _ => by simp) (fun a b => (columnMajor 22 a)⁻¹.mulVec b)
    (fun _ => 1 / 10 ^ 8) (fun _ => 1 / 10 ^ 5) (fun _ => by norm_num) 1 10
    hcomb (n := 3) (by norm_num) _ (by rfl) (by rfl) true (Or.inl rfl) id (fun l => List.Perm.refl _) (fun T j => drm19.chemistry.enthalpy T j) hf (fun _ => 2) N clk flow w
    (fun k => w (k + 1)) F (fun k r => (F (k + 1) r, next k r)) (fun k hk r => (a2 k hk r).1)
    (fun k hk r i hi => ⟨hdt k hk.le r i hi, by rw [((a2 k hk.le r).2 i hi).2]; exact one_pos, lt_of_lt_of_le (by positivity) ((a2 k hk.le r).2 i hi).1.2⟩)
    (fun k hk => (a3 k hk).1) (fun k hk r i hi => takesUp_flowStep ((a3 k hk).2 r i hi)) 0 k (Nat.zero_le k) hk r i hi
  rw [a0 r] at b1 b3 ⊢
  exact ⟨b1, b2, b3, by rw [a0 r] at b4; exact b4⟩

end DLB
