import Verif.Props.CaseDict
import Verif.Props.SecondOrderRun
/-
C141: from the dictionary of a case to the reactor that its cells follow.
-/
set_option autoImplicit false
set_option linter.unusedSectionVars false

namespace DLB
open Spec

/-- A dictionary that switches the chemistry on and the mapping off, and that names `seulex_LAPACK` with tolerances that are positive or left out and a number of steps `x` of at least one in the range of integers (10000 if it is left
out).  The settings of the load balancer are left open. -/
structure Usable (P : ChemistryProperties ℝ) (x : ℝ) : Prop where
  chemistry : P.chemistry = true
  noMapping : ∃ r, P.refmapping = some r ∧ SwitchOf r.active false false
  integrator : ∃ dict, P.odeCoeffs = some dict ∧ dict.solver = some "seulex_LAPACK" ∧ (∀ y, dict.absTol = some y → 0 < y) ∧
    (∀ y, dict.relTol = some y → 0 < y) ∧ ValueOf dict.maxSteps 10000 x
  steps : 1 ≤ x
  fits : x < 2 ^ 31

/-- The cells of all ranks start at a distance of at most `e` from the states `z`, with non-negative mass fractions that sum to one. -/
def StartsNear {n m : Nat} (flow : Fin n → Flow ℝ) (nCells : Fin n → Nat) (z : Fin n → Nat → Fin (m + 2) → ℝ) (e : ℝ) : Prop :=
  ∀ r, (flow r).nCells = nCells r ∧ ∀ i, i < nCells r → (flow r).rho i ≠ 0 ∧ NonNegative (cellState (m := m) (flow r) i) ∧
    ∑ j ∈ Finset.range (m + 1), (flow r).Y j i = 1 ∧ ‖cellState (flow r) i - z r i‖ ≤ e

/-- The time steps `t k` to `t (k + 1)` are between `s` and `h` long, and `s` is more than the shortest time the code integrates over, at most the initial and the greatest chemical time step of the dictionary, and `x` (without its digits
after the point) steps of `s` are enough for a time step. -/
structure TimeSteps (P : ChemistryProperties ℝ) (x : ℝ) (t : Nat → ℝ) (s h : ℝ) : Prop where
  start : t 0 = 0
  length : ∀ k, s ≤ t (k + 1) - t k ∧ t (k + 1) - t k ≤ h
  resolved : 1 / 10 ^ 15 < s
  initial : s ≤ P.initialChemicalTimeStep
  greatest : ∀ y, ValueOf P.maxChemicalTimeStep (10 ^ 15) y → s ≤ y
  enough : h ≤ ⌊x⌋ * s

/-- The simulation of a case: `N` time steps of the model `M`, each from the work arrays `w` and fields `F` that the one before left, between flows that take up the reaction rates and the heat release. -/
structure Simulates {n m : Nat} (X : Chemistry) (M : StatefulModel ℝ (Scratch ℝ (m + 1))) (formation : Vec ℝ (m + 1)) (parRun : Bool) (sort : List (ChemistryLoad ℝ) → List (ChemistryLoad ℝ)) (clk : Nat → Fin n → Nat → ℝ)
    (nCells : Fin n → Nat) (r₀ : ℝ) (N : Nat) (t : Nat → ℝ) (flow : Nat → Fin n → Flow ℝ) (w : Nat → Fin n → Scratch ℝ (m + 1)) (F : Nat → Fin n → RankFields ℝ) : Prop where
  step : ∀ k, k < N → ∃ next : Fin n → ℝ, solveWorldW M parRun sort (clk k) (flow k) (w k) (F k) = .ok (w (k + 1), fun r => (F (k + 1) r, next r))
  cells : ∀ k, k ≤ N → ∀ r, (flow k r).nCells = nCells r
  time : ∀ k, k ≤ N → ∀ r i, i < nCells r → (flow k r).deltaT i = t (k + 1) - t k
  flow : ∀ k, k < N → ∀ r i, i < nCells r → TakesUp X formation r₀ (flow k r) (flow (k + 1) r) (F (k + 1) r).RR i

section
variable {m : Nat} [MathOps ℝ]

/-- The settings that a usable dictionary gives. -/
theorem usable_construct (ht : Truncates ℝ) (L : PyJacLib ℝ m) (hL : m + 1 = L.nsp) (foam : List String) {P : ChemistryProperties ℝ} {x : ℝ} (hP : Usable P x) :
    ∃ (absTol relTol : Vec ℝ (m + 2)), (∀ i, 0 < absTol i) ∧ (∀ i, 0 < relTol i) ∧ ∀ lb : LoadBalancingDict,
      ∃ c : CaseSettings ℝ m, caseConstruct L (odeSolverTable foam) { P with loadbalancing := some lb } = .ok c ∧ c.chemistry = true ∧ c.mapper.active = false ∧
        c.initialDeltaT = P.initialChemicalTimeStep ∧ ValueOf P.maxChemicalTimeStep (10 ^ 15) c.maxDeltaT ∧
        c.integrator = { type := "seulex_LAPACK", absTol := absTol, relTol := relTol, maxSteps := ⌊x⌋ } := by
  obtain ⟨hc, ⟨r, hr, hoff⟩, ⟨dict, hd, hname, habs, hrel, hx⟩, h1, h2⟩ := hP
  have pos : ∀ (o : Option ℝ) (d : ℝ), 0 < d → (∀ y, o = some y → 0 < y) → 0 < o.getD d := by
    intro o d hd h
    cases o with
    | none => exact hd
    | some y => exact h y rfl
  refine ⟨fun _ => dict.absTol.getD (1 / 10 ^ 15), fun _ => dict.relTol.getD (1 / 10 ^ 4), fun _ => pos _ _ (by norm_num) habs, fun _ => pos _ _ (by norm_num) hrel, fun lb => ?_⟩
  have ha : r.active.getD false = false := (switchOf_unique hoff).symm
  refine ⟨⟨true, P.initialChemicalTimeStep, P.maxChemicalTimeStep.getD (10 ^ 15), lb.active.getD true, lb.log.getD false, ⟨false, r.tolerance.getD Consts.Ztol, r.deltaT.getD Consts.vGreat, ⟨[], 0, 0⟩⟩, _, _⟩,
    (C140_settings_are_those_of_the_dictionary L (odeSolverTable foam) { P with loadbalancing := some lb } _).2 ⟨lb, r, rfl, hr, switchOf_getD _ _, switchOf_getD _ _, ?_, ?_, hL, rfl, hc.symm, rfl, valueOf_getD _ _⟩,
    rfl, rfl, rfl, valueOf_getD _ _, rfl⟩
  · unfold refMapperConstruct
    rw [ha]
    rfl
  · exact (C139_settings_are_those_of_the_dictionary ht _ _ _ _).2 ⟨dict, _, hd, hname, List.mem_cons_self .., rfl, fun _ => valueOf_getD _ _, fun _ => valueOf_getD _ _, x, hx, by linarith, h2, fun _ => rfl, fun h => absurd h (by linarith)⟩

theorem floor_toNat {x : ℝ} (hx : 1 ≤ x) : ((⌊x⌋.toNat : Nat) : ℝ) = (⌊x⌋ : ℝ) := by
  have : (0 : ℤ) ≤ ⌊x⌋ := Int.floor_nonneg.2 (by linarith)
  exact_mod_cast Int.toNat_of_nonneg this

/-- **C141.** For every shipped mechanism, every usable dictionary, every number of ranks and cells, every solution of the reactor of chem.cti for each cell that stays inside the domain up to the time `τ`, and every Jacobian routine that
is bounded near the solutions, there are a time `b`, distances `r₀` and `ρ` and a constant `K` such that, whatever the settings of the load balancer: the dictionary is accepted, and from every flow that starts at a distance of at most
`e` from the solutions, with the fields that the dictionary gives and all work arrays, the simulation of the case runs for all time steps of length up to `h ≤ b` until `τ` or until `K (e + (h + 10^-9) t)` exceeds `ρ`, and its cells have
the temperature, pressure and mass fractions of the solutions up to this error. -/
theorem C141_case_follows_the_reactors (hm : PowLaws ℝ) (hq : SqrtLaws ℝ) (hr : RootLaws ℝ) (ht : Truncates ℝ) (D : Package) (hD : D ∈ shipped) (hnsp : D.nsp = m + 1) (foam : List String)
    (P : ChemistryProperties ℝ) (x : ℝ) (hP : Usable P x) {n : Nat} (hn : 0 < n) (nCells : Fin n → Nat) (ψ : Fin n → Nat → ℝ → Fin (m + 2) → ℝ) (τ : ℝ)
    (hψ : ∀ r i, i < nCells r → SolvesOn (fun _ => D.chemistry.stateRate) (ψ r i) 0 τ) (hI : ∀ r i, i < nCells r → ∀ t ∈ Set.Icc 0 τ, D.chemistry.Interior (ψ r i t))
    (evalJacob : ℝ → Vec ℝ (m + 2) → Nat → ℝ) (hJ : ∀ r i, i < nCells r → ∀ t ∈ Set.Icc 0 τ, JacobianBoundedNear (pyJacJacobian (D.lib m evalJacob)) (ψ r i t)) :
    ∃ b r₀ ρ K : ℝ, 0 < b ∧ 0 < r₀ ∧ 0 < ρ ∧ 0 ≤ K ∧ ∀ lb : LoadBalancingDict,
      ∃ c : CaseSettings ℝ m, caseConstruct (D.lib m evalJacob) (odeSolverTable foam) { P with loadbalancing := some lb } = .ok c ∧
      ∀ (linearSolve : (Nat → ℝ) → Vec ℝ (m + 2) → Vec ℝ (m + 2)) (fuel : Nat) (parRun : Bool) (sort : List (ChemistryLoad ℝ) → List (ChemistryLoad ℝ)) (clk : Nat → Fin n → Nat → ℝ) (flow₀ : Fin n → Flow ℝ)
        (w₀ : Fin n → Scratch ℝ (m + 1)) (N : Nat) (t : Nat → ℝ) (e h s : ℝ),
        LapackContract (m + 2) linearSolve → 1 ≤ fuel → (parRun = true ∨ n = 1) → (∀ l, (sort l).Perm l) → 0 ≤ e → StartsNear flow₀ nCells (fun r i => ψ r i 0) e → TimeSteps P x t s h → t N ≤ τ → h ≤ b →
        K * (e + (h + 1 / 10 ^ 9) * t N) ≤ ρ →
        ∃ M, c.model (D.lib m evalJacob) linearSolve fuel = some M ∧ ∃ (flow : Nat → Fin n → Flow ℝ) (w : Nat → Fin n → Scratch ℝ (m + 1)) (F : Nat → Fin n → RankFields ℝ),
          (∀ r, flow 0 r = { flow₀ r with deltaT := fun _ => t 1 - t 0 }) ∧ w 0 = w₀ ∧ (∀ r, F 0 r = c.startFields) ∧ Simulates D.chemistry M c.formation parRun sort clk nCells r₀ N t flow w F ∧
          ∀ k, k ≤ N → ∀ r i, i < nCells r → ‖cellState (flow k r) i - ψ r i (t k)‖ ≤ K * (e + (h + 1 / 10 ^ 9) * t k) := by
  obtain ⟨absTol, relTol, habs, hrel, cons⟩ := usable_construct ht (D.lib m evalJacob) hnsp.symm foam hP
  obtain ⟨b, r₀, ρ, K, hb, hr₀, hρ, hK, key⟩ := C136_simulation_runs hm hq hr D hD hnsp hn nCells ψ τ hψ hI evalJacob hJ absTol relTol habs hrel
  refine ⟨b, r₀, ρ, K, hb, hr₀, hρ, hK, fun lb => ?_⟩
  obtain ⟨c, hc, c1, c2, c3, c4, c5⟩ := cons lb
  refine ⟨c, hc, fun linearSolve fuel parRun sort clk flow₀ w₀ N t e h s hE hfuel hpar hsort he hstart hT htN hhb hbound => ?_⟩
  refine ⟨_, if_pos (by rw [c5]), ?_⟩
  obtain ⟨flow, w, F, next, a1, a2, a3, a4, a5, a6⟩ := key linearSolve fuel ⌊x⌋.toNat ⟨c.chemistry, m + 1, c.maxDeltaT, fun _ _ _ _ _ => .error .fatal, fuel, c.mapper, c.active⟩ parRun sort c.formation N clk flow₀ w₀
    (fun _ => c.startFields) t e h s hE hfuel hfuel rfl c1 c2 hpar hsort (fun r => (hstart r).1)
    (fun r i hi => ⟨((hstart r).2 i hi).1, ((hstart r).2 i hi).2.1, ((hstart r).2 i hi).2.2.1, ((hstart r).2 i hi).2.2.2, by show s ≤ c.initialDeltaT; rw [c3]; exact hT.initial⟩)
    hT.start hT.length hT.resolved (hT.greatest _ c4) (by rw [floor_toNat hP.steps]; exact hT.enough) htN he hhb hbound
  refine ⟨flow, w, F, a1, a2, fun r => by rw [a3], ⟨fun k hk => ⟨next k, ?_⟩, fun k hk r => (a4 k hk r).1, fun k hk r i hi => ((a4 k hk r).2 i hi).1.1, fun k hk => (a5 k hk).2⟩, a6⟩
  rw [c5]
  exact (a5 k hk).1

/-- **C141, second order.** As `C141_case_follows_the_reactors`, for solutions along which all species are present: the error is `K (e + (h^2 + 10^-9) t)`. -/
theorem C141_case_follows_the_reactors_to_second_order (hm : PowLaws ℝ) (hq : SqrtLaws ℝ) (hr : RootLaws ℝ) (ht : Truncates ℝ) (D : Package) (hD : D ∈ shipped) (hnsp : D.nsp = m + 1) (foam : List String)
    (P : ChemistryProperties ℝ) (x : ℝ) (hP : Usable P x) {n : Nat} (hn : 0 < n) (nCells : Fin n → Nat) (ψ : Fin n → Nat → ℝ → Fin (m + 2) → ℝ) (τ : ℝ)
    (hψ : ∀ r i, i < nCells r → SolvesOn (fun _ => D.chemistry.stateRate) (ψ r i) 0 τ) (hI : ∀ r i, i < nCells r → ∀ t ∈ Set.Icc 0 τ, D.chemistry.AllPresent (ψ r i t))
    (evalJacob : ℝ → Vec ℝ (m + 2) → Nat → ℝ) (hJ : ∀ r i, i < nCells r → ∀ t ∈ Set.Icc 0 τ, JacobianBoundedNear (pyJacJacobian (D.lib m evalJacob)) (ψ r i t)) :
    ∃ b r₀ ρ K : ℝ, 0 < b ∧ 0 < r₀ ∧ 0 < ρ ∧ 0 ≤ K ∧ ∀ lb : LoadBalancingDict,
      ∃ c : CaseSettings ℝ m, caseConstruct (D.lib m evalJacob) (odeSolverTable foam) { P with loadbalancing := some lb } = .ok c ∧
      ∀ (linearSolve : (Nat → ℝ) → Vec ℝ (m + 2) → Vec ℝ (m + 2)) (fuel : Nat) (parRun : Bool) (sort : List (ChemistryLoad ℝ) → List (ChemistryLoad ℝ)) (clk : Nat → Fin n → Nat → ℝ) (flow₀ : Fin n → Flow ℝ)
        (w₀ : Fin n → Scratch ℝ (m + 1)) (N : Nat) (t : Nat → ℝ) (e h s : ℝ),
        LapackContract (m + 2) linearSolve → 1 ≤ fuel → (parRun = true ∨ n = 1) → (∀ l, (sort l).Perm l) → 0 ≤ e → StartsNear flow₀ nCells (fun r i => ψ r i 0) e → TimeSteps P x t s h → t N ≤ τ → h ≤ b →
        K * (e + (h ^ 2 + 1 / 10 ^ 9) * t N) ≤ ρ →
        ∃ M, c.model (D.lib m evalJacob) linearSolve fuel = some M ∧ ∃ (flow : Nat → Fin n → Flow ℝ) (w : Nat → Fin n → Scratch ℝ (m + 1)) (F : Nat → Fin n → RankFields ℝ),
          (∀ r, flow 0 r = { flow₀ r with deltaT := fun _ => t 1 - t 0 }) ∧ w 0 = w₀ ∧ (∀ r, F 0 r = c.startFields) ∧ Simulates D.chemistry M c.formation parRun sort clk nCells r₀ N t flow w F ∧
          ∀ k, k ≤ N → ∀ r i, i < nCells r → ‖cellState (flow k r) i - ψ r i (t k)‖ ≤ K * (e + (h ^ 2 + 1 / 10 ^ 9) * t k) := by
  obtain ⟨absTol, relTol, habs, hrel, cons⟩ := usable_construct ht (D.lib m evalJacob) hnsp.symm foam hP
  obtain ⟨b, r₀, ρ, K, hb, hr₀, hρ, hK, key⟩ := C137_simulation_runs hm hq hr D hD hnsp hn nCells ψ τ hψ hI evalJacob hJ absTol relTol habs hrel
  refine ⟨b, r₀, ρ, K, hb, hr₀, hρ, hK, fun lb => ?_⟩
  obtain ⟨c, hc, c1, c2, c3, c4, c5⟩ := cons lb
  refine ⟨c, hc, fun linearSolve fuel parRun sort clk flow₀ w₀ N t e h s hE hfuel hpar hsort he hstart hT htN hhb hbound => ?_⟩
  refine ⟨_, if_pos (by rw [c5]), ?_⟩
  obtain ⟨flow, w, F, next, a1, a2, a3, a4, a5, a6⟩ := key linearSolve fuel ⌊x⌋.toNat ⟨c.chemistry, m + 1, c.maxDeltaT, fun _ _ _ _ _ => .error .fatal, fuel, c.mapper, c.active⟩ parRun sort c.formation N clk flow₀ w₀
    (fun _ => c.startFields) t e h s hE hfuel hfuel rfl c1 c2 hpar hsort (fun r => (hstart r).1)
    (fun r i hi => ⟨((hstart r).2 i hi).1, ((hstart r).2 i hi).2.1, ((hstart r).2 i hi).2.2.1, ((hstart r).2 i hi).2.2.2, by show s ≤ c.initialDeltaT; rw [c3]; exact hT.initial⟩)
    hT.start hT.length hT.resolved (hT.greatest _ c4) (by rw [floor_toNat hP.steps]; exact hT.enough) htN he hhb hbound
  refine ⟨flow, w, F, a1, a2, fun r => by rw [a3], ⟨fun k hk => ⟨next k, ?_⟩, fun k hk r => (a4 k hk r).1, fun k hk r i hi => ((a4 k hk r).2 i hi).1.1, fun k hk => (a5 k hk).2⟩, a6⟩
  rw [c5]
  exact (a5 k hk).1

end

/-! ### A case -/

namespace Example

/-- The dictionary of the pyJac tutorial with the mapping switched off. -/
noncomputable def unmappedTutorial : ChemistryProperties ℝ := { tutorialProperties with refmapping := some { tutorialRefmapping with active := some false } }

theorem unmappedTutorial_usable : Usable unmappedTutorial 10000 where
  chemistry := rfl
  noMapping := ⟨_, rfl, Or.inl rfl⟩
  integrator := ⟨_, rfl, rfl, fun y h => by cases h; norm_num, fun y h => by cases h; norm_num, Or.inr ⟨rfl, rfl⟩⟩
  steps := by norm_num
  fits := by norm_num

end Example

/-- A case of C141: three ranks with two cells of the mixture each, the drm19 library with its own Jacobian, the dictionary of the tutorial with the mapping switched off, any settings of the load balancer, and time steps of length `h`. -/
example (w₀ : Fin 3 → Scratch ℝ 21) (clk : Nat → Fin 3 → Nat → ℝ) (lb : LoadBalancingDict) : letI := realMath
    ∃ p τ b r₀ ρ K : ℝ, ∃ ψ : ℝ → Fin 22 → ℝ, 0 < τ ∧ 0 < b ∧ 0 < ρ ∧ 0 ≤ K ∧ ψ 0 = mixture p ∧ SolvesOn (fun _ => drm19.chemistry.stateRate) ψ 0 τ ∧
      ∃ c, caseConstruct drm19Lib (odeSolverTable ["seulex"]) { Example.unmappedTutorial with loadbalancing := some lb } = .ok c ∧
      ∀ (N : Nat) (h : ℝ), 1 / 10 ^ 15 < h → h ≤ b → h ≤ 1 → N * h ≤ τ → K * ((h ^ 2 + 1 / 10 ^ 9) * (N * h)) ≤ ρ →
        ∃ M, c.model drm19Lib (fun a b => (columnMajor 22 a)⁻¹.mulVec b) 1 = some M ∧ ∃ (flow : Nat → Fin 3 → Flow ℝ) (w : Nat → Fin 3 → Scratch ℝ 21) (F : Nat → Fin 3 → RankFields ℝ),
        Simulates drm19.chemistry M c.formation true id clk (fun _ => 2) r₀ N (fun k => k * h) flow w F ∧
        ∀ k, k ≤ N → ∀ r i, i < 2 → ‖cellState (flow k r) i - ψ (k * h)‖ ≤ K * ((h ^ 2 + 1 / 10 ^ 9) * (k * h)) := by
  let := realMath
  obtain ⟨p, hp⟩ := mixture_allPresent
  obtain ⟨τ, hτ, ψ, h0, hψ, hI⟩ := allPresent_solution _ hp
  obtain ⟨b, r₀, ρ, K, hb, hr₀, hρ, hK, key⟩ := C141_case_follows_the_reactors_to_second_order (m := 20) realMath_powLaws realMath_sqrtLaws realMath_rootLaws (fun _ => rfl) drm19 (by simp [shipped]) rfl ["seulex"]
    Example.unmappedTutorial 10000 Example.unmappedTutorial_usable (n := 3) (by norm_num) (fun _ => 2) (fun _ _ => ψ) τ (fun _ _ _ => hψ) (fun _ _ _ t ht => hI t ht) _
    (fun _ _ _ t ht => C125_jacobian_is_bounded _ (hI t ht).toInterior ⟨(hI t ht).toAdmissible, (hI t ht).fits, (hI t ht).cutOff⟩)
  obtain ⟨c, hc, run⟩ := key lb
  refine ⟨p, τ, b, r₀, ρ, K, ψ, hτ, hb, hρ, hK, h0, hψ, c, hc, fun N h h1 h2 h5 h3 h4 => ?_⟩
  have hh : 0 < h := lt_trans (by norm_num) h1
  have e : ∀ i, cellState (m := 20) (mixtureFlow p) i = mixture p := mixtureFlow_state p
  have hT : TimeSteps Example.unmappedTutorial 10000 (fun k => k * h) h h :=
    ⟨by simp, fun k => by push_cast; constructor <;> linarith, h1, h5, fun y hy => by
      rcases hy with hy | ⟨-, rfl⟩
      · cases hy
      · exact h5.trans (by norm_num), by
      have : (1 : ℝ) ≤ (⌊(10000 : ℝ)⌋ : ℝ) := by exact_mod_cast Int.le_floor.2 (by norm_num)
      calc h = 1 * h := (one_mul h).symm
        _ ≤ _ := mul_le_mul_of_nonneg_right this hh.le⟩
  obtain ⟨M, hM, flow, w, F, -, -, -, hS, hE⟩ := run (fun a b => (columnMajor 22 a)⁻¹.mulVec b) 1 true id clk (fun _ => mixtureFlow p) w₀ N (fun k => k * h) 0 h h (lapackContract_inverse 22) le_rfl (Or.inl rfl)
    (fun l => List.Perm.refl _) le_rfl
    (fun r => ⟨rfl, fun i _ => ⟨one_ne_zero, by rw [e]; exact nonNegative_of hp.toAdmissible, stateComposition_total _, by rw [e, h0, sub_self, norm_zero]⟩⟩) hT h3 h2 (by rw [zero_add]; exact h4)
  exact ⟨M, hM, flow, w, F, hS, fun k hk r i hi => by simpa using hE k hk r i hi⟩

end DLB
