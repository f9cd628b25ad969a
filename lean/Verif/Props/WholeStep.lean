import Verif.Lemmas.AnyRates
import Verif.Props.ManySteps
/-
C124: time steps that are short enough succeed on all ranks, and give the rates of chem.cti.
-/
set_option autoImplicit false
set_option linter.unusedSectionVars false

namespace DLB
open Spec

theorem dotAcc_returns {S : Type} [Add S] [Mul S] : ∀ (al ys : List S) (acc : S), ys.length ≤ al.length →
    ∃ v, dotAcc acc al ys = .ok v
  | _, [], acc, _ => ⟨acc, by unfold dotAcc; rfl⟩
  | [], _ :: _, _, h => absurd h (by simp)
  | a :: al, y :: ys, acc, h => by
    unfold dotAcc
    exact dotAcc_returns al ys _ (by simpa using h)

section
variable {S : Type} {m : Nat}
variable [Zero S] [Add S] [Sub S] [Mul S] [Div S] [Neg S] [NatCast S] [OfScientific S]
variable [LT S] [DecidableLT S] [LE S] [DecidableLE S] [BEq S] [Consts S] [MathOps S]

/-- If the integration of a cell returns, the problem of the cell is solved. -/
theorem any_solveSingle_returns (hself : ∀ x : S, ¬ Consts.SMALL < x - x) {base : ChemModel S}
    {L : PyJacLib S m} {linearSolve : (Nat → S) → Vec S (m + 2) → Vec S (m + 2)}
    {absTol relTol : Vec S (m + 2)} {fuel maxSteps : Nat} {w w' : Scratch S (m + 1)} (t : S)
    {q : ChemistryProblem S} {r : IntegrateResult S} (hfuel : 1 ≤ base.fuel)
    (h : odePyJacSolve (seulexIntegrator (pyJacEnv L linearSolve absTol relTol fuel) maxSteps) w
        q.pi q.Ti q.c q.deltaT q.deltaTChem = .ok (w', r)) :
    ∃ s, solveSingle ((pyJacModel base L linearSolve absTol relTol fuel maxSteps).forgetful w) t q = .ok s := by
  obtain ⟨hlen, y, y', sub', -, rfl⟩ := any_odePyJacSolve_ok h
  obtain ⟨f, hf⟩ : ∃ f, base.fuel = f + 1 := ⟨base.fuel - 1, by omega⟩
  by_cases hdt : Consts.SMALL < q.deltaT
  · have hint : ((pyJacModel base L linearSolve absTol relTol fuel maxSteps).forgetful w).integrate q.pi q.Ti q.c q.deltaT
        q.deltaTChem = .ok ⟨y' (pressurePos m), y' 0, List.ofFn (unpackPyJac y').2.2, q.deltaT, sub'⟩ := by
      simp only [StatefulModel.forgetful, pyJacModel, h, Except.map]
    have hfuel' : ((pyJacModel base L linearSolve absTol relTol fuel maxSteps).forgetful w).fuel = f + 1 := hf
    unfold solveSingle subStepLoop
    rw [if_pos hdt, hfuel']
    simp only [bind, Except.bind, hint]
    have hstop : ∀ p T c, subStepLoop ((pyJacModel base L linearSolve absTol relTol fuel maxSteps).forgetful w).integrate f
        p T c sub' (q.deltaT - q.deltaT) = .ok (c, sub') := by
      intro p T c
      cases f <;> (unfold subStepLoop; rw [if_neg (hself _)])
    rw [hstop]
    simp only
    rw [if_pos (by simp [hlen])]
    exact ⟨_, rfl⟩
  · unfold solveSingle subStepLoop
    rw [if_neg hdt]
    simp only [bind, Except.bind, if_true]
    exact ⟨_, rfl⟩

/-- **C124, any arithmetic.** A time step returns on all ranks if the integration of every reference cell and of every cell that is not mapped
returns, from whatever work arrays, and the mapper has a coefficient for every species. -/
theorem C124_returns (hself : ∀ x : S, ¬ Consts.SMALL < x - x) {n : Nat} (hn : 0 < n)
    {base : ChemModel S} {L : PyJacLib S m} {linearSolve : (Nat → S) → Vec S (m + 2) → Vec S (m + 2)}
    {absTol relTol : Vec S (m + 2)} (hrel : jacRedoOf relTol < ((2 : Nat) : S) * jacRedoOf relTol)
    {fuel maxSteps : Nat} (hchem : base.chemistry = true) {parRun : Bool}
    (hpar : parRun = true ∨ n = 1) {sort : List (ChemistryLoad S) → List (ChemistryLoad S)}
    (hsort : ∀ l, (sort l).Perm l) {clk : Fin n → Nat → S} {flow : Fin n → Flow S}
    {w : Fin n → Scratch S (m + 1)} {F : Fin n → RankFields S} (hfuel : 1 ≤ base.fuel)
    (hmapper : base.mapper.active = true → base.nSpecie ≤ base.mapper.mixFrac.alpha.length) (w₀ : Scratch S (m + 1))
    (hcells : ∀ r i, i < (flow r).nCells → (¬ Mapped base (flow r) i ∨ IsReference base (flow r) i) →
      ∃ scr' q, odePyJacSolve (seulexIntegrator (pyJacEnv L linearSolve absTol relTol fuel) maxSteps) w₀ ((flow r).p i)
        ((flow r).T i) (composition base (flow r) i) ((flow r).deltaT i) ((F r).deltaTChem i) = .ok (scr', q)) :
    ∃ w' res, solveWorldW (pyJacModel base L linearSolve absTol relTol fuel maxSteps) parRun sort clk flow w F = .ok (w', res) := by
  have hw := C69_solver_memory_has_no_effect base L linearSolve absTol relTol hrel fuel maxSteps parRun
    sort clk flow w w₀ F
  obtain ⟨res, h⟩ := (C27_step_succeeds_iff hn ((pyJacModel base L linearSolve absTol relTol fuel maxSteps).forgetful w₀) hchem parRun hpar
    sort hsort clk flow F).2 fun r => by
      refine ⟨fun ha i hi => ?_, fun i hi hor => ?_⟩
      · obtain ⟨v, hv⟩ := dotAcc_returns base.mapper.mixFrac.alpha (composition base (flow r) i) 0 (by
          have := hmapper ha
          simpa [composition] using this)
        refine ⟨(v - base.mapper.mixFrac.beta0) / (base.mapper.mixFrac.beta1 - base.mapper.mixFrac.beta0), ?_⟩
        unfold massFractionToMixtureFraction
        have hv' : dotAcc 0 ((pyJacModel base L linearSolve absTol relTol fuel maxSteps).forgetful w₀).mapper.mixFrac.alpha
          (composition ((pyJacModel base L linearSolve absTol relTol fuel maxSteps).forgetful w₀) (flow r) i) = .ok v := hv
        rw [hv']
        rfl
      · obtain ⟨scr', q, hq⟩ := hcells r i hi hor
        obtain ⟨s, hs⟩ := any_solveSingle_returns (base := base) hself 0 (q := cellProblem base (flow r) (F r) i) hfuel hq
        exact ⟨0, s, hs⟩
  rw [h] at hw
  obtain ⟨a, ha, -⟩ := map_eq_ok hw
  exact ⟨a.1, a.2, ha⟩

end

/-- A common bound for finitely many bounds. -/
theorem exists_common {ι : Type} [Fintype ι] (b K : ι → ℝ) (hb : ∀ i, 0 < b i) : ∃ β κ : ℝ, 0 < β ∧ ∀ i, β ≤ b i ∧ K i ≤ κ := by
  classical
  by_cases h : Nonempty ι
  · obtain ⟨i, -, hi⟩ := Finset.exists_min_image Finset.univ b ⟨Classical.arbitrary ι, Finset.mem_univ _⟩
    obtain ⟨k, -, hk⟩ := Finset.exists_max_image Finset.univ K ⟨Classical.arbitrary ι, Finset.mem_univ _⟩
    exact ⟨b i, K k, hb i, fun j => ⟨hi j (Finset.mem_univ _), hk j (Finset.mem_univ _)⟩⟩
  · exact ⟨1, 0, one_pos, fun i => absurd ⟨i⟩ h⟩

section
variable {m : Nat}

/-- **C124.** For every shipped mechanism, every number of ranks and cells, all states of the cells inside the domain, every Jacobian
routine that is bounded near them, and all tolerances there are a time `b` and a constant `K` such that, for every linear solver
that solves regular systems, every order of equal loads, with or without load balancing and mapping, and whatever is in the work arrays and fields:
a time step in which the cells are in these states (with mass fractions that add up to one), the time steps of all cells are positive and at most `b`,
and `maxSteps` times their initial chemical time steps reach them, succeeds on all ranks; and, if the time steps are above the constant SMALL
(`10^-15`, below which the model does not integrate), the reaction rate of every
species in every cell that is not mapped is the density times the rate of change of the mass fraction according to chem.cti, up to
`K (dt + 10^-9)` times the density. -/
theorem C124_short_time_steps_succeed [MathOps ℝ] (hm : PowLaws ℝ) (hq : SqrtLaws ℝ) (hr : RootLaws ℝ) (D : Package) (hD : D ∈ shipped)
    (hnsp : D.nsp = m + 1) {n : Nat} (hn : 0 < n) (nCells : Fin n → Nat) (z : Fin n → Nat → Fin (m + 2) → ℝ)
    (hz : ∀ r i, i < nCells r → D.chemistry.Interior (z r i)) (evalJacob : ℝ → Vec ℝ (m + 2) → Nat → ℝ)
    (hJ : ∀ r i, i < nCells r → JacobianBoundedNear (pyJacJacobian (D.lib m evalJacob)) (z r i))
    (absTol relTol : Vec ℝ (m + 2)) (habs : ∀ i, 0 < absTol i) (hrel : ∀ i, 0 < relTol i) :
    ∃ b K : ℝ, 0 < b ∧
      ∀ (linearSolve : (Nat → ℝ) → Vec ℝ (m + 2) → Vec ℝ (m + 2)) (fuel maxSteps : Nat) (base : ChemModel ℝ) (parRun : Bool)
        (sort : List (ChemistryLoad ℝ) → List (ChemistryLoad ℝ)) (clk : Fin n → Nat → ℝ) (flow : Fin n → Flow ℝ)
        (w : Fin n → Scratch ℝ (m + 1)) (F : Fin n → RankFields ℝ),
        LapackContract (m + 2) linearSolve → 1 ≤ fuel → 1 ≤ base.fuel → base.nSpecie = m + 1 → base.chemistry = true →
        (base.mapper.active = true → base.nSpecie ≤ base.mapper.mixFrac.alpha.length) →
        (parRun = true ∨ n = 1) → (∀ l, (sort l).Perm l) →
        (∀ r, (flow r).nCells = nCells r) →
        (∀ r i, i < nCells r → Layout ((flow r).p i) ((flow r).T i) (composition base (flow r) i) (z r i) ∧
          ∑ j ∈ Finset.range (m + 1), (flow r).Y j i = 1 ∧ 0 ≤ (flow r).rho i ∧
          0 < (flow r).deltaT i ∧ (flow r).deltaT i ≤ b ∧
          0 < (F r).deltaTChem i ∧ (flow r).deltaT i ≤ maxSteps * (F r).deltaTChem i) →
        ∃ w' res, solveWorldW (pyJacModel base (D.lib m evalJacob) linearSolve absTol relTol fuel maxSteps) parRun
          sort clk flow w F = .ok (w', res) ∧
        ((∀ r i, i < nCells r → 1 / 10 ^ 15 < (flow r).deltaT i) →
          ∀ r i, i < nCells r → ¬ Mapped base (flow r) i → ∀ j, j < m + 1 →
          |(res r).1.RR j i - (flow r).rho i * D.chemistry.dYdt (z r i 0) (z r i (Fin.last (m + 1))) (stateComposition (z r i)) j| ≤
            (flow r).rho i * (K * ((flow r).deltaT i + 1 / 10 ^ 9))) := by
  classical
  have h1 := fun x : Σ r : Fin n, Fin (nCells r) => C123_reaction_rates hm hq hr D hD hnsp (z x.1 x.2.val) (hz x.1 x.2.val x.2.isLt) evalJacob
    (hJ x.1 x.2.val x.2.isLt) absTol relTol habs hrel
  choose b1 K1 hb1 key1 using h1
  have h2 := fun x : Σ r : Fin n, Fin (nCells r) => C123_steps_are_accepted_at_once hm hq hr D hD hnsp (z x.1 x.2.val)
    (hz x.1 x.2.val x.2.isLt) evalJacob (hJ x.1 x.2.val x.2.isLt) absTol relTol habs hrel
  choose b2 L2 hb2 hL2 key2 using h2
  obtain ⟨β1, κ, hβ1, hk1⟩ := exists_common b1 K1 hb1
  obtain ⟨β2, κ2, hβ2, hk2⟩ := exists_common b2 b2 hb2
  refine ⟨min β1 β2, κ, lt_min hβ1 hβ2, ?_⟩
  intro linearSolve fuel maxSteps base parRun sort clk flow w F hE hfuel hbfuel hsp hchem hmapper hpar hsort hnc hcell
  have hj : jacRedoOf relTol < ((2 : Nat) : ℝ) * jacRedoOf relTol := by
    have := jacRedoOf_pos hrel
    push_cast
    linarith
  have hself : ∀ x : ℝ, ¬ Consts.SMALL < x - x := fun x => by
    rw [sub_self]
    exact not_lt.2 SMALL_pos.le
  obtain ⟨w', res, hres⟩ := C124_returns hself hn (base := base) (L := D.lib m evalJacob) (linearSolve := linearSolve)
    (absTol := absTol) (relTol := relTol) hj (fuel := fuel) (maxSteps := maxSteps) hchem hpar hsort (clk := clk) (flow := flow)
    (w := w) (F := F) hbfuel hmapper (w ⟨0, hn⟩) fun r i hi _ => by
      have hi' : i < nCells r := by rw [← hnc r]; exact hi
      obtain ⟨c1, c2, c3, c4, c5, c6, c7⟩ := hcell r i hi'
      exact (key2 ⟨r, ⟨i, hi'⟩⟩ linearSolve fuel maxSteps (w ⟨0, hn⟩) _ _ _ _ _ hE hfuel c1 c4
        (c5.trans ((min_le_right _ _).trans (hk2 ⟨r, ⟨i, hi'⟩⟩).1)) c6 c7).1
  refine ⟨w', res, hres, fun hsmall r i hi hmap j hj' => ?_⟩
  obtain ⟨c1, c2, c3, c4, c5, c6, c7⟩ := hcell r i hi
  refine (key1 ⟨r, ⟨i, hi⟩⟩ linearSolve fuel maxSteps n base parRun sort clk flow w w' F res r i hE hfuel hn hsp hchem hpar hsort
    (fun r i hi => hsmall r i (by rw [← hnc r]; exact hi)) hres (by rw [hnc r]; exact hi) hmap c3 c1 c2
    (c5.trans ((min_le_left _ _).trans (hk1 ⟨r, ⟨i, hi⟩⟩).1)) c6 c7 j hj').trans ?_
  refine mul_le_mul_of_nonneg_left (mul_le_mul_of_nonneg_right (hk1 ⟨r, ⟨i, hi⟩⟩).2 ?_) c3
  have : (0 : ℝ) < 1 / 10 ^ 9 := by positivity
  linarith

end

/-! ### Cases -/

theorem stateComposition_total {m : Nat} (z : Fin (m + 2) → ℝ) : ∑ j ∈ Finset.range (m + 1), stateComposition z j = 1 := complement_sum m _

/-- A rank with two cells of hot compressed air. -/
noncomputable def hotAirFlow (p dt : ℝ) : Flow ℝ where
  nCells := 2
  Y := fun j _ => stateComposition (hotAirState p) j
  T := fun _ => 1200
  p := fun _ => p
  rho := fun _ => 1
  deltaT := fun _ => dt

/-- A case of C124: three ranks with two cells of hot compressed air each, the mechanism drm19, a Jacobian routine that returns zeros, first steps of a
tenth of the time step: all short time steps succeed, with or without load balancing. -/
example (w : Fin 3 → Scratch ℝ 21) (G : RankFields ℝ) (clk : Fin 3 → Nat → ℝ) (active : Bool) : letI := realMath
    ∃ p b : ℝ, 0 < b ∧ ∀ dt, 0 < dt → dt ≤ b → ∃ w' res,
      solveWorldW (pyJacModel ⟨true, 21, 1, fun _ _ _ _ _ => .error .ub, 1, ⟨false, 0, 0, ⟨[], 0, 0⟩⟩, active⟩
        (drm19.lib 20 fun _ _ _ => 0) (fun a b => (columnMajor 22 a)⁻¹.mulVec b) (fun _ => 1 / 10 ^ 8) (fun _ => 1 / 10 ^ 5) 1 10) true
        id clk (fun _ => hotAirFlow p dt) w (fun _ => { G with deltaTChem := fun _ => dt / 10 }) = .ok (w', res) := by
  let := realMath
  obtain ⟨p, hp⟩ := hotAirState_interior
  obtain ⟨b, K, hb, key⟩ := C124_short_time_steps_succeed realMath_powLaws realMath_sqrtLaws realMath_rootLaws drm19 (by simp [shipped]) rfl
    (n := 3) (by norm_num) (fun _ => 2) (fun _ _ => hotAirState p) (fun _ _ _ => hp) (fun _ _ _ => 0)
    (fun _ _ _ => zeroJacobian_bounded _ _) (fun _ => 1 / 10 ^ 8) (fun _ => 1 / 10 ^ 5) (fun _ => by norm_num) (fun _ => by norm_num)
  refine ⟨p, b, hb, fun dt hdt hdtb => ?_⟩
  have hlay : Layout p 1200 (composition ⟨true, 21, 1, fun _ _ _ _ _ => .error .ub, 1, ⟨false, 0, 0, ⟨[], 0, 0⟩⟩, active⟩
      (hotAirFlow p dt) 0) (hotAirState p) := by
    have h := exists_layout (hotAirState p)
    have e1 : hotAirState p (Fin.last 21) = p := if_pos rfl
    rw [e1] at h
    have e2 : composition (⟨true, 21, 1, fun _ _ _ _ _ => .error .ub, 1, ⟨false, 0, 0, ⟨[], 0, 0⟩⟩, active⟩ : ChemModel ℝ)
        (hotAirFlow p dt) 0 = List.ofFn fun i : Fin 21 => stateComposition (hotAirState p) i.val := by
      unfold composition hotAirFlow
      rw [List.ofFn_eq_map, ← List.map_coe_finRange_eq_range, List.map_map]
      rfl
    rw [e2]
    exact h
  obtain ⟨w', res, h, -⟩ := key _ 1 10 ⟨true, 21, 1, fun _ _ _ _ _ => .error .ub, 1, ⟨false, 0, 0, ⟨[], 0, 0⟩⟩, active⟩ true id clk
    (fun _ => hotAirFlow p dt) w (fun _ => { G with deltaTChem := fun _ => dt / 10 }) (lapackContract_inverse 22) le_rfl le_rfl rfl rfl
    (fun h => absurd h (by simp)) (Or.inl rfl) (fun l => List.Perm.refl _) (fun _ => rfl)
    (fun r i _ => ⟨hlay, stateComposition_total _, zero_le_one, hdt, hdtb, by show 0 < dt / 10; positivity,
      by show dt ≤ ((10 : Nat) : ℝ) * (dt / 10); push_cast; linarith⟩)
  exact ⟨w', res, h⟩

end DLB
