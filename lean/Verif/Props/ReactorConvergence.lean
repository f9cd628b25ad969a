import Verif.Spec.ReactorTube
import Verif.Props.CellRates
import Verif.Props.ReactorModel
import Verif.Lemmas.ReactorProper
/-
C118: the integration of a cell follows the reactor of chem.cti.
-/
set_option autoImplicit false
set_option linter.unusedSectionVars false

namespace DLB
open Spec

section
variable {n : Nat} [MathOps ℝ]

/-- **C118.** As C115, if the right-hand side that is integrated differs by at most `δ` from that of the
equations which `φ` solves: the error is at most a constant times the largest step, plus `411 δ` times
the length of the interval, times the growth of errors in the equations. -/
theorem C118_inexact_equations (hm : PowLaws ℝ) (E : SeulexEnv ℝ n)
    (hE : LapackContract (n + 1) E.linearSolve) (hj : E.jacRedo < 2 * E.jacRedo)
    (maxSteps : Nat) (scr : Scratch ℝ n) (xStart xEnd : ℝ) (hlt : xStart < xEnd)
    (y : Vec ℝ (n + 1)) (dxTry : ℝ) (hpos : 0 < dxTry)
    (r : DriverResult ℝ (n + 1) (Scratch ℝ n))
    (h : driverSolve (seulexSolve E) maxSteps scr xStart xEnd y dxTry = .ok r)
    (f : ℝ → Vec ℝ (n + 1) → Vec ℝ (n + 1)) (φ : ℝ → Vec ℝ (n + 1)) (hφ0 : φ xStart = y) (b : ℝ)
    (hb : r.x ≤ b) (hφ : SolvesOn f φ xStart b) (ρ B Λ M L H δ C : ℝ)
    (hf : LipschitzNear f φ xStart b ρ B Λ M)
    (hdiff : ∀ t z, Spec.Near φ xStart b ρ t z → ‖E.derivatives t z - f t z‖ ≤ δ)
    (hΛ : 0 ≤ Λ) (hM : 0 ≤ M) (hB : 0 ≤ B) (hL0 : 0 ≤ L) (hδ : 0 ≤ δ)
    (hC : C = 205 * (L * (B + δ) + 2 * Λ * (B + δ) + M) + (Λ * B + M))
    (hsteps : ∀ q ∈ acceptedSteps (seulexSolve E) xStart xEnd maxSteps scr xStart y
      (StepState.init dxTry), q.1 ≤ H ∧ RowsAtMost q.2 L)
    (hHL : H * L ≤ 1) (hHB : 3 * H * (B + δ) ≤ ρ / 2)
    (hsmall : Real.exp (Λ * (b - xStart)) * ((C * H + 411 * δ) * (b - xStart)) ≤ ρ / 2) :
    ‖r.y - φ r.x‖ ≤ Real.exp (Λ * (r.x - xStart)) * ((C * H + 411 * δ) * (r.x - xStart)) := by
  have hj' : E.jacRedo < ((2 : Nat) : ℝ) * E.jacRedo := by exact_mod_cast hj
  have hch := driverLoop_follows hm hE hj' hlt hHL hL0 maxSteps 0 scr xStart y _ r
    (running_start E scr hpos) le_rfl hlt hsteps h
  have hH0 : 0 ≤ H := by
    cases hch with
    | one h => exact (sub_nonneg.2 h.1.le).trans h.2.1
    | cons h _ => exact (sub_nonneg.2 h.1.le).trans h.2.1
  have hC0 : 0 ≤ C := by rw [hC]; positivity
  have := chain_error (err := fun p : ℝ × Vec ℝ (n + 1) => ‖p.2 - φ p.1‖) (b := b) (ρ := ρ)
    (C := C * H + 411 * δ) (G := Λ) (H := 1) (start := xStart)
    (by positivity) hΛ zero_le_one (fun p q h => h.1) (by
      intro p q e hR hs hqb he0 he heρ
      obtain ⟨hpq, hqH, J, k, hJ, -, hk, hstep⟩ := hR
      have hd : 0 < q.1 - p.1 := by linarith
      have hBδ : 0 ≤ B + δ := by positivity
      have h1 := step_error_perturbed hk hf hφ hdiff hδ hJ hL0 hΛ hM hB hd
        ((mul_le_mul_of_nonneg_right hqH hL0).trans hHL) hs (by linarith) he heρ
        (by nlinarith) hstep
      rw [add_sub_cancel, ← hC, add_assoc] at h1
      refine h1.trans (add_le_add le_rfl ?_)
      have : (q.1 - p.1) ^ 2 ≤ H * (q.1 - p.1) := by nlinarith
      calc _ ≤ C * (H * (q.1 - p.1)) + 411 * δ * (q.1 - p.1) := by gcongr
        _ = _ := by ring) hch 0 le_rfl hb le_rfl (by simp [hφ0]) (by simpa using hsmall)
  simpa using this

end

section
variable {m : Nat}

theorem modelComposition_clip (z : Vec ℝ (m + 2)) : modelComposition (clip z) = modelComposition z := by
  have : ∀ i : Fin m, foamMax (clip z (speciesPos i)) 0 = foamMax (z (speciesPos i)) 0 := by
    intro i
    have := i.isLt
    rw [foamMax_zero_right, foamMax_zero_right]
    unfold clip speciesPos
    rw [if_neg (by simp; omega)]
    simp
  unfold modelComposition
  simp only [this]

theorem pyJacDerivatives_clip (L : PyJacLib ℝ m) (t : ℝ) (z : Vec ℝ (m + 2)) :
    pyJacDerivatives L t (clip z) = pyJacDerivatives L t z := by
  have h0 : clip z 0 = z 0 := by simp [clip]
  have hp : clip z (pressurePos m) = z (pressurePos m) := by simp [clip, pressurePos]
  unfold pyJacDerivatives
  rw [modelComposition_clip, h0, hp]

end

section
variable {m : Nat} [MathOps ℝ]

theorem tube_near {X : Chemistry} {φ : ℝ → Fin (m + 2) → ℝ} {b ρ B Λ S : ℝ} (h : X.Tube φ b ρ B Λ S)
    {t : ℝ} {z : Vec ℝ (m + 2)} (hz : Spec.Near φ 0 b ρ t z) : Spec.Near φ 0 b ρ t (clip z) := by
  refine ⟨hz.1, le_trans ?_ hz.2⟩
  have := clip_contracts z (φ t)
  rwa [clip_of_nonNegative (h.nonNegative t hz.1)] at this

/-- Near a solution of the reactor of chem.cti the equations of the pyJac model with negative mass
fractions are those of the reactor without, up to `S / 10^9`. -/
theorem tube_diff {D : Package} (hD : D ∈ shipped) (hn : D.nsp = m + 1)
    {evalJacob : ℝ → Vec ℝ (m + 2) → Nat → ℝ} {φ : ℝ → Fin (m + 2) → ℝ} {b ρ B Λ S : ℝ}
    (hS : 0 ≤ S) (h : D.chemistry.Tube φ b ρ B Λ S) (t : ℝ) (z : Vec ℝ (m + 2))
    (hz : Spec.Near φ 0 b ρ t z) :
    ‖pyJacDerivatives (D.lib m evalJacob) t z - D.chemistry.stateRate (clip z)‖ ≤ S / 10 ^ 9 := by
  have hc := tube_near h hz
  refine (pi_norm_le_iff_of_nonneg (by positivity)).2 fun i => ?_
  rw [← pyJacDerivatives_clip, Pi.sub_apply, Real.norm_eq_abs]
  refine (C88_right_hand_side D hD hn evalJacob t (clip z)
    (h.admissible t _ hc (clip_nonNegative z)) i).trans ?_
  exact div_le_div_of_nonneg_right (h.terms t _ hc (clip_nonNegative z) i) (by positivity)

theorem tube_lipschitz {X : Chemistry} {φ : ℝ → Fin (m + 2) → ℝ} {b ρ B Λ S : ℝ} (hΛ : 0 ≤ Λ)
    (h : X.Tube φ b ρ B Λ S) :
    LipschitzNear (fun _ z => X.stateRate (clip z)) φ 0 b ρ B Λ 0 := by
  refine ⟨fun t z hz => h.bound t _ (tube_near h hz) (clip_nonNegative z), fun t z t' z' hz hz' => ?_⟩
  rw [zero_mul, add_zero]
  exact (h.lipschitz t _ t' _ (tube_near h hz) (tube_near h hz') (clip_nonNegative z)
    (clip_nonNegative z')).trans (mul_le_mul_of_nonneg_left (clip_contracts z z') hΛ)

/-- What is assumed of the steps made for a cell: they end at `dt`, are at most `H`, and the Jacobians
used have row sums of at most `Lj`. -/
def SmallSteps (E : SeulexEnv ℝ (m + 1)) (maxSteps : Nat) (dt : ℝ) (y : Vec ℝ (m + 2))
    (sub Lj H : ℝ) : Prop :=
  ∀ scr, let steps := acceptedSteps (seulexSolve E) 0 dt maxSteps scr 0 y (StepState.init sub)
    (steps.map Prod.fst).sum = dt ∧ ∀ q ∈ steps, q.1 ≤ H ∧ RowsAtMost q.2 Lj

/-- **C118, one cell.** For every shipped mechanism: the temperature and the mass fractions that the
integration of a cell returns are those of the reactor with the chemistry of chem.cti, up to a constant
times the largest step, and `411 S / 10^9` times the time, times the growth of errors in the reactor. -/
theorem C118_cell_follows_the_reactor (hm : PowLaws ℝ) (D : Package) (hD : D ∈ shipped)
    (hn : D.nsp = m + 1) (evalJacob : ℝ → Vec ℝ (m + 2) → Nat → ℝ)
    (linearSolve : (Nat → ℝ) → Vec ℝ (m + 2) → Vec ℝ (m + 2)) (hE : LapackContract (m + 2) linearSolve)
    (absTol relTol : Vec ℝ (m + 2)) (hrel : ∀ i, 0 < relTol i) (fuel maxSteps : Nat)
    (scr scr' : Scratch ℝ (m + 1)) (p T : ℝ) (c : List ℝ) (dt sub : ℝ) (hdt : 0 < dt) (hsub : 0 < sub)
    (r : IntegrateResult ℝ)
    (h : odePyJacSolve (seulexIntegrator (pyJacEnv (D.lib m evalJacob) linearSolve absTol relTol fuel)
      maxSteps) scr p T c dt sub = .ok (scr', r))
    (φ : ℝ → Vec ℝ (m + 2)) (hφ0 : Layout p T c (φ 0))
    (ρ B Λ S Lj H C err : ℝ) (hφ : D.chemistry.Tube φ dt ρ B Λ S)
    (hΛ : 0 ≤ Λ) (hB : 0 ≤ B) (hS : 0 ≤ S) (hL0 : 0 ≤ Lj)
    (hsteps : SmallSteps (pyJacEnv (D.lib m evalJacob) linearSolve absTol relTol fuel) maxSteps dt (φ 0)
      sub Lj H)
    (hC : C = 205 * (Lj * (B + S / 10 ^ 9) + 2 * Λ * (B + S / 10 ^ 9)) + Λ * B)
    (herr : err = Real.exp (Λ * dt) * ((C * H + 411 * (S / 10 ^ 9)) * dt))
    (hHL : H * Lj ≤ 1) (hHB : 3 * H * (B + S / 10 ^ 9) ≤ ρ / 2) (hsmall : err ≤ ρ / 2) :
    |r.T - φ dt 0| ≤ err ∧
    (∀ j : Fin m, |r.c.getD j 0 - φ dt j.castSucc.succ| ≤ err) ∧
    |r.c.getD m 0 - stateComposition (φ dt) m| ≤ m * err := by
  obtain ⟨y₁, y', sub', hy₁, hI, rfl⟩ := odePyJacSolve_ok h
  obtain rfl := hφ0.unique hy₁
  obtain ⟨q, hq, rfl⟩ := seulexIntegrator_ok hI
  have hj : (pyJacEnv (D.lib m evalJacob) linearSolve absTol relTol fuel).jacRedo
      < 2 * (pyJacEnv (D.lib m evalJacob) linearSolve absTol relTol fuel).jacRedo := by
    have := jacRedoOf_pos hrel
    show jacRedoOf relTol < 2 * jacRedoOf relTol
    linarith
  obtain ⟨hs1, hs2⟩ := hsteps scr
  have hqx : q.x = dt := by
    have := acceptedSteps_sum maxSteps 0 scr 0 _ _ q hq
    rw [hs1] at this
    linarith
  have hsol : SolvesOn (fun _ z => D.chemistry.stateRate (clip z)) φ 0 dt := by
    intro t ht
    have := hφ.solves t ht
    dsimp only at this ⊢
    rwa [clip_of_nonNegative (hφ.nonNegative t ht)]
  have key := C118_inexact_equations hm (pyJacEnv (D.lib m evalJacob) linearSolve absTol relTol fuel) hE
    hj maxSteps scr 0 dt hdt (φ 0) sub hsub q hq _ φ rfl dt hqx.le hsol ρ B Λ 0 Lj H (S / 10 ^ 9) C
    (tube_lipschitz hΛ hφ) (tube_diff hD hn hS hφ) hΛ le_rfl hB hL0 (by positivity)
    (by rw [hC, add_zero, add_zero]) hs2 hHL hHB (by rw [sub_zero, ← herr]; exact hsmall)
  rw [hqx, sub_zero, ← herr] at key
  have comp : ∀ i, |q.y i - φ dt i| ≤ err := fun i => by
    have := (norm_le_pi_norm _ i).trans key
    rwa [Real.norm_eq_abs, Pi.sub_apply] at this
  have hend := hφ.nonNegative dt ⟨hdt.le, le_rfl⟩
  have spec : ∀ j : Fin m, |max 0 (q.y j.castSucc.succ) - φ dt j.castSucc.succ| ≤ err := by
    intro j
    refine le_trans ?_ (comp j.castSucc.succ)
    have := abs_max_sub_max_le_abs (q.y j.castSucc.succ) (φ dt j.castSucc.succ) 0
    rwa [max_eq_left (hend j), max_comm] at this
  refine ⟨comp 0, fun j => ?_, ?_⟩
  · have := j.isLt
    have e : (List.ofFn (clippedComposition q.y)).getD j 0 = max 0 (q.y j.castSucc.succ) := by
      rw [List.getD_eq_getElem?_getD, List.getElem?_ofFn, dif_pos (by omega)]
      simp [clippedComposition, snoc_eq_dite]
    rw [e]; exact spec j
  · have e2 : (List.ofFn (clippedComposition q.y)).getD m 0
        = 1 - ∑ j : Fin m, max 0 (q.y j.castSucc.succ) := by
      rw [List.getD_eq_getElem?_getD, List.getElem?_ofFn, dif_pos (by omega)]
      simp [clippedComposition, snoc_eq_dite]
    have e1 : stateComposition (φ dt) m = 1 - ∑ j : Fin m, φ dt j.castSucc.succ := by
      unfold stateComposition complement
      rw [if_pos rfl, ← Fin.sum_univ_eq_sum_range]
      congr 1
      refine Finset.sum_congr rfl fun j _ => ?_
      rw [dif_pos j.isLt]
      congr 1
    rw [e1, e2]
    have e3 : 1 - ∑ j : Fin m, max 0 (q.y j.castSucc.succ) - (1 - ∑ j : Fin m, φ dt j.castSucc.succ)
        = -∑ j : Fin m, (max 0 (q.y j.castSucc.succ) - φ dt j.castSucc.succ) := by
      rw [Finset.sum_sub_distrib]; ring
    rw [e3, abs_neg]
    refine (Finset.abs_sum_le_sum_abs _ _).trans ((Finset.sum_le_sum fun j _ => spec j).trans ?_)
    simp

/-- What the integrations of the cells return, in terms of the reaction rates: if whatever the integration
of a cell returns for species `j` is within `err` of `Y`, the reaction rate of the cell is within
`rho err / dt` of that of a change to `Y`. -/
theorem world_rate_near (L : PyJacLib ℝ m)
    (linearSolve : (Nat → ℝ) → Vec ℝ (m + 2) → Vec ℝ (m + 2))
    (absTol relTol : Vec ℝ (m + 2)) (hrel : ∀ i, 0 < relTol i) (fuel maxSteps : Nat)
    {n : Nat} (hn : 0 < n) (base : ChemModel ℝ) (hsp : base.nSpecie = m + 1)
    (hchem : base.chemistry = true) (parRun : Bool) (hpar : parRun = true ∨ n = 1)
    (sort : List (ChemistryLoad ℝ) → List (ChemistryLoad ℝ)) (hsort : ∀ l, (sort l).Perm l)
    (clk : Fin n → Nat → ℝ) (flow : Fin n → Flow ℝ)
    (hdt : ∀ r i, i < (flow r).nCells → 1 / 10 ^ 15 < (flow r).deltaT i)
    (w w' : Fin n → Scratch ℝ (m + 1)) (F : Fin n → RankFields ℝ) (res : Fin n → RankFields ℝ × ℝ)
    (h : solveWorldW (pyJacModel base L linearSolve absTol relTol fuel maxSteps) parRun sort clk flow w
      F = .ok (w', res)) (r : Fin n) (i : Nat) (hi : i < (flow r).nCells)
    (hmap : ¬ Mapped base (flow r) i) (hrho : 0 ≤ (flow r).rho i) (j : Nat) (hj : j < m + 1) (Y err : ℝ)
    (hcell : ∀ scr scr' q, odePyJacSolve (seulexIntegrator (pyJacEnv L linearSolve absTol relTol fuel)
      maxSteps) scr ((flow r).p i) ((flow r).T i) (composition base (flow r) i) ((flow r).deltaT i)
      ((F r).deltaTChem i) = .ok (scr', q) → |q.c.getD j 0 - Y| ≤ err) :
    |(res r).1.RR j i - (flow r).rho i * ((Y - (flow r).Y j i) / (flow r).deltaT i)|
      ≤ (flow r).rho i * (err / (flow r).deltaT i) := by
  obtain ⟨i₀, hlt, hi₀, scr, scr', q, ho, hq⟩ := world_rates hn hsp hrel hchem hpar hsort hdt h r i hi
  obtain ⟨rfl, -⟩ : i₀ = i ∧ ¬ Mapped base (flow r) i := by
    rcases hi₀ with h' | h'
    · exact h'
    · exact absurd h'.1 hmap
  have hd : 0 < (flow r).deltaT i₀ := lt_trans (by positivity) (hdt r i₀ hlt)
  have k := hcell scr scr' q ho
  rw [hq j hj]
  have e : (q.c.getD j 0 - (flow r).Y j i₀) * (flow r).rho i₀ / (flow r).deltaT i₀
      - (flow r).rho i₀ * ((Y - (flow r).Y j i₀) / (flow r).deltaT i₀)
      = (flow r).rho i₀ * ((q.c.getD j 0 - Y) / (flow r).deltaT i₀) := by ring
  rw [e, abs_mul, abs_of_nonneg hrho, abs_div, abs_of_pos hd]
  exact mul_le_mul_of_nonneg_left (div_le_div_of_nonneg_right k hd.le) hrho

/-- **C118.** For every shipped mechanism, a time step of the load-balanced chemistry model on any number
of ranks: in every cell that is not mapped, the reaction rate of every species is the density times the
mean rate of change of its mass fraction in the reactor with the chemistry of chem.cti, up to the density times the
error bound over the time step. -/
theorem C118_reaction_rates (hm : PowLaws ℝ) (D : Package) (hD : D ∈ shipped)
    (hnsp : D.nsp = m + 1) (evalJacob : ℝ → Vec ℝ (m + 2) → Nat → ℝ)
    (linearSolve : (Nat → ℝ) → Vec ℝ (m + 2) → Vec ℝ (m + 2)) (hE : LapackContract (m + 2) linearSolve)
    (absTol relTol : Vec ℝ (m + 2)) (hrel : ∀ i, 0 < relTol i) (fuel maxSteps : Nat)
    {n : Nat} (hn : 0 < n) (base : ChemModel ℝ) (hsp : base.nSpecie = m + 1)
    (hchem : base.chemistry = true) (parRun : Bool) (hpar : parRun = true ∨ n = 1)
    (sort : List (ChemistryLoad ℝ) → List (ChemistryLoad ℝ)) (hsort : ∀ l, (sort l).Perm l)
    (clk : Fin n → Nat → ℝ) (flow : Fin n → Flow ℝ)
    (hdt : ∀ r i, i < (flow r).nCells → 1 / 10 ^ 15 < (flow r).deltaT i)
    (w w' : Fin n → Scratch ℝ (m + 1)) (F : Fin n → RankFields ℝ) (res : Fin n → RankFields ℝ × ℝ)
    (h : solveWorldW (pyJacModel base (D.lib m evalJacob) linearSolve absTol relTol fuel maxSteps) parRun
      sort clk flow w F = .ok (w', res)) (r : Fin n) (i : Nat) (hi : i < (flow r).nCells)
    (hmap : ¬ Mapped base (flow r) i) (hrho : 0 ≤ (flow r).rho i) (hsub : 0 < (F r).deltaTChem i)
    (φ : ℝ → Vec ℝ (m + 2))
    (hφ0 : Layout ((flow r).p i) ((flow r).T i) (composition base (flow r) i) (φ 0))
    (dt : ℝ) (hdte : dt = (flow r).deltaT i)
    (ρ B Λ S Lj H C err : ℝ) (hφ : D.chemistry.Tube φ dt ρ B Λ S)
    (hΛ : 0 ≤ Λ) (hB : 0 ≤ B) (hS : 0 ≤ S) (hL0 : 0 ≤ Lj)
    (hsteps : SmallSteps (pyJacEnv (D.lib m evalJacob) linearSolve absTol relTol fuel) maxSteps dt (φ 0)
      ((F r).deltaTChem i) Lj H)
    (hC : C = 205 * (Lj * (B + S / 10 ^ 9) + 2 * Λ * (B + S / 10 ^ 9)) + Λ * B)
    (herr : err = Real.exp (Λ * dt) * ((C * H + 411 * (S / 10 ^ 9)) * dt))
    (hHL : H * Lj ≤ 1) (hHB : 3 * H * (B + S / 10 ^ 9) ≤ ρ / 2) (hsmall : err ≤ ρ / 2) :
    (∀ j, j < m → |(res r).1.RR j i - (flow r).rho i * ((stateComposition (φ dt) j - (flow r).Y j i) / dt)|
      ≤ (flow r).rho i * (err / dt)) ∧
    |(res r).1.RR m i - (flow r).rho i * ((stateComposition (φ dt) m - (flow r).Y m i) / dt)|
      ≤ (flow r).rho i * (m * err / dt) := by
  subst hdte
  have hd : 0 < (flow r).deltaT i := lt_trans (by positivity) (hdt r i hi)
  have hcell := fun scr scr' q ho => C118_cell_follows_the_reactor hm D hD hnsp evalJacob linearSolve hE
    absTol relTol hrel fuel maxSteps scr scr' _ _ _ _ _ hd hsub q ho φ hφ0 ρ B Λ S Lj H C err hφ hΛ hB hS
    hL0 hsteps hC herr hHL hHB hsmall
  have hrate := fun j hj Y err => world_rate_near (D.lib m evalJacob) linearSolve absTol relTol hrel fuel
    maxSteps hn base hsp hchem parRun hpar sort hsort clk flow hdt w w' F res h r i hi hmap hrho j hj Y err
  refine ⟨fun j hj => hrate j (by omega) _ err fun scr scr' q ho => ?_,
    hrate m (by omega) _ _ fun scr scr' q ho => (hcell scr scr' q ho).2.2⟩
  have := (hcell scr scr' q ho).2.1 ⟨j, hj⟩
  have e : stateComposition (φ ((flow r).deltaT i)) j
      = φ ((flow r).deltaT i) (Fin.castSucc (⟨j, hj⟩ : Fin m)).succ := by
    unfold stateComposition complement
    rw [if_neg (by omega)]
    dsimp only
    rw [dif_pos hj]
    rfl
  rw [e]
  exact this

end

/-! ### Cases -/

/-- Hot compressed air is inside the domain of the reactor of drm19. -/
theorem hotAirState_interior : ∃ p : ℝ, drm19.chemistry.Interior (hotAirState p) := by
  have e : hotAir 0 = 1200 := rfl
  obtain ⟨p, hp, h⟩ := C85_domain (hotAir 0) (by rw [e]; norm_num) _ hotAir_ok (by rw [hotAir_nitrogen]; norm_num)
  obtain ⟨h1, h2⟩ := h p le_rfl
  have e0 : hotAirState p 0 = hotAir 0 := rfl
  have ep : hotAirState p (Fin.last 21) = p := if_pos rfl
  have hmid : drm19.chemistry.BetweenFits (hotAir 0) := by
    have := noMid_sound drm19_noMid
    rw [e]
    exact_mod_cast this
  refine ⟨p, ⟨⟨by rw [e0, e]; norm_num, by rw [ep]; exact hp, ?_, ?_⟩, by rw [e0, e]; norm_num, ?_, ?_⟩⟩
  · rw [hotAirState_composition]
    exact hotAir_ok
  · rw [hotAirState_composition, e0, ep]
    exact h1
  · rw [e0]
    exact hmid
  · rw [hotAirState_composition, hotAir_nitrogen]
    norm_num

/-- A case of C118: the reactor of drm19 filled with hot compressed air, in which oxygen dissociates, has a
solution with a neighbourhood as the theorems assume. -/
example : ∃ p b ρ B Λ S : ℝ, ∃ φ : ℝ → Vec ℝ 22, φ 0 = hotAirState p ∧ 0 < b ∧ 0 < ρ ∧ 0 ≤ B ∧ 0 ≤ Λ ∧ 0 ≤ S ∧
    drm19.chemistry.Tube φ b ρ B Λ S := by
  obtain ⟨p, hp⟩ := hotAirState_interior
  obtain ⟨b, ρ, B, Λ, S, φ, h1, h2, h3, h4, h5, h6, h7⟩ := exists_tube (X := drm19.chemistry) rfl
    (proper_of_shipped (by simp [shipped])) hp
  exact ⟨p, b, ρ, B, Λ, S, φ, h6, h1, h2, h3, h4, h5, h7⟩

end DLB
