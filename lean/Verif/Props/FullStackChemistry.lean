import Verif.Props.FullStack
import Verif.Props.SeulexInvariants
import Verif.Props.Mechanisms
import Verif.Lemmas.ShippedLib
/-
C72, C73: from the mechanism files to the reaction rate fields: conservation of elements, and cells
of inert gas.
-/
set_option autoImplicit false
set_option linter.unusedSectionVars false

namespace DLB
open Spec

section Exact
variable {K : Type} [Field K] [LinearOrder K] [IsStrictOrderedRing K] {m : Nat} [MathOps K]

/-! ### One cell -/

theorem subStepLoop_stop {I : K → K → List K → K → K → Except Fault (IntegrateResult K)} {f : Nat}
    {p T d t : K} {c : List K} (h : t ≤ 0) : subStepLoop I f p T c d t = .ok (c, d) := by
  have : ¬ (Consts.SMALL : K) < t := by
    rw [not_lt]; exact h.trans (by show (0 : K) ≤ 1 / 10 ^ 15; positivity)
  cases f <;> (unfold subStepLoop; rw [if_neg this])

/-- With the repository's integrator the sub-stepping loop runs once, and the rate is the change of
the composition. -/
theorem solveSingle_pyJac {base : ChemModel K} {L : PyJacLib K m}
    {linearSolve : (Nat → K) → Vec K (m + 2) → Vec K (m + 2)} {absTol relTol : Vec K (m + 2)}
    {fuel maxSteps : Nat} {w : Scratch K (m + 1)} {t : K} {q : ChemistryProblem K}
    {s : ChemistrySolution K} (hdt : 1 / 10 ^ 15 < q.deltaT)
    (h : solveSingle ((pyJacModel base L linearSolve absTol relTol fuel maxSteps).forgetful w) t q
      = .ok s) :
    ∃ w' r, odePyJacSolve (seulexIntegrator (pyJacEnv L linearSolve absTol relTol fuel) maxSteps) w
        q.pi q.Ti q.c q.deltaT q.deltaTChem = .ok (w', r) ∧ r.c.length = q.c.length ∧
      s.rr = List.zipWith (fun x x0 => (x - x0) * q.rhoi / q.deltaT) r.c q.c := by
  unfold solveSingle at h
  cases hl : subStepLoop ((pyJacModel base L linearSolve absTol relTol fuel maxSteps).forgetful
      w).integrate base.fuel q.pi q.Ti q.c q.deltaTChem q.deltaT with
  | error e =>
    have hl' : subStepLoop ((pyJacModel base L linearSolve absTol relTol fuel maxSteps).forgetful
      w).integrate ((pyJacModel base L linearSolve absTol relTol fuel maxSteps).forgetful w).fuel q.pi
      q.Ti q.c q.deltaTChem q.deltaT = .error e := hl
    rw [hl'] at h
    cases h
  | ok v =>
    obtain ⟨c, d⟩ := v
    have hl' : subStepLoop ((pyJacModel base L linearSolve absTol relTol fuel maxSteps).forgetful
      w).integrate ((pyJacModel base L linearSolve absTol relTol fuel maxSteps).forgetful w).fuel q.pi
      q.Ti q.c q.deltaTChem q.deltaT = .ok (c, d) := hl
    rw [hl'] at h
    simp only [bind, Except.bind] at h
    have hS : (Consts.SMALL : K) < q.deltaT := hdt
    unfold subStepLoop at hl
    rw [if_pos hS] at hl
    cases hb : base.fuel with
    | zero => rw [hb] at hl; cases hl
    | succ f =>
      rw [hb] at hl
      simp only [bind, Except.bind, StatefulModel.forgetful, pyJacModel] at hl
      cases ho : odePyJacSolve (seulexIntegrator (pyJacEnv L linearSolve absTol relTol fuel) maxSteps)
          w q.pi q.Ti q.c q.deltaT q.deltaTChem with
      | error e => simp [ho, Except.map] at hl
      | ok v =>
        obtain ⟨w', r⟩ := v
        have hrd : r.deltaT = q.deltaT := by
          obtain ⟨_, _, _, _, _, rfl⟩ := odePyJacSolve_ok ho
          rfl
        simp only [ho, Except.map] at hl
        rw [subStepLoop_stop (by rw [hrd, sub_self])] at hl
        cases hl
        split at h
        · rename_i hlen
          cases h
          exact ⟨w', r, rfl, hlen, rfl⟩
        · cases h

/-! ### C72 -/

section Mech
variable [CMath K]

/-- Amount of element `e` (in units of the amount of substance per mass of mixture) in a mixture with mass fractions `c`
and molecular weights `w`. -/
def elementAmount (D : Package) (w : Nat → K) (e : Nat) (c : List K) : K :=
  ∑ s ∈ Finset.range D.nsp, (D.atomCount s e : K) / w s * c.getD s 0

/-- The Jacobian routine `evalJacob` of a library with `m + 1` species conserves element `e`: in every column of the Jacobian,
the entries of the species equations, weighted with atoms per mass, sum to zero (as they do for the derivative of a right-hand side that
conserves the element). -/
def JacobianConserves (D : Package) (w : Nat → K) (e : Nat) (evalJacob : K → Vec K (m + 2) → Nat → K) : Prop :=
  ∀ p y j, j < m + 1 →
    ∑ s ∈ Finset.range m, (D.atomCount s e : K) / w s * evalJacob p y (j * (m + 1) + (s + 1)) = 0

/-- The combination of the entries of the state vector that is the amount of element `e`, if the last species does not contain it. -/
def elementVector (D : Package) (w : Nat → K) (e : Nat) : Vec K (m + 2) := fun i =>
  if i.val = 0 then 0 else if i.val < m + 1 then (D.atomCount (i.val - 1) e : K) / w (i.val - 1) else 0

theorem sum_elementVector (D : Package) (w : Nat → K) (e : Nat) (y : Vec K (m + 2)) :
    ∑ i, elementVector D w e i * y i = ∑ s : Fin m, (D.atomCount s e : K) / w s * y s.castSucc.succ := by
  rw [Fin.sum_univ_succ, Fin.sum_univ_castSucc]
  simp [elementVector]

/-- Species part of `Package.lib`. -/
theorem lib_species {D : Package} (h : Checked D) (hn : D.nsp = m + 1) (jac : K → Vec K (m + 2) → Nat → K) (p : K) (y : Vec K (m + 2)) :
    ∃ (ρ : K) (fwd rev pm : Nat → K), ∀ s : Fin m, (D.lib m jac).dydt p y s.succ =
      productionRate D.reactions fwd rev pm s * Dec.val (nth D.mech.weights s) / ρ := by
  obtain ⟨σ, ρ, F, R, P, e, -, hs⟩ := dydt_species h p (fun j => if h : j < m + 2 then y ⟨j, h⟩ else 0)
  refine ⟨ρ, F, R, P, fun s => ?_⟩
  have := s.isLt
  simp only [Package.lib, e, Option.bind_some, Fin.val_succ]
  rw [hs s (by omega)]
  rfl

/-- The amount of an element that the last species does not contain is a linear invariant of the equations of the pyJac model. -/
theorem rhs_conserves {D : Package} (h : Checked D) (hn : D.nsp = m + 1) (jac : K → Vec K (m + 2) → Nat → K) (e : Nat)
    (he : e < D.elements.length) (hlast : D.atomCount (D.nsp - 1) e = 0) (x : K) (y : Vec K (m + 2)) :
    ∑ i, elementVector D (fun i => (Dec.val (nth D.mech.weights i) : K)) e i * pyJacDerivatives (D.lib m jac) x y i = 0 := by
  rw [sum_elementVector]
  simp only [pyJacDerivatives]
  obtain ⟨ρ, F, R, P, hs⟩ := lib_species h hn jac (y (pressurePos m)) (toPyJac (y 0) (modelComposition y))
  have hpos : ∀ i, i < D.nsp → (0 : K) < Dec.val (nth D.mech.weights i) := fun i hi =>
    (close_pos (close_literals h) (fun i hi => molWeight_pos h i hi) i hi).1
  have : ∀ s : Fin m, (D.atomCount s e : K) / Dec.val (nth D.mech.weights s) *
      (if h : (s.castSucc.succ : Fin (m + 2)).val < m + 1 then
        (D.lib m jac).dydt (y (pressurePos m)) (toPyJac (y 0) (modelComposition y)) ⟨(s.castSucc.succ : Fin (m + 2)).val, h⟩ else 0)
      = (D.atomCount s e : K) * productionRate D.reactions F R P s / ρ := by
    intro s
    have hlt := s.isLt
    rw [dif_pos (by simp)]
    have e1 : (⟨(s.castSucc.succ : Fin (m + 2)).val, by simp⟩ : Fin (m + 1)) = s.succ := by ext; simp
    rw [e1, hs s]
    have := (hpos s (by omega)).ne'
    field_simp
  rw [Finset.sum_congr rfl fun s _ => this s, ← Finset.sum_div,
    Fin.sum_univ_eq_sum_range (fun s => (D.atomCount s e : K) * productionRate D.reactions F R P s) m]
  have hc := elements_conserved h F R P e he
  rw [hn, Finset.sum_range_succ] at hc
  rw [hn, Nat.add_sub_cancel] at hlast
  rw [hlast, Nat.cast_zero, zero_mul, add_zero] at hc
  rw [hc, zero_div]

theorem jacobian_conserves {D : Package} {w : Nat → K} {e : Nat} {jac : K → Vec K (m + 2) → Nat → K}
    (hj : JacobianConserves D w e jac) (x : K) (y : Vec K (m + 2)) (j : Fin (m + 2)) :
    ∑ i, elementVector D w e i * pyJacJacobian (D.lib m jac) x y i j = 0 := by
  rw [sum_elementVector D w e (fun i => pyJacJacobian (D.lib m jac) x y i j)]
  simp only [pyJacJacobian, Package.lib]
  by_cases h : j.val < m + 1
  · have := hj (y (pressurePos m)) (toPyJac (y 0) (modelComposition y)) j.val h
    rw [← Fin.sum_univ_eq_sum_range (fun s => (D.atomCount s e : K) / w s *
      jac (y (pressurePos m)) (toPyJac (y 0) (modelComposition y)) (j.val * (m + 1) + (s + 1))) m] at this
    rw [← this]
    refine Finset.sum_congr rfl fun s _ => ?_
    rw [if_pos ⟨by simp, h⟩]
    simp
  · refine Finset.sum_eq_zero fun s _ => ?_
    rw [if_neg (fun h' => h h'.2), mul_zero]

theorem elementAmount_fn {D : Package} (hn : D.nsp = m + 1) {w : Nat → K} {e : Nat} (hlast : D.atomCount (D.nsp - 1) e = 0)
    (c : List K) : elementAmount D w e c = ∑ s : Fin m, (D.atomCount s e : K) / w s * c.getD s 0 := by
  unfold elementAmount
  rw [hn, Finset.sum_range_succ, Fin.sum_univ_eq_sum_range (fun s => (D.atomCount s e : K) / w s * c.getD s 0) m]
  rw [hn, Nat.add_sub_cancel] at hlast
  simp [hlast]

/-- **C72, one cell.** For every shipped mechanism: integrating a cell with the repository's integrator, positive relative tolerances, a
Jacobian routine that conserves the element and a linear solver that satisfies the equation of its amount, never decreases the amount of any
element that the last species does not contain; if no mass fraction (but that of the last species) is zero afterwards the
amount is exactly unchanged.  (`w` are the molecular weights as written in the library.) -/
theorem C72_elements_of_a_cell (hm : PowLaws K) (D : Package) (hD : D ∈ shipped) (hn : D.nsp = m + 1) :
    ∃ w r : Nat → K, CloseWeights D w r ∧ ∀ (e : Nat), e < D.elements.length → D.atomCount (D.nsp - 1) e = 0 →
    ∀ (evalJacob : K → Vec K (m + 2) → Nat → K), JacobianConserves D w e evalJacob →
    ∀ (linearSolve : (Nat → K) → Vec K (m + 2) → Vec K (m + 2)) (absTol relTol : Vec K (m + 2)), (∀ i, 0 < relTol i) →
    ∀ (fuel maxSteps : Nat),
    SolvesCombination (pyJacEnv (D.lib m evalJacob) linearSolve absTol relTol fuel) (elementVector D w e) →
    ∀ (scr scr' : Scratch K (m + 1)) (p T : K) (c : List K) (deltaT subDeltaT : K),
    0 < deltaT → 0 < subDeltaT → ∀ r : IntegrateResult K,
    odePyJacSolve (seulexIntegrator (pyJacEnv (D.lib m evalJacob) linearSolve absTol relTol fuel) maxSteps) scr p T c deltaT
      subDeltaT = .ok (scr', r) →
    elementAmount D w e c ≤ elementAmount D w e r.c ∧
    ((∀ s, s < m → r.c.getD s 0 ≠ 0) → elementAmount D w e r.c = elementAmount D w e c) := by
  have h := checked_of_shipped hD
  refine ⟨_, _, close_literals h, ?_⟩
  intro e he hlast jac hjac solve absTol relTol hrel fuel maxSteps hsolve scr scr' p T c dt sub hdt hsub r hr
  obtain ⟨y, y', sub', hy, hI, rfl⟩ := odePyJacSolve_ok hr
  obtain ⟨q, hq, rfl⟩ := seulexIntegrator_ok hI
  have hj : (pyJacEnv (D.lib m jac) solve absTol relTol fuel).jacRedo
      < 2 * (pyJacEnv (D.lib m jac) solve absTol relTol fuel).jacRedo := by
    have := jacRedoOf_pos hrel
    show jacRedoOf relTol < 2 * jacRedoOf relTol
    linarith
  have key := C70_linear_invariants_are_kept hm (pyJacEnv (D.lib m jac) solve absTol relTol fuel) hj _ hsolve
    (fun x y => rhs_conserves h hn jac e he hlast x y) (fun x y j => jacobian_conserves hjac x y j) maxSteps scr 0 dt hdt y
    sub hsub q hq
  rw [sum_elementVector, sum_elementVector] at key
  rw [elementAmount_fn hn hlast, elementAmount_fn hn hlast]
  have hy1 : ∀ s : Fin m, c.getD s 0 = y s.castSucc.succ := fun s => by
    rw [List.getD_eq_getElem?_getD, hy.species s]; rfl
  have hy2 : ∀ s : Fin m, (List.ofFn (clippedComposition q.y)).getD s 0 = max 0 (q.y s.castSucc.succ) := fun s => by
    have := s.isLt
    rw [List.getD_eq_getElem?_getD, List.getElem?_ofFn, dif_pos (by omega)]
    simp [clippedComposition, snoc_eq_dite]
  simp only [hy1, hy2]
  rw [← key]
  have hw : ∀ s : Fin m, (0 : K) ≤ (D.atomCount s e : K) / Dec.val (nth D.mech.weights s) := fun s => by
    have := s.isLt
    have := (close_pos (close_literals (K := K) h) (fun i hi => molWeight_pos h i hi) s (by omega)).1
    exact div_nonneg (Nat.cast_nonneg _) this.le
  constructor
  · exact Finset.sum_le_sum fun s _ => mul_le_mul_of_nonneg_left (le_max_right _ _) (hw s)
  · intro hne
    refine Finset.sum_congr rfl fun s _ => ?_
    have := hne s s.isLt
    rw [hy2] at this
    rcases le_total (q.y s.castSucc.succ) 0 with h' | h'
    · rw [max_eq_left h'] at this; exact absurd rfl this
    · rw [max_eq_right h']

end Mech

/-! ### From cells to fields -/

/-- What a step leaves in a cell is the rate of that cell, or of the reference cell if it was mapped,
integrated with new work arrays. -/
theorem world_cell {n : Nat} (hn : 0 < n) {base : ChemModel K} {L : PyJacLib K m}
    {linearSolve : (Nat → K) → Vec K (m + 2) → Vec K (m + 2)} {absTol relTol : Vec K (m + 2)}
    (hrel : ∀ i, 0 < relTol i) {fuel maxSteps : Nat} (hchem : base.chemistry = true) {parRun : Bool}
    (hpar : parRun = true ∨ n = 1) {sort : List (ChemistryLoad K) → List (ChemistryLoad K)}
    (hsort : ∀ l, (sort l).Perm l) {clk : Fin n → Nat → K} {flow : Fin n → Flow K}
    {w w' : Fin n → Scratch K (m + 1)} {F : Fin n → RankFields K} {res : Fin n → RankFields K × K}
    (h : solveWorldW (pyJacModel base L linearSolve absTol relTol fuel maxSteps) parRun sort clk flow w
      F = .ok (w', res)) (r : Fin n) (i : Nat) (hi : i < (flow r).nCells) (w₀ : Scratch K (m + 1)) :
    ∃ i₀, (i₀ = i ∧ ¬ Mapped base (flow r) i ∨ Mapped base (flow r) i ∧ IsReference base (flow r) i₀) ∧
      ∃ t s, solveSingle ((pyJacModel base L linearSolve absTol relTol fuel maxSteps).forgetful w₀) t
        (cellProblem base (flow r) (F r) i₀) = .ok s ∧
        ∀ j, j < base.nSpecie → s.rr[j]? = some ((res r).1.RR j i) := by
  have hj : jacRedoOf relTol < ((2 : Nat) : K) * jacRedoOf relTol := by
    have := jacRedoOf_pos hrel
    push_cast
    linarith
  have hw := C69_solver_memory_has_no_effect base L linearSolve absTol relTol hj fuel maxSteps parRun
    sort clk flow w w₀ F
  rw [h] at hw
  rcases C27_every_cell_carries_rate_of_this_step hn
    ((pyJacModel base L linearSolve absTol relTol fuel maxSteps).forgetful w₀) hchem parRun hpar sort
    hsort clk flow F res hw.symm r i hi with ⟨a, t, s, b, c⟩ | ⟨a, r0, t, s, b, c, d⟩
  · exact ⟨i, Or.inl ⟨rfl, a⟩, t, s, b, c.1⟩
  · exact ⟨r0, Or.inr ⟨a, b⟩, t, s, c, d.1⟩

theorem isReference_lt {M : ChemModel K} {fl : Flow K} {i : Nat} (h : IsReference M fl i) :
    i < fl.nCells := h.1

/-- Rates of a cell that was integrated: change of the composition times density over time step. -/
theorem world_rates {n : Nat} (hn : 0 < n) {base : ChemModel K} (hsp : base.nSpecie = m + 1)
    {L : PyJacLib K m} {linearSolve : (Nat → K) → Vec K (m + 2) → Vec K (m + 2)}
    {absTol relTol : Vec K (m + 2)} (hrel : ∀ i, 0 < relTol i) {fuel maxSteps : Nat}
    (hchem : base.chemistry = true) {parRun : Bool}
    (hpar : parRun = true ∨ n = 1) {sort : List (ChemistryLoad K) → List (ChemistryLoad K)}
    (hsort : ∀ l, (sort l).Perm l) {clk : Fin n → Nat → K} {flow : Fin n → Flow K}
    (hdt : ∀ r i, i < (flow r).nCells → 1 / 10 ^ 15 < (flow r).deltaT i)
    {w w' : Fin n → Scratch K (m + 1)} {F : Fin n → RankFields K} {res : Fin n → RankFields K × K}
    (h : solveWorldW (pyJacModel base L linearSolve absTol relTol fuel maxSteps) parRun sort clk flow w
      F = .ok (w', res)) (r : Fin n) (i : Nat) (hi : i < (flow r).nCells) :
    ∃ i₀, i₀ < (flow r).nCells ∧
      (i₀ = i ∧ ¬ Mapped base (flow r) i ∨ Mapped base (flow r) i ∧ IsReference base (flow r) i₀) ∧
      ∃ scr scr' q, odePyJacSolve (seulexIntegrator (pyJacEnv L linearSolve absTol relTol fuel)
          maxSteps) scr ((flow r).p i₀) ((flow r).T i₀) (composition base (flow r) i₀)
          ((flow r).deltaT i₀) ((F r).deltaTChem i₀) = .ok (scr', q) ∧
        ∀ j, j < m + 1 → (res r).1.RR j i
          = (q.c.getD j 0 - (flow r).Y j i₀) * (flow r).rho i₀ / (flow r).deltaT i₀ := by
  obtain ⟨i₀, hi₀, t, s, hs, hrr⟩ := world_cell hn hrel hchem hpar hsort h r i hi (w r)
  have hlt : i₀ < (flow r).nCells := by
    rcases hi₀ with ⟨rfl, -⟩ | ⟨-, h'⟩
    · exact hi
    · exact isReference_lt h'
  obtain ⟨scr', q, ho, hlen, hq⟩ := solveSingle_pyJac (hdt r i₀ hlt) hs
  refine ⟨i₀, hlt, hi₀, w r, scr', q, ho, fun j hj => ?_⟩
  have h1 := hrr j (by omega)
  have hcl : (cellProblem base (flow r) (F r) i₀).c.length = m + 1 := by
    simp [cellProblem, hsp]
  have hl1 : j < q.c.length := by omega
  have hl2 : j < (cellProblem base (flow r) (F r) i₀).c.length := by omega
  rw [hq, List.getElem?_zipWith, List.getElem?_eq_getElem hl1, List.getElem?_eq_getElem hl2] at h1
  simp only [Option.some.injEq] at h1
  rw [← h1, List.getD_eq_getElem _ _ hl1]
  simp [cellProblem]

/-! ### C74 -/

/-- **C74.** With the pyJac model and the repository's integrator: after every step the reaction rates
of all species sum to zero in every cell of every rank, mapped or integrated, with or without load
balancing, whatever the mechanism library, the Jacobian routine and the linear solver compute; provided
that the mass fractions of every cell sum to one before the step. -/
theorem C74_rates_sum_to_zero {n : Nat} (hn : 0 < n) (base : ChemModel K) (hsp : base.nSpecie = m + 1)
    (L : PyJacLib K m) (linearSolve : (Nat → K) → Vec K (m + 2) → Vec K (m + 2))
    (absTol relTol : Vec K (m + 2)) (hrel : ∀ i, 0 < relTol i) (fuel maxSteps : Nat)
    (hchem : base.chemistry = true) (parRun : Bool)
    (hpar : parRun = true ∨ n = 1) (sort : List (ChemistryLoad K) → List (ChemistryLoad K))
    (hsort : ∀ l, (sort l).Perm l) (clk : Fin n → Nat → K) (flow : Fin n → Flow K)
    (hdt : ∀ r i, i < (flow r).nCells → 1 / 10 ^ 15 < (flow r).deltaT i)
    (hY : ∀ r i, i < (flow r).nCells → ∑ j ∈ Finset.range (m + 1), (flow r).Y j i = 1)
    (w w' : Fin n → Scratch K (m + 1)) (F : Fin n → RankFields K) (res : Fin n → RankFields K × K)
    (h : solveWorldW (pyJacModel base L linearSolve absTol relTol fuel maxSteps) parRun sort clk flow w
      F = .ok (w', res)) (r : Fin n) (i : Nat) (hi : i < (flow r).nCells) :
    ∑ j ∈ Finset.range (m + 1), (res r).1.RR j i = 0 := by
  obtain ⟨i₀, hlt, -, scr, scr', q, ho, hq⟩ := world_rates hn hsp hrel hchem hpar hsort hdt h r i hi
  rw [Finset.sum_congr rfl fun j hj => hq j (Finset.mem_range.1 hj), ← Finset.sum_div,
    ← Finset.sum_mul, Finset.sum_sub_distrib, hY r i₀ hlt]
  have : ∑ j ∈ Finset.range (m + 1), q.c.getD j 0 = 1 := by
    obtain ⟨y, y', sub', hy, hI, rfl⟩ := odePyJacSolve_ok ho
    rw [← sum_clippedComposition y', ← Fin.sum_univ_eq_sum_range (fun j =>
      (List.ofFn (clippedComposition y')).getD j 0) (m + 1)]
    refine Finset.sum_congr rfl fun j _ => ?_
    rw [List.getD_eq_getElem _ _ (by rw [List.length_ofFn]; exact j.isLt), List.getElem_ofFn]
  rw [this, sub_self, zero_mul, zero_div]

section Mech
variable [CMath K]

/-- **C72.** For every shipped mechanism, with the repository's integrator, positive relative tolerances, a Jacobian routine that conserves the
element and a linear solver that satisfies the equation of its amount: after every step, in every cell of every rank, mapped or
integrated, with or without load balancing, the reaction rates do not destroy any element that the last species does not contain; and in
every integrated cell they conserve it exactly if no mass fraction (but that of the last species) drops to zero. -/
theorem C72_rates_conserve_elements (hm : PowLaws K) (D : Package) (hD : D ∈ shipped) (hD1 : D.nsp = m + 1) :
    ∃ wt r : Nat → K, CloseWeights D wt r ∧ ∀ (e : Nat), e < D.elements.length → D.atomCount (D.nsp - 1) e = 0 →
    ∀ (evalJacob : K → Vec K (m + 2) → Nat → K), JacobianConserves D wt e evalJacob →
    ∀ (linearSolve : (Nat → K) → Vec K (m + 2) → Vec K (m + 2)) (absTol relTol : Vec K (m + 2)), (∀ i, 0 < relTol i) →
    ∀ (fuel maxSteps : Nat),
    SolvesCombination (pyJacEnv (D.lib m evalJacob) linearSolve absTol relTol fuel) (elementVector D wt e) →
    ∀ {n : Nat}, 0 < n → ∀ (base : ChemModel K), base.nSpecie = m + 1 → base.chemistry = true →
    ∀ (parRun : Bool), (parRun = true ∨ n = 1) →
    ∀ sort : List (ChemistryLoad K) → List (ChemistryLoad K), (∀ l, (sort l).Perm l) →
    ∀ (clk : Fin n → Nat → K) (flow : Fin n → Flow K),
    (∀ r i, i < (flow r).nCells → 1 / 10 ^ 15 < (flow r).deltaT i) → (∀ r i, i < (flow r).nCells → 0 < (flow r).rho i) →
    ∀ (w w' : Fin n → Scratch K (m + 1)) (F : Fin n → RankFields K), (∀ r i, i < (flow r).nCells → 0 < (F r).deltaTChem i) →
    ∀ res : Fin n → RankFields K × K,
    solveWorldW (pyJacModel base (D.lib m evalJacob) linearSolve absTol relTol fuel maxSteps) parRun sort clk flow w F
      = .ok (w', res) →
    ∀ r i, i < (flow r).nCells →
      0 ≤ ∑ s ∈ Finset.range D.nsp, (D.atomCount s e : K) / wt s * (res r).1.RR s i ∧
      (¬ Mapped base (flow r) i →
        (∀ s, s < m → (flow r).Y s i + (res r).1.RR s i * (flow r).deltaT i / (flow r).rho i ≠ 0) →
        ∑ s ∈ Finset.range D.nsp, (D.atomCount s e : K) / wt s * (res r).1.RR s i = 0) := by
  obtain ⟨wt, rt, hwt, key⟩ := C72_elements_of_a_cell hm D hD hD1
  refine ⟨wt, rt, hwt, ?_⟩
  intro e he hlast jac hjac solve absTol relTol hrel fuel maxSteps hsolve n hn base hsp hchem parRun hpar sort hsort clk flow hdt
    hrho w w' F hsub res h r i hi
  obtain ⟨i₀, hlt, hi₀, scr, scr', q, ho, hq⟩ := world_rates hn hsp hrel hchem hpar hsort hdt h r i hi
  have hd : 0 < (flow r).deltaT i₀ := lt_trans (by positivity) (hdt r i₀ hlt)
  obtain ⟨k1, k2⟩ := key e he hlast jac hjac solve absTol relTol hrel fuel maxSteps hsolve scr scr' _ _ _ _ _ hd
    (hsub r i₀ hlt) q ho
  have hcomp : ∀ s, s < m + 1 → (composition base (flow r) i₀).getD s 0 = (flow r).Y s i₀ := by
    intro s hs
    rw [List.getD_eq_getElem _ _ (by simp [composition, hsp, hs])]
    simp [composition]
  have hsum : ∑ s ∈ Finset.range D.nsp, (D.atomCount s e : K) / wt s * (res r).1.RR s i
      = (elementAmount D wt e q.c - elementAmount D wt e (composition base (flow r) i₀)) * (flow r).rho i₀ /
        (flow r).deltaT i₀ := by
    unfold elementAmount
    rw [← Finset.sum_sub_distrib, Finset.sum_mul, Finset.sum_div]
    refine Finset.sum_congr rfl fun s hs => ?_
    have hs' : s < m + 1 := by rw [← hD1]; exact Finset.mem_range.1 hs
    rw [hq s hs', hcomp s hs']
    ring
  rw [hsum]
  constructor
  · exact div_nonneg (mul_nonneg (sub_nonneg.2 k1) (hrho r i₀ hlt).le) hd.le
  · intro hnm hne
    obtain ⟨rfl, -⟩ : i₀ = i ∧ ¬ Mapped base (flow r) i := by
      rcases hi₀ with h' | h'
      · exact h'
      · exact absurd h'.1 hnm
    rw [k2 (fun s hs => by
      have h1 := hne s hs
      rw [hq s (by omega)] at h1
      have hr0 := (hrho r i₀ hlt).ne'
      have hd0 := hd.ne'
      have : (flow r).Y s i₀ + (q.c.getD s 0 - (flow r).Y s i₀) * (flow r).rho i₀ / (flow r).deltaT i₀ * (flow r).deltaT i₀ /
          (flow r).rho i₀ = q.c.getD s 0 := by field_simp; ring
      rwa [this] at h1), sub_self, zero_mul, zero_div]


/-! ### C73 -/

/-- **C73.** For every shipped mechanism, at every positive temperature and pressure: if every reaction lacks one of its reactants and, if it is
reversible, one of its products, then all derivatives computed by `dydt`, that of the temperature included, are zero. -/
theorem C73_dormant_mixture (D : Package) (hD : D ∈ shipped) (L : CMathLaws K) (pres : K) (y Y : Nat → K)
    (hYy : Y = complement (D.nsp - 1) (fun i => y (i + 1))) (hT : 0 < y 0) (hp : 0 < pres) (hY : ∀ i, i < D.nsp → 0 ≤ Y i)
    (hd : ∀ r ∈ D.reactions, (∃ s ∈ r.reactants, Y s = 0) ∧ (r.reversible = true → ∃ s ∈ r.products, Y s = 0)) :
    ∃ σ, D.mech.callDydt pres y = some σ ∧ ∀ i, i < D.nsp → σ (.arr .dy i) = some 0 := by
  subst hYy
  have h := checked_of_shipped hD
  obtain ⟨σ, σcp, σh, ρ, C, fwd, rev, pm, cp, enth, e, h1, h2, h3, -, h4, -, -, -, -, h9, h10⟩ :=
    dydt_spec h L pres y hT hp hY
  have hz : ∀ s, productionRate D.reactions fwd rev pm s = 0 := fun s => by
    refine production_zero h4 (fun r hr => ?_) s
    obtain ⟨b1, b2, -⟩ := balance_sound (K := K) h r hr
    obtain ⟨⟨a, ha, ha0⟩, hb⟩ := hd r hr
    refine ⟨⟨a, ha, by rw [h3 a (b1 a ha), ha0]; simp⟩, fun hv => ?_⟩
    obtain ⟨b, hb, hb0⟩ := hb hv
    exact ⟨b, hb, by rw [h3 b (b2 b hb), hb0]; simp⟩
  refine ⟨σ, e, fun i hi => ?_⟩
  cases i with
  | zero => rw [h10]; simp [hz]
  | succ i => rw [h9 i (by omega), hz]; simp

/-- The species that take part in combustion: all but molecular nitrogen and argon. -/
def reactive (D : Package) (s : Nat) : Bool := !(["N2", "AR"].contains (D.names.getD s ""))

/-- Every reaction of every shipped mechanism has a reactant and, if reversible, a product other than molecular nitrogen and argon. -/
theorem inert_check : ∀ D ∈ shipped, ∀ r ∈ D.reactions,
    (∃ s ∈ r.reactants, reactive D s = true) ∧ (r.reversible = true → ∃ s ∈ r.products, reactive D s = true) := by
  have h : ∀ D ∈ shipped, (D.reactions.all fun r => r.reactants.any (reactive D) &&
      (!r.reversible || r.products.any (reactive D))) = true := by
    intro D hD
    simp only [shipped, List.mem_cons, List.not_mem_nil, or_false] at hD
    rcases hD with rfl | rfl | rfl <;> decide +kernel
  intro D hD r hr
  have := List.all_eq_true.1 (h D hD) r hr
  simp only [Bool.and_eq_true, Bool.or_eq_true, Bool.not_eq_true', List.any_eq_true] at this
  exact ⟨this.1, fun hv => by
    rcases this.2 with h' | h'
    · rw [h'] at hv; cases hv
    · exact h'⟩

/-- **C73.** For every shipped mechanism: in a mixture of molecular nitrogen and argon all derivatives are zero. -/
theorem C73_inert_gas (D : Package) (hD : D ∈ shipped) (L : CMathLaws K) (pres : K) (y Y : Nat → K)
    (hYy : Y = complement (D.nsp - 1) (fun i => y (i + 1))) (hT : 0 < y 0) (hp : 0 < pres) (hY : ∀ i, i < D.nsp → 0 ≤ Y i)
    (hin : ∀ i, i < D.nsp → D.names.getD i "" ≠ "N2" → D.names.getD i "" ≠ "AR" → Y i = 0) :
    ∃ σ, D.mech.callDydt pres y = some σ ∧ ∀ i, i < D.nsp → σ (.arr .dy i) = some 0 := by
  refine C73_dormant_mixture D hD L pres y Y hYy hT hp hY fun r hr => ?_
  obtain ⟨b1, b2, -⟩ := balance_sound (K := K) (checked_of_shipped hD) r hr
  have hz : ∀ s, s < D.nsp → reactive D s = true → Y s = 0 := by
    intro s hs hr
    simp only [reactive, List.contains_cons, List.contains_nil, Bool.or_false, Bool.not_eq_true', Bool.or_eq_false_iff,
      beq_eq_false_iff_ne] at hr
    exact hin s hs hr.1 hr.2
  obtain ⟨⟨a, ha, ha'⟩, hb⟩ := inert_check D hD r hr
  refine ⟨⟨a, ha, hz a (b1 a ha) ha'⟩, fun hv => ?_⟩
  obtain ⟨b, hb, hb'⟩ := hb hv
  exact ⟨b, hb, hz b (b2 b hb) hb'⟩

/-- **C73.** For every shipped mechanism, with the repository's integrator: after every step the reaction rates of every integrated cell that
contains only molecular nitrogen and argon are zero, with or without load balancing, whatever the Jacobian routine computes, and for every linear
solver that solves the system with zero right-hand side by zero. -/
theorem C73_inert_cells_do_not_react (hm : PowLaws K) (Lc : CMathLaws K) (D : Package) (hD : D ∈ shipped) (hD1 : D.nsp = m + 1)
    (evalJacob : K → Vec K (m + 2) → Nat → K) (linearSolve : (Nat → K) → Vec K (m + 2) → Vec K (m + 2))
    (hz : ∀ a, linearSolve a (fun _ => 0) = fun _ => 0) (absTol relTol : Vec K (m + 2)) (hrel : ∀ i, 0 < relTol i)
    {n : Nat} (hn : 0 < n) (base : ChemModel K) (hsp : base.nSpecie = m + 1) (hchem : base.chemistry = true)
    (fuel maxSteps : Nat) (parRun : Bool) (hpar : parRun = true ∨ n = 1)
    (sort : List (ChemistryLoad K) → List (ChemistryLoad K)) (hsort : ∀ l, (sort l).Perm l)
    (clk : Fin n → Nat → K) (flow : Fin n → Flow K)
    (hdt : ∀ r i, i < (flow r).nCells → 1 / 10 ^ 15 < (flow r).deltaT i)
    (w w' : Fin n → Scratch K (m + 1)) (F : Fin n → RankFields K)
    (hsub : ∀ r i, i < (flow r).nCells → 0 < (F r).deltaTChem i) (res : Fin n → RankFields K × K)
    (h : solveWorldW (pyJacModel base (D.lib m evalJacob) linearSolve absTol relTol fuel maxSteps) parRun sort clk flow w F
      = .ok (w', res))
    (r : Fin n) (i : Nat) (hi : i < (flow r).nCells) (hnm : ¬ Mapped base (flow r) i)
    (hT : 0 < (flow r).T i) (hp : 0 < (flow r).p i) (hY : ∀ s, s < D.nsp → 0 ≤ (flow r).Y s i)
    (hsum : ∑ s ∈ Finset.range D.nsp, (flow r).Y s i = 1)
    (hin : ∀ s, s < D.nsp → D.names.getD s "" ≠ "N2" → D.names.getD s "" ≠ "AR" → (flow r).Y s i = 0)
    (s : Nat) (hs : s < D.nsp) : (res r).1.RR s i = 0 := by
  obtain ⟨i₀, hlt, hi₀, scr, scr', q, ho, hq⟩ := world_rates hn hsp hrel hchem hpar hsort hdt h r i hi
  obtain ⟨rfl, -⟩ : i₀ = i ∧ ¬ Mapped base (flow r) i := by
    rcases hi₀ with h' | h'
    · exact h'
    · exact absurd h'.1 hnm
  have hd : 0 < (flow r).deltaT i₀ := lt_trans (by positivity) (hdt r i₀ hlt)
  let c : Vec K (m + 1) := fun j => (flow r).Y j i₀
  have hc : composition base (flow r) i₀ = List.ofFn c := by
    apply List.ext_getElem
    · simp [composition, hsp]
    · intro j h1 h2
      rw [List.getElem_ofFn]
      simp [composition, c]
  rw [hD1] at hsum hs hY hin
  have hcs : ∑ j, c j = 1 := by
    rw [← hsum, ← Fin.sum_univ_eq_sum_range (fun j => (flow r).Y j i₀) (m + 1)]
  have hrate : (D.lib m evalJacob).dydt ((flow r).p i₀) (toPyJac ((flow r).T i₀) c) = fun _ => 0 := by
    let y : Nat → K := fun j => if h : j < m + 2 then toPyJac ((flow r).T i₀) c ⟨j, h⟩ else 0
    have hyc : ∀ j, j < D.nsp → complement (D.nsp - 1) (fun j => y (j + 1)) j = (flow r).Y j i₀ := by
      intro j hj
      rw [hD1] at hj
      rw [hD1, Nat.add_sub_cancel]
      refine complement_eq (Z := fun j => (flow r).Y j i₀) hsum (fun j hj => ?_) j (by omega)
      simp [y, toPyJac, c, show j < m + 1 by omega]
    obtain ⟨σ, e, hσ⟩ := C73_inert_gas D hD Lc ((flow r).p i₀) y _ rfl (by simpa [y, toPyJac] using hT) hp
      (fun j hj => by rw [hyc j hj]; exact hY j (by omega)) (fun j hj a b => by rw [hyc j hj]; exact hin j (by omega) a b)
    funext j
    have := j.isLt
    simp only [Package.lib]
    rw [show D.mech.callDydt ((flow r).p i₀) _ = some σ from e]
    simp only [Option.bind_some]
    rw [hσ j (by omega)]
    rfl
  rw [hc] at ho
  obtain ⟨-, -, hqc⟩ := C71_cell_at_rest hm (D.lib m evalJacob) linearSolve hz absTol relTol hrel fuel maxSteps scr scr' _ _ c
    (fun j => hY j j.isLt) hcs hrate _ _ hd (hsub r i₀ hlt) q ho
  rw [hq s hs, hqc, List.getD_eq_getElem _ _ (by rw [List.length_ofFn]; exact hs), List.getElem_ofFn]
  simp [c]

end Mech
end Exact

/-! ### Cases -/

/-- A case of C74: the run of C69 over two ranks, with two cells of rank 0 integrated by rank 1. -/
def stackSums (active : Bool) : Option (List ℚ) :=
  letI := ratMath
  let M := Example.stackModel (1 / 10000)
  (runStepsW { M with base := { M.base with active := active } } true Example.sort
    (fun (_ : Unit) => Example.stackFlow) (fun ω _ => ω) (fun _ _ _ => 1) (fun _ => active) 1 ()
    (fun _ => Example.stackScratch 3) Example.stackFields).toOption.map
    (fun tr => tr.flatMap (fun v => [0, 1, 2, 3].map (fun i => (v 0).RR 0 i + (v 0).RR 1 i)))

example : stackSums true = some [0, 0, 0, 0] ∧ stackSums false = some [0, 0, 0, 0] ∧
    (∀ r : Fin 2, ∀ i < (Example.stackFlow r).nCells,
      ∑ j ∈ Finset.range 2, (Example.stackFlow r).Y j i = 1) ∧
    (∀ r : Fin 2, ∀ i < (Example.stackFlow r).nCells, 1 / 10 ^ 15 < (Example.stackFlow r).deltaT i) := by
  refine ⟨by decide +kernel, by decide +kernel, by decide +kernel, ?_⟩
  intro r i _
  fin_cases r <;> norm_num [Example.stackFlow]

/-- A case of C72: gri30 over the reals, carbon, a solver that solves regular systems, and a Jacobian that is zero (so that the
steps are those of an extrapolated explicit Euler method). -/
example (w : Nat → ℝ) :
    gri30.elements.getD 2 "" = "C" ∧ gri30.atomCount (gri30.nsp - 1) 2 = 0 ∧ gri30.atomCount 13 2 = 1 ∧
    JacobianConserves (m := 52) gri30 w 2 (fun _ _ _ => 0) ∧
    (letI := realMath
     SolvesCombination (pyJacEnv (gri30.lib 52 (fun _ _ _ => 0)) (fun a b => (columnMajor 54 a)⁻¹.mulVec b) (fun _ => 1)
      (fun _ => 1 / 1000) 10) (elementVector gri30 w 2)) := by
  refine ⟨by decide +kernel, by decide +kernel, by decide +kernel, fun p y j _ => by simp, ?_⟩
  let := realMath
  refine solvesCombination_of_regular (lapackContract_inverse 54) (fun x z h hh => ?_) _
  have : Matrix.of ((pyJacEnv (gri30.lib 52 (fun _ _ _ => (0 : ℝ))) (fun a b => (columnMajor 54 a)⁻¹.mulVec b) (fun _ => 1)
      (fun _ => 1 / 1000) 10).jacobian x z) = 0 := by
    ext i j
    simp [pyJacEnv, pyJacJacobian, Package.lib]
  unfold Regular
  rw [this, sub_zero, Matrix.det_smul, Matrix.det_one, mul_one]
  positivity

/-- Pure nitrogen at 1000 K as a state of gri30. -/
noncomputable def nitrogen : Nat → ℝ
  | 0 => 1000
  | _ => 0

/-- A case of C73. -/
example : (∀ i, i < gri30.nsp → (0 : ℝ) ≤ complement (gri30.nsp - 1) (fun i => nitrogen (i + 1)) i) ∧
    (∀ i, i < gri30.nsp → gri30.names.getD i "" ≠ "N2" → gri30.names.getD i "" ≠ "AR" →
      complement (gri30.nsp - 1) (fun i => nitrogen (i + 1)) i = 0) ∧
    complement (gri30.nsp - 1) (fun i => nitrogen (i + 1)) 52 = 1 := by
  have h52 : gri30.nsp - 1 = 52 := by decide +kernel
  have hname : gri30.names.getD 52 "" = "N2" := by decide +kernel
  rw [h52]
  have hz : ∀ i, complement 52 (fun i => nitrogen (i + 1)) i = if i = 52 then 1 else 0 := by
    intro i
    unfold complement
    split <;> simp [nitrogen]
  refine ⟨fun i _ => ?_, fun i _ h1 _ => ?_, ?_⟩
  · rw [hz]; split <;> norm_num
  · rw [hz, if_neg (fun e => h1 (by rw [e]; exact hname))]
  · rw [hz, if_pos rfl]

end DLB
