import Verif.Props.FullStack
/-
From the integrator of the pyJac model to the reaction rate fields of all ranks, in any arithmetic in
which `x - x` is not above the constant SMALL.
-/
set_option autoImplicit false
set_option linter.unusedSectionVars false

namespace DLB

variable {S : Type} {m : Nat}
variable [Zero S] [Add S] [Sub S] [Mul S] [Div S] [Neg S] [NatCast S] [OfScientific S]
variable [LT S] [DecidableLT S] [LE S] [DecidableLE S] [BEq S] [Consts S]

theorem any_odePyJacSolve_ok {Scr : Type} {I : Integrator S (m + 2) Scr} {scr scr' : Scr} {p T dt sub : S}
    {c : List S} {r : IntegrateResult S} (h : odePyJacSolve I scr p T c dt sub = .ok (scr', r)) :
    c.length = m + 1 ∧ ∃ y y' sub', I scr dt y sub = .ok (scr', y', sub') ∧
      r = ⟨y' (pressurePos m), y' 0, List.ofFn (unpackPyJac y').2.2, dt, sub'⟩ := by
  unfold odePyJacSolve at h
  split at h
  · rename_i hlen
    cases hI : I scr dt (packPyJac p T (fun i : Fin (m + 1) => c[i.val]'(by omega))) sub with
    | error e => rw [hI] at h; simp [bind, Except.bind] at h
    | ok v =>
      obtain ⟨s, y', sub'⟩ := v
      rw [hI] at h
      simp only [bind, Except.bind, Except.ok.injEq, Prod.mk.injEq] at h
      obtain ⟨rfl, rfl⟩ := h
      exact ⟨hlen, _, _, _, hI, rfl⟩
  · simp at h

/-- If the integrator takes all of the time asked for, the loop over sub-steps calls it once. -/
theorem any_solveSingle_once (hself : ∀ x : S, ¬ Consts.SMALL < x - x) {M : ChemModel S}
    (hall : ∀ p T c left sub x, M.integrate p T c left sub = .ok x → x.deltaT = left)
    {t : S} {q : ChemistryProblem S} {s : ChemistrySolution S} (hdt : Consts.SMALL < q.deltaT)
    (h : solveSingle M t q = .ok s) :
    ∃ r, M.integrate q.pi q.Ti q.c q.deltaT q.deltaTChem = .ok r ∧ r.c.length = q.c.length ∧
      s = { rr := List.zipWith (fun x x0 => (x - x0) * q.rhoi / q.deltaT) r.c q.c
            deltaTChem := foamMin r.subDeltaT M.deltaTChemMax
            cpuTime := t
            cellid := q.cellid
            rhoi := q.rhoi } := by
  unfold solveSingle subStepLoop at h
  rw [if_pos hdt] at h
  cases hb : M.fuel with
  | zero => rw [hb] at h; simp [bind, Except.bind] at h
  | succ f =>
    rw [hb] at h
    cases hi : M.integrate q.pi q.Ti q.c q.deltaT q.deltaTChem with
    | error e => simp [hi, bind, Except.bind] at h
    | ok r =>
      have hstop : subStepLoop M.integrate f r.p r.T r.c r.subDeltaT (q.deltaT - r.deltaT) =
          .ok (r.c, r.subDeltaT) := by
        rw [hall _ _ _ _ _ _ hi]
        cases f <;> (unfold subStepLoop; rw [if_neg (hself _)])
      simp only [hi, bind, Except.bind, hstop] at h
      split at h
      · rename_i hlen
        cases h
        exact ⟨r, rfl, hlen, rfl⟩
      · cases h

section
variable [MathOps S]

/-- `solveSingle` with the integrator of the pyJac model. -/
theorem any_solveSingle_pyJac (hself : ∀ x : S, ¬ Consts.SMALL < x - x) {base : ChemModel S}
    {L : PyJacLib S m} {linearSolve : (Nat → S) → Vec S (m + 2) → Vec S (m + 2)}
    {absTol relTol : Vec S (m + 2)} {fuel maxSteps : Nat} {w : Scratch S (m + 1)} {t : S}
    {q : ChemistryProblem S} {s : ChemistrySolution S} (hdt : Consts.SMALL < q.deltaT)
    (h : solveSingle ((pyJacModel base L linearSolve absTol relTol fuel maxSteps).forgetful w) t q
      = .ok s) :
    ∃ w' r, odePyJacSolve (seulexIntegrator (pyJacEnv L linearSolve absTol relTol fuel) maxSteps) w
        q.pi q.Ti q.c q.deltaT q.deltaTChem = .ok (w', r) ∧ r.c.length = q.c.length ∧
      s.rr = List.zipWith (fun x x0 => (x - x0) * q.rhoi / q.deltaT) r.c q.c := by
  obtain ⟨r, h1, h2, rfl⟩ := any_solveSingle_once hself (by
    intro p T c left sub x hx
    simp only [StatefulModel.forgetful, pyJacModel] at hx
    cases ho : odePyJacSolve (seulexIntegrator (pyJacEnv L linearSolve absTol relTol fuel) maxSteps)
        w p T c left sub with
    | error e => simp [ho, Except.map] at hx
    | ok v =>
      obtain ⟨w', r⟩ := v
      simp only [ho, Except.map, Except.ok.injEq] at hx
      subst hx
      obtain ⟨-, _, _, _, -, rfl⟩ := any_odePyJacSolve_ok ho
      rfl) hdt h
  simp only [StatefulModel.forgetful, pyJacModel] at h1
  cases ho : odePyJacSolve (seulexIntegrator (pyJacEnv L linearSolve absTol relTol fuel) maxSteps)
      w q.pi q.Ti q.c q.deltaT q.deltaTChem with
  | error e => simp [ho, Except.map] at h1
  | ok v =>
    obtain ⟨w', r'⟩ := v
    simp only [ho, Except.map, Except.ok.injEq] at h1
    subst h1
    exact ⟨w', r', rfl, h2, rfl⟩

/-- The rates in every cell of every rank after a step: the change of the composition by one call of
the integrator for the cell, or for the reference cell if it was mapped. -/
theorem any_world_rates (hself : ∀ x : S, ¬ Consts.SMALL < x - x) {n : Nat} (hn : 0 < n)
    {base : ChemModel S} (hsp : base.nSpecie = m + 1)
    {L : PyJacLib S m} {linearSolve : (Nat → S) → Vec S (m + 2) → Vec S (m + 2)}
    {absTol relTol : Vec S (m + 2)} (hrel : jacRedoOf relTol < ((2 : Nat) : S) * jacRedoOf relTol)
    {fuel maxSteps : Nat} (hchem : base.chemistry = true) {parRun : Bool}
    (hpar : parRun = true ∨ n = 1) {sort : List (ChemistryLoad S) → List (ChemistryLoad S)}
    (hsort : ∀ l, (sort l).Perm l) {clk : Fin n → Nat → S} {flow : Fin n → Flow S}
    (hdt : ∀ r i, i < (flow r).nCells → Consts.SMALL < (flow r).deltaT i)
    {w w' : Fin n → Scratch S (m + 1)} {G : Fin n → RankFields S} {res : Fin n → RankFields S × S}
    (h : solveWorldW (pyJacModel base L linearSolve absTol relTol fuel maxSteps) parRun sort clk flow w
      G = .ok (w', res)) (r : Fin n) (i : Nat) (hi : i < (flow r).nCells) :
    ∃ i₀, i₀ < (flow r).nCells ∧
      (i₀ = i ∧ ¬ Mapped base (flow r) i ∨ Mapped base (flow r) i ∧ IsReference base (flow r) i₀) ∧
      ∃ scr scr' q, odePyJacSolve (seulexIntegrator (pyJacEnv L linearSolve absTol relTol fuel)
          maxSteps) scr ((flow r).p i₀) ((flow r).T i₀) (composition base (flow r) i₀)
          ((flow r).deltaT i₀) ((G r).deltaTChem i₀) = .ok (scr', q) ∧
        ∀ j, j < m + 1 → (res r).1.RR j i
          = (q.c.getD j 0 - (flow r).Y j i₀) * (flow r).rho i₀ / (flow r).deltaT i₀ := by
  have hw := C69_solver_memory_has_no_effect base L linearSolve absTol relTol hrel fuel maxSteps parRun
    sort clk flow w (w r) G
  rw [h] at hw
  obtain ⟨i₀, hi₀, t, s, hs, hrr⟩ : ∃ i₀, (i₀ = i ∧ ¬ Mapped base (flow r) i ∨
      Mapped base (flow r) i ∧ IsReference base (flow r) i₀) ∧
      ∃ t s, solveSingle ((pyJacModel base L linearSolve absTol relTol fuel maxSteps).forgetful (w r)) t
        (cellProblem base (flow r) (G r) i₀) = .ok s ∧
        ∀ j, j < base.nSpecie → s.rr[j]? = some ((res r).1.RR j i) := by
    rcases C27_every_cell_carries_rate_of_this_step hn
      ((pyJacModel base L linearSolve absTol relTol fuel maxSteps).forgetful (w r)) hchem parRun hpar sort
      hsort clk flow G res hw.symm r i hi with ⟨a, t, s, b, c⟩ | ⟨a, r0, t, s, b, c, d⟩
    · exact ⟨i, Or.inl ⟨rfl, a⟩, t, s, b, c.1⟩
    · exact ⟨r0, Or.inr ⟨a, b⟩, t, s, c, d.1⟩
  have hlt : i₀ < (flow r).nCells := by
    rcases hi₀ with ⟨rfl, -⟩ | ⟨-, h'⟩
    · exact hi
    · exact h'.1
  obtain ⟨scr', q, ho, hlen, hq⟩ := any_solveSingle_pyJac hself (hdt r i₀ hlt) hs
  refine ⟨i₀, hlt, hi₀, w r, scr', q, ho, fun j hj => ?_⟩
  have h1 := hrr j (by omega)
  have hcl : (cellProblem base (flow r) (G r) i₀).c.length = m + 1 := by
    simp [cellProblem, hsp]
  have hl1 : j < q.c.length := by omega
  have hl2 : j < (cellProblem base (flow r) (G r) i₀).c.length := by omega
  rw [hq, List.getElem?_zipWith, List.getElem?_eq_getElem hl1, List.getElem?_eq_getElem hl2] at h1
  simp only [Option.some.injEq] at h1
  rw [← h1, List.getD_eq_getElem?_getD, List.getElem?_eq_getElem hl1, Option.getD_some]
  simp [cellProblem]

end
end DLB
