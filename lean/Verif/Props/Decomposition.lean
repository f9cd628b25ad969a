import Verif.Lemmas.Decomposition
/-
C106: the result does not depend on the distribution of the cells over the ranks.
C107: a run can be stopped after any step and continued from the flow and the chemical time steps.
-/
set_option autoImplicit false
set_option linter.unusedSectionVars false

namespace DLB

section AnyArithmetic
variable {S : Type} [Zero S] [Add S] [Sub S] [Mul S] [Div S] [Neg S] [NatCast S]
variable [LT S] [DecidableLT S] [LE S] [DecidableLE S] [Consts S]
variable {N n n' : Nat}

/-! ### C106 -/

/-- C106, one step, any arithmetic.  Without mapping, a step on `n` ranks succeeds exactly if a step on `n'`
ranks does, with the same rates, chemical time steps and reference map in every cell of the mesh,
whatever the distributions of the cells, the balancer switches, the clocks, the order of equal loads and
the rest of the old fields. -/
theorem C106_decomposition_does_not_change_answer (hn : 0 < n) (hn' : 0 < n') (M : ChemModel S)
    (hchem : M.chemistry = true) (hoff : M.mapper.active = false) (parRun parRun' : Bool)
    (hpar : parRun = true ∨ n = 1) (hpar' : parRun' = true ∨ n' = 1)
    (sort sort' : List (ChemistryLoad S) → List (ChemistryLoad S)) (hsort : ∀ l, (sort l).Perm l)
    (hsort' : ∀ l, (sort' l).Perm l) (D : Decomposition N n) (D' : Decomposition N n')
    (b b' : Bool) (clk : Fin n → Nat → S) (clk' : Fin n' → Nat → S) (g : Flow S)
    (F : Fin n → RankFields S) (F' : Fin n' → RankFields S)
    (hF : ∀ c, c < N → (F (D.rankOf c)).deltaTChem (D.localOf c) =
      (F' (D'.rankOf c)).deltaTChem (D'.localOf c)) (v : Gathered S) :
    (∃ res, solveWorld { M with active := b } parRun sort clk (D.flow g) F = .ok res ∧
      D.gather M.nSpecie (fun r => (res r).1) = v) ↔
    (∃ res, solveWorld { M with active := b' } parRun' sort' clk' (D'.flow g) F' = .ok res ∧
      D'.gather M.nSpecie (fun r => (res r).1) = v) := by
  constructor
  · rintro ⟨res, h, rfl⟩
    obtain ⟨res', h', hg⟩ := step_off hn hn' hchem hoff hpar hpar' hsort hsort' D D' b b' clk clk' g hF h
    exact ⟨res', h', hg.symm⟩
  · rintro ⟨res, h, rfl⟩
    obtain ⟨res', h', hg⟩ := step_off hn' hn hchem hoff hpar' hpar hsort' hsort D' D b' b clk' clk g
      (SameSteps.symm hF) h
    exact ⟨res', h', hg.symm⟩

/-- C106, runs, any arithmetic.  Without mapping, runs of any length on different numbers of ranks, with
different distributions of the cells, show the same fields of the mesh after every step. -/
theorem C106_runs_agree {Ω : Type} (hn : 0 < n) (hn' : 0 < n') (M : ChemModel S)
    (hchem : M.chemistry = true) (hoff : M.mapper.active = false) (parRun parRun' : Bool)
    (hpar : parRun = true ∨ n = 1) (hpar' : parRun' = true ∨ n' = 1)
    (sort sort' : List (ChemistryLoad S) → List (ChemistryLoad S)) (hsort : ∀ l, (sort l).Perm l)
    (hsort' : ∀ l, (sort' l).Perm l) (D : Decomposition N n) (D' : Decomposition N n')
    (flowOf : Ω → Flow S) (advance : Ω → Gathered S → Ω) (clk : Nat → Fin n → Nat → S)
    (clk' : Nat → Fin n' → Nat → S) (active active' : Nat → Bool) (k : Nat) (ω : Ω)
    (F : Fin n → RankFields S) (F' : Fin n' → RankFields S)
    (hF : ∀ c, c < N → (F (D.rankOf c)).deltaTChem (D.localOf c) =
      (F' (D'.rankOf c)).deltaTChem (D'.localOf c)) (trace : List (Gathered S)) :
    runOn M parRun sort D flowOf advance clk active k ω F = .ok trace ↔
      runOn M parRun' sort' D' flowOf advance clk' active' k ω F' = .ok trace :=
  ⟨runOn_agree (fun b b' clk clk' g _ _ hF _ h => step_off hn hn' hchem hoff hpar hpar' hsort hsort' D D'
      b b' clk clk' g hF h) flowOf advance clk clk' active active' k ω F F' trace hF,
   runOn_agree (fun b b' clk clk' g _ _ hF _ h => step_off hn' hn hchem hoff hpar' hpar hsort' hsort D' D
      b b' clk clk' g hF h) flowOf advance clk' clk active' active k ω F' F trace (SameSteps.symm hF)⟩

/-! ### C107 -/

/-- C107, any arithmetic.  For every step after which a run is stopped: the run of `k₁ + k₂` steps is the
run of `k₁` steps followed by a run of `k₂` steps of new processes on the same distribution of the cells,
which get the flow and the chemical time steps reached, but have other reaction rates, CPU times and
reference maps, other clocks, balancer switches and order of equal loads.  Mapping may be on or off. -/
theorem C107_restart {Ω : Type} (hn : 0 < n) (M : ChemModel S) (hchem : M.chemistry = true)
    (parRun : Bool) (hpar : parRun = true ∨ n = 1)
    (sort sort' : List (ChemistryLoad S) → List (ChemistryLoad S)) (hsort : ∀ l, (sort l).Perm l)
    (hsort' : ∀ l, (sort' l).Perm l) (D : Decomposition N n)
    (flowOf : Ω → Flow S) (advance : Ω → Gathered S → Ω) (clk clk₁ clk₂ : Nat → Fin n → Nat → S)
    (active active₁ active₂ : Nat → Bool) (k₁ k₂ : Nat) (ω : Ω) (F : Fin n → RankFields S)
    (trace : List (Gathered S)) :
    runOn M parRun sort D flowOf advance clk active (k₁ + k₂) ω F = .ok trace ↔
    ∃ t₁ t₂, trace = t₁ ++ t₂ ∧ runOn M parRun sort D flowOf advance clk₁ active₁ k₁ ω F = .ok t₁ ∧
      ∀ F' : Fin n → RankFields S,
        (∀ c, c < N → (F' (D.rankOf c)).deltaTChem (D.localOf c) = lastDeltaT D F t₁ c) →
        runOn M parRun sort' D flowOf advance clk₂ active₂ k₂ (t₁.foldl advance ω) F' = .ok t₂ :=
  runOn_restart flowOf advance clk clk₁ clk₂ active active₁ active₂ k₁ k₂
    (fun ω F F' clk clk' active active' k trace h => runOn_agree
      (fun b b' clk clk' g _ _ hF _ h => step_same hn hchem hpar hpar hsort hsort D b b' clk clk' g hF h)
      flowOf advance clk clk' active active' k ω F F' trace h)
    (fun ω F F' clk clk' active active' k trace h =>
      ⟨runOn_agree (fun b b' clk clk' g _ _ hF _ h => step_same hn hchem hpar hpar hsort hsort' D b b' clk
          clk' g hF h) flowOf advance clk clk' active active' k ω F F' trace h,
       runOn_agree (fun b b' clk clk' g _ _ hF _ h => step_same hn hchem hpar hpar hsort' hsort D b b' clk
          clk' g hF h) flowOf advance clk' clk active' active k ω F' F trace h.symm⟩) ω F trace

/-- C107, any arithmetic.  Without mapping, the run can be continued on another number of ranks with
another distribution of the cells. -/
theorem C107_restart_on_other_ranks {Ω : Type} (hn : 0 < n) (hn' : 0 < n') (M : ChemModel S)
    (hchem : M.chemistry = true) (hoff : M.mapper.active = false) (parRun parRun' : Bool)
    (hpar : parRun = true ∨ n = 1) (hpar' : parRun' = true ∨ n' = 1)
    (sort sort' : List (ChemistryLoad S) → List (ChemistryLoad S)) (hsort : ∀ l, (sort l).Perm l)
    (hsort' : ∀ l, (sort' l).Perm l) (D : Decomposition N n) (D' : Decomposition N n')
    (flowOf : Ω → Flow S) (advance : Ω → Gathered S → Ω) (clk clk₁ : Nat → Fin n → Nat → S)
    (clk₂ : Nat → Fin n' → Nat → S) (active active₁ active₂ : Nat → Bool) (k₁ k₂ : Nat) (ω : Ω)
    (F : Fin n → RankFields S) (trace : List (Gathered S)) :
    runOn M parRun sort D flowOf advance clk active (k₁ + k₂) ω F = .ok trace ↔
    ∃ t₁ t₂, trace = t₁ ++ t₂ ∧ runOn M parRun sort D flowOf advance clk₁ active₁ k₁ ω F = .ok t₁ ∧
      ∀ F' : Fin n' → RankFields S,
        (∀ c, c < N → (F' (D'.rankOf c)).deltaTChem (D'.localOf c) = lastDeltaT D F t₁ c) →
        runOn M parRun' sort' D' flowOf advance clk₂ active₂ k₂ (t₁.foldl advance ω) F' = .ok t₂ :=
  runOn_restart flowOf advance clk clk₁ clk₂ active active₁ active₂ k₁ k₂
    (fun ω F F' clk clk' active active' k trace h => runOn_agree
      (fun b b' clk clk' g _ _ hF _ h => step_same hn hchem hpar hpar hsort hsort D b b' clk clk' g hF h)
      flowOf advance clk clk' active active' k ω F F' trace h)
    (fun ω F F' clk clk' active active' k trace h => C106_runs_agree hn hn' M hchem hoff parRun parRun' hpar
      hpar' sort sort' hsort hsort' D D' flowOf advance clk clk' active active' k ω F F' h trace) ω F trace

end AnyArithmetic

section PyJac
variable {S : Type} {m : Nat}
variable [Zero S] [Add S] [Sub S] [Mul S] [Div S] [Neg S] [NatCast S] [OfScientific S]
variable [LT S] [DecidableLT S] [LE S] [DecidableLE S] [BEq S] [Consts S] [MathOps S]
variable {N n n' : Nat}

/-- C106 with the repository's integrator, whose solver objects keep work arrays: neither the distribution
of the cells nor the contents of the work arrays has an effect on what is seen of a run. -/
theorem C106_runs_agree_pyJac {Ω : Type} (hn : 0 < n) (hn' : 0 < n') (base : ChemModel S)
    (L : PyJacLib S m) (linearSolve : (Nat → S) → Vec S (m + 2) → Vec S (m + 2))
    (absTol relTol : Vec S (m + 2))
    (hrel : jacRedoOf relTol < ((2 : Nat) : S) * jacRedoOf relTol) (fuel maxSteps : Nat)
    (hchem : base.chemistry = true) (hoff : base.mapper.active = false) (parRun parRun' : Bool)
    (hpar : parRun = true ∨ n = 1) (hpar' : parRun' = true ∨ n' = 1)
    (sort sort' : List (ChemistryLoad S) → List (ChemistryLoad S)) (hsort : ∀ l, (sort l).Perm l)
    (hsort' : ∀ l, (sort' l).Perm l) (D : Decomposition N n) (D' : Decomposition N n')
    (flowOf : Ω → Flow S) (advance : Ω → Gathered S → Ω) (clk : Nat → Fin n → Nat → S)
    (clk' : Nat → Fin n' → Nat → S) (active active' : Nat → Bool) (k : Nat) (ω : Ω)
    (w : Fin n → Scratch S (m + 1)) (w' : Fin n' → Scratch S (m + 1))
    (F : Fin n → RankFields S) (F' : Fin n' → RankFields S)
    (hF : ∀ c, c < N → (F (D.rankOf c)).deltaTChem (D.localOf c) =
      (F' (D'.rankOf c)).deltaTChem (D'.localOf c)) (trace : List (Gathered S)) :
    runOnW (pyJacModel base L linearSolve absTol relTol fuel maxSteps) parRun sort D flowOf advance clk
        active k ω w F = .ok trace ↔
      runOnW (pyJacModel base L linearSolve absTol relTol fuel maxSteps) parRun' sort' D' flowOf advance
        clk' active' k ω w' F' = .ok trace := by
  have hM := pyJacModel_historyFree base L linearSolve absTol relTol hrel fuel maxSteps
  rw [runOnW_eq hM (w ⟨0, hn⟩), runOnW_eq hM (w ⟨0, hn⟩)]
  exact C106_runs_agree hn hn'
    ((pyJacModel base L linearSolve absTol relTol fuel maxSteps).forgetful (w ⟨0, hn⟩)) hchem hoff parRun parRun' hpar hpar' sort sort' hsort hsort' D D' flowOf
    advance clk clk' active active' k ω F F' hF trace

/-- C107 with the repository's integrator: the new processes may also have anything in the work arrays of
their solver objects. -/
theorem C107_restart_pyJac {Ω : Type} (hn : 0 < n) (base : ChemModel S)
    (L : PyJacLib S m) (linearSolve : (Nat → S) → Vec S (m + 2) → Vec S (m + 2))
    (absTol relTol : Vec S (m + 2))
    (hrel : jacRedoOf relTol < ((2 : Nat) : S) * jacRedoOf relTol) (fuel maxSteps : Nat)
    (hchem : base.chemistry = true) (parRun : Bool) (hpar : parRun = true ∨ n = 1)
    (sort sort' : List (ChemistryLoad S) → List (ChemistryLoad S)) (hsort : ∀ l, (sort l).Perm l)
    (hsort' : ∀ l, (sort' l).Perm l) (D : Decomposition N n)
    (flowOf : Ω → Flow S) (advance : Ω → Gathered S → Ω) (clk clk₁ clk₂ : Nat → Fin n → Nat → S)
    (active active₁ active₂ : Nat → Bool) (k₁ k₂ : Nat) (ω : Ω) (w w₁ w₂ : Fin n → Scratch S (m + 1))
    (F : Fin n → RankFields S) (trace : List (Gathered S)) :
    runOnW (pyJacModel base L linearSolve absTol relTol fuel maxSteps) parRun sort D flowOf advance clk
        active (k₁ + k₂) ω w F = .ok trace ↔
    ∃ t₁ t₂, trace = t₁ ++ t₂ ∧
      runOnW (pyJacModel base L linearSolve absTol relTol fuel maxSteps) parRun sort D flowOf advance clk₁
        active₁ k₁ ω w₁ F = .ok t₁ ∧
      ∀ F' : Fin n → RankFields S,
        (∀ c, c < N → (F' (D.rankOf c)).deltaTChem (D.localOf c) = lastDeltaT D F t₁ c) →
        runOnW (pyJacModel base L linearSolve absTol relTol fuel maxSteps) parRun sort' D flowOf advance
          clk₂ active₂ k₂ (t₁.foldl advance ω) w₂ F' = .ok t₂ := by
  have hM := pyJacModel_historyFree base L linearSolve absTol relTol hrel fuel maxSteps
  simp only [runOnW_eq hM (w ⟨0, hn⟩)]
  exact C107_restart hn
    ((pyJacModel base L linearSolve absTol relTol fuel maxSteps).forgetful (w ⟨0, hn⟩)) hchem parRun hpar sort sort' hsort hsort' D flowOf advance clk clk₁ clk₂ active
    active₁ active₂ k₁ k₂ ω F trace

end PyJac

section Exact
variable {K : Type} [Field K] [LinearOrder K] [IsStrictOrderedRing K]
variable {N n n' : Nat}

/-- C106.  Without mapping, the smallest time step returned by any rank, which limits the next time step of
the flow solver, does not depend on the distribution either: every value returned on the ranks of `D` is
at least one of those returned on the ranks of `D'` (and, by exchanging the two, conversely). -/
theorem C106_smallest_returned_step (hn : 0 < n) (hn' : 0 < n') (M : ChemModel K)
    (hchem : M.chemistry = true) (hoff : M.mapper.active = false) (parRun parRun' : Bool)
    (hpar : parRun = true ∨ n = 1) (hpar' : parRun' = true ∨ n' = 1)
    (sort sort' : List (ChemistryLoad K) → List (ChemistryLoad K)) (hsort : ∀ l, (sort l).Perm l)
    (hsort' : ∀ l, (sort' l).Perm l) (D : Decomposition N n) (D' : Decomposition N n')
    (b b' : Bool) (clk : Fin n → Nat → K) (clk' : Fin n' → Nat → K) (g : Flow K)
    (F : Fin n → RankFields K) (F' : Fin n' → RankFields K)
    (hF : ∀ c, c < N → (F (D.rankOf c)).deltaTChem (D.localOf c) =
      (F' (D'.rankOf c)).deltaTChem (D'.localOf c))
    (res : Fin n → RankFields K × K) (res' : Fin n' → RankFields K × K)
    (h : solveWorld { M with active := b } parRun sort clk (D.flow g) F = .ok res)
    (h' : solveWorld { M with active := b' } parRun' sort' clk' (D'.flow g) F' = .ok res') (r : Fin n) :
    ∃ r', (res' r').2 ≤ (res r).2 := by
  obtain ⟨x, hx, hg⟩ := step_off hn hn' hchem hoff hpar hpar' hsort hsort' D D' b b' clk clk' g hF h
  obtain rfl : res' = x := Except.ok.inj (h'.symm.trans hx)
  obtain ⟨-, -, hr⟩ := C28_returned_step_is_minimum hn { M with active := b } hchem parRun hpar sort hsort
    clk (D.flow g) F res h r
  have hr' := C28_returned_step_is_minimum hn' { M with active := b' } hchem parRun' hpar' sort' hsort'
    clk' (D'.flow g) F' res' h'
  rcases hr with hr | ⟨i, hi, -, hr⟩
  · exact ⟨⟨0, hn'⟩, hr ▸ (hr' _).1⟩
  · have hc := D.global_lt r i hi
    have e := agree_of_gather hg _ hc
    rw [(D.local_global r i hi).1, (D.local_global r i hi).2] at e
    refine ⟨D'.rankOf (D.globalOf r i), ?_⟩
    rw [hr, e]
    exact (hr' _).2.1 _ (D'.local_lt _ hc) (not_mapped_of_off (M := { M with active := b' }) hoff _ _)

end Exact

/-! ### Cases -/

namespace Example

/-- All four cells on one rank. -/
def oneRank : Decomposition 4 1 where
  nCells := fun _ => 4
  rankOf := fun _ => 0
  localOf := fun c => c
  globalOf := fun _ i => i
  local_lt := fun _ h => h
  global_lt := fun _ _ h => h
  global_local := fun _ _ => rfl
  local_global := fun _ _ _ => ⟨Subsingleton.elim _ _, rfl⟩

/-- Cell 0 on rank 0, the others on rank 1. -/
def twoRanks : Decomposition 4 2 where
  nCells := fun r => if r = 0 then 1 else 3
  rankOf := fun c => if c = 0 then 0 else 1
  localOf := fun c => if c = 0 then 0 else c - 1
  globalOf := fun r i => if r = 0 then 0 else i + 1
  local_lt := fun c h => by by_cases hc : c = 0 <;> simp [hc]; omega
  global_lt := fun r i h => by by_cases hr : r = 0 <;> simp [hr] at h ⊢; omega
  global_local := fun c _ => by by_cases hc : c = 0 <;> simp [hc]; omega
  local_global := fun r i h => by
    by_cases hr : r = 0
    · subst hr; simp at h ⊢; omega
    · have : r = 1 := by omega
      subst this; simp

/-- The integrator's result depends on its time step; mapping as in `mapModel`, on or off. -/
def meshModel (mapping : Bool) : ChemModel ℚ :=
  { mapModel with
    integrate := fun p T c dt sub =>
      .ok ⟨p, T, (match c with | [] => [] | x :: xs => (x + dt * sub) :: xs), dt, (sub + dt) / 2⟩,
    mapper := { mapModel.mapper with active := mapping } }

/-- The flow in the four cells: that of rank 0 of `mapFlow`, with time steps depending on the state. -/
def meshFlow (ω : ℚ) : Flow ℚ := { mapFlow 0 with deltaT := fun i => (1 + i) / (100 + ω) }

/-- Fields with chemical time step `dt` in all cells; the rest depends on `x`. -/
def meshFields (n : Nat) (x dt : ℚ) : Fin n → RankFields ℚ := fun _ =>
  { RR := fun _ _ => x, deltaTChem := fun _ => dt, cpuTimes := fun i => x + i, refMap := fun _ => 7 }

/-- What is seen of a run: rates of species 0, time steps and map, of all cells in all steps. -/
def meshLook (x : Except Fault (List (Gathered ℚ))) : Option (List (List ℚ × List ℚ × List Nat)) :=
  x.toOption.map (fun t => t.map (fun v => ([0, 1, 2, 3].map (v.RR 0), [0, 1, 2, 3].map v.deltaTChem,
    [0, 1, 2, 3].map v.refMap)))

/-- A run of `k` steps on `D`; the state of the flow solver is the rate of cell 1 summed over time. -/
def meshRun {n : Nat} (mapping : Bool) (D : Decomposition 4 n) (k : Nat) (ω : ℚ)
    (F : Fin n → RankFields ℚ) : Except Fault (List (Gathered ℚ)) :=
  runOn (meshModel mapping) true sort D meshFlow (fun ω v => ω + v.RR 0 1)
    (fun k r i => k + r.val * i) (fun _ => true) k ω F

/-- The same, after `k₁` steps on one rank, for `k` steps on `D` from the flow reached and fields `F`. -/
def meshRestart {n : Nat} (mapping : Bool) (k₁ : Nat) (D : Decomposition 4 n) (k : Nat)
    (F : (Nat → ℚ) → Fin n → RankFields ℚ) : Except Fault (List (Gathered ℚ)) := do
  let t₁ ← meshRun mapping oneRank k₁ 0 (meshFields 1 1 (1 / 2))
  meshRun mapping D k (t₁.foldl (fun ω v => ω + v.RR 0 1) 0)
    (F (lastDeltaT oneRank (meshFields 1 1 (1 / 2)) t₁))

end Example

/-- A case of C106: two steps on one rank and on two, from fields that agree only in the chemical time
steps. -/
example : Example.meshLook (Example.meshRun false Example.oneRank 2 0 (Example.meshFields 1 1 (1 / 2)))
      = some [([1 / 2, 1, 3 / 2, 2], [51 / 200, 13 / 50, 53 / 200, 27 / 100], [2, 2, 2, 2]),
          ([51 / 200, 13 / 25, 159 / 200, 27 / 25],
            [5351 / 40400, 1413 / 10100, 5953 / 40400, 3127 / 20200], [2, 2, 2, 2])] ∧
    Example.meshLook (Example.meshRun false Example.twoRanks 2 0 (Example.meshFields 2 5 (1 / 2)))
      = some [([1 / 2, 1, 3 / 2, 2], [51 / 200, 13 / 50, 53 / 200, 27 / 100], [2, 2, 2, 2]),
          ([51 / 200, 13 / 25, 159 / 200, 27 / 25],
            [5351 / 40400, 1413 / 10100, 5953 / 40400, 3127 / 20200], [2, 2, 2, 2])] := by
  constructor <;> decide +kernel

/-- A case of C106 with the repository's integrator and different work arrays. -/
example :
    letI := ratMath
    (runOnW (Example.stackModel (1 / 10000)) true Example.sort Example.oneRank
        (fun (_ : Unit) => Example.stackFlow 0) (fun ω _ => ω) (fun _ _ _ => 1) (fun _ => true) 1 ()
        (fun _ => Example.stackScratch 7) (fun _ => Example.stackFields 0)).toOption.map
        (fun t => t.flatMap (fun v => [0, 1, 2, 3].map (v.RR 0)))
      = some [56050 / 1562501, 9350 / 130417, 56150 / 522503, 7025 / 49063] ∧
    (runOnW (Example.stackModel (1 / 10000)) true Example.sort Example.twoRanks
        (fun (_ : Unit) => Example.stackFlow 0) (fun ω _ => ω) (fun _ _ _ => 1) (fun _ => true) 1 ()
        (fun r => Example.stackScratch (- r.val)) Example.stackFields).toOption.map
        (fun t => t.flatMap (fun v => [0, 1, 2, 3].map (v.RR 0)))
      = some [56050 / 1562501, 9350 / 130417, 56150 / 522503, 7025 / 49063] := by
  constructor <;> decide +kernel

/-- **C106 fails with mapping.**  Reference cells are chosen on each rank: with mapping on, the reaction
rate of cell 2 (and the time step and reference map there) is that of cell 0 if both are on one rank, and
its own if they are on different ranks. -/
theorem C106_mapping_depends_on_decomposition :
    Example.meshLook (Example.meshRun true Example.oneRank 1 0 (Example.meshFields 1 1 (1 / 2)))
      = some [([1 / 2, 1, 1 / 2, 2], [51 / 200, 13 / 50, 51 / 200, 27 / 100], [0, 2, 1, 2])] ∧
    Example.meshLook (Example.meshRun true Example.twoRanks 1 0 (Example.meshFields 2 1 (1 / 2)))
      = some [([1 / 2, 1, 3 / 2, 2], [51 / 200, 13 / 50, 53 / 200, 27 / 100], [0, 2, 0, 2])] := by
  constructor <;> decide +kernel

/-- A case of C107: the second step of the run above after a restart on one rank, with mapping, and on two
ranks, without; compare the uninterrupted run. -/
example : Example.meshLook (Example.meshRun true Example.oneRank 2 0 (Example.meshFields 1 1 (1 / 2)))
      = some [([1 / 2, 1, 1 / 2, 2], [51 / 200, 13 / 50, 51 / 200, 27 / 100], [0, 2, 1, 2]),
          ([51 / 200, 13 / 25, 51 / 200, 27 / 25],
            [5351 / 40400, 1413 / 10100, 5351 / 40400, 3127 / 20200], [0, 2, 1, 2])] ∧
    Example.meshLook (Example.meshRestart true 1 Example.oneRank 1
        (fun dt _ => ⟨fun _ _ => 3, dt, fun _ => 0, fun _ => 0⟩))
      = some [([51 / 200, 13 / 25, 51 / 200, 27 / 25],
            [5351 / 40400, 1413 / 10100, 5351 / 40400, 3127 / 20200], [0, 2, 1, 2])] ∧
    Example.meshLook (Example.meshRestart false 1 Example.twoRanks 1
        (fun dt r => ⟨fun _ _ => 3, fun i => dt (Example.twoRanks.globalOf r i), fun _ => 0, fun _ => 0⟩))
      = some [([51 / 200, 13 / 25, 159 / 200, 27 / 25],
            [5351 / 40400, 1413 / 10100, 5953 / 40400, 3127 / 20200], [2, 2, 2, 2])] := by
  refine ⟨?_, ?_, ?_⟩ <;> decide +kernel

/-- **The chemical time steps must be carried over.**  If the new processes start with the initial time
step 1/2 instead of the steps reached, the second step has other reaction rates than in the uninterrupted
run. -/
theorem C107_time_steps_are_needed :
    Example.meshLook (Example.meshRestart true 1 Example.oneRank 1
        (fun _ => Example.meshFields 1 1 (1 / 2)))
      = some [([1 / 2, 1, 1 / 2, 2], [103 / 404, 105 / 404, 103 / 404, 109 / 404], [0, 2, 1, 2])] ∧
    Example.meshLook (Example.meshRestart true 1 Example.oneRank 1
        (fun dt _ => ⟨fun _ _ => 3, dt, fun _ => 0, fun _ => 0⟩))
      = some [([51 / 200, 13 / 25, 51 / 200, 27 / 25],
            [5351 / 40400, 1413 / 10100, 5351 / 40400, 3127 / 20200], [0, 2, 1, 2])] := by
  constructor <;> decide +kernel

end DLB
