import Verif.Model.CaseDict
import Verif.Model.ShippedLib
import Verif.Props.OdeSelection
import Verif.Props.ConservedScalar
/-
C140: a case is what its dictionary says, and the settings of the load balancer change none of its results.
-/
set_option autoImplicit false
set_option linter.unusedSectionVars false

namespace DLB

variable {K : Type} [Field K] [LinearOrder K] [IsStrictOrderedRing K] [FloorRing K] [MathOps K] {m : Nat}

/-- The value of an optional switch with the default `d`. -/
def SwitchOf (entry : Option Bool) (d x : Bool) : Prop := entry = some x ∨ entry = none ∧ x = d

/-- Two dictionaries say the same but for the settings of the load balancer, and both have such settings. -/
structure SameButBalancing (P P' : ChemistryProperties K) : Prop where
  chemistry : P.chemistry = P'.chemistry
  initial : P.initialChemicalTimeStep = P'.initialChemicalTimeStep
  max : P.maxChemicalTimeStep = P'.maxChemicalTimeStep
  refmapping : P.refmapping = P'.refmapping
  odeCoeffs : P.odeCoeffs = P'.odeCoeffs
  balancing : P.loadbalancing.isSome = true
  balancing' : P'.loadbalancing.isSome = true

/-! ### Lemmas -/

theorem switchOf_getD (entry : Option Bool) (d : Bool) : SwitchOf entry d (entry.getD d) := by
  cases entry
  · exact Or.inr ⟨rfl, rfl⟩
  · exact Or.inl rfl

theorem switchOf_unique {entry : Option Bool} {d x : Bool} (h : SwitchOf entry d x) : x = entry.getD d := by
  rcases h with h | ⟨h, rfl⟩ <;> simp [h]

/-- In `runStepsW` the switch of the balancer is given for each step; that of the model does not matter. -/
theorem runStepsW_active {Scr Ω : Type} {n : Nat} {M : StatefulModel K Scr} (a : Bool) (parRun : Bool)
    (sort : List (ChemistryLoad K) → List (ChemistryLoad K)) {flowOf : Ω → Fin n → Flow K} {advance : Ω → (Fin n → Visible K) → Ω}
    {clk : Nat → Fin n → Nat → K} {act : Nat → Bool} {k : Nat} {ω : Ω} {w : Fin n → Scr} {F : Fin n → RankFields K} :
    runStepsW { M with base := { M.base with active := a } } parRun sort flowOf advance clk act k ω w F
      = runStepsW M parRun sort flowOf advance clk act k ω w F := by
  induction k generalizing ω w F with
  | zero => rfl
  | succ k ih =>
    simp only [runStepsW]
    refine congrArg _ (funext fun x => ?_)
    rw [ih]

/-! ### Properties -/

/-- **C140, settings.** The model of a case is constructed exactly if the dictionary has the sub-dictionaries `loadbalancing`, `refmapping` and
`odeCoeffs`, the mapper and the integrator can be constructed from theirs (C35, C139), and the library has as many species as the case.  The
switches are then those of the dictionary, with load balancing on and the log off if it says nothing. -/
theorem C140_settings_are_those_of_the_dictionary (L : PyJacLib K m) (table : List String) (P : ChemistryProperties K) (c : CaseSettings K m) :
    caseConstruct L table P = .ok c ↔
      ∃ b r, P.loadbalancing = some b ∧ P.refmapping = some r ∧ SwitchOf b.active true c.active ∧ SwitchOf b.log false c.log ∧
        refMapperConstruct r = .ok c.mapper ∧ odePyJacConstruct table (m + 2) P.odeCoeffs = .ok c.integrator ∧ m + 1 = L.nsp ∧
        c.formation = (if P.chemistry then L.evalH (29815 / 100) else fun _ => 0) ∧ c.chemistry = P.chemistry ∧
        c.initialDeltaT = P.initialChemicalTimeStep ∧ ValueOf P.maxChemicalTimeStep (10 ^ 15) c.maxDeltaT := by
  have hT : (298.15 : K) = 29815 / 100 := by norm_num
  unfold caseConstruct balancerConstruct mapperConstruct pyJacConstruct
  cases hb : P.loadbalancing with
  | none => simp [bind, Except.bind]
  | some b =>
    cases hr : P.refmapping with
    | none => simp [bind, Except.bind]
    | some r =>
      cases hm : refMapperConstruct r with
      | error e => simp [bind, Except.bind, hm]
      | ok mp =>
        by_cases hn : m + 1 = L.nsp
        · cases ho : odePyJacConstruct table (m + 2) P.odeCoeffs with
          | error e => simp [bind, Except.bind, hm, hn]
          | ok o =>
            simp only [bind, Except.bind, hm, if_pos hn, Except.ok.injEq, hT]
            constructor
            · rintro rfl
              exact ⟨b, r, rfl, rfl, switchOf_getD _ _, switchOf_getD _ _, hm, rfl, hn, rfl, rfl, rfl, valueOf_getD _ _⟩
            · rintro ⟨b', r', hb', hr', h1, h2, h3, h4, -, h5, h6, h7, h8⟩
              cases hb'
              cases hr'
              rw [hm] at h3
              cases h3
              cases h4
              obtain ⟨c1, c2, c3, c4, c5, c6, c7, c8⟩ := c
              simp only at h1 h2 h5 h6 h7 h8
              subst h5 h6 h7
              rw [switchOf_unique h1, switchOf_unique h2, valueOf_unique h8]
              rfl
        · simp [bind, Except.bind, hm, hn]

/-- **C140, missing parts.** Without the sub-dictionary `loadbalancing` the run stops with an error, even if the user does not want load
balancing; and without `refmapping`, even if they do not want mapping. -/
theorem C140_missing_parts_stop_the_run (L : PyJacLib K m) (table : List String) (P : ChemistryProperties K)
    (h : P.loadbalancing = none ∨ P.refmapping = none) : caseConstruct L table P = .error .fatal := by
  unfold caseConstruct balancerConstruct mapperConstruct
  cases hb : P.loadbalancing with
  | none => rfl
  | some b =>
    rcases h with h | h
    · rw [h] at hb; cases hb
    · rw [h]; rfl

/-- **C140, results.** Of two dictionaries that say the same but for the settings of the load balancer, either both stop the run with the same
error, or both give models that, if they name `seulex_LAPACK` with a relative tolerance that is positive or left out, show the same results
in every one of any number of time steps from the start, or both fail: whatever the clocks, the order of equal loads and what is in the
work arrays. -/
theorem C140_balancing_settings_change_no_result {Ω : Type} {n : Nat} (hn : 0 < n) (ht : Truncates K) (L : PyJacLib K m)
    (linearSolve : (Nat → K) → Vec K (m + 2) → Vec K (m + 2)) (fuel : Nat) (foam : List String) (P P' : ChemistryProperties K)
    (hPP : SameButBalancing P P') (dict : OdeCoeffs K) (hdict : P.odeCoeffs = some dict) (hname : dict.solver = some "seulex_LAPACK")
    (hrel : ∀ x, dict.relTol = some x → 0 < x) (parRun : Bool) (hpar : parRun = true ∨ n = 1)
    (sort sort' : List (ChemistryLoad K) → List (ChemistryLoad K)) (hsort : ∀ l, (sort l).Perm l) (hsort' : ∀ l, (sort' l).Perm l)
    (flowOf : Ω → Fin n → Flow K) (advance : Ω → (Fin n → Visible K) → Ω) (clk clk' : Nat → Fin n → Nat → K) (k : Nat) (ω : Ω)
    (w w' : Fin n → Scratch K (m + 1)) :
    (∃ e, caseConstruct L (odeSolverTable foam) P = .error e ∧ caseConstruct L (odeSolverTable foam) P' = .error e) ∨
    ∃ c c' M M', caseConstruct L (odeSolverTable foam) P = .ok c ∧ caseConstruct L (odeSolverTable foam) P' = .ok c' ∧
      c.model L linearSolve fuel = some M ∧ c'.model L linearSolve fuel = some M' ∧
      ∀ trace,
        runStepsW M parRun sort flowOf advance clk (fun _ => c.active) k ω w (fun _ => c.startFields) = .ok trace ↔
        runStepsW M' parRun sort' flowOf advance clk' (fun _ => c'.active) k ω w' (fun _ => c'.startFields) = .ok trace := by
  obtain ⟨ch, ini, mx, lb, rm, oc⟩ := P
  obtain ⟨ch', ini', mx', lb', rm', oc'⟩ := P'
  obtain ⟨h1, h2, h3, h4, h5, h6, h7⟩ := hPP
  simp only at h1 h2 h3 h4 h5 h6 h7 hdict
  subst h1 h2 h3 h4 h5 hdict
  obtain ⟨b, rfl⟩ := Option.isSome_iff_exists.1 h6
  obtain ⟨b', rfl⟩ := Option.isSome_iff_exists.1 h7
  unfold caseConstruct balancerConstruct
  simp only [bind, Except.bind]
  cases hm : mapperConstruct rm with
  | error e => exact Or.inl ⟨e, rfl, rfl⟩
  | ok mp =>
    cases hp : pyJacConstruct L ch with
    | error e => exact Or.inl ⟨e, rfl, rfl⟩
    | ok h =>
      cases ho : odePyJacConstruct (odeSolverTable foam) (m + 2) (some dict) with
      | error e => exact Or.inl ⟨e, rfl, rfl⟩
      | ok o =>
        obtain ⟨d, name, hd, hs, -, hty, -, hr, -⟩ := (C139_settings_are_those_of_the_dictionary ht _ _ _ o).1 ho
        cases hd
        rw [hname] at hs
        cases hs
        have hpos : ∀ i, 0 < o.relTol i := by
          intro i
          rcases hr i with h | ⟨-, h⟩
          · exact hrel _ h
          · rw [h]; positivity
        refine Or.inr ⟨_, _, _, _, rfl, rfl, if_pos hty, if_pos hty, fun trace => ?_⟩
        have key := C69_positive_tolerances hn { chemistry := ch, nSpecie := m + 1, deltaTChemMax := mx.getD Consts.great, fuel := fuel
                                                 mapper := mp, active := b.active.getD true, integrate := fun _ _ _ _ _ => .error .fatal }
          L linearSolve o.absTol o.relTol hpos fuel o.maxSteps.toNat parRun hpar sort sort' hsort hsort' flowOf advance clk clk'
          (fun _ => b.active.getD true) (fun _ => b'.active.getD true) trace k ω w w' (fun _ => ⟨fun _ _ => 0, fun _ => ini, fun _ => 0, fun _ => 0⟩)
          (fun _ => ⟨fun _ _ => 0, fun _ => ini, fun _ => 0, fun _ => 0⟩) (fun _ => ⟨rfl, rfl, rfl⟩)
        rw [← runStepsW_active (b'.active.getD true) parRun sort'] at key
        exact key

/-- **C140, the tutorial.** The dictionary of the pyJac tutorial, with the library of its mechanism, is accepted: load balancing, log and mapping
are on, a cell is a candidate for mapping below a mixture fraction of 10^-4, the integrator is `seulex_LAPACK` with the tolerances 10^-8 and
10^-5 and 10000 steps, and the chemical time step starts with 1 s. -/
theorem C140_tutorial [CMath K] (ht : Truncates K) (foam : List String) (hm : m + 1 = yao.nsp) (evalJacob : K → Vec K (m + 2) → Nat → K) :
    ∃ c : CaseSettings K m, caseConstruct (yao.lib m evalJacob) (odeSolverTable foam) tutorialProperties = .ok c ∧
      c.chemistry = true ∧ c.active = true ∧ c.log = true ∧ c.mapper.active = true ∧ c.mapper.Ztolerance = 1 / 10 ^ 4 ∧
      c.initialDeltaT = 1 ∧
      c.integrator = { type := "seulex_LAPACK", absTol := fun _ => 1 / 10 ^ 8, relTol := fun _ => 1 / 10 ^ 5, maxSteps := 10000 } := by
  obtain ⟨mp, h1, h2, h3, -⟩ := C111_settings_are_accepted (K := K)
  refine ⟨⟨true, 1, 10 ^ 15, true, true, mp, _, _⟩, (C140_settings_are_those_of_the_dictionary _ _ _ _).2 ⟨_, _, rfl, rfl, Or.inl rfl, Or.inl rfl, h1,
    (C139_shipped_dictionaries ht foam (m + 2)).1, hm, rfl, rfl, rfl, Or.inr ⟨rfl, rfl⟩⟩, rfl, rfl, rfl, h2, h3, rfl, rfl⟩

/-- **C140, the validation case.** With a library of as many species as the case, its dictionary is accepted: load balancing is on, log and
mapping are off, and the integrator is `seulex_LAPACK` with the tolerances 10^-12. -/
theorem C140_validation_case (ht : Truncates K) (foam : List String) (L : PyJacLib K m) (hm : m + 1 = L.nsp) :
    ∃ c : CaseSettings K m, caseConstruct L (odeSolverTable foam) validationProperties = .ok c ∧
      c.chemistry = true ∧ c.active = true ∧ c.log = false ∧ c.mapper.active = false ∧
      c.integrator = { type := "seulex_LAPACK", absTol := fun _ => 1 / 10 ^ 12, relTol := fun _ => 1 / 10 ^ 12, maxSteps := 10000 } := by
  refine ⟨⟨true, 10 ^ 30, 10 ^ 15, true, false, ⟨false, Consts.Ztol, Consts.vGreat, ⟨[], 0, 0⟩⟩, _, _⟩,
    (C140_settings_are_those_of_the_dictionary _ _ _ _).2 ⟨_, _, rfl, rfl, Or.inr ⟨rfl, rfl⟩, Or.inl rfl, rfl,
    (C139_shipped_dictionaries ht foam (m + 2)).2, hm, rfl, rfl, rfl, Or.inr ⟨rfl, rfl⟩⟩, rfl, rfl, rfl, rfl, rfl⟩

/-! ### Cases -/

namespace Example

/-- A dictionary for the library of the case of C69, with the given settings of the load balancer. -/
def caseProperties (lb : LoadBalancingDict) : ChemistryProperties ℚ where
  chemistry := true
  initialChemicalTimeStep := 1 / 100
  maxChemicalTimeStep := some 1
  loadbalancing := some lb
  refmapping := some { active := none, tolerance := none, deltaT := none, mixFrac := none }
  odeCoeffs := some { solver := some "seulex_LAPACK", absTol := some 1, relTol := some (1 / 1000), maxSteps := some 10 }

end Example

/-- A case of the conditions of `C140_balancing_settings_change_no_result`; both dictionaries are accepted. -/
example : letI := Example.truncMath
    SameButBalancing (Example.caseProperties {}) (Example.caseProperties { active := some false, log := some true }) ∧
    (caseConstruct Example.stackLib (odeSolverTable []) (Example.caseProperties {})).toOption.map (fun c => (c.active, c.log, c.integrator.maxSteps))
      = some (true, false, 10) ∧
    (caseConstruct Example.stackLib (odeSolverTable []) (Example.caseProperties { active := some false, log := some true })).toOption.map
      (fun c => (c.active, c.log, c.integrator.maxSteps)) = some (false, true, 10) :=
  ⟨⟨rfl, rfl, rfl, rfl, rfl, rfl, rfl⟩, by decide +kernel, by decide +kernel⟩

/-- The library of the tutorial has as many species as its dictionary names, so that `C140_tutorial` applies. -/
example : yao.nsp = 54 ∧ yao.foamNames.length = 54 := by decide +kernel

end DLB
