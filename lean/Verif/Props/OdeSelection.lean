import Verif.Model.OdeSelection
import Verif.Props.FullStack
import Verif.Props.OdeSolver
import Mathlib.Algebra.Order.Floor.Ring
import Mathlib.Data.Rat.Floor
/-
C139: the integrator and its settings are those of the dictionary.
-/
set_option autoImplicit false
set_option linter.unusedSectionVars false

namespace DLB

variable {K : Type} [Field K] [LinearOrder K] [IsStrictOrderedRing K] [FloorRing K] [MathOps K]

/-- The conversion of numbers to integers cuts off the digits after the point. -/
def Truncates (K : Type) [Field K] [LinearOrder K] [IsStrictOrderedRing K] [FloorRing K] [MathOps K] : Prop :=
  ∀ x : K, MathOps.toInt x = if 0 ≤ x then ⌊x⌋ else ⌈x⌉

/-- `x` is the value of an optional entry with the default `d`. -/
def ValueOf (entry : Option K) (d x : K) : Prop := entry = some x ∨ entry = none ∧ x = d

/-- The number of steps that a dictionary allows, before digits are cut off, is in the range of integers. -/
def LimitFits (dict : OdeCoeffs K) : Prop := ∃ x, ValueOf dict.maxSteps 10000 x ∧ -2 ^ 31 - 1 < x ∧ x < 2 ^ 31

/-! ### Lemmas -/

theorem valueOf_getD (entry : Option K) (d : K) : ValueOf entry d (entry.getD d) := by
  cases entry
  · exact Or.inr ⟨rfl, rfl⟩
  · exact Or.inl rfl

theorem valueOf_unique {entry : Option K} {d x : K} (h : ValueOf entry d x) : x = entry.getD d := by
  rcases h with h | ⟨h, rfl⟩ <;> simp [h]

theorem toLabel_ok (ht : Truncates K) {x : K} (h1 : -2 ^ 31 - 1 < x) (h2 : x < 2 ^ 31) : toLabel x = .ok (if 0 ≤ x then ⌊x⌋ else ⌈x⌉) := by
  unfold toLabel
  rw [ht]
  refine if_pos ?_
  by_cases h : 0 ≤ x
  · rw [if_pos h]
    refine ⟨le_trans (by norm_num) (Int.floor_nonneg.2 h), Int.floor_lt.2 ?_⟩
    push_cast
    linarith
  · rw [if_neg h]
    have : ⌈x⌉ ≤ 0 := Int.ceil_le.2 (by push_cast; exact (not_le.1 h).le)
    refine ⟨?_, by omega⟩
    have : (-2 ^ 31 - 1 : ℤ) < ⌈x⌉ := Int.lt_ceil.2 (by push_cast; linarith)
    omega

theorem toLabel_error (ht : Truncates K) {x : K} (h : ¬ (-2 ^ 31 - 1 < x ∧ x < 2 ^ 31)) : toLabel x = .error .ub := by
  unfold toLabel
  rw [ht]
  refine if_neg fun ⟨h1, h2⟩ => h ?_
  by_cases h0 : 0 ≤ x
  · rw [if_pos h0] at h1 h2
    have h2' := Int.floor_lt.1 h2
    push_cast at h2'
    exact ⟨lt_of_lt_of_le (by norm_num) h0, by linarith⟩
  · rw [if_neg h0] at h1 h2
    have h1' : (-2 ^ 31 - 1 : ℤ) < ⌈x⌉ := by omega
    have h1'' := Int.lt_ceil.1 h1'
    push_cast at h1''
    exact ⟨by linarith, lt_trans (not_le.1 h0) (by norm_num)⟩

/-! ### Properties -/

/-- **C139, selection.** The chemistry solver is constructed exactly if the dictionary has the sub-dictionary `odeCoeffs`, this names an integrator
that exists, and its number of steps is in the range of integers.  Then the integrator is the named one, all equations have the tolerances of
the dictionary (1e-15 absolute and 1e-4 relative if there are none), and the number of steps is that of the dictionary without the digits
after the point (10000 if there is none). -/
theorem C139_settings_are_those_of_the_dictionary (ht : Truncates K) (table : List String) (N : Nat) (odeCoeffs : Option (OdeCoeffs K))
    (o : OdeSolverObject K N) :
    odePyJacConstruct table N odeCoeffs = .ok o ↔
      ∃ dict name, odeCoeffs = some dict ∧ dict.solver = some name ∧ name ∈ table ∧ o.type = name ∧
        (∀ i, ValueOf dict.absTol (1 / 10 ^ 15) (o.absTol i)) ∧ (∀ i, ValueOf dict.relTol (1 / 10 ^ 4) (o.relTol i)) ∧
        ∃ x, ValueOf dict.maxSteps 10000 x ∧ -2 ^ 31 - 1 < x ∧ x < 2 ^ 31 ∧ (0 ≤ x → o.maxSteps = ⌊x⌋) ∧ (x < 0 → o.maxSteps = ⌈x⌉) := by
  have h4 : (1e-4 : K) = 1 / 10 ^ 4 := by norm_num
  constructor
  · intro h
    unfold odePyJacConstruct at h
    cases odeCoeffs with
    | none => cases h
    | some dict =>
      simp only [odeSolverNew] at h
      cases hs : dict.solver with
      | none => rw [hs] at h; cases h
      | some name =>
        rw [hs] at h
        simp only at h
        by_cases hmem : name ∈ table
        · rw [if_pos hmem] at h
          unfold odeSolverConstruct at h
          by_cases hr : -2 ^ 31 - 1 < dict.maxSteps.getD 10000 ∧ dict.maxSteps.getD (10000 : K) < 2 ^ 31
          · push_cast at h
            rw [toLabel_ok ht hr.1 hr.2] at h
            cases h
            refine ⟨dict, name, rfl, hs, hmem, rfl, fun i => valueOf_getD _ _, fun i => ?_, _, valueOf_getD _ _, hr.1, hr.2, fun h0 => if_pos h0,
              fun h0 => if_neg (not_le.2 h0)⟩
            show ValueOf _ _ (dict.relTol.getD 1e-4)
            rw [h4]
            exact valueOf_getD _ _
          · push_cast at h
            rw [toLabel_error ht hr] at h
            cases h
        · rw [if_neg hmem] at h
          cases h
  · rintro ⟨dict, name, rfl, hs, hmem, hty, ha, hr, x, hx, h1, h2, hp, hn⟩
    simp only [odePyJacConstruct, odeSolverNew, hs, if_pos hmem, odeSolverConstruct]
    have e := valueOf_unique hx
    have e' : dict.maxSteps.getD ((10000 : Nat) : K) = x := by push_cast; exact e.symm
    rw [e', toLabel_ok ht h1 h2]
    obtain ⟨ty, at_, rt, ms⟩ := o
    show Except.ok _ = Except.ok _
    congr 2
    · exact hty.symm
    · funext i; exact (valueOf_unique (ha i)).symm
    · funext i
      show dict.relTol.getD 1e-4 = rt i
      rw [h4]
      exact (valueOf_unique (hr i)).symm
    · by_cases h0 : 0 ≤ x
      · rw [if_pos h0]; exact (hp h0).symm
      · rw [if_neg h0]; exact (hn (not_le.1 h0)).symm

/-- **C139, refusal.** Without `odeCoeffs`, without a name in it, or with the name of an integrator that does not exist, the run stops with an
error; no other integrator is taken instead. -/
theorem C139_unknown_integrators_stop_the_run (table : List String) (N : Nat) (odeCoeffs : Option (OdeCoeffs K))
    (h : ∀ dict name, odeCoeffs = some dict → dict.solver = some name → name ∉ table) :
    odePyJacConstruct table N odeCoeffs = .error .fatal := by
  cases odeCoeffs with
  | none => rfl
  | some dict =>
    simp only [odePyJacConstruct, odeSolverNew]
    cases hs : dict.solver with
    | none => rfl
    | some name => exact if_neg (h dict name rfl hs)

/-- **C139, number of steps.** An integration with the settings of a dictionary takes at most as many steps as the dictionary says; with a number
of steps below one, every integration of every system stops with an error. -/
theorem C139_number_of_steps_is_respected (ht : Truncates K) (table : List String) (N : Nat) (dict : OdeCoeffs K) (o : OdeSolverObject K N)
    (ho : odePyJacConstruct table N (some dict) = .ok o) (x : K) (hx : ValueOf dict.maxSteps 10000 x)
    {Scr : Type} (stepper : Stepper K N Scr) (hs : Advances stepper) (scr : Scr) (xStart xEnd : K) (hlt : xStart < xEnd) (y : Vec K N) (dxTry : K)
    (hdx : 0 < dxTry) :
    (∀ r, driverSolve stepper o.maxSteps.toNat scr xStart xEnd y dxTry = .ok r → 1 ≤ r.steps ∧ (r.steps : K) ≤ x) ∧
    (x < 1 → driverSolve stepper o.maxSteps.toNat scr xStart xEnd y dxTry = .error .fatal) := by
  obtain ⟨d, name, hd, -, -, -, -, -, x', hx', h1, h2, hp, hn⟩ := (C139_settings_are_those_of_the_dictionary ht table N _ o).1 ho
  cases hd
  obtain rfl : x' = x := (valueOf_unique hx').trans (valueOf_unique hx).symm
  refine ⟨fun r hr => ?_, fun hlt1 => ?_⟩
  · obtain ⟨-, hr1, hr2⟩ := C41_ends_exactly_at_the_end stepper hs _ scr xStart xEnd hlt y dxTry hdx r hr
    refine ⟨hr1, ?_⟩
    by_cases h0 : 0 ≤ x'
    · rw [hp h0] at hr2
      have : (r.steps : ℤ) ≤ ⌊x'⌋ := by
        have := Int.floor_nonneg.2 h0
        omega
      calc (r.steps : K) = ((r.steps : ℤ) : K) := by push_cast; rfl
        _ ≤ (⌊x'⌋ : K) := by exact_mod_cast this
        _ ≤ x' := Int.floor_le x'
    · rw [hn (not_le.1 h0)] at hr2
      have : ⌈x'⌉ ≤ 0 := Int.ceil_le.2 (by push_cast; exact (not_le.1 h0).le)
      omega
  · have : o.maxSteps.toNat = 0 := by
      by_cases h0 : 0 ≤ x'
      · rw [hp h0]
        have : ⌊x'⌋ < 1 := Int.floor_lt.2 (by push_cast; exact hlt1)
        omega
      · rw [hn (not_le.1 h0)]
        have : ⌈x'⌉ ≤ 0 := Int.ceil_le.2 (by push_cast; exact (not_le.1 h0).le)
        omega
    rw [this]
    rfl

/-- **C139, the case.** A case whose `odeCoeffs` names `seulex_LAPACK`, with a relative tolerance that is positive or left out, runs the
model of the other claims with positive relative tolerances: its results in every step do not depend on load balancing, the clocks, the
order of equal loads and what the solvers' work arrays contain. -/
theorem C139_dictionary_determines_the_results {Ω : Type} {n m : Nat} (hn : 0 < n) (base : ChemModel K) (L : PyJacLib K m)
    (linearSolve : (Nat → K) → Vec K (m + 2) → Vec K (m + 2)) (fuel : Nat) (foam : List String) (dict : OdeCoeffs K)
    (ht : Truncates K) (hname : dict.solver = some "seulex_LAPACK") (hrel : ∀ x, dict.relTol = some x → 0 < x) (hfits : LimitFits dict)
    (parRun : Bool) (hpar : parRun = true ∨ n = 1) (sort sort' : List (ChemistryLoad K) → List (ChemistryLoad K)) (hsort : ∀ l, (sort l).Perm l)
    (hsort' : ∀ l, (sort' l).Perm l) (flowOf : Ω → Fin n → Flow K) (advance : Ω → (Fin n → Visible K) → Ω)
    (clk clk' : Nat → Fin n → Nat → K) (active active' : Nat → Bool) (trace) (k : Nat) (ω : Ω) (w w' : Fin n → Scratch K (m + 1))
    (F F' : Fin n → RankFields K)
    (hF : ∀ r, (F r).RR = (F' r).RR ∧ (F r).deltaTChem = (F' r).deltaTChem ∧ (F r).refMap = (F' r).refMap) :
    ∃ M, caseModel base L linearSolve fuel (odeSolverTable foam) (some dict) = .ok (some M) ∧ M.base = base ∧
      (runStepsW M parRun sort flowOf advance clk active k ω w F = .ok trace ↔
        runStepsW M parRun sort' flowOf advance clk' active' k ω w' F' = .ok trace) := by
  obtain ⟨x, hx, h1, h2⟩ := hfits
  have hpos : ∀ i : Fin (m + 2), 0 < (fun _ : Fin (m + 2) => dict.relTol.getD (1 / 10 ^ 4)) i := by
    intro i
    show 0 < dict.relTol.getD (1 / 10 ^ 4)
    cases hd : dict.relTol with
    | none => simp
    | some t => exact hrel t hd
  have ho : odePyJacConstruct (odeSolverTable foam) (m + 2) (some dict) = .ok
      { type := "seulex_LAPACK", absTol := fun _ => dict.absTol.getD (1 / 10 ^ 15), relTol := fun _ => dict.relTol.getD (1 / 10 ^ 4),
        maxSteps := if 0 ≤ x then ⌊x⌋ else ⌈x⌉ } :=
    (C139_settings_are_those_of_the_dictionary ht _ _ _ _).2 ⟨dict, _, rfl, hname, List.mem_cons_self .., rfl, fun _ => valueOf_getD _ _,
      fun _ => valueOf_getD _ _, x, hx, h1, h2, fun h => if_pos h, fun h => if_neg (not_le.2 h)⟩
  refine ⟨_, by unfold caseModel; rw [ho]; rfl, rfl, ?_⟩
  exact C69_positive_tolerances hn base L linearSolve _ _ hpos fuel _ parRun hpar sort sort' hsort hsort' flowOf advance clk clk' active active'
    trace k ω w w' F F' hF

/-- **C139, the shipped cases.** The dictionaries of the pyJac tutorial and of the validation case select `seulex_LAPACK`, whatever other
integrators there are, with the tolerances they state and 10000 steps. -/
theorem C139_shipped_dictionaries (ht : Truncates K) (foam : List String) (N : Nat) :
    odePyJacConstruct (odeSolverTable foam) N (some (tutorialOdeCoeffs (S := K)))
      = .ok { type := "seulex_LAPACK", absTol := fun _ => 1 / 10 ^ 8, relTol := fun _ => 1 / 10 ^ 5, maxSteps := 10000 } ∧
    odePyJacConstruct (odeSolverTable foam) N (some (validationOdeCoeffs (S := K)))
      = .ok { type := "seulex_LAPACK", absTol := fun _ => 1 / 10 ^ 12, relTol := fun _ => 1 / 10 ^ 12, maxSteps := 10000 } := by
  have hfl : ⌊(10000 : K)⌋ = 10000 := by
    have := Int.floor_natCast (R := K) 10000
    push_cast at this
    exact this
  constructor <;>
  · refine (C139_settings_are_those_of_the_dictionary ht _ _ _ _).2 ⟨_, _, rfl, rfl, List.mem_cons_self .., rfl, fun _ => Or.inl ?_,
      fun _ => Or.inl ?_, 10000, Or.inr ⟨rfl, rfl⟩, by norm_num, by norm_num, fun _ => hfl.symm, fun h => absurd h (by norm_num)⟩ <;>
    norm_num [tutorialOdeCoeffs, validationOdeCoeffs]

/-! ### Cases -/

namespace Example

/-- Arithmetic of the rational numbers with truncation. -/
@[reducible] def truncMath : MathOps ℚ where
  sqrt q := q
  pow q _ := q
  log10 q := q
  toInt q := if 0 ≤ q then ⌊q⌋ else ⌈q⌉

/-- A dictionary with a number of steps that is not whole. -/
def coeffs : OdeCoeffs ℚ := { solver := some "seulex_LAPACK", relTol := some (1 / 1000), maxSteps := some (25 / 2) }

end Example

/-- The conversion of the example cuts off digits. -/
example : letI := Example.truncMath; Truncates ℚ := fun _ => rfl

/-- A case of the selection and of the number of steps: twelve steps for 12.5, and the default absolute tolerance. -/
example : letI := Example.truncMath
    odePyJacConstruct (odeSolverTable ["Euler", "seulex"]) 3 (some Example.coeffs)
      = .ok { type := "seulex_LAPACK", absTol := fun _ => 1 / 10 ^ 15, relTol := fun _ => 1 / 1000, maxSteps := 12 } := by
  let := Example.truncMath
  refine (C139_settings_are_those_of_the_dictionary (fun _ => rfl) _ _ _ _).2 ⟨Example.coeffs, _, rfl, rfl, List.mem_cons_self .., rfl,
    fun _ => Or.inr ⟨rfl, rfl⟩, fun _ => Or.inl rfl, 25 / 2, Or.inl rfl, by norm_num, by norm_num, fun _ => ?_, fun h => absurd h (by norm_num)⟩
  norm_num [Int.floor_eq_iff, eq_comm]

/-- A case of the refusal: a name with a spelling mistake. -/
example : letI := Example.truncMath
    odePyJacConstruct (odeSolverTable ["Euler", "seulex"]) 3 (some { Example.coeffs with solver := some "seulex_Lapack" }) = .error .fatal := by
  let := Example.truncMath
  refine C139_unknown_integrators_stop_the_run _ _ _ fun d n hd hn => ?_
  cases hd
  cases hn
  decide

/-- A case of the number of steps: with `maxSteps 2.5` the three steps of `Example.shortSteps` are too many, with `maxSteps 3.5` they are not;
with `maxSteps 0.5` no integration returns. -/
example : letI := Example.truncMath
    (∀ o, odePyJacConstruct (odeSolverTable []) 1 (some { Example.coeffs with maxSteps := some (5 / 2) }) = .ok o →
      ∀ r, driverSolve Example.shortSteps o.maxSteps.toNat () 0 1 (fun _ => 5) (3 / 10) = .ok r → (r.steps : ℚ) ≤ 5 / 2) ∧
    (∀ o, odePyJacConstruct (odeSolverTable []) 1 (some { Example.coeffs with maxSteps := some (1 / 2) }) = .ok o →
      driverSolve Example.shortSteps o.maxSteps.toNat () 0 1 (fun _ => 5) (3 / 10) = .error .fatal) ∧
    (driverSolve Example.shortSteps 2 () 0 1 (fun _ => 5) (3 / 10)).toOption.isNone ∧
    (driverSolve Example.shortSteps 3 () 0 1 (fun _ => 5) (3 / 10)).toOption.map (·.steps) = some 3 := by
  let := Example.truncMath
  refine ⟨fun o ho r hr => ?_, fun o ho => ?_, by decide +kernel, by decide +kernel⟩
  · exact ((C139_number_of_steps_is_respected (fun _ => rfl) _ _ _ o ho _ (Or.inl rfl) Example.shortSteps Example.shortSteps_advances () 0 1
      (by norm_num) _ _ (by norm_num)).1 r hr).2
  · exact (C139_number_of_steps_is_respected (fun _ => rfl) _ _ _ o ho _ (Or.inl rfl) Example.shortSteps Example.shortSteps_advances () 0 1
      (by norm_num) _ _ (by norm_num)).2 (by norm_num)

/-- A case of `C139_dictionary_determines_the_results`: its conditions hold for the dictionary of the example. -/
example : (∀ x, Example.coeffs.relTol = some x → 0 < x) ∧ LimitFits Example.coeffs :=
  ⟨fun x h => by cases h; norm_num, 25 / 2, Or.inl rfl, by norm_num, by norm_num⟩

end DLB
