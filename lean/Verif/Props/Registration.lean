import Verif.Model.Registration
import Mathlib.Data.List.Nodup
import Mathlib.Tactic.Common
/-
C134: the chemistry models that can be chosen by name.
-/
set_option autoImplicit false
set_option linter.unusedSectionVars false

namespace DLB

/-- A table of models offers the combination that a user asks for: solver, method and thermodynamics. -/
def Offers (table : List ModelEntry) (solver method thermo : String) : Prop := ∃ e ∈ table, e.solver = solver ∧ modelName e.model = method ∧ e.thermo = thermo

/-! ### Lemmas -/

theorem mem_makeDLBSolvers {e : ModelEntry} {solver thermo : String} :
    e ∈ makeDLBSolvers solver thermo ↔ e.solver = solver ∧ (e.model = "loadBalancedChemistryModel" ∨ e.model = "loadBalanced_pyJacChemistryModel") ∧ e.thermo = thermo := by
  obtain ⟨s, m, t⟩ := e
  simp only [makeDLBSolvers, List.mem_cons, List.not_mem_nil, or_false, ModelEntry.mk.injEq]
  constructor
  · rintro (⟨rfl, rfl, rfl⟩ | ⟨rfl, rfl, rfl⟩)
    · exact ⟨rfl, Or.inl rfl, rfl⟩
    · exact ⟨rfl, Or.inr rfl, rfl⟩
  · rintro ⟨rfl, rfl | rfl, rfl⟩
    · exact Or.inl ⟨rfl, rfl, rfl⟩
    · exact Or.inr ⟨rfl, rfl, rfl⟩

theorem mem_solverFile {e : ModelEntry} {gases liquids : List String} {solver : String} : e ∈ solverFile gases liquids solver ↔
    e.solver = solver ∧ (e.model = "loadBalancedChemistryModel" ∨ e.model = "loadBalanced_pyJacChemistryModel") ∧ e.thermo ∈ gases ++ liquids := by
  simp only [solverFile, List.mem_append, List.mem_flatMap, mem_makeDLBSolvers]
  constructor
  · rintro (⟨t, ht, h1, h2, rfl⟩ | ⟨t, ht, h1, h2, rfl⟩)
    · exact ⟨h1, h2, Or.inl ht⟩
    · exact ⟨h1, h2, Or.inr ht⟩
  · rintro ⟨h1, h2, ht | ht⟩
    · exact Or.inl ⟨_, ht, h1, h2, rfl⟩
    · exact Or.inr ⟨_, ht, h1, h2, rfl⟩

theorem mem_libraryEntries {e : ModelEntry} {gases liquids : List String} : e ∈ libraryEntries gases liquids ↔
    (e.solver = "noChemistrySolver" ∨ e.solver = "ode" ∨ e.solver = "ode_pyJac") ∧
      (e.model = "loadBalancedChemistryModel" ∨ e.model = "loadBalanced_pyJacChemistryModel") ∧ e.thermo ∈ gases ++ liquids := by
  simp only [libraryEntries, List.mem_append, mem_solverFile]
  tauto

theorem nodup_solverFile {gases liquids : List String} (h : (gases ++ liquids).Nodup) (solver : String) : (solverFile gases liquids solver).Nodup := by
  rw [solverFile, ← List.flatMap_append, List.nodup_flatMap]
  refine ⟨fun t _ => by simp [makeDLBSolvers], ?_⟩
  refine h.imp ?_
  intro a b hab e ha hb
  exact hab ((mem_makeDLBSolvers.1 ha).2.2.symm.trans (mem_makeDLBSolvers.1 hb).2.2)

theorem append_right_inj' {a b s : String} (h : a ++ s = b ++ s) : a = b := by
  have := congrArg String.toList h
  rw [String.toList_append, String.toList_append] at this
  exact String.toList_injective (List.append_cancel_right this)

theorem cppValue_eq (name : String) : cppValue name = if name = "loadBalancedChemistryModelCppTest" then 1
    else if name = "loadBalanced_pyJacChemistryModelCppTest" then 2 else 0 := by
  unfold cppValue templateMacros
  simp only [List.lookup_cons, List.lookup_nil]
  by_cases h0 : name = "chemistryModelCppTest"
  · subst h0; decide
  · by_cases h1 : name = "loadBalancedChemistryModelCppTest"
    · subst h1; decide
    · by_cases h2 : name = "loadBalanced_pyJacChemistryModelCppTest"
      · subst h2; decide
      · simp [h1, h2, beq_eq_false_iff_ne.2 h0, beq_eq_false_iff_ne.2 h1, beq_eq_false_iff_ne.2 h2]

theorem suffix_ne {method cls name : String} (s : String) (h : method ≠ cls) (e : name = cls ++ s) : method ++ s ≠ name := fun h' =>
  h (append_right_inj' (h'.trans e))

/-- The models registered, with the method spelt out. -/
theorem templateModels_eq (method : String) : templateModels method =
    if method = "loadBalanced_pyJac" then ["chemistryModel", "loadBalancedChemistryModel", "loadBalanced_pyJacChemistryModel"]
    else if method = "loadBalanced" then ["chemistryModel", "loadBalancedChemistryModel"]
    else if method = "loadBalancedChemistryModel" ∨ method = "loadBalanced_pyJacChemistryModel" then [method] else ["chemistryModel"] := by
  by_cases h2 : method = "loadBalanced_pyJac"
  · subst h2; decide
  by_cases h1 : method = "loadBalanced"
  · subst h1; decide
  by_cases h3 : method = "loadBalancedChemistryModel"
  · subst h3; decide
  by_cases h4 : method = "loadBalanced_pyJacChemistryModel"
  · subst h4; decide
  have e1 : cppValue (method ++ "ChemistryModelCppTest") = 0 := by
    rw [cppValue_eq, if_neg (suffix_ne _ h1 (by decide)), if_neg (suffix_ne _ h2 (by decide))]
  have e2 : cppValue (method ++ "CppTest") = 0 := by
    rw [cppValue_eq, if_neg (suffix_ne _ h3 (by decide)), if_neg (suffix_ne _ h4 (by decide))]
  have a0 : cppValue "chemistryModelCppTest" = 0 := by decide
  have a1 : cppValue "loadBalancedChemistryModelCppTest" = 1 := by decide
  have a2 : cppValue "loadBalanced_pyJacChemistryModelCppTest" = 2 := by decide
  simp [templateModels, e1, e2, a0, a1, a2, h1, h2, h3, h4]

theorem templateHeader_eq (method : String) :
    templateHeader method = if method = "loadBalanced" ∨ method = "loadBalanced_pyJac" then method ++ "ChemistryModel.H" else method ++ ".H" := by
  by_cases h2 : method = "loadBalanced_pyJac"
  · subst h2; decide
  by_cases h1 : method = "loadBalanced"
  · subst h1; decide
  have e1 : cppValue (method ++ "ChemistryModelCppTest") = 0 := by
    rw [cppValue_eq, if_neg (suffix_ne _ h1 (by decide)), if_neg (suffix_ne _ h2 (by decide))]
  have a1 : cppValue "loadBalancedChemistryModelCppTest" = 1 := by decide
  have a2 : cppValue "loadBalanced_pyJacChemistryModelCppTest" = 2 := by decide
  simp [templateHeader, e1, a1, a2, h1, h2]

theorem modelName_base : modelName "chemistryModel" = "chemistryModel" := by decide
theorem modelName_lb : modelName "loadBalancedChemistryModel" = "loadBalanced" := by decide
theorem modelName_py : modelName "loadBalanced_pyJacChemistryModel" = "loadBalanced_pyJac" := by decide
theorem header_base : templateHeader "chemistryModel" = "chemistryModel" ++ ".H" := by decide
theorem header_lb : templateHeader "loadBalanced" = "loadBalancedChemistryModel" ++ ".H" := by decide
theorem header_py : templateHeader "loadBalanced_pyJac" = "loadBalanced_pyJacChemistryModel" ++ ".H" := by decide

/-! ### The properties -/

/-- **C134, the loaded library.** Whatever the thermodynamics that OpenFOAM provides, the library offers exactly the combinations of the three solvers, the two load balanced methods and those
thermodynamics, and registers each of them once. -/
theorem C134_library (gases liquids : List String) (solver method thermo : String) :
    (Offers (libraryEntries gases liquids) solver method thermo ↔
      solver ∈ ["noChemistrySolver", "ode", "ode_pyJac"] ∧ method ∈ ["loadBalanced", "loadBalanced_pyJac"] ∧ (thermo ∈ gases ∨ thermo ∈ liquids)) ∧
    ((gases ++ liquids).Nodup → (libraryEntries gases liquids).Nodup) := by
  constructor
  · simp only [Offers, mem_libraryEntries, List.mem_cons, List.not_mem_nil, or_false, List.mem_append]
    constructor
    · rintro ⟨e, ⟨h1, h2, h3⟩, rfl, rfl, rfl⟩
      refine ⟨h1, ?_, h3⟩
      rcases h2 with h | h <;> rw [h] <;> decide
    · rintro ⟨h1, rfl | rfl, h3⟩
      · exact ⟨⟨solver, "loadBalancedChemistryModel", thermo⟩, ⟨h1, Or.inl rfl, h3⟩, rfl, modelName_lb, rfl⟩
      · exact ⟨⟨solver, "loadBalanced_pyJacChemistryModel", thermo⟩, ⟨h1, Or.inr rfl, h3⟩, rfl, modelName_py, rfl⟩
  · intro h
    rw [libraryEntries]
    refine List.Nodup.append (List.Nodup.append (nodup_solverFile h _) (nodup_solverFile h _) ?_) (nodup_solverFile h _) ?_
    · intro e h1 h2
      exact absurd ((mem_solverFile.1 h1).1.symm.trans (mem_solverFile.1 h2).1) (by decide)
    · intro e h1 h2
      have h2 := (mem_solverFile.1 h2).1
      rcases List.mem_append.1 h1 with h1 | h1
      · exact absurd ((mem_solverFile.1 h1).1.symm.trans h2) (by decide)
      · exact absurd ((mem_solverFile.1 h1).1.symm.trans h2) (by decide)

/-- **C134 (partial), generated code.** For every solver and every thermodynamics, the code generated for the method of OpenFOAM or for one of the two load balanced methods includes the header of the
model, and offers the combination asked for. What is missing: every other method (`C134_own_models_not_offered`). -/
theorem C134_generated_partial (solver method thermo : String) (h : method ∈ ["chemistryModel", "loadBalanced", "loadBalanced_pyJac"]) :
    Offers (templateEntries solver method thermo) solver method thermo ∧
      ∃ e ∈ templateEntries solver method thermo, modelName e.model = method ∧ templateHeader method = e.model ++ ".H" := by
  simp only [List.mem_cons, List.not_mem_nil, or_false] at h
  rcases h with rfl | rfl | rfl
  · exact ⟨⟨⟨solver, "chemistryModel", thermo⟩, by simp [templateEntries, templateModels_eq], rfl, modelName_base, rfl⟩,
      ⟨⟨solver, "chemistryModel", thermo⟩, by simp [templateEntries, templateModels_eq], modelName_base, header_base⟩⟩
  · exact ⟨⟨⟨solver, "loadBalancedChemistryModel", thermo⟩, by simp [templateEntries, templateModels_eq], rfl, modelName_lb, rfl⟩,
      ⟨⟨solver, "loadBalancedChemistryModel", thermo⟩, by simp [templateEntries, templateModels_eq], modelName_lb, header_lb⟩⟩
  · exact ⟨⟨⟨solver, "loadBalanced_pyJacChemistryModel", thermo⟩, by simp [templateEntries, templateModels_eq], rfl, modelName_py, rfl⟩,
      ⟨⟨solver, "loadBalanced_pyJacChemistryModel", thermo⟩, by simp [templateEntries, templateModels_eq], modelName_py, header_py⟩⟩

/-- **C134, nothing twice.** Whatever the solver, the method and the thermodynamics, the generated code registers no combination twice, and nothing for another solver or another thermodynamics. -/
theorem C134_generated_once (solver method thermo : String) : (templateEntries solver method thermo).Nodup ∧
    ∀ e ∈ templateEntries solver method thermo, e.solver = solver ∧ e.thermo = thermo := by
  constructor
  · refine List.Nodup.map (fun a b h => (ModelEntry.mk.injEq .. ▸ h : _ ∧ _ ∧ _).2.1) ?_
    rw [templateModels_eq]
    split
    · decide
    · split
      · decide
      · split <;> simp
  · intro e he
    obtain ⟨m, -, rfl⟩ := List.mem_map.1 he
    exact ⟨rfl, rfl⟩

/-- **C134, other models.** For a model of the user, chosen by the name of its class, the generated code includes its header but registers only the model of OpenFOAM: identifiers that are not
macros count as 0 in an `#if`, so that the last branch is not reached. The combination that was asked for is not offered, whatever the solver and the thermodynamics. -/
theorem C134_own_models_not_offered (solver method thermo : String) (h : method ∉ ["chemistryModel", "loadBalanced", "loadBalanced_pyJac"])
    (h' : method ∉ ["loadBalancedChemistryModel", "loadBalanced_pyJacChemistryModel"]) : templateHeader method = method ++ ".H" ∧
    templateModels method = ["chemistryModel"] ∧ ¬ Offers (templateEntries solver method thermo) solver method thermo := by
  simp only [List.mem_cons, List.not_mem_nil, or_false, not_or] at h h'
  have e : templateModels method = ["chemistryModel"] := by rw [templateModels_eq, if_neg h.2.2, if_neg h.2.1, if_neg (not_or.2 h')]
  refine ⟨by rw [templateHeader_eq, if_neg (not_or.2 h.2)], e, ?_⟩
  rintro ⟨x, hx, -, hm, -⟩
  rw [templateEntries, e] at hx
  obtain rfl := List.mem_singleton.1 hx
  exact h.1 (hm.symm.trans modelName_base)

/-- **C134, counterexample.** It is not so that the generated code offers the combination that it was generated for. -/
theorem C134_generated_false : ¬ ∀ solver method thermo : String, Offers (templateEntries solver method thermo) solver method thermo := fun h =>
  (C134_own_models_not_offered "ode" "myChemistryModel" "gas" (by decide) (by decide)).2.2 (h _ _ _)

/-- The validation test asks for `ode_pyJac` with `loadBalanced_pyJac`, once for thermodynamics that are loaded with the library and once for others. -/
example : Offers (libraryEntries ["constGasHThermoPhysics", "gasHThermoPhysics"] ["liquidHThermoPhysics"]) "ode_pyJac" "loadBalanced_pyJac" "gasHThermoPhysics" ∧
    ¬ Offers (libraryEntries ["constGasHThermoPhysics", "gasHThermoPhysics"] ["liquidHThermoPhysics"]) "ode_pyJac" "loadBalanced_pyJac" "logPolynomialGas" ∧
    Offers (templateEntries "ode_pyJac" "loadBalanced_pyJac" "logPolynomialGas") "ode_pyJac" "loadBalanced_pyJac" "logPolynomialGas" ∧
    (["constGasHThermoPhysics", "gasHThermoPhysics"] ++ ["liquidHThermoPhysics"]).Nodup := by
  refine ⟨(C134_library _ _ _ _ _).1.2 (by decide), fun h => ?_, (C134_generated_partial _ _ _ (by decide)).1, by decide⟩
  exact absurd ((C134_library _ _ _ _ _).1.1 h).2.2 (by decide)

end DLB
