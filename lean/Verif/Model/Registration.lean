/-
Which chemistry models can be chosen by name: those registered when the library is loaded (`chemistrySolver/DLB*.C`, `DLBmakeChemistrySolver.H`),
and those registered by code generated at run time (`etc/codeTemplates/dynamicCode/basicChemistryModelTemplate.C`).
-/
set_option autoImplicit false

namespace DLB

/-- One entry of the table of chemistry models: the solver class, the model class and the thermodynamics that `makeChemistrySolver` is given.
etc/codeTemplates/dynamicCode/basicChemistryModelTemplate.C:101-122. -/
structure ModelEntry where
  solver : String
  model : String
  thermo : String
deriving DecidableEq, Repr

/-- DLBmakeChemistrySolver.H:47-59 `DLBmakeChemistrySolvers(Solver, ThermoPhysics)`. -/
def makeDLBSolvers (solver thermo : String) : List ModelEntry :=
  [⟨solver, "loadBalancedChemistryModel", thermo⟩, ⟨solver, "loadBalanced_pyJacChemistryModel", thermo⟩]

/-- DLBnoChemistrySolvers.C:40-41, DLBodeChemistrySolvers.C:40-41 and DLBodePyJacChemistrySolvers.C:39-40: the macro applied to every thermodynamics of `forCoeffGases` and
`forCoeffLiquids`, which are lists in OpenFOAM and parameters here. -/
def solverFile (gases liquids : List String) (solver : String) : List ModelEntry :=
  gases.flatMap (makeDLBSolvers solver) ++ liquids.flatMap (makeDLBSolvers solver)

/-- Make/files:13-17: what is registered when the library is loaded. -/
def libraryEntries (gases liquids : List String) : List ModelEntry :=
  solverFile gases liquids "noChemistrySolver" ++ solverFile gases liquids "ode" ++ solverFile gases liquids "ode_pyJac"

/-- The macros defined when the template is compiled: basicChemistryModelTemplate.C:87-89. (`chemistryModelMethod` of line 127 is defined later and also 0.) -/
def templateMacros : List (String × Nat) :=
  [("chemistryModelCppTest", 0), ("loadBalancedChemistryModelCppTest", 1), ("loadBalanced_pyJacChemistryModelCppTest", 2)]

/-- The value of an identifier in the condition of an `#if`: that of the macro, and 0 for identifiers that are not macros (C++ [cpp.cond]).
etc/codeTemplates/dynamicCode/basicChemistryModelTemplate.C:92, 94, 103, 110, 115. -/
def cppValue (name : String) : Nat := (templateMacros.lookup name).getD 0

/-- basicChemistryModelTemplate.C:92-98: the header of the model; `method` is the identifier for `${method}`. -/
def templateHeader (method : String) : String :=
  if cppValue (method ++ "ChemistryModelCppTest") = cppValue "loadBalancedChemistryModelCppTest" then method ++ "ChemistryModel.H"
  else if cppValue (method ++ "ChemistryModelCppTest") = cppValue "loadBalanced_pyJacChemistryModelCppTest" then method ++ "ChemistryModel.H"
  else method ++ ".H"

/-- basicChemistryModelTemplate.C:103-121: the models that the generated code registers. -/
def templateModels (method : String) : List String :=
  if cppValue (method ++ "ChemistryModelCppTest") = cppValue "loadBalanced_pyJacChemistryModelCppTest" then
    ["chemistryModel", "loadBalancedChemistryModel", "loadBalanced_pyJacChemistryModel"]
  else if cppValue (method ++ "ChemistryModelCppTest") = cppValue "loadBalancedChemistryModelCppTest" then ["chemistryModel", "loadBalancedChemistryModel"]
  else if cppValue (method ++ "CppTest") = cppValue "chemistryModelCppTest" then ["chemistryModel"]
  else [method]

/-- The entries made by the generated code: `makeChemistrySolver(${solver}, model, ThermoPhysics)` for each of them.
etc/codeTemplates/dynamicCode/basicChemistryModelTemplate.C:101-122. -/
def templateEntries (solver method thermo : String) : List ModelEntry := (templateModels method).map fun m => ⟨solver, m, thermo⟩

/-- The name by which a model class is chosen: `TypeName` of loadBalancedChemistryModel.H:128 and of loadBalanced_pyJacChemistryModel.H:68. Other classes (of OpenFOAM or of the user) are taken
to be chosen by their own name, as `chemistryModel` is. -/
def modelName (cls : String) : String :=
  if cls = "loadBalancedChemistryModel" then "loadBalanced" else if cls = "loadBalanced_pyJacChemistryModel" then "loadBalanced_pyJac" else cls

end DLB
