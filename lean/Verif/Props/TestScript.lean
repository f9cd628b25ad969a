import Verif.Model.TestScript
/-
C133: what the test scripts report, and what they leave behind.
-/
set_option autoImplicit false
set_option linter.unusedSectionVars false

namespace DLB

variable {C : Type}

/-- The test program as the scripts see it: its status is determined by the dictionary of the thermodynamics in the case (all else being the same), and it does not change
the dictionaries of the thermodynamics. -/
structure TestProgram (psr : ShellProgram C) (statusOf : Option C → Nat) : Prop where
  status : ∀ f, (psr f).2.2 = statusOf (f thermoFile)
  keepsFile : ∀ f, (psr f).1 thermoFile = f thermoFile
  keepsOrig : ∀ f, (psr f).1 thermoOrig = f thermoOrig
  keepsIll : ∀ f, (psr f).1 thermoIll = f thermoIll

/-- A case as it is delivered: with both dictionaries and without a copy; the logs can be written. -/
structure TestCase (writable : String → Bool) (s : Shell C) (good ill : C) : Prop where
  thermo : s.files thermoFile = some good
  illDefined : s.files thermoIll = some ill
  noCopy : s.files thermoOrig = none
  writableOrig : writable logOrig = true
  writableIll : writable logIll = true
  writableDynamic : writable logDynamic = true
  fresh : s.reports = []

/-! ### Lemmas -/

theorem setFile_same (f : String → Option C) (n : String) (c : Option C) : setFile f n c n = c := if_pos rfl

theorem setFile_other (f : String → Option C) {n m : String} (c : Option C) (h : n ≠ m) : setFile f m c n = f n := if_neg h

theorem thermo_ne_orig : thermoFile ≠ thermoOrig := by decide
theorem thermo_ne_ill : thermoFile ≠ thermoIll := by decide
theorem orig_ne_ill : thermoOrig ≠ thermoIll := by decide
theorem thermo_ne_logOrig : thermoFile ≠ logOrig := by decide
theorem thermo_ne_logIll : thermoFile ≠ logIll := by decide
theorem thermo_ne_logDynamic : thermoFile ≠ logDynamic := by decide
theorem orig_ne_logOrig : thermoOrig ≠ logOrig := by decide
theorem orig_ne_logIll : thermoOrig ≠ logIll := by decide
theorem orig_ne_logDynamic : thermoOrig ≠ logDynamic := by decide
theorem ill_ne_logOrig : thermoIll ≠ logOrig := by decide
theorem ill_ne_logIll : thermoIll ≠ logIll := by decide
theorem ill_ne_logDynamic : thermoIll ≠ logDynamic := by decide

section
variable {writable : String → Bool} {psr : ShellProgram C} {statusOf : Option C → Nat}

theorem checkValidation_spec (hp : TestProgram psr statusOf) {s : Shell C} {good ill : C} (hs : TestCase writable s good ill) :
    (checkValidation writable psr s).files thermoFile = some good ∧ (checkValidation writable psr s).files thermoIll = some ill ∧
      (checkValidation writable psr s).reports = [TestReport.validationPassed] := by
  simp only [checkValidation, reportIf, pipeTee, hs.writableOrig, if_true, hs.fresh, List.nil_append, setFile_other _ _ thermo_ne_logOrig,
    setFile_other _ _ ill_ne_logOrig, hp.keepsFile, hp.keepsIll, hs.thermo, hs.illDefined, and_self]

theorem checkMismatch_spec (hp : TestProgram psr statusOf) (hw : writable logIll = true) {s : Shell C} {good ill : C} (h1 : s.files thermoFile = some good)
    (h2 : s.files thermoIll = some ill) : (checkMismatch writable psr s).files thermoOrig = some good ∧ (checkMismatch writable psr s).files thermoIll = some ill ∧
      (checkMismatch writable psr s).reports = s.reports ++ [if statusOf (some ill) = 1 then TestReport.mismatchPassed else TestReport.mismatchFailed] := by
  have e : (cpFile thermoFile thermoOrig s).files thermoIll = some ill := by
    simp only [cpFile, h1, setFile_other _ _ orig_ne_ill.symm, h2]
  have e1 : cpFile thermoFile thermoOrig s = { s with files := setFile s.files thermoOrig (some good), status := 0 } := by simp only [cpFile, h1]
  have e2 : cpFile thermoIll thermoFile (cpFile thermoFile thermoOrig s) =
      { s with files := setFile (setFile s.files thermoOrig (some good)) thermoFile (some ill), status := 0 } := by
    unfold cpFile at e ⊢
    rw [h1] at e ⊢
    simp only at e ⊢
    rw [e]
  rw [checkMismatch, e2]
  simp only [reportIf, runInto, hw, if_true, setFile_other _ _ orig_ne_logIll, setFile_other _ _ ill_ne_logIll, hp.keepsOrig, hp.keepsIll, hp.status,
    setFile_other _ _ thermo_ne_orig.symm, setFile_same, setFile_other _ _ thermo_ne_ill.symm, setFile_other _ _ orig_ne_ill.symm, h2,
    setFile_other _ _ thermo_ne_logIll, and_self]

theorem checkDynamic_spec (hp : TestProgram psr statusOf) (hw : writable logDynamic = true) {edit : C → Option C} {s : Shell C} {good ill : C}
    (h1 : s.files thermoOrig = some good) (h2 : s.files thermoIll = some ill) :
    (checkDynamic writable psr edit s).files thermoOrig = some good ∧ (checkDynamic writable psr edit s).files thermoIll = some ill ∧
      (checkDynamic writable psr edit s).reports =
        s.reports ++ [if statusOf (some ((edit good).getD good)) = 0 then TestReport.dynamicPassed else TestReport.dynamicFailed] := by
  have e1 : cpFile thermoOrig thermoFile s = { s with files := setFile s.files thermoFile (some good), status := 0 } := by simp only [cpFile, h1]
  rw [checkDynamic, e1]
  cases he : edit good with
  | none =>
    simp only [foamDictionary, setFile_same, Option.bind_some, he, Option.getD_none, reportIf, runInto, hw, if_true, setFile_other _ _ orig_ne_logDynamic,
      setFile_other _ _ ill_ne_logDynamic, hp.keepsOrig, hp.keepsIll, hp.status, setFile_other _ _ thermo_ne_orig.symm, setFile_other _ _ thermo_ne_ill.symm,
      setFile_other _ _ thermo_ne_logDynamic, h1, h2, and_self]
  | some c =>
    simp only [foamDictionary, setFile_same, Option.bind_some, he, Option.getD_some, reportIf, runInto, hw, if_true, setFile_other _ _ orig_ne_logDynamic,
      setFile_other _ _ ill_ne_logDynamic, hp.keepsOrig, hp.keepsIll, hp.status, setFile_other _ _ thermo_ne_orig.symm, setFile_other _ _ thermo_ne_ill.symm,
      setFile_other _ _ thermo_ne_logDynamic, h1, h2, and_self]

theorem runTests_spec (hp : TestProgram psr statusOf) (edit : C → Option C) {s : Shell C} {good ill : C} (hs : TestCase writable s good ill) :
    (runTests writable psr edit s).files thermoFile = some good ∧ (runTests writable psr edit s).files thermoOrig = none ∧
      (runTests writable psr edit s).files thermoIll = some ill ∧ (runTests writable psr edit s).status = 0 ∧
      (runTests writable psr edit s).reports = [TestReport.validationPassed, if statusOf (some ill) = 1 then TestReport.mismatchPassed else TestReport.mismatchFailed,
        if statusOf (some ((edit good).getD good)) = 0 then TestReport.dynamicPassed else TestReport.dynamicFailed] := by
  obtain ⟨a1, a2, a3⟩ := checkValidation_spec hp hs
  obtain ⟨b1, b2, b3⟩ := checkMismatch_spec hp hs.writableIll a1 a2
  obtain ⟨c1, c2, c3⟩ := checkDynamic_spec hp hs.writableDynamic (edit := edit) b1 b2
  rw [b3, a3] at c3
  rw [runTests]
  generalize checkDynamic writable psr edit _ = t at c1 c2 c3
  have e1 : cpFile thermoOrig thermoFile t = { t with files := setFile t.files thermoFile (some good), status := 0 } := by simp only [cpFile, c1]
  rw [e1]
  simp only [rmFile, setFile_other _ _ thermo_ne_orig.symm, c1, setFile_other _ _ thermo_ne_orig, setFile_same, setFile_other _ _ orig_ne_ill.symm,
    setFile_other _ _ thermo_ne_ill.symm, c2, c3, List.cons_append, List.nil_append, and_self]

end

/-! ### The properties -/

/-- **C133 (partial).** The reports of `runTests.sh` are three, in the order of the checks. The one about the mechanism of another size says PASSED exactly if the program ends with the
status 1 on the ill-defined dictionary, and the one about the dynamic compilation exactly if it ends with the status 0 on the dictionary with the other transport
model. What is missing: the first report says PASSED whatever the status of the program (`C133_validation_not_checked`), and the status 1 does not tell a mechanism that
was refused from wrong results (`C133_mismatch_not_told_apart`). -/
theorem C133_reports_partial (writable : String → Bool) (psr : ShellProgram C) (statusOf : Option C → Nat) (hp : TestProgram psr statusOf) (edit : C → Option C)
    (s : Shell C) (good ill other : C) (hs : TestCase writable s good ill) (he : edit good = some other) :
    ∃ first second third, (runTests writable psr edit s).reports = [first, second, third] ∧
      (second = TestReport.mismatchPassed ↔ statusOf (some ill) = 1) ∧ (second = TestReport.mismatchFailed ↔ statusOf (some ill) ≠ 1) ∧
      (third = TestReport.dynamicPassed ↔ statusOf (some other) = 0) ∧ (third = TestReport.dynamicFailed ↔ statusOf (some other) ≠ 0) := by
  obtain ⟨-, -, -, -, h⟩ := runTests_spec hp edit hs
  rw [he, Option.getD_some] at h
  refine ⟨_, _, _, h, ?_, ?_, ?_, ?_⟩ <;> split <;> simp_all

/-- **C133, the case is restored.** Whatever the program does and whether or not the dictionary can be changed, the dictionaries of the case are afterwards what they were, the copy is gone,
and the script ends with the status 0. -/
theorem C133_case_restored (writable : String → Bool) (psr : ShellProgram C) (statusOf : Option C → Nat) (hp : TestProgram psr statusOf) (edit : C → Option C)
    (s : Shell C) (good ill : C) (hs : TestCase writable s good ill) :
    (∀ n ∈ [thermoFile, thermoOrig, thermoIll], (runTests writable psr edit s).files n = s.files n) ∧ (runTests writable psr edit s).status = 0 := by
  obtain ⟨h1, h2, h3, h4, -⟩ := runTests_spec hp edit hs
  refine ⟨?_, h4⟩
  simp only [List.mem_cons, List.not_mem_nil, or_false]
  rintro n (rfl | rfl | rfl)
  · rw [h1, hs.thermo]
  · rw [h2, hs.noCopy]
  · rw [h3, hs.illDefined]

/-- **C133, the first report.** Whatever the status of the program, the validation is reported as passed: the script looks at the status of `tee`. -/
theorem C133_validation_not_checked (writable : String → Bool) (psr : ShellProgram C) (statusOf : Option C → Nat) (hp : TestProgram psr statusOf) (edit : C → Option C)
    (s : Shell C) (good ill : C) (hs : TestCase writable s good ill) :
    TestReport.validationPassed ∈ (runTests writable psr edit s).reports ∧ TestReport.validationFailed ∉ (runTests writable psr edit s).reports := by
  obtain ⟨-, -, -, -, h⟩ := runTests_spec hp edit hs
  rw [h]
  constructor
  · simp
  · simp only [List.mem_cons, List.not_mem_nil, or_false, not_or]
    refine ⟨by decide, ?_, ?_⟩ <;> split <;> decide

/-- A program whose results are always wrong: it ends with the status 1 on every dictionary. -/
def wrongProgram : ShellProgram Nat := fun f => (f, 0, 1)

/-- The case with the dictionary 7 and the ill-defined dictionary 8. -/
def smallCase : Shell Nat := { files := fun n => if n = thermoFile then some 7 else if n = thermoIll then some 8 else none, status := 0, reports := [] }

theorem wrongProgram_is : TestProgram wrongProgram fun _ => 1 := ⟨fun _ => rfl, fun _ => rfl, fun _ => rfl, fun _ => rfl⟩

theorem smallCase_is : TestCase (fun _ => true) smallCase 7 8 := by
  refine ⟨?_, ?_, ?_, rfl, rfl, rfl, rfl⟩ <;> decide

/-- **C133, counterexample to the first report.** It is not so that the validation is reported as passed only if the program ends with the status 0. -/
theorem C133_validation_report_wrong : ¬ ∀ (writable : String → Bool) (psr : ShellProgram Nat) (statusOf : Option Nat → Nat) (_ : TestProgram psr statusOf)
    (edit : Nat → Option Nat) (s : Shell Nat) (good ill : Nat) (_ : TestCase writable s good ill),
    TestReport.validationPassed ∈ (runTests writable psr edit s).reports → statusOf (some good) = 0 := fun h =>
  absurd (h _ _ _ wrongProgram_is some smallCase 7 8 smallCase_is (C133_validation_not_checked _ _ _ wrongProgram_is some _ _ _ smallCase_is).1) (by decide)

/-- **C133, counterexample to the second report.** A program that ends in the same way with the right dictionary and with the ill-defined one — that is, does not notice the mechanism of
another size — can be reported as having caught it. -/
theorem C133_mismatch_not_told_apart : ¬ ∀ (writable : String → Bool) (psr : ShellProgram Nat) (statusOf : Option Nat → Nat) (_ : TestProgram psr statusOf)
    (edit : Nat → Option Nat) (s : Shell Nat) (good ill : Nat) (_ : TestCase writable s good ill),
    TestReport.mismatchPassed ∈ (runTests writable psr edit s).reports → statusOf (some ill) ≠ statusOf (some good) := fun h => by
  refine h _ _ _ wrongProgram_is some smallCase 7 8 smallCase_is ?_ rfl
  rw [(runTests_spec wrongProgram_is some smallCase_is).2.2.2.2]
  simp

/-- **C133, unit tests.** The status of `test.sh` is that of the run on 11 processes, whatever the others found, and the installation goes on to its end exactly if that run succeeds. -/
theorem C133_unit_tests (mpirun : Nat → Nat) (writable : String → Bool) (psr : ShellProgram C) (statusOf : Option C → Nat) (hp : TestProgram psr statusOf)
    (edit : C → Option C) (s : Shell C) (good ill : C) (hs : TestCase writable s good ill) :
    unitTests mpirun = mpirun 11 ∧ (installStatus mpirun writable psr edit s = 0 ↔ mpirun 11 = 0) := by
  have e : unitTests mpirun = mpirun 11 := rfl
  refine ⟨e, ?_⟩
  rw [installStatus, e, (runTests_spec hp edit hs).2.2.2.1]
  split <;> simp_all

/-- **C133, counterexample for the unit tests.** The installation ends with the status 0 although the unit tests fail on two and on four processes and the validation fails. -/
theorem C133_failures_not_noticed : ∃ mpirun : Nat → Nat, mpirun 2 ≠ 0 ∧ mpirun 4 ≠ 0 ∧ (wrongProgram smallCase.files).2.2 ≠ 0 ∧
    installStatus mpirun (fun _ => true) wrongProgram some smallCase = 0 :=
  ⟨fun n => if n = 11 then 0 else 1, by decide, by decide, by decide, ((C133_unit_tests _ _ _ _ wrongProgram_is some _ _ _ smallCase_is).2).2 (by decide)⟩

/-- The hypotheses of the theorems hold of a case and a program whose three checks all succeed: status 0 with the dictionaries 7 and 9, status 1 with 8. -/
example : ∃ (psr : ShellProgram Nat) (statusOf : Option Nat → Nat), TestProgram psr statusOf ∧ TestCase (fun _ => true) smallCase 7 8 ∧
    (runTests (fun _ => true) psr (fun c => some (c + 2)) smallCase).reports = [TestReport.validationPassed, TestReport.mismatchPassed, TestReport.dynamicPassed] := by
  have hp : TestProgram (C := Nat) (fun f => (f, 0, if f thermoFile = some 8 then 1 else 0)) (fun c => if c = some 8 then 1 else 0) :=
    ⟨fun _ => rfl, fun _ => rfl, fun _ => rfl, fun _ => rfl⟩
  refine ⟨_, _, hp, smallCase_is, ?_⟩
  rw [(runTests_spec hp _ smallCase_is).2.2.2.2]
  decide

end DLB
