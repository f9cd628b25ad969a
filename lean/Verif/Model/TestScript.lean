/-
The scripts that run the tests: `tests/unittests/test.sh` and
`tests/validation/pyjacTests/PSRTest/runTests.sh`.
-/
set_option autoImplicit false

namespace DLB

/-- The lines that `runTests.sh` prints about its three checks (lines 15, 18, 30, 32, 41 and 43); the other lines that it prints are not kept. -/
inductive TestReport where
  | validationPassed | validationFailed | mismatchPassed | mismatchFailed | dynamicPassed | dynamicFailed
deriving DecidableEq, Repr

/-- What a shell keeps while it runs a script: the files (`C` is the type of their contents), the status `$?` of the last command, and what was reported.
tests/validation/pyjacTests/PSRTest/runTests.sh:1-48. -/
structure Shell (C : Type) where
  files : String → Option C
  status : Nat
  reports : List TestReport

variable {C : Type}

/-- The file `name` gets the content `c`.  tests/validation/pyjacTests/PSRTest/runTests.sh:26-27,
37-38, 47-48. -/
def setFile (files : String → Option C) (name : String) (c : Option C) : String → Option C := fun n => if n = name then c else files n

/-- A program: it sees the files, and gives the files it leaves, the text it prints and the status it ends with.
tests/validation/pyjacTests/PSRTest/runTests.sh:11, 28, 39. -/
abbrev ShellProgram (C : Type) := (String → Option C) → (String → Option C) × C × Nat

/-- `cp source target`: fails, and changes nothing, if there is no `source`. Other reasons to fail are not modelled.
tests/validation/pyjacTests/PSRTest/runTests.sh:26-27, 37, 47. -/
def cpFile (source target : String) (s : Shell C) : Shell C :=
  match s.files source with
  | none => { s with status := 1 }
  | some c => { s with files := setFile s.files target (some c), status := 0 }

/-- `rm name`: fails if there is no such file.  tests/validation/pyjacTests/PSRTest/runTests.sh:48.
-/
def rmFile (name : String) (s : Shell C) : Shell C :=
  match s.files name with
  | none => { s with status := 1 }
  | some _ => { s with files := setFile s.files name none, status := 0 }

/-- `program | tee log`: the status of a pipeline is that of its last command (POSIX; the option `pipefail` is not set by `runTests.sh`). `tee` fails exactly if `log` cannot be
written.  tests/validation/pyjacTests/PSRTest/runTests.sh:11. -/
def pipeTee (writable : String → Bool) (program : ShellProgram C) (log : String) (s : Shell C) : Shell C :=
  let r := program s.files
  if writable log then { s with files := setFile r.1 log (some r.2.1), status := 0 } else { s with files := r.1, status := 1 }

/-- `program > log 2>&1`: the program is not run if `log` cannot be written.
tests/validation/pyjacTests/PSRTest/runTests.sh:28, 39. -/
def runInto (writable : String → Bool) (program : ShellProgram C) (log : String) (s : Shell C) : Shell C :=
  if writable log then
    let r := program (setFile s.files log none)
    { s with files := setFile r.1 log (some r.2.1), status := r.2.2 }
  else { s with status := 1 }

/-- `if [ $? -eq n ]; then echo a; else echo b; fi`.
tests/validation/pyjacTests/PSRTest/runTests.sh:13-20, 29-33, 40-45. -/
def reportIf (n : Nat) (a b : TestReport) (s : Shell C) : Shell C := { s with status := 0, reports := s.reports ++ [if s.status = n then a else b] }

/-- `foamDictionary -entry thermoType/transport -set logPolynomial name`: `edit` is what it does to the content, with no result if it fails.
tests/validation/pyjacTests/PSRTest/runTests.sh:38. -/
def foamDictionary (edit : C → Option C) (name : String) (s : Shell C) : Shell C :=
  match (s.files name).bind edit with
  | none => { s with status := 1 }
  | some c => { s with files := setFile s.files name (some c), status := 0 }

/-- The dictionary of the thermodynamics of the test case.
tests/validation/pyjacTests/PSRTest/runTests.sh:26-27, 37-38, 47. -/
def thermoFile : String := "testCase/constant/thermophysicalProperties"
/-- Its copy.  tests/validation/pyjacTests/PSRTest/runTests.sh:26, 37, 47-48. -/
def thermoOrig : String := "testCase/constant/thermophysicalProperties.orig"
/-- The dictionary with another number of species.
tests/validation/pyjacTests/PSRTest/runTests.sh:27. -/
def thermoIll : String := "testCase/constant/thermophysicalProperties.illdefined"
/-- runTests.sh:11. -/
def logOrig : String := "testCase/log.orig"
/-- runTests.sh:28. -/
def logIll : String := "testCase/log.illdefined"
/-- runTests.sh:39. -/
def logDynamic : String := "testCase/log.dynamicCode"

/-- runTests.sh:11-20. -/
def checkValidation (writable : String → Bool) (psr : ShellProgram C) (s : Shell C) : Shell C :=
  reportIf 0 .validationPassed .validationFailed (pipeTee writable psr logOrig s)

/-- runTests.sh:26-33. -/
def checkMismatch (writable : String → Bool) (psr : ShellProgram C) (s : Shell C) : Shell C :=
  reportIf 1 .mismatchPassed .mismatchFailed (runInto writable psr logIll (cpFile thermoIll thermoFile (cpFile thermoFile thermoOrig s)))

/-- runTests.sh:37-45. -/
def checkDynamic (writable : String → Bool) (psr : ShellProgram C) (edit : C → Option C) (s : Shell C) : Shell C :=
  reportIf 0 .dynamicPassed .dynamicFailed (runInto writable psr logDynamic (foamDictionary edit thermoFile (cpFile thermoOrig thermoFile s)))

/-- runTests.sh:1-48; `psr` is `./PSRTest.bin -case testCase`. -/
def runTests (writable : String → Bool) (psr : ShellProgram C) (edit : C → Option C) (s : Shell C) : Shell C :=
  rmFile thermoOrig (cpFile thermoOrig thermoFile (checkDynamic writable psr edit (checkMismatch writable psr (checkValidation writable psr s))))

/-- tests/unittests/test.sh:1-4, the status of the script, which is that of its last command; `mpirun n` is the status of the unit tests on `n` processes. -/
def unitTests (mpirun : Nat → Nat) : Nat := ([2, 4, 11].map mpirun).getLastD 0

/-- Allwmake:130-136 (with `set -e` of line 4, which the scripts that it starts do not inherit): the status with which the installation ends, if what follows the tests succeeds. -/
def installStatus (mpirun : Nat → Nat) (writable : String → Bool) (psr : ShellProgram C) (edit : C → Option C) (s : Shell C) : Nat :=
  if unitTests mpirun ≠ 0 then unitTests mpirun else (runTests writable psr edit s).status

end DLB
