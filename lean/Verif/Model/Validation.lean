import Verif.Model.Basic
/-
The program of the validation test, tests/validation/pyjacTests/PSRTest: how it sets the composition and how it judges the results.
-/
set_option autoImplicit false

namespace DLB

section
variable {S : Type} [Zero S] [Add S] [Sub S] [Mul S] [Div S] [Neg S] [LT S] [DecidableLT S] [Consts S]

/-- `sum` of a list of OpenFOAM, from the first entry to the last.  Used in setFractionBasis.H:19,
43. -/
def foamSum (xs : List S) : S := xs.foldl (· + ·) 0

/-- setFractionBasis.H:9-16 and 33-40: the fraction given for a species, zero for species that are not given. -/
def givenFractions (names : List String) (fractions : String → Option S) : List S := names.map fun n => (fractions n).getD 0

/-- setFractionBasis.H:1-55: the mole fractions `X0` and mass fractions `Y0` that the test starts from; `W` are the molecular weights. -/
def fractionBasis (mole : Bool) (names : List String) (fractions : String → Option S) (W : List S) : List S × List S :=
  let given := givenFractions names fractions
  let mTot := foamSum given
  if mole then
    let X0 := given.map (· / mTot)
    let mw := foamSum (List.zipWith (· * ·) W X0)
    (X0, List.zipWith (fun x w => x * w / mw) X0 W)
  else
    let Y0 := given.map (· / mTot)
    let invW := foamSum (List.zipWith (· / ·) Y0 W)
    let mw := Consts.one / invW
    (List.zipWith (fun y w => y * mw / w) Y0 W, Y0)

/-- PSRTest.C:66-68 `relative_error`. -/
def relativeError (input reference : S) : S := absS (input - reference) / absS reference

/-- PSRTest.C:70-86 `checkTemperature`: the value returned. -/
def checkTemperature (input reference tolerance : S) : Bool := if relativeError input reference < tolerance then true else false

/-- PSRTest.C:89-115 `validatePyjacEnthalpy`: the value returned; `evalH` is `eval_h` of the mechanism library, with one value per species. -/
def validatePyjacEnthalpy (evalH : S → List S) (Y : List S) (T reference tolerance : S) : Bool :=
  let h := foamSum (List.zipWith (· * ·) (evalH T) Y)
  if relativeError h reference < tolerance then true else false

/-- What the program reads from OpenFOAM's thermodynamics before and after the chemistry: mass fractions, temperature, `hc` or `ha`.
PSRTest.C:171, 176. -/
structure ThermoState (S : Type) where
  Y : List S
  T : S
  h : S

/-- solveChemistry.H:5-6, setFractionBasis.H:73 and hEqn.H:16: the enthalpy that the program sets after the chemistry, from which OpenFOAM then finds the temperature; `h0` is that at
the start, `Qdot` the heat release in the cell. -/
def psrEnthalpy (h0 Qdot rho deltaT : S) : S := h0 + (0 + Qdot / rho * deltaT)

/-- PSRTest.C:159-185, the status with which the program ends, with the reference values and tolerances as parameters
(`Tstd` is 298.15, `tol0a` 1e-7, `tol0b` 1e-6, `tol1a` 1e-5, `tol1b` and `tolT` 1e-6).  The chemistry itself and the check of the performance, which does not
affect the status, are left out. -/
def psrStatus (evalH : S → List S) (before after : ThermoState S) (Tstd href0 href1 Tref tol0a tol0b tol1a tol1b tolT : S) : Nat :=
  let Hcheck0a := validatePyjacEnthalpy evalH before.Y Tstd href0 tol0a
  let Hcheck0b := validatePyjacEnthalpy evalH before.Y Tstd before.h tol0b
  let Hcheck1a := validatePyjacEnthalpy evalH after.Y after.T href1 tol1a
  let Hcheck1b := validatePyjacEnthalpy evalH after.Y after.T after.h tol1b
  let Tcheck := checkTemperature after.T Tref tolT
  if !Hcheck0a || !Hcheck0b || !Hcheck1a || !Hcheck1b || !Tcheck then 1 else 0

end

end DLB
