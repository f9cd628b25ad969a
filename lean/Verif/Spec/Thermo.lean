import Mathlib.Algebra.Field.Defs
import Mathlib.Order.Defs.LinearOrder
import Mathlib.Algebra.Order.Group.Abs
/-
Thermodynamic polynomials of ideal gas species (NASA, JANAF), independent of pyJac: the textbook
definitions of molar heat capacity and enthalpy, divided by the gas constant.
-/
set_option autoImplicit false

namespace DLB

/-- A decimal number with sign: `m * 10^(-e)`. -/
abbrev SDec := Int × Nat

/-- The value of a decimal number. -/
def SDec.val {K : Type} [Field K] (d : SDec) : K := (d.1 : K) / 10 ^ d.2

/-- The polynomials of a species: coefficients `a_0 ... a_6` below and above the temperature `tMid`. -/
structure Nasa where
  tMid : Nat × Nat
  low : List SDec
  high : List SDec
  deriving DecidableEq, Repr

section
variable {K : Type} [Field K]

/-- The coefficient `a_k`. -/
def nasaCoeff (a : List SDec) (k : Nat) : K := SDec.val (a.getD k (0, 0))

/-- Heat capacity over gas constant: `a_0 + a_1 T + a_2 T^2 + a_3 T^3 + a_4 T^4`. -/
def cpOverR (a : List SDec) (T : K) : K :=
  nasaCoeff a 0 + nasaCoeff a 1 * T + nasaCoeff a 2 * T ^ 2 + nasaCoeff a 3 * T ^ 3 + nasaCoeff a 4 * T ^ 4

/-- Enthalpy over gas constant, in kelvin: `a_5 + a_0 T + a_1 T^2 / 2 + a_2 T^3 / 3 + a_3 T^4 / 4 + a_4 T^5 / 5`. -/
def hOverR (a : List SDec) (T : K) : K :=
  nasaCoeff a 5 + nasaCoeff a 0 * T + nasaCoeff a 1 * T ^ 2 / 2 + nasaCoeff a 2 * T ^ 3 / 3 + nasaCoeff a 3 * T ^ 4 / 4 +
    nasaCoeff a 4 * T ^ 5 / 5

variable [LinearOrder K]

/-- Sum of the absolute values of the terms of `cpOverR`. -/
def cpTerms (a : List SDec) (T : K) : K :=
  |nasaCoeff a 0| + |nasaCoeff a 1 * T| + |nasaCoeff a 2 * T ^ 2| + |nasaCoeff a 3 * T ^ 3| + |nasaCoeff a 4 * T ^ 4|

/-- Sum of the absolute values of the terms of `hOverR`. -/
def hTerms (a : List SDec) (T : K) : K :=
  |nasaCoeff a 5| + |nasaCoeff a 0 * T| + |nasaCoeff a 1 * T ^ 2 / 2| + |nasaCoeff a 2 * T ^ 3 / 3| + |nasaCoeff a 3 * T ^ 4 / 4| +
    |nasaCoeff a 4 * T ^ 5 / 5|

/-- The coefficients for the temperature `T`; the lower set includes `tMid` (Cantera, chem.cti). -/
def Nasa.at (p : Nasa) (T : K) : List SDec :=
  if T ≤ (p.tMid.1 : K) / 10 ^ p.tMid.2 then p.low else p.high

/-- The coefficients for the temperature `T`; the lower set excludes `tMid` (OpenFOAM's janafThermo: `if (T < Tcommon_)`). -/
def Nasa.below (p : Nasa) (T : K) : List SDec :=
  if T < (p.tMid.1 : K) / 10 ^ p.tMid.2 then p.low else p.high

end
end DLB
