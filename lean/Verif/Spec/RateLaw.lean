import Verif.Spec.Thermo
/-
The rate coefficients of a chemical mechanism as chem.cti writes them (units: cm, s, mol, cal/mol).
-/
set_option autoImplicit false

namespace DLB

/-- `[A, b, E]`: the rate coefficient `A T^b exp(-E / (R T))`, with `A` in powers of cm^3/mol and 1/s, and `E` in cal/mol. -/
structure Arrhenius where
  A : SDec
  b : SDec
  E : SDec
  deriving DecidableEq, Repr

/-- `Troe(A, T3, T1, T2)`; `T2` is optional. -/
structure Troe where
  A : SDec
  T3 : SDec
  T1 : SDec
  T2 : Option SDec
  deriving DecidableEq, Repr

/-- The rate law of a reaction: the rate coefficient; for a falloff reaction it is that of the limit of high pressure, followed by the
one of the limit of low pressure and the broadening, if any. -/
inductive RateLaw where
  | simple (k : Arrhenius)
  | falloff (kInf k0 : Arrhenius) (troe : Option Troe)
  deriving DecidableEq, Repr

/-- The rate coefficient (in the limit of high pressure). -/
def RateLaw.high : RateLaw → Arrhenius
  | .simple k => k
  | .falloff kInf _ _ => kInf

end DLB
