/-
Basic vocabulary of the model: failure outcomes, scalar constants, scalar
functions and bounds-checked memory.

`scalar` is modelled by a type variable `S`.  The operations come from Lean's
operation-only classes (`Add`, `Sub`, `LT`, ...), which carry no laws, so that the
definitions below can be instantiated with IEEE doubles, rationals, reals or
anything else.
-/
set_option autoImplicit false

namespace DLB

/-- Outcomes of a C++ call other than a normal return.
* `ub`: undefined behaviour (out-of-range index, iterator before `begin`, ...);
* `fatal`: OpenFOAM's `FatalError`/`FatalIOError` `abort`/`exit`;
* `thrown`: a C++ exception;
* `outOfFuel`: the loop did not finish within the given number of iterations
  (divergence is "`outOfFuel` for every fuel").  Fatal errors of /repo: mixtureFraction.C:72-74,
loadBalanced_pyJacChemistryModel.C:65-69, 178-182, ODESolver.C:97-100, 196-201,
ODESolverNew.C:46-51. -/
inductive Fault where
  | ub
  | fatal
  | thrown
  | outOfFuel
  deriving DecidableEq, Repr

/-- Named scalar constants used by the code.
* `SMALL`: OpenFOAM's `small`/`SMALL` (1e-15), used at LoadBalancer.C:133,
  loadBalancedChemistryModel.C:226 and mixtureFraction.C:66,71;
* `great`: OpenFOAM's `great` (1e15), loadBalancedChemistryModel.C:150,257;
* `filterFrac`: the literal 0.01 of LoadBalancer.C:147;
* `two`: the literal 2 of loadBalancedChemistryModel.C:296 and mixtureFraction.C:45;
* `half`, `one`: the literals 0.5 and 1.0 of mixtureFraction.C:47,49,70;
* `Ztol`, `vGreat`: the defaults 1e-4 and `VGREAT` (1e300) of mixtureFractionRefMapper.H:82-83. -/
class Consts (S : Type) where
  SMALL : S
  great : S
  filterFrac : S
  two : S
  half : S
  one : S
  Ztol : S
  vGreat : S

/-- `std::min(a, b)` of the C++ standard library: `(b < a) ? b : a`.  Used in LoadBalancer.C:122. -/
def stdMin {S : Type} [LT S] [DecidableLT S] (a b : S) : S := if b < a then b else a

/-- `std::max(a, b)` of the C++ standard library: `(a < b) ? b : a`.  Not used in /repo;
the counterpart of `stdMin`, to tell the two apart. -/
def stdMax {S : Type} [LT S] [DecidableLT S] (a b : S) : S := if a < b then b else a

/-- `Foam::min(a, b)` for scalars (OpenFOAM doubleFloat.H): `(a < b) ? a : b`.  Used in
loadBalancedChemistryModel.C:241, 267, 294, 457, and seulex_LAPACK.C:55, 355, 450, 554-572. -/
def foamMin {S : Type} [LT S] [DecidableLT S] (a b : S) : S := if a < b then a else b

/-- `Foam::max(a, b)` for scalars (OpenFOAM doubleFloat.H): `(a > b) ? a : b`.  Used in
ode_pyJac.C:84, 111, loadBalanced_pyJacChemistryModel.C:93, 131, and seulex_LAPACK.C:229, 237, 355,
437, 450. -/
def foamMax {S : Type} [LT S] [DecidableLT S] (a b : S) : S := if b < a then a else b

/-- `std::abs` / `Foam::mag` of a scalar.  Simplification: `fabs` clears the sign
bit; here it is `-x` for `x < 0` and `x` otherwise, the same for all values the
code compares (it differs on `-0.0` only).  Used in LoadBalancer.C:133, 159,
mixtureFractionRefMapper.C:47, and seulex_LAPACK.C:223-452. -/
def absS {S : Type} [Zero S] [LT S] [DecidableLT S] [Neg S] (x : S) : S :=
  if x < 0 then -x else x

/-- `SubList<T>(list, size, start)` (OpenFOAM SubListI.H): a view of `size` elements
from `start`.  Out-of-range arguments are undefined behaviour in an optimised
build (a `FatalError` in a debug build).  `label` is modelled by `Int`, without
the 32/64-bit width.  Used in LoadBalancerBase.H:143 and SendBuffer.H:59. -/
def subList {α : Type} (xs : List α) (size start : Int) : Except Fault (List α) :=
  if 0 ≤ size ∧ 0 ≤ start ∧ start + size ≤ xs.length then
    .ok ((xs.drop start.toNat).take size.toNat)
  else
    .error .ub

/-- Bounds-checked write `f[i] = v` to a field of `n` entries.  Used for
loadBalancedChemistryModel.C:269, 385-392, 425-439, 455-457. -/
def writeAt {α : Type} (n : Nat) (f : Nat → α) (i : Nat) (v : α) :
    Except Fault (Nat → α) :=
  if i < n then .ok (fun k => if k = i then v else f k) else .error .ub

/-- Bounds-checked read `f[i]` of a field of `n` entries.  Used for
loadBalancedChemistryModel.C:367-377. -/
def readAt {α : Type} (n : Nat) (f : Nat → α) (i : Nat) : Except Fault α :=
  if i < n then .ok (f i) else .error .ub

/-- Bounds-checked read `xs[i]` of a list.  Used for LoadBalancerBase.H:208-220 and
SendBuffer.H:55-59. -/
def getAt {α : Type} (xs : List α) (i : Nat) : Except Fault α :=
  match xs[i]? with
  | some x => .ok x
  | none => .error .ub

end DLB
