/-
The fragment of C in which the shipped pyJac mechanism libraries are written, and
its semantics.

/repo/utilities/mechanisms/{drm19,gri30,yao}/lib/src consists of straight-line
functions: assignments of arithmetic expressions to local `double`s and to array
elements with literal indices, and `if (T <= 1000.0) { assignments } else { assignments
to the same objects }` (one `ite` per object; the condition reads none of them).  `tools/gen_mechanisms.py` parses these functions into the syntax
below, statement by statement (`Verif/Mech/*.lean`).

Simplifications:
* `x op= e` is represented as `x = x op (e)`, which is what C specifies for a side-effect
  free `x`;
* a declaration without initialiser (`double kf;`) leaves the variable undefined, the
  initial state of every variable; a declaration with initialiser is an assignment;
* a pointer parameter that is only used as `*p` is a variable, a pointer
  parameter used as `p[i]` is an array;
* a `double` literal stands for the scalar with the written decimal value; the
  rounding of the compiler is not modelled (for `S` the rationals or the reals the literal
  is exact).
-/
set_option autoImplicit false

namespace DLB

/-- The functions of `<math.h>` used by the mechanism sources.  `#include <math.h>` in header.h:4.
-/
class CMath (S : Type) where
  exp : S → S
  log : S → S
  log10 : S → S
  pow : S → S → S
  fmax : S → S → S

/-- The `double` variables of the mechanism sources (locals, parameters, `*pointer`s).  Covers what
is used in utilities/mechanisms/<name>/lib/src/*.c, for example drm19/lib/src/chem_utils.c:12-53. -/
inductive CVar where
  | T | pres | logT | kf | Kc
  | m | thd | k0 | kinf | Pr | logFcent | A | B
  | dyN | yN | xN | mwAvg | rho | cpAvg
  | concTemp | jTemp | presModTemp | kr | Fcent | lnFAB | rhoInv | workTemp | jN
  deriving DecidableEq, Repr

/-- The arrays of the mechanism sources. `C` is also the parameter `conc` of `eval_conc` and of the parts of the Jacobian,
`spRates` also their `spec_rates`; `y` the parameter `y_specs` of the masks.  Covers what is used in
utilities/mechanisms/<name>/lib/src/*.c, for example drm19/lib/src/dydt.c:7-76. -/
inductive CArr where
  | C | fwd | rev | presMod | spRates
  | X | Y | y | dy | cp | h | temp
  | dBdT | jac
  deriving DecidableEq, Repr

/-- Something that can be assigned to: a variable or an array element.  Covers what is used in
utilities/mechanisms/<name>/lib/src/*.c, for example drm19/lib/src/dydt.c:7-76. -/
inductive CLoc where
  | var (v : CVar)
  | arr (a : CArr) (i : Nat)
  deriving DecidableEq, Repr

/-- Expressions. `num m e` is the literal `m * 10^(-e)`.  Covers what is used in
utilities/mechanisms/<name>/lib/src/*.c, for example drm19/lib/src/rxn_rates.c:2-1016. -/
inductive CExpr where
  | num (m e : Nat)
  | rd (l : CLoc)
  | neg (a : CExpr)
  | add (a b : CExpr)
  | sub (a b : CExpr)
  | mul (a b : CExpr)
  | div (a b : CExpr)
  | exp (a : CExpr)
  | log (a : CExpr)
  | log10 (a : CExpr)
  | pow (a b : CExpr)
  | fmax (a b : CExpr)
  deriving DecidableEq, Repr

/-- Statements: `l = e;` and `if (a <= b) { l = e1; } else { l = e2; }`.  Covers what is used in
utilities/mechanisms/<name>/lib/src/*.c, for example drm19/lib/src/chem_utils.c:98-226. -/
inductive CStmt where
  | set (l : CLoc) (e : CExpr)
  | ite (a b : CExpr) (l : CLoc) (e1 e2 : CExpr)
  deriving DecidableEq, Repr

/-- Declared sizes of the arrays in scope; an index beyond it is undefined behaviour.  Covers what
is used in utilities/mechanisms/<name>/lib/src/*.c, for example drm19/lib/src/dydt.c:7-76. -/
abbrev CSizes := CArr → Nat

variable {S : Type}

/-- Memory: `none` is an uninitialised object.  Semantics of C (ISO C), for the sources in
utilities/mechanisms/<name>/lib/src/*.c. -/
abbrev CMem (S : Type) := CLoc → Option S

/-- Is the location inside of its array?  Semantics of C (ISO C), for the sources in
utilities/mechanisms/<name>/lib/src/*.c. -/
def CLoc.inRange (sz : CSizes) : CLoc → Bool
  | .var _ => true
  | .arr a i => decide (i < sz a)

section
variable [Add S] [Sub S] [Mul S] [Div S] [Neg S] [OfScientific S] [CMath S]

/-- Evaluation of an expression; `none` is undefined behaviour (reading an uninitialised
variable or element, or an element that does not exist).  Semantics of C (ISO C), for the sources in
utilities/mechanisms/<name>/lib/src/*.c. -/
def CExpr.eval (sz : CSizes) (σ : CMem S) : CExpr → Option S
  | .num m e => some (OfScientific.ofScientific m true e)
  | .rd l => if l.inRange sz then σ l else none
  | .neg a => do return - (← a.eval sz σ)
  | .add a b => do return (← a.eval sz σ) + (← b.eval sz σ)
  | .sub a b => do return (← a.eval sz σ) - (← b.eval sz σ)
  | .mul a b => do return (← a.eval sz σ) * (← b.eval sz σ)
  | .div a b => do return (← a.eval sz σ) / (← b.eval sz σ)
  | .exp a => do return CMath.exp (← a.eval sz σ)
  | .log a => do return CMath.log (← a.eval sz σ)
  | .log10 a => do return CMath.log10 (← a.eval sz σ)
  | .pow a b => do return CMath.pow (← a.eval sz σ) (← b.eval sz σ)
  | .fmax a b => do return CMath.fmax (← a.eval sz σ) (← b.eval sz σ)

/-- Assignment to a location; `none` if it does not exist.  Semantics of C (ISO C), for the sources
in utilities/mechanisms/<name>/lib/src/*.c. -/
def CMem.write (sz : CSizes) (σ : CMem S) (l : CLoc) (v : S) : Option (CMem S) :=
  if l.inRange sz then some (fun k => if k = l then some v else σ k) else none

variable [LE S] [DecidableLE S]

/-- Execution of a statement; `none` is undefined behaviour.  Semantics of C (ISO C), for the
sources in utilities/mechanisms/<name>/lib/src/*.c. -/
def CStmt.exec (sz : CSizes) (σ : CMem S) : CStmt → Option (CMem S)
  | .set l e => do σ.write sz l (← e.eval sz σ)
  | .ite a b l e1 e2 => do
    let x ← a.eval sz σ
    let y ← b.eval sz σ
    if x ≤ y then σ.write sz l (← e1.eval sz σ) else σ.write sz l (← e2.eval sz σ)

/-- Execution of the statements of a function body in order.  Semantics of C (ISO C), for the
sources in utilities/mechanisms/<name>/lib/src/*.c. -/
def execAll (sz : CSizes) : List CStmt → CMem S → Option (CMem S)
  | [], σ => some σ
  | s :: p, σ => do execAll sz p (← s.exec sz σ)

end

end DLB
