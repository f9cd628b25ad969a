import Verif.Model.CLang
/-
A shipped pyJac mechanism library: its function bodies (filled in by the generated
`Verif/Mech/*.lean`) and the functions they implement.
-/
set_option autoImplicit false

namespace DLB

/-- The sources of one mechanism, /repo/utilities/mechanisms/<name>/lib/src. `nsp`, `nFwd`, `nRev`, `nPresMod` are `NSP`,
`FWD_RATES`, `REV_RATES`, `PRES_MOD_RATES` of mechanism.h; the blocks are the consecutive
parts of the function bodies that belong to one reaction.  Functions with their lines: see the
definitions below. -/
structure Mech where
  nsp : Nat
  nFwd : Nat
  nRev : Nat
  nPresMod : Nat
  rateStart : List CStmt
  rateBlocks : List (List CStmt)
  presModStart : List CStmt
  presModBlocks : List (List CStmt)
  specStart : List CStmt
  specBlocks : List (List CStmt)
  specRest : List CStmt
  evalConc : List CStmt
  evalH : List CStmt
  evalCp : List CStmt
  dydtCpAvg : List CStmt
  dydtRest : List CStmt
  mole2mass : List CStmt
  mass2mole : List CStmt
  getDensity : List CStmt
  getDensityResult : CExpr
  applyMask : List CStmt
  applyReverseMask : List CStmt

namespace Mech

variable (M : Mech)

/-- Sizes of the arrays in scope, as declared in dydt.c (conc, fwd_rates, rev_rates, pres_mod, cp, h) and
mechanism.c (temp); `&y[1]` and `&dy[1]` of arrays of `NSP` entries leave `NSP - 1` entries (`ySize`, `spRates`);
`X`, `Y` have `NSP - 1` entries, the least any caller provides (mechanism.c: `double Yi[NSP - 1]`).
utilities/mechanisms/<name>/lib/src/dydt.c: drm19:7-76, gri30:7-133, yao:7-135. -/
def sizes (ySize : Nat) : CSizes
  | .C => M.nsp
  | .fwd => M.nFwd
  | .rev => M.nRev
  | .presMod => M.nPresMod
  | .spRates => M.nsp - 1
  | .X => M.nsp - 1
  | .Y => M.nsp - 1
  | .y => ySize
  | .dy => M.nsp
  | .cp => M.nsp
  | .h => M.nsp
  | .temp => M.nsp
  | .dBdT => M.nsp
  | .jac => M.nsp * M.nsp

/-- Sizes with `y` the species part of the state.  In the calls of dydt.c,
utilities/mechanisms/<name>/lib/src/dydt.c: drm19:7-76, gri30:7-133, yao:7-135. -/
abbrev szS : CSizes := M.sizes (M.nsp - 1)
/-- Sizes with `y` the full state (temperature and species), or all species.  In the calls of
dydt.c, utilities/mechanisms/<name>/lib/src/dydt.c: drm19:7-76, gri30:7-133, yao:7-135. -/
abbrev szF : CSizes := M.sizes M.nsp

variable {S : Type} [Add S] [Sub S] [Mul S] [Div S] [Neg S] [OfScientific S] [CMath S]
  [LE S] [DecidableLE S]

/-- `eval_conc(T, pres, y, &y_N, &mw_avg, &rho, conc)` of chem_utils.c; the outputs are read off the returned memory.
utilities/mechanisms/<name>/lib/src/chem_utils.c: drm19:12-53, gri30:12-105, yao:12-108. -/
def callEvalConc (T pres : S) (y : Nat → Option S) : Option (CMem S) :=
  execAll M.szS M.evalConc fun
    | .var .T => some T
    | .var .pres => some pres
    | .arr .y i => y i
    | _ => none

/-- `eval_rxn_rates(T, pres, C, fwd_rxn_rates, rev_rxn_rates)` of rxn_rates.c.
utilities/mechanisms/<name>/lib/src/rxn_rates.c: drm19:2-1016, gri30:2-3862, yao:2-3652. -/
def callRxnRates (T pres : S) (conc : Nat → Option S) : Option (CMem S) :=
  execAll M.szS (M.rateStart ++ M.rateBlocks.flatten) fun
    | .var .T => some T
    | .var .pres => some pres
    | .arr .C i => conc i
    | _ => none

/-- `get_rxn_pres_mod(T, pres, C, pres_mod)` of rxn_rates_pres_mod.c.
utilities/mechanisms/<name>/lib/src/rxn_rates_pres_mod.c: drm19:5-120, gri30:5-339, yao:5-294. -/
def callPresMod (T pres : S) (conc : Nat → Option S) : Option (CMem S) :=
  execAll M.szS (M.presModStart ++ M.presModBlocks.flatten) fun
    | .var .T => some T
    | .var .pres => some pres
    | .arr .C i => conc i
    | _ => none

/-- Where `eval_spec_rates` leaves the molar production rate of species `s`: `sp_rates[s]`, or `*dy_N` for the last species.
utilities/mechanisms/<name>/lib/src/spec_rates.c: drm19:4-767, gri30:4-3111, yao:4-2507. -/
def _root_.DLB.specLoc (nsp s : Nat) : CLoc := if s + 1 = nsp then .var .dyN else .arr .spRates s

/-- `eval_spec_rates(fwd_rates, rev_rates, pres_mod, sp_rates, &dy_N)` of spec_rates.c.
utilities/mechanisms/<name>/lib/src/spec_rates.c: drm19:4-767, gri30:4-3111, yao:4-2507. -/
def callSpecRates (fwd rev pm : Nat → Option S) : Option (CMem S) :=
  execAll M.szS (M.specStart ++ M.specBlocks.flatten ++ M.specRest) fun
    | .arr .fwd i => fwd i
    | .arr .rev i => rev i
    | .arr .presMod i => pm i
    | _ => none

/-- `eval_cp(T, cp)` of chem_utils.c.  utilities/mechanisms/<name>/lib/src/chem_utils.c:
drm19:488-616, gri30:1168-1488, yao:1192-1518. -/
def callCp (T : S) : Option (CMem S) :=
  execAll M.szS M.evalCp fun
    | .var .T => some T
    | _ => none

/-- `eval_h(T, h)` of chem_utils.c.  utilities/mechanisms/<name>/lib/src/chem_utils.c: drm19:98-226,
gri30:202-522, yao:208-534. -/
def callH (T : S) : Option (CMem S) :=
  execAll M.szS M.evalH fun
    | .var .T => some T
    | _ => none

/-- `dydt(t, pres, y, dy)` of dydt.c for `CONP` (header.h defines it): `y[0]` is the temperature, `y[i+1]` the mass fraction
of species `i`; the last species is not part of the state.  Result: the memory in which `dy` can be read.
`dy` is treated as uninitialised on entry.  `t` is not used by the code.
utilities/mechanisms/<name>/lib/src/dydt.c: drm19:7-76, gri30:7-133, yao:7-135. -/
def callDydt (pres : S) (y : Nat → S) : Option (CMem S) := do
  let σc ← M.callEvalConc (y 0) pres (fun i => some (y (i + 1)))
  let conc := fun i => σc (.arr .C i)
  let σr ← M.callRxnRates (y 0) pres conc
  let σp ← M.callPresMod (y 0) pres conc
  let σs ← M.callSpecRates (fun i => σr (.arr .fwd i)) (fun i => σr (.arr .rev i)) (fun i => σp (.arr .presMod i))
  let σcp ← M.callCp (y 0)
  let σh ← M.callH (y 0)
  execAll M.szF (M.dydtCpAvg ++ M.dydtRest) fun
    | .arr .y i => some (y i)
    | .var .yN => σc (.var .yN)
    | .var .rho => σc (.var .rho)
    | .var .dyN => σs (.var .dyN)
    | .arr .dy 0 => none
    | .arr .dy (i + 1) => σs (.arr .spRates i)
    | .arr .cp i => σcp (.arr .cp i)
    | .arr .h i => σh (.arr .h i)
    | _ => none

/-- `mole2mass(X, Y)` of mass_mole.c.  utilities/mechanisms/<name>/lib/src/mass_mole.c: drm19:8-61,
gri30:8-129, yao:8-132. -/
def callMole2mass (X : Nat → S) : Option (CMem S) :=
  execAll M.szS M.mole2mass fun
    | .arr .X i => some (X i)
    | _ => none

/-- `mass2mole(Y, X)` of mass_mole.c.  utilities/mechanisms/<name>/lib/src/mass_mole.c:
drm19:68-122, gri30:136-258, yao:139-264. -/
def callMass2mole (Y : Nat → S) : Option (CMem S) :=
  execAll M.szS M.mass2mole fun
    | .arr .Y i => some (Y i)
    | _ => none

/-- `getDensity(temp, pres, X)` of mass_mole.c.  utilities/mechanisms/<name>/lib/src/mass_mole.c:
drm19:131-163, gri30:267-335, yao:273-343. -/
def callGetDensity (T pres : S) (X : Nat → S) : Option S := do
  let σ ← execAll M.szS M.getDensity fun
    | .var .T => some T
    | .var .pres => some pres
    | .arr .X i => some (X i)
    | _ => none
  M.getDensityResult.eval M.szS σ

/-- `apply_mask(y_specs)` of mechanism.c: `memcpy` to `temp`, then the assignments.
utilities/mechanisms/<name>/lib/src/mechanism.c: drm19:5-29, gri30:5-61, yao:5-62. -/
def callMask (y : Nat → S) : Option (CMem S) :=
  execAll M.szF M.applyMask fun
    | .arr .y i => some (y i)
    | .arr .temp i => some (y i)
    | _ => none

/-- `apply_reverse_mask(y_specs)` of mechanism.c.  utilities/mechanisms/<name>/lib/src/mechanism.c:
drm19:31-55, gri30:63-119, yao:64-121. -/
def callReverseMask (y : Nat → S) : Option (CMem S) :=
  execAll M.szF M.applyReverseMask fun
    | .arr .y i => some (y i)
    | .arr .temp i => some (y i)
    | _ => none

end Mech
end DLB
