import Verif.Lemmas.MechField
import Verif.Model.Shipped
/-
All checks of a shipped mechanism.
-/
set_option autoImplicit false
set_option linter.unusedSectionVars false

namespace DLB

namespace Mech

/-- The molecular weights in mole2mass. -/
def weights (M : Mech) : List Dec := M.mole2mass.filterMap fun
  | .set (.var .mwAvg) (.add _ (.mul _ (.num m e))) => some (m, e)
  | _ => none

/-- The reciprocal molecular weights in eval_conc. -/
def recips (M : Mech) : List Dec := M.evalConc.filterMap fun
  | .set (.arr .C _) (.mul _ (.num m e)) => some (m, e)
  | _ => none

/-- The species in a sum of heat terms. -/
def heatOf : CExpr → List Nat
  | .add a b => heatOf a ++ heatOf b
  | .mul (.mul _ (.rd (.arr .h i))) _ => [i]
  | _ => []

/-- The species in the temperature equation of dydt. -/
def heatSpecies (M : Mech) : List Nat :=
  match M.dydtRest with
  | .set _ (.mul _ e) :: _ => heatOf e
  | _ => []

/-- The indices in a mask. -/
def permOf (p : List CStmt) : List Nat := p.filterMap fun
  | .set (.arr .y _) (.rd (.arr .temp i)) => some i
  | _ => none

end Mech

/-- The functions are instances of the templates. -/
def checkTemplates (M : Mech) : Bool :=
  decide (M.evalConc = evalConcT (M.nsp - 1) M.recips) &&
  decide (M.mole2mass = mole2massT (M.nsp - 1) M.weights) &&
  decide (M.mass2mole = mass2moleT (M.nsp - 1) M.weights) &&
  decide (M.getDensity = getDensityT (M.nsp - 1) M.weights) &&
  decide (M.dydtCpAvg = cpAvgT (M.nsp - 1)) &&
  decide (M.dydtRest = dydtRestT (M.nsp - 1) M.weights M.heatSpecies) &&
  decide (M.applyMask = maskT M.nsp (Mech.permOf M.applyMask)) &&
  decide (M.applyReverseMask = maskT M.nsp (Mech.permOf M.applyReverseMask))

/-- The masks are inverse permutations. -/
def checkMasks (M : Mech) : Bool :=
  (List.range M.nsp).all fun i =>
    decide ((Mech.permOf M.applyMask).getD i 0 < M.nsp) &&
    decide ((Mech.permOf M.applyReverseMask).getD i 0 < M.nsp) &&
    decide ((Mech.permOf M.applyMask).getD ((Mech.permOf M.applyReverseMask).getD i 0) 0 = i) &&
    decide ((Mech.permOf M.applyReverseMask).getD ((Mech.permOf M.applyMask).getD i 0) 0 = i)

/-- Species missing in the temperature equation take part in no reaction. -/
def checkHeat (M : Mech) (rs : List Reaction) : Bool :=
  decide (M.heatSpecies.Nodup) && M.heatSpecies.all (fun i => decide (i < M.nsp)) &&
  (List.range M.nsp).all fun s => M.heatSpecies.contains s || rs.all fun r => decide (r.net s = 0)

/-- Every reaction conserves every element. -/
def checkBalance (D : Package) : Bool :=
  D.reactions.all fun r =>
    (r.reactants.all fun s => decide (s < D.nsp)) && (r.products.all fun s => decide (s < D.nsp)) &&
    (List.range D.elements.length).all fun e =>
      decide ((r.products.map fun s => D.atomCount s e).sum = (r.reactants.map fun s => D.atomCount s e).sum)

/-- The literal is the weight up to 1e-15. -/
def weightOk (mw5 : Nat) (w : Dec) : Bool :=
  decide (0 < mw5) &&
  decide ((((w.1 * 10 ^ 5 : Nat) : Int) - ((mw5 * 10 ^ w.2 : Nat) : Int)).natAbs * 10 ^ 15 ≤ mw5 * 10 ^ w.2)

/-- The literal is the reciprocal of the weight up to 1e-15. -/
def recipOk (mw5 : Nat) (r : Dec) : Bool :=
  decide ((((r.1 * mw5 : Nat) : Int) - ((10 ^ 5 * 10 ^ r.2 : Nat) : Int)).natAbs * 10 ^ 15 ≤ 10 ^ 5 * 10 ^ r.2)

/-- All weights and reciprocals. -/
def checkWeights (D : Package) : Bool :=
  (List.range D.nsp).all fun s =>
    weightOk (D.weight5 s) (nth D.mech.weights s) && weightOk (D.weight5 s) (nth D.foamWeights s) &&
    recipOk (D.weight5 s) (nth D.mech.recips s) && decide (0 < (nth D.mech.recips s).1)

/-- The species orders. -/
def checkNames (D : Package) : Bool :=
  decide (D.foamNames = D.names) && decide (D.foamAtoms = D.atoms) &&
  decide (D.names.length = D.nsp) && decide (D.ctiNames.length = D.nsp) && decide (D.names.Nodup) &&
  decide (D.atoms.length = D.nsp) && D.atoms.all (fun a => decide (a.length = D.elements.length)) &&
  (List.range D.nsp).all fun i =>
    decide (D.names.getD i "" = D.ctiNames.getD ((Mech.permOf D.mech.applyMask).getD i 0) "")

/-- A mechanism that passes all checks. -/
structure Checked (D : Package) : Prop where
  sizes : checkSizes D.mech D.reactions = true
  rates : checkRates D.mech D.reactions = true
  ratesSafe : checkRatesSafe D.mech = true
  presMod : checkPresMod D.mech D.reactions = true
  presSafe : checkPresSafe D.mech = true
  spec : checkSpec D.mech D.reactions = true
  specSafe : checkSpecSafe D.mech = true
  thermoSafe : checkThermoSafe D.mech = true
  templates : checkTemplates D.mech = true
  masks : checkMasks D.mech = true
  heat : checkHeat D.mech D.reactions = true
  balance : checkBalance D = true
  weights : checkWeights D = true
  names : checkNames D = true

end DLB
