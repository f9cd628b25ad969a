import Verif.Model.Basic
/-
refMapping/mixtureFraction.C and refMapping/mixtureFractionRefMapper.C.
-/
set_option autoImplicit false

namespace DLB

variable {S : Type}

/-- The sub-dictionary `elements` of a species (mixtureFraction.C:42-49).  Other
elements are ignored by the code.  `label` counts are modelled by `Nat`. -/
structure Elements where
  C : Option Nat
  H : Option Nat
  O : Option Nat
  deriving Repr, DecidableEq

/-- The input of mixtureFraction.C:31-89: species names and weights from the thermo
package (`Wi`), and the dictionary `mixtureFractionProperties`.  `elements name`
is `none` if the dictionary has no entry for that species (a `FatalError`);
`oxidizer name` / `fuel name` is `none` if the species is not named. -/
structure MixFracDict (S : Type) where
  species : List String
  W : String → S
  elements : String → Option Elements
  oxidizer : String → Option S
  fuel : String → Option S

/-- mixtureFraction.H:111-114, the members `alpha_` and `beta_`. -/
structure MixtureFraction (S : Type) where
  alpha : List S
  beta0 : S
  beta1 : S
  deriving Repr

section
variable [Zero S] [Add S] [Sub S] [Mul S] [Div S] [Neg S] [NatCast S]
variable [LT S] [DecidableLT S] [Consts S]

/-- mixtureFraction.C:40-51, the loop body for one species. -/
def mixFracAlpha (d : MixFracDict S) (name : String) : Except Fault S :=
  match d.elements name with
  | none => .error .fatal
  | some e =>
    let a0 := Consts.two * ((e.C.getD 0 : Nat) : S) / d.W name
    let a1 := Consts.half * ((e.H.getD 0 : Nat) : S) / d.W name
    let a2 := (-Consts.one) * ((e.O.getD 0 : Nat) : S) / d.W name
    .ok (a0 + a1 + a2)

/-- Sum `acc + Σ alpha[i]*y[i]` accumulated in the order of `y`
(mixtureFraction.C:77-81 and 96-100).  Reading `alpha` out of range is undefined. -/
def dotAcc (acc : S) : List S → List S → Except Fault S
  | _, [] => .ok acc
  | [], _ :: _ => .error .ub
  | a :: as, y :: ys => dotAcc (acc + a * y) as ys

/-- mixtureFraction.C:38-89 `initialize`.  The stoichiometric mixture fraction
(line 85) is only printed; see `stoichMixtureFraction`. -/
def mixFracInitialize (d : MixFracDict S) : Except Fault (MixtureFraction S) := do
  let alpha ← d.species.mapM (mixFracAlpha d)
  let Yox := d.species.map (fun s => (d.oxidizer s).getD 0)
  let Yfu := d.species.map (fun s => (d.fuel s).getD 0)
  let YoxTot := Yox.foldl (· + ·) 0
  let YfuTot := Yfu.foldl (· + ·) 0
  if Consts.SMALL < absS (Consts.one - YoxTot) ∨ Consts.SMALL < absS (Consts.one - YfuTot) then
    .error .fatal
  else do
    let b0 ← dotAcc 0 alpha Yox
    let b1 ← dotAcc 0 alpha Yfu
    .ok ⟨alpha, b0, b1⟩

/-- mixtureFraction.C:85. -/
def stoichMixtureFraction (m : MixtureFraction S) : S :=
  (0 - m.beta0) / (m.beta1 - m.beta0)

/-- mixtureFraction.C:93-106 `massFractionToMixtureFraction`. -/
def massFractionToMixtureFraction (m : MixtureFraction S) (y : List S) : Except Fault S := do
  let beta ← dotAcc 0 m.alpha y
  .ok ((beta - m.beta0) / (m.beta1 - m.beta0))

/-- mixtureFractionRefMapper.H:111-126, the members used after construction. -/
structure RefMapper (S : Type) where
  active : Bool
  Ztolerance : S
  Ttolerance : S
  mixFrac : MixtureFraction S

/-- The sub-dictionary `refmapping` of the chemistry properties.  `mixFrac` is `none` if there is
no sub-dictionary `mixtureFractionProperties`.  mixtureFractionRefMapper.H:78-83. -/
structure RefMapDict (S : Type) where
  active : Option Bool
  tolerance : Option S
  deltaT : Option S
  mixFrac : Option (MixFracDict S)

/-- mixtureFractionRefMapper.H:77-92, the constructor.  Without `active` the mixture fraction
object is default constructed (empty lists) and not used. -/
def refMapperConstruct (d : RefMapDict S) : Except Fault (RefMapper S) :=
  if d.active.getD false then
    match d.mixFrac with
    | none => .error .fatal
    | some md => do
      let mf ← mixFracInitialize md
      .ok ⟨true, d.tolerance.getD Consts.Ztol, d.deltaT.getD Consts.vGreat, mf⟩
  else .ok ⟨false, d.tolerance.getD Consts.Ztol, d.deltaT.getD Consts.vGreat, ⟨[], 0, 0⟩⟩

/-- mixtureFractionRefMapper.C:29-41 `shouldMap`. -/
def shouldMap (m : RefMapper S) (y : List S) : Except Fault Bool :=
  if m.active then do
    let Z ← massFractionToMixtureFraction m.mixFrac y
    .ok (decide (Z < m.Ztolerance))
  else .ok false

/-- mixtureFractionRefMapper.C:45-48 `temperatureWithinRange`. -/
def temperatureWithinRange (m : RefMapper S) (Ti Tref : S) : Bool :=
  decide (absS (Ti - Tref) < m.Ttolerance)

end
end DLB
