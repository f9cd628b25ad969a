import Verif.Model.Stateful
import Verif.Model.World
/-
A mesh whose cells are distributed over ranks, and runs on it as the user sees them: fields of the
whole mesh.  (The distribution is made by OpenFOAM's `decomposePar`, which is not modelled: any
distribution is allowed.)
-/
set_option autoImplicit false

namespace DLB

/-- The cells `0 .. N-1` of a mesh distributed over `n` ranks: cell `c` is cell `localOf c` of rank
`rankOf c`, and cell `i` of rank `r` is cell `globalOf r i` of the mesh. -/
structure Decomposition (N n : Nat) where
  nCells : Fin n → Nat
  rankOf : Nat → Fin n
  localOf : Nat → Nat
  globalOf : Fin n → Nat → Nat
  local_lt : ∀ c, c < N → localOf c < nCells (rankOf c)
  global_lt : ∀ r i, i < nCells r → globalOf r i < N
  global_local : ∀ c, c < N → globalOf (rankOf c) (localOf c) = c
  local_global : ∀ r i, i < nCells r → rankOf (globalOf r i) = r ∧ localOf (globalOf r i) = i

variable {S : Type} {N n : Nat}

/-- What rank `r` has of the flow fields of the mesh. -/
def Decomposition.flow (D : Decomposition N n) (g : Flow S) (r : Fin n) : Flow S where
  nCells := D.nCells r
  Y := fun j i => g.Y j (D.globalOf r i)
  T := fun i => g.T (D.globalOf r i)
  p := fun i => g.p (D.globalOf r i)
  rho := fun i => g.rho (D.globalOf r i)
  deltaT := fun i => g.deltaT (D.globalOf r i)

/-- The fields of the mesh after a chemistry step. -/
structure Gathered (S : Type) where
  RR : Nat → Nat → S
  deltaTChem : Nat → S
  refMap : Nat → Nat

/-- The fields of the mesh (species below `nSpecie`, cells below `N`), collected from the ranks. -/
def Decomposition.gather [Zero S] (D : Decomposition N n) (nSpecie : Nat)
    (F : Fin n → RankFields S) : Gathered S where
  RR := fun j c => if c < N ∧ j < nSpecie then (F (D.rankOf c)).RR j (D.localOf c) else 0
  deltaTChem := fun c => if c < N then (F (D.rankOf c)).deltaTChem (D.localOf c) else 0
  refMap := fun c => if c < N then (F (D.rankOf c)).refMap (D.localOf c) else 0

section
variable [Zero S] [Add S] [Sub S] [Mul S] [Div S] [Neg S] [NatCast S]
variable [LT S] [DecidableLT S] [LE S] [DecidableLE S] [Consts S]

/-- A run of `k` time steps of a flow solver with state `Ω`, coupled to the chemistry on the ranks of
`D`: in every step the chemistry sees the flow `flowOf ω`, and the flow solver advances using the
fields of the mesh.  `clk i`, `active i` are clocks and balancer switch `i` steps before the end. -/
def runOn {Ω : Type} (M : ChemModel S) (parRun : Bool)
    (sort : List (ChemistryLoad S) → List (ChemistryLoad S)) (D : Decomposition N n)
    (flowOf : Ω → Flow S) (advance : Ω → Gathered S → Ω)
    (clk : Nat → Fin n → Nat → S) (active : Nat → Bool) :
    Nat → Ω → (Fin n → RankFields S) → Except Fault (List (Gathered S))
  | 0, _, _ => .ok []
  | k + 1, ω, F => do
    let res ← solveWorld { M with active := active k } parRun sort (clk k) (D.flow (flowOf ω)) F
    let F' := fun r => (res r).1
    let rest ← runOn M parRun sort D flowOf advance clk active k
      (advance ω (D.gather M.nSpecie F')) F'
    .ok (D.gather M.nSpecie F' :: rest)

/-- The same with solver objects that keep their work arrays from cell to cell and step to step. -/
def runOnW {Ω Scr : Type} (M : StatefulModel S Scr) (parRun : Bool)
    (sort : List (ChemistryLoad S) → List (ChemistryLoad S)) (D : Decomposition N n)
    (flowOf : Ω → Flow S) (advance : Ω → Gathered S → Ω)
    (clk : Nat → Fin n → Nat → S) (active : Nat → Bool) :
    Nat → Ω → (Fin n → Scr) → (Fin n → RankFields S) → Except Fault (List (Gathered S))
  | 0, _, _, _ => .ok []
  | k + 1, ω, w, F => do
    let (w, res) ← solveWorldW { M with base := { M.base with active := active k } } parRun sort
      (clk k) (D.flow (flowOf ω)) w F
    let F' := fun r => (res r).1
    let rest ← runOnW M parRun sort D flowOf advance clk active k
      (advance ω (D.gather M.base.nSpecie F')) w F'
    .ok (D.gather M.base.nSpecie F' :: rest)

/-- The chemical time steps of the mesh with which a run continues after the steps `trace`. -/
def lastDeltaT (D : Decomposition N n) (F : Fin n → RankFields S) (trace : List (Gathered S)) :
    Nat → S :=
  match trace.getLast? with
  | none => fun c => (F (D.rankOf c)).deltaTChem (D.localOf c)
  | some v => v.deltaTChem

end
end DLB
