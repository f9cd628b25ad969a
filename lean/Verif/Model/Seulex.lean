import Verif.Model.OdeSolver
/-
src/ODE_DLB/ODESolvers/seulex_LAPACK/seulex_LAPACK.C: the extrapolation stepper.

The number of equations is `n + 1` (the code reads entry 0 of several fields).  Arrays indexed by
the column `k` of the extrapolation table have their sizes checked on every access; fields indexed
by the equation are functions on `Fin (n + 1)`.
-/
set_option autoImplicit false

namespace DLB

/-- The mathematical library functions used by seulex_LAPACK.C, without any laws.  `toInt` is the
conversion `int(x)` (truncation).  seulex_LAPACK.C:197, 354-355, 439-450. -/
class MathOps (S : Type) where
  sqrt : S → S
  pow : S → S → S
  log10 : S → S
  toInt : S → Int

variable {S : Type} {n : Nat}

/-- seulex_LAPACK.H:79 -/
def kMaxx : Nat := 12
/-- seulex_LAPACK.H:80 -/
def iMaxx : Nat := kMaxx + 1

/-- seulex_LAPACK.C:80-86: the sequence of sub-step numbers (the code stores the first `iMaxx`). -/
def nSeq : Nat → Nat
  | 0 => 2
  | 1 => 3
  | i + 2 => 2 * nSeq i

/-- A square matrix: row, column.  `scalarSquareMatrix`, as in seulex_LAPACK.C:367. -/
abbrev Mat (S : Type) (N : Nat) := Fin N → Fin N → S

/-- The system of equations (`odes_`), the linear solver, the tolerances, and a bound on the number
of attempts of one step.
* `derivatives`, `jacobian`: the virtual functions of ODESystem.H, called with `li` fixed; both
  overwrite their output completely; `dfdx` is not used by the solver and left out;
* `linearSolve a b`: LAPACK's `dgetrf` followed by `dgetrs` for one right-hand side with
  `TRANS = 'N'`, for a matrix stored in the flat array `a` with leading dimension `n + 1`.  The code
  continues when they report an error;
* `jacRedo`: seulex_LAPACK.C:55. -/
structure SeulexEnv (S : Type) (n : Nat) where
  derivatives : S → Vec S (n + 1) → Vec S (n + 1)
  jacobian : S → Vec S (n + 1) → Mat S (n + 1)
  linearSolve : (Nat → S) → Vec S (n + 1) → Vec S (n + 1)
  absTol : Vec S (n + 1)
  relTol : Vec S (n + 1)
  jacRedo : S
  fuel : Nat

/-- The mutable members that live longer than one call: seulex_LAPACK.H:98-109.  Not included:
`dfdx_`, `a_`, `pivotIndices_` (not used), `y0_`, `scale_`, `ySequence_`, `dy_`, `yTemp_`, `dydx_`
(written completely before they are read in every call of `solve` or `seul`: lines 343, 358-361, 278,
150, 165, 199). -/
structure Scratch (S : Type) (n : Nat) where
  theta : S
  kTarg : Nat
  table : Nat → Vec S (n + 1)
  dfdy : Mat S (n + 1)
  dxOpt : Nat → S
  temp : Nat → S

section
variable [Zero S] [Add S] [Sub S] [Mul S] [Div S] [Neg S] [NatCast S] [OfScientific S]
variable [LT S] [DecidableLT S] [LE S] [DecidableLE S] [BEq S] [Consts S] [MathOps S]

/-- seulex_LAPACK.C:55: `min(1e-4, min(relTol_))`; `min` of a field starts from its first entry
(OpenFOAM FieldFunctions.C). -/
def jacRedoOf (relTol : Vec S (n + 1)) : S :=
  foamMin 1e-4 ((List.finRange (n + 1)).foldl (fun m i => foamMin (relTol i) m) (relTol 0))

/-- seulex_LAPACK.C:78,87-92: work estimates, with `cpuFunc = 1`, `cpuJac = 5`, `cpuLU = 1`,
`cpuSolve = 1`. -/
def cpu : Nat → S
  | 0 => ((5 : Nat) : S) + ((1 : Nat) : S) +
      ((nSeq 0 : Nat) : S) * (((1 : Nat) : S) + ((1 : Nat) : S))
  | k + 1 => cpu k + ((nSeq (k + 1) - 1 : Nat) : S) * (((1 : Nat) : S) + ((1 : Nat) : S)) +
      ((1 : Nat) : S)

/-- seulex_LAPACK.C:95-102: the extrapolation coefficients.  Only the entries `l < k` are set;
reading any other one is reading an uninitialised value. -/
def coeff (k l : Nat) : Except Fault S :=
  if k < iMaxx ∧ l < k then
    .ok (((1 : Nat) : S) / (((nSeq k : Nat) : S) / ((nSeq l : Nat) : S) - ((1 : Nat) : S)))
  else .error .ub

/-- OpenFOAM `sqr`.  seulex_LAPACK.C:195, 224, 248, 381, 427. -/
def sqr (x : S) : S := x * x

/-- seulex_LAPACK.C:137-144: the flat array handed to LAPACK.  Entry `j*n_ + i` is
`-dfdy_[i][j]`, plus `1/dx` on the diagonal.  (Each entry is written once by the loops, the diagonal
updated once; written here as a function of the position.) -/
def systemArray (dfdy : Mat S (n + 1)) (dx : S) (pos : Nat) : S :=
  if h : pos < (n + 1) * (n + 1) then
    let j : Fin (n + 1) := ⟨pos / (n + 1), Nat.div_lt_of_lt_mul h⟩
    let i : Fin (n + 1) := ⟨pos % (n + 1), Nat.mod_lt _ (Nat.succ_pos n)⟩
    if i = j then -dfdy i j + ((1 : Nat) : S) / dx else -dfdy i j
  else 0

/-- seulex_LAPACK.C:192-197 (and similar): `sqrt(Σ sqr(v_i/scale_i))`. -/
def scaledNorm (scale v : Vec S (n + 1)) : S :=
  MathOps.sqrt ((List.finRange (n + 1)).foldl (fun s i => s + sqr (v i / scale i)) 0)

/-- seulex_LAPACK.C:218-225: the sum of squares that stops with `vGreat` when a component exceeds
`sqrt(vGreat)`. -/
def guardedSum (scale v : Vec S (n + 1)) : List (Fin (n + 1)) → S → S
  | [], acc => acc
  | i :: is, acc =>
    if MathOps.sqrt Consts.vGreat < absS (v i) then Consts.vGreat
    else guardedSum scale v is (acc + sqr (v i / scale i))

/-- Result of `seul`: whether it succeeded, `theta_`, and the contents of `y` if it did.
seulex_LAPACK.C:107-282. -/
structure SeulResult (S : Type) (n : Nat) where
  ok : Bool
  theta : S
  y : Vec S (n + 1)

/-- seulex_LAPACK.C:185: the temperature check. -/
def temperatureBad (T : S) : Bool :=
  decide (T ≤ ((200 : Nat) : S)) || decide (((5000 : Nat) : S) < T)

/-- seulex_LAPACK.C:190-233: the stability check of the first sub-step.  Returns the new
`theta_`. -/
def stabilityTheta (E : SeulexEnv S n) (a : Nat → S) (x0 dx : S) (scale yTemp dy : Vec S (n + 1)) :
    S :=
  let dy1 := scaledNorm scale dy
  let dydx := E.derivatives (x0 + dx) yTemp
  let dy := E.linearSolve a (fun i => dydx i - dy i / dx)
  let dy2 := MathOps.sqrt (guardedSum scale dy (List.finRange (n + 1)) 0)
  dy2 / foamMax 1.0 (dy1 + Consts.SMALL)

/-- seulex_LAPACK.C:169-281, the loop of `seul` from `nn` on (`left = nSteps - nn`) and the final
update. -/
def seulLoop (E : SeulexEnv S n) (a : Nat → S) (x0 dx : S) (k : Nat) (scale : Vec S (n + 1)) :
    Nat → Nat → S → Vec S (n + 1) → Vec S (n + 1) → S → SeulResult S n
  | 0, _, _, yTemp, dy, theta => ⟨true, theta, fun i => yTemp i + dy i⟩
  | left + 1, nn, xnew, yTemp, dy, theta =>
    let yTemp := fun i => yTemp i + dy i
    let xnew := xnew + dx
    if temperatureBad (yTemp 0) then ⟨false, theta, yTemp⟩
    else
      let theta := if nn = 1 ∧ k ≤ 1 then stabilityTheta E a x0 dx scale yTemp dy else theta
      if nn = 1 ∧ k ≤ 1 ∧ 1.0 < theta then ⟨false, theta, yTemp⟩
      else
        let dy := E.linearSolve a (E.derivatives xnew yTemp)
        seulLoop E a x0 dx k scale left (nn + 1) xnew yTemp dy theta

/-- seulex_LAPACK.C:107-282 `seul`. -/
def seul (E : SeulexEnv S n) (dfdy : Mat S (n + 1)) (theta x0 : S) (y0 : Vec S (n + 1)) (dxTot : S)
    (k : Nat) (scale : Vec S (n + 1)) : Except Fault (SeulResult S n) :=
  if k < iMaxx then
    let dx := dxTot / ((nSeq k : Nat) : S)
    let a := systemArray dfdy dx
    let xnew := x0 + dx
    let dy := E.linearSolve a (E.derivatives xnew y0)
    .ok (seulLoop E a x0 dx k scale (nSeq k - 1) 1 xnew y0 dy theta)
  else .error .ub

/-- seulex_LAPACK.C:293-299, the loop of `extrapolate` from `j` down to 1. -/
def extrapolateRows (k : Nat) : Nat → (Nat → Vec S (n + 1)) → Except Fault (Nat → Vec S (n + 1))
  | 0, table => .ok table
  | j + 1, table => do
    let c ← coeff (S := S) k (j + 1)
    let row ← readAt kMaxx table (j + 1)
    let below ← readAt kMaxx table j
    let table ← writeAt kMaxx table j (fun i => row i + c * (row i - below i))
    extrapolateRows k j table

/-- seulex_LAPACK.C:286-305 `extrapolate`, for `k ≥ 1`. -/
def extrapolate (k : Nat) (table : Nat → Vec S (n + 1)) (y : Vec S (n + 1)) :
    Except Fault ((Nat → Vec S (n + 1)) × Vec S (n + 1)) := do
  let table ← extrapolateRows k (k - 1) table
  let c ← coeff (S := S) k 0
  let row ← readAt kMaxx table 0
  .ok (table, fun i => row i + c * (row i - y i))

/-- What changes during the attempts of one step.  seulex_LAPACK.C:375-535. -/
structure Inner (S : Type) (n : Nat) where
  y : Vec S (n + 1)
  theta : S
  kTarg : Nat
  table : Nat → Vec S (n + 1)
  dxOpt : Nat → S
  temp : Nat → S
  errOld : S

/-- How an iteration of the loop over `k` ends.  seulex_LAPACK.C:390-518. -/
inductive Outcome (S : Type) where
  | next
  | accept
  | reject (dxNew : S)

/-- seulex_LAPACK.C:475-480 (and 492-497, 505-513): reject, possibly lowering the target order, with
the optimal step for that order; `k` is the column whose work is compared with that of the previous
one. -/
def rejectWithOrder (st : Inner S n) (k : Nat) : Except Fault (Inner S n × Outcome S) := do
  let t1 ← if 1 < st.kTarg then readAt iMaxx st.temp (k - 1) else .ok 0
  let t0 ← if 1 < st.kTarg then readAt iMaxx st.temp k else .ok 0
  let st := if 1 < st.kTarg ∧ t1 < (0.7 : S) * t0 then { st with kTarg := st.kTarg - 1 } else st
  let dxNew ← readAt iMaxx st.dxOpt st.kTarg
  .ok (st, .reject dxNew)

/-- seulex_LAPACK.C:437-453: error of this column and the optimal step. -/
def optimalStep (dx err : S) (k : Nat) (st : Inner S n) : Except Fault (Inner S n) := do
  let errOld := foamMax ((4.0 : S) * err) ((1 : Nat) : S)
  let expo := (1.0 : S) / ((k + 1 : Nat) : S)
  let facmin := MathOps.pow (0.1 : S) expo
  let fac :=
    if err == (0.0 : S) then (1.0 : S) / facmin
    else foamMax (facmin / (4.0 : S))
      (foamMin ((1.0 : S) / facmin) ((0.93 : S) / MathOps.pow (err / (0.8 : S)) expo))
  let dxOpt ← writeAt iMaxx st.dxOpt k (absS (dx * fac))
  let temp ← writeAt iMaxx st.temp k (cpu k / absS (dx * fac))
  .ok { st with errOld := errOld, dxOpt := dxOpt, temp := temp }

/-- seulex_LAPACK.C:457-516: the decision after column `k`. -/
def decideOrder (first last prevReject : Bool) (err : S) (k : Nat) (st : Inner S n) :
    Except Fault (Inner S n × Outcome S) :=
  if (first || last) && decide (err ≤ (1.0 : S)) then .ok (st, .accept)
  else if k + 1 = st.kTarg ∧ (!prevReject && !first && !last) = true ∧ err ≤ (1.0 : S) then
    .ok (st, .accept)
  else if k + 1 = st.kTarg ∧ (!prevReject && !first && !last) = true ∧
      ¬ st.kTarg + 1 < iMaxx then .error .ub
  else if k + 1 = st.kTarg ∧ (!prevReject && !first && !last) = true ∧
      ((nSeq st.kTarg * nSeq (st.kTarg + 1) : Nat) : S) * (4.0 : S) < err then
    rejectWithOrder { st with kTarg := k } k
  else if k = st.kTarg ∧ err ≤ (1.0 : S) then .ok (st, .accept)
  else if k = st.kTarg ∧ ¬ k + 1 < iMaxx then .error .ub
  else if k = st.kTarg ∧ ((nSeq (k + 1) : Nat) : S) * (2.0 : S) < err then rejectWithOrder st k
  else if k = st.kTarg + 1 then
    if (1.0 : S) < err then rejectWithOrder st st.kTarg else .ok (st, .accept)
  else .ok (st, .next)

/-- seulex_LAPACK.C:424-429: the error estimate. -/
def errorEstimate (scale y row0 : Vec S (n + 1)) : S :=
  MathOps.sqrt ((List.finRange (n + 1)).foldl (fun s i => s + sqr ((y i - row0 i) / scale i)) 0 /
    ((n + 1 : Nat) : S))

/-- seulex_LAPACK.C:391-517: the body of the loop over `k`.  `scale_` is recomputed at line 426 from
`y0_`, which gives the values of line 360 again, so it is a constant of the call. -/
def column (E : SeulexEnv S n) (first last prevReject : Bool) (dfdy : Mat S (n + 1)) (x dx : S)
    (y0 scale : Vec S (n + 1)) (k : Nat) (st : Inner S n) :
    Except Fault (Inner S n × Outcome S) := do
  let r ← seul E dfdy st.theta x y0 dx k scale
  let st := { st with theta := r.theta }
  if r.ok = false then .ok (st, .reject (absS dx * (0.5 : S)))
  else if k = 0 then .ok ({ st with y := r.y }, .next)
  else do
    let table ← writeAt kMaxx st.table (k - 1) r.y
    let (table, y) ← extrapolate k table st.y
    let row0 ← readAt kMaxx table 0
    let st := { st with table := table, y := y }
    let err := errorEstimate scale y row0
    if (1.0 : S) / Consts.SMALL < err ∨ (1 < k ∧ st.errOld ≤ err) then
      .ok (st, .reject (absS dx * (0.5 : S)))
    else do
      let st ← optimalStep dx err k st
      decideOrder first last prevReject err k st

/-- Result of the loop over `k`: the value of `k` when the loop was left, the state, and the new
step if the attempt was rejected.  seulex_LAPACK.C:390-518. -/
structure Attempt (S : Type) (n : Nat) where
  k : Nat
  st : Inner S n
  reject : Option S

/-- seulex_LAPACK.C:390-518, the loop from `k` on.  `left` bounds the number of iterations. -/
def columnLoop (E : SeulexEnv S n) (first last prevReject : Bool) (dfdy : Mat S (n + 1)) (x dx : S)
    (y0 scale : Vec S (n + 1)) : Nat → Nat → Inner S n → Except Fault (Attempt S n)
  | left, k, st =>
    if k ≤ st.kTarg + 1 then
      match left with
      | 0 => .error .outOfFuel
      | left + 1 => do
        let (st, out) ← column E first last prevReject dfdy x dx y0 scale k st
        match out with
        | .next => columnLoop E first last prevReject dfdy x dx y0 scale left (k + 1) st
        | .accept => .ok ⟨k, st, none⟩
        | .reject dxNew => .ok ⟨k, st, some dxNew⟩
    else .ok ⟨k, st, none⟩

/-- What the attempts of a step leave behind.  seulex_LAPACK.C:375-537. -/
structure StepResult (S : Type) (n : Nat) where
  k : Nat
  st : Inner S n
  dfdy : Mat S (n + 1)
  dx : S
  prevReject : Bool

/-- seulex_LAPACK.C:375-535: attempts until one is accepted, at most `fuel` (the code has no bound).
The step underflow warning of lines 381-385 only prints and is left out. -/
def attempts (E : SeulexEnv S n) (forward first last : Bool) (x : S) (y0 scale : Vec S (n + 1)) :
    Nat → Bool → Bool → Mat S (n + 1) → S → Inner S n → Except Fault (StepResult S n)
  | 0, _, _, _, _, _ => .error .outOfFuel
  | fuel + 1, prevReject, jacUpdated, dfdy, dxNew, st => do
    let dx := if forward then dxNew else -dxNew
    let a ← columnLoop E first last prevReject dfdy x dx y0 scale (st.kTarg + 2) 0
      { st with errOld := 0 }
    match a.reject with
    | none => .ok ⟨a.k, a.st, dfdy, dx, prevReject⟩
    | some dxNew =>
      let theta := if jacUpdated then a.st.theta else (2.0 : S) * E.jacRedo
      let redo := !jacUpdated && decide (E.jacRedo < theta)
      let dfdy := if redo then E.jacobian x a.st.y else dfdy
      attempts E forward first last x y0 scale fuel true (jacUpdated || redo) dfdy dxNew
        { a.st with theta := theta }

/-- seulex_LAPACK.C:539-568: the optimal order. -/
def optimalOrder (k kTarg : Nat) (temp : Nat → S) : Except Fault Nat :=
  if k = 1 then .ok 2
  else if k ≤ kTarg then do
    let t1 ← readAt iMaxx temp (k - 1)
    let t0 ← readAt iMaxx temp k
    if t1 < (0.7 : S) * t0 then .ok (k - 1)
    else if t0 < (0.9 : S) * t1 then .ok (min (k + 1) (kMaxx - 1))
    else .ok k
  else do
    let t1 ← readAt iMaxx temp (k - 1)
    let t2 ← if 2 < k then readAt iMaxx temp (k - 2) else .ok 0
    let kopt := if 2 < k ∧ t2 < (0.7 : S) * t1 then k - 2 else k - 1
    let t0 ← readAt iMaxx temp k
    let topt ← readAt iMaxx temp kopt
    if t0 < (0.9 : S) * topt then .ok (min k (kMaxx - 1)) else .ok kopt

/-- seulex_LAPACK.C:569-593: the next order and the next step. -/
def nextStep (prevReject : Bool) (k kopt : Nat) (dx : S) (st : Inner S n) :
    Except Fault (Nat × S) :=
  if prevReject then do
    let d ← readAt iMaxx st.dxOpt (min kopt k)
    .ok (min kopt k, foamMin (absS dx) d)
  else if kopt ≤ k then do
    let d ← readAt iMaxx st.dxOpt kopt
    .ok (kopt, d)
  else do
    let d ← readAt iMaxx st.dxOpt k
    let t0 ← if k < st.kTarg then readAt iMaxx st.temp k else .ok 0
    let t1 ← if k < st.kTarg then readAt iMaxx st.temp (k - 1) else .ok 0
    let m := if k < st.kTarg ∧ t0 < (0.9 : S) * t1 then kopt + 1 else kopt
    if m < iMaxx then .ok (kopt, d * cpu m / cpu k) else .error .ub

/-- seulex_LAPACK.C:354-355: the initial target order. -/
def initialOrder (E : SeulexEnv S n) : Nat :=
  let logTol := -(MathOps.log10 (E.relTol 0 + E.absTol 0)) * (0.6 : S) + (0.5 : S)
  (max 1 (min ((kMaxx : Int) - 1) (MathOps.toInt logTol))).toNat

/-- seulex_LAPACK.C:333-597 `solve(x, y, li, step)`. -/
def seulexSolve (E : SeulexEnv S n) : Stepper S (n + 1) (Scratch S n) := fun scr x y step => do
  let temp ← writeAt iMaxx scr.temp 0 Consts.great
  let dx := step.dxTry
  let dxOpt ← writeAt iMaxx scr.dxOpt 0 (absS ((0.1 : S) * dx))
  let theta := if step.first || step.prevReject then (2 : Nat) * E.jacRedo else scr.theta
  let kTarg := if step.first then initialOrder E else scr.kTarg
  let scale := fun i => E.absTol i + E.relTol i * absS (y i)
  let jacUpdated := decide (E.jacRedo < theta)
  let dfdy := if jacUpdated then E.jacobian x y else scr.dfdy
  let r ← attempts E step.forward step.first step.last x y scale E.fuel step.prevReject jacUpdated
    dfdy (absS dx) ⟨y, theta, kTarg, scr.table, dxOpt, temp, 0⟩
  let kopt ← optimalOrder r.k r.st.kTarg r.st.temp
  let (kTarg, dxNew) ← nextStep r.prevReject r.k kopt r.dx r.st
  .ok (⟨r.st.theta, kTarg, r.st.table, r.dfdy, r.st.dxOpt, r.st.temp⟩, x + r.dx, r.st.y,
    { step with
      dxTry := if step.forward then dxNew else -dxNew
      dxDid := r.dx
      reject := false
      prevReject := false })

end
end DLB
