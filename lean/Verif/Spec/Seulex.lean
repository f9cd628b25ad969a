import Mathlib.LinearAlgebra.Lagrange
import Mathlib.LinearAlgebra.Matrix.NonsingularInverse
/-
What the extrapolation stepper is supposed to compute, written without reference to the model.
-/
set_option autoImplicit false

namespace DLB.Spec

variable {K : Type} [Field K] {N : Nat}

/-- `d` is the increment of one linearly implicit Euler step of size `h` from `y` at `x`, with
Jacobian `J`: `(I/h - J) d = f(x + h, y)`. -/
def EulerIncrement (J : Fin N → Fin N → K) (f : K → (Fin N → K) → Fin N → K) (h x : K)
    (y d : Fin N → K) : Prop :=
  ∀ i, d i / h - ∑ j, J i j * d j = f (x + h) y i

/-- `z` is reached from `y` at `x` by the given number of linearly implicit Euler steps of size `h`;
all states strictly between satisfy `inside`. -/
inductive EulerPath (J : Fin N → Fin N → K) (f : K → (Fin N → K) → Fin N → K)
    (inside : (Fin N → K) → Prop) (h : K) : Nat → K → (Fin N → K) → (Fin N → K) → Prop
  | one {x : K} {y d : Fin N → K} (hd : EulerIncrement J f h x y d) :
      EulerPath J f inside h 1 x y (fun i => y i + d i)
  | step {s : Nat} {x : K} {y d z : Fin N → K} (hd : EulerIncrement J f h x y d)
      (hin : inside (fun i => y i + d i))
      (hrest : EulerPath J f inside h (s + 1) (x + h) (fun i => y i + d i) z) :
      EulerPath J f inside h (s + 2) x y z

/-- The matrix held by an array in Fortran (column-major) order. -/
def columnMajor (N : Nat) (a : Nat → K) : Matrix (Fin N) (Fin N) K :=
  fun i j => a (i.val + j.val * N)

/-- Contract of LAPACK's `dgetrf` + `dgetrs`, in exact arithmetic: a regular system is solved. -/
def LapackContract (N : Nat) (solve : (Nat → K) → (Fin N → K) → Fin N → K) : Prop :=
  ∀ a b, (columnMajor N a).det ≠ 0 → (columnMajor N a).mulVec (solve a b) = b

/-- The contract is met by multiplying with the inverse. -/
theorem lapackContract_inverse (N : Nat) :
    LapackContract (K := K) N (fun a b => (columnMajor N a)⁻¹.mulVec b) := by
  intro a b h
  rw [Matrix.mulVec_mulVec, Matrix.mul_nonsing_inv _ (isUnit_iff_ne_zero.mpr h), Matrix.one_mulVec]

/-- The value at step size zero of the polynomial through the results `r l` obtained with the step
sizes `h l`, for the rows `l = a, ..., b`. -/
noncomputable def extrapolant (h r : Nat → K) (a b : Nat) : K :=
  (Lagrange.interpolate (Finset.Icc a b) h r).eval 0

/-- Number of sub-steps of row `l` of the extrapolation table: 2, 3, 4, 6, 8, 12, 16, ... -/
def stepNumber (l : Nat) : Nat := if l % 2 = 0 then 2 ^ (l / 2 + 1) else 3 * 2 ^ (l / 2)

/-- The matrix `I/h - J` of the sub-steps of size `h` is regular. -/
def Regular (J : Fin N → Fin N → K) (h : K) : Prop :=
  ((1 / h) • (1 : Matrix (Fin N) (Fin N) K) - Matrix.of J).det ≠ 0

/-- `z` is what extrapolation with the rows `0, ..., k` gives for a step `dx` from `y` at `x`: the
results of `stepNumber l` linearly implicit Euler steps, `l = 0, ..., k`, extrapolated to step size
zero. -/
def ExtrapolatedStep (J : Fin N → Fin N → K) (f : K → (Fin N → K) → Fin N → K)
    (inside : (Fin N → K) → Prop) (k : Nat) (x : K) (y : Fin N → K) (dx : K) (z : Fin N → K) :
    Prop :=
  ∃ r : Nat → Fin N → K,
    (∀ l, l ≤ k → EulerPath J f inside (dx / (stepNumber l : K)) (stepNumber l) x y (r l)) ∧
    ∀ i, z i = extrapolant (fun l => dx / (stepNumber l : K)) (fun l => r l i) 0 k

/-- A sequence of at least one step, each related by `R` to the one before. -/
inductive Chain {A : Type} (R : A → A → Prop) : A → A → Prop
  | one {a b : A} (h : R a b) : Chain R a b
  | cons {a b c : A} (h : R a b) (t : Chain R b c) : Chain R a c

/-- The right-hand side `f` is bounded near `(x, y)`. -/
def BoundedNear [LinearOrder K] (f : K → (Fin N → K) → Fin N → K) (x : K) (y : Fin N → K) : Prop :=
  ∃ ρ B : K, 0 < ρ ∧ ∀ x' z, |x' - x| ≤ ρ → (∀ i, |z i - y i| ≤ ρ) → ∀ i, |f x' z i| ≤ B

end DLB.Spec
