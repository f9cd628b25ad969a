import Verif.Model.Exact
import Mathlib.Algebra.Order.Field.Basic
import Mathlib.Algebra.Order.Ring.Abs
import Mathlib.Tactic.Linarith
import Mathlib.Tactic.Ring
import Mathlib.Tactic.Positivity
/-
Floating-point arithmetic with rounding.  A *format* is a rounding function on an ordered field;
its numbers are the fixed points of the rounding, and an operation returns the rounded exact
result, as IEEE 754 prescribes.  Not modelled: infinities, NaN and the sign of zero, that is,
overflow and division by zero.
-/
set_option autoImplicit false
set_option linter.unusedSectionVars false

namespace DLB

/-- A floating-point format over the ordered field `K`, with unit round-off `u` and the
largest underflow error `eta`.  `near_add` (sums have no underflow error) and `sterbenz` (the difference of
two numbers within a factor of two is exact) hold in every IEEE format because of gradual
underflow.  Arithmetic of the machine, no code of /repo: the type `scalar` of OpenFOAM in all its
files. -/
structure FloatFormat (K : Type) [Field K] [LinearOrder K] [IsStrictOrderedRing K] where
  rnd : K → K
  u : K
  eta : K
  u_nonneg : 0 ≤ u
  eta_nonneg : 0 ≤ eta
  mono : ∀ x y, x ≤ y → rnd x ≤ rnd y
  idem : ∀ x, rnd (rnd x) = rnd x
  neg_fixed : ∀ x, rnd x = x → rnd (-x) = -x
  near : ∀ x, |rnd x - x| ≤ u * |x| + eta
  near_add : ∀ x y, rnd x = x → rnd y = y → |rnd (x + y) - (x + y)| ≤ u * |x + y|
  sterbenz : ∀ x y, rnd x = x → rnd y = y → y / 2 ≤ x → x ≤ 2 * y → rnd (x - y) = x - y

variable {K : Type} [Field K] [LinearOrder K] [IsStrictOrderedRing K]

/-- The numbers of a format.  Arithmetic of the machine, no code of /repo: the type `scalar` of
OpenFOAM in all its files. -/
@[ext] structure Fl (F : FloatFormat K) where
  val : K
  ok : F.rnd val = val

/-- The number nearest to `x`, in the sense of the format.  Arithmetic of the machine, no code of
/repo: the type `scalar` of OpenFOAM in all its files. -/
def Fl.of (F : FloatFormat K) (x : K) : Fl F := ⟨F.rnd x, F.idem x⟩

variable {F : FloatFormat K}

instance : Add (Fl F) := ⟨fun a b => Fl.of F (a.val + b.val)⟩
instance : Sub (Fl F) := ⟨fun a b => Fl.of F (a.val - b.val)⟩
instance : Mul (Fl F) := ⟨fun a b => Fl.of F (a.val * b.val)⟩
instance : Div (Fl F) := ⟨fun a b => Fl.of F (a.val / b.val)⟩
instance : Neg (Fl F) := ⟨fun a => Fl.of F (-a.val)⟩
instance : Zero (Fl F) := ⟨Fl.of F 0⟩
/-- Conversion from `label` to `double`. -/
instance : NatCast (Fl F) := ⟨fun n => Fl.of F (n : K)⟩
instance : LT (Fl F) := ⟨fun a b => a.val < b.val⟩
instance : LE (Fl F) := ⟨fun a b => a.val ≤ b.val⟩
instance : DecidableLT (Fl F) := fun a b => inferInstanceAs (Decidable (a.val < b.val))
instance : DecidableLE (Fl F) := fun a b => inferInstanceAs (Decidable (a.val ≤ b.val))
instance : DecidableEq (Fl F) := fun a b => decidable_of_iff (a.val = b.val) Fl.ext_iff.symm

/-- The constants of the code, each rounded from its decimal. -/
instance : Consts (Fl F) where
  SMALL := Fl.of F (1 / 10 ^ 15)
  great := Fl.of F (10 ^ 15)
  filterFrac := Fl.of F (1 / 100)
  two := Fl.of F 2
  half := Fl.of F (1 / 2)
  one := Fl.of F 1
  Ztol := Fl.of F (1 / 10 ^ 4)
  vGreat := Fl.of F (10 ^ 300)

/-- Decimal constants of the code, rounded. -/
instance : OfScientific (Fl F) := ⟨fun k s e => Fl.of F (OfScientific.ofScientific k s e : K)⟩

theorem Fl.val_add (a b : Fl F) : (a + b).val = F.rnd (a.val + b.val) := rfl
theorem Fl.val_sub (a b : Fl F) : (a - b).val = F.rnd (a.val - b.val) := rfl
theorem Fl.val_mul (a b : Fl F) : (a * b).val = F.rnd (a.val * b.val) := rfl
theorem Fl.val_div (a b : Fl F) : (a / b).val = F.rnd (a.val / b.val) := rfl
theorem Fl.val_cast (n : Nat) : ((n : Nat) : Fl F).val = F.rnd (n : K) := rfl
theorem Fl.lt_iff (a b : Fl F) : a < b ↔ a.val < b.val := Iff.rfl
theorem Fl.le_iff (a b : Fl F) : a ≤ b ↔ a.val ≤ b.val := Iff.rfl

/-- Zero is a number of every format. -/
theorem FloatFormat.rnd_zero (F : FloatFormat K) : F.rnd 0 = 0 := by
  have h := F.near_add (F.rnd 0) (-F.rnd 0) (F.idem 0) (F.neg_fixed _ (F.idem 0))
  rw [add_neg_cancel, abs_zero, mul_zero, sub_zero] at h
  exact abs_eq_zero.1 (le_antisymm h (abs_nonneg _))

theorem Fl.val_zero : (0 : Fl F).val = 0 := F.rnd_zero

theorem FloatFormat.near_sub (F : FloatFormat K) {x y : K} (hx : F.rnd x = x) (hy : F.rnd y = y) :
    |F.rnd (x - y) - (x - y)| ≤ F.u * |x - y| := by
  have := F.near_add x (-y) hx (F.neg_fixed y hy)
  rwa [← sub_eq_add_neg] at this

theorem FloatFormat.rnd_nonneg (F : FloatFormat K) {x : K} (h : 0 ≤ x) : 0 ≤ F.rnd x := by
  have := F.mono 0 x h
  rwa [F.rnd_zero] at this

theorem FloatFormat.rnd_nonpos (F : FloatFormat K) {x : K} (h : x ≤ 0) : F.rnd x ≤ 0 := by
  have := F.mono x 0 h
  rwa [F.rnd_zero] at this

theorem FloatFormat.le_rnd (F : FloatFormat K) {x y : K} (hx : F.rnd x = x) (h : x ≤ y) :
    x ≤ F.rnd y := by
  have := F.mono x y h
  rwa [hx] at this

theorem FloatFormat.rnd_le (F : FloatFormat K) {x y : K} (hy : F.rnd y = y) (h : x ≤ y) :
    F.rnd x ≤ y := by
  have := F.mono x y h
  rwa [hy] at this

theorem FloatFormat.rnd_min (F : FloatFormat K) (x y : K) :
    min (F.rnd x) (F.rnd y) = F.rnd (min x y) := by
  rcases le_total x y with h | h
  · rw [min_eq_left h, min_eq_left (F.mono _ _ h)]
  · rw [min_eq_right h, min_eq_right (F.mono _ _ h)]

theorem Fl.val_stdMin (a b : Fl F) : (stdMin a b).val = min a.val b.val := by
  unfold stdMin
  split
  · next h => rw [min_eq_right (le_of_lt ((Fl.lt_iff _ _).1 h))]
  · next h => rw [min_eq_left (not_lt.1 h)]

theorem Fl.val_absS (a : Fl F) : (absS a).val = |a.val| := by
  unfold absS
  split
  · next h =>
    have h' : a.val < 0 := by have := (Fl.lt_iff _ _).1 h; rwa [Fl.val_zero] at this
    rw [abs_of_neg h']
    exact F.neg_fixed _ a.ok
  · next h =>
    have h' : ¬ a.val < 0 := by
      intro hc; apply h; show a.val < (0 : Fl F).val; rwa [Fl.val_zero]
    rw [abs_of_nonneg (not_lt.1 h')]

/-- What all IEEE formats have in common beyond the bounds: one and two are numbers, and the errors are
small.  (The bounds are far from sharp.)  Arithmetic of the machine, no code of /repo: the type
`scalar` of OpenFOAM in all its files. -/
structure FloatFormat.Usual (F : FloatFormat K) : Prop where
  one : F.rnd 1 = 1
  two : F.rnd 2 = 2
  u_le : F.u ≤ 1 / 10
  eta_le : F.eta ≤ 1 / 10 ^ 30

theorem Fl.val_foamMax (a b : Fl F) : (foamMax a b).val = max a.val b.val := by
  unfold foamMax
  split
  · next h => rw [max_eq_left (le_of_lt ((Fl.lt_iff _ _).1 h))]
  · next h => rw [max_eq_right (not_lt.1 h)]

theorem Fl.val_foamMin (a b : Fl F) : (foamMin a b).val = min a.val b.val := by
  unfold foamMin
  split
  · next h => rw [min_eq_left (le_of_lt ((Fl.lt_iff _ _).1 h))]
  · next h => rw [min_eq_right (not_lt.1 h)]

/-- A difference of equal numbers is zero. -/
theorem Fl.sub_self (a : Fl F) : a - a = 0 := by
  apply Fl.ext
  rw [Fl.val_sub, _root_.sub_self, F.rnd_zero, Fl.val_zero]

/-- Exact arithmetic is a format, without rounding errors.  Arithmetic of the machine, no code of
/repo: the type `scalar` of OpenFOAM in all its files. -/
def exactFormat (K : Type) [Field K] [LinearOrder K] [IsStrictOrderedRing K] : FloatFormat K where
  rnd := id
  u := 0
  eta := 0
  u_nonneg := le_refl 0
  eta_nonneg := le_refl 0
  mono := fun _ _ h => h
  idem := fun _ => rfl
  neg_fixed := fun _ _ => rfl
  near := fun x => by simp
  near_add := fun x y _ _ => by simp
  sterbenz := fun _ _ _ _ _ _ => rfl

end DLB
