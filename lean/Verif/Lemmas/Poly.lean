import Verif.Model.CLang
import Verif.Spec.Thermo
import Verif.Lemmas.SpecRates
import Mathlib.Algebra.Order.Field.Basic
import Mathlib.Algebra.Order.Ring.Abs
import Mathlib.Algebra.Order.Ring.Cast
import Mathlib.Data.Int.Cast.Field
import Mathlib.Tactic.Positivity
import Mathlib.Tactic.Push
/-
Polynomials in the temperature with decimal coefficients: extraction from C expressions, comparison of coefficients,
and a check of sign on an interval, with proofs that what is checked holds for all temperatures.
-/
set_option autoImplicit false
set_option linter.unusedSectionVars false

namespace DLB

/-- Integer coefficients, lowest degree first. -/
abbrev IPoly := List Int

namespace IPoly

/-- Sum. -/
def add : IPoly → IPoly → IPoly
  | [], q => q
  | p, [] => p
  | a :: p, b :: q => (a + b) :: add p q

/-- Multiple. -/
def smul (c : Int) (p : IPoly) : IPoly := p.map (c * ·)

/-- Product. -/
def mul : IPoly → IPoly → IPoly
  | [], _ => []
  | a :: p, q => add (smul a q) (0 :: mul p q)

/-- `p(a + x)` -/
def shift (a : Int) : IPoly → IPoly
  | [] => []
  | c :: p => add [c] (mul [a, 1] (shift a p))

/-- A lower bound on `[0, w]`. -/
def lower (w : Int) : IPoly → Int
  | [] => 0
  | c :: p => let l := lower w p; if l ≤ 0 then c + w * l else c

/-- Is the polynomial checked to be nonnegative on `[a, b]`, by bisection? -/
def nonnegOn (p : IPoly) : Nat → Nat → Nat → Bool
  | a, b, 0 => decide (0 ≤ lower ((b - a : Nat) : Int) (shift a p))
  | a, b, n + 1 => decide (0 ≤ lower ((b - a : Nat) : Int) (shift a p)) ||
    (nonnegOn p a ((a + b) / 2) n && nonnegOn p ((a + b) / 2) b n)

section
variable {K : Type} [Field K]

/-- Value at `x`. -/
def eval (x : K) : IPoly → K
  | [] => 0
  | c :: p => (c : K) + x * eval x p

theorem eval_add (x : K) (p q : IPoly) : eval x (add p q) = eval x p + eval x q := by
  induction p, q using add.induct with
  | case1 q => simp [add, eval]
  | case2 p h => cases p <;> simp [add, eval]
  | case3 a p b q ih => simp only [add, eval, ih]; push_cast; ring

theorem eval_smul (x : K) (c : Int) (p : IPoly) : eval x (smul c p) = (c : K) * eval x p := by
  induction p with
  | nil => simp [smul, eval]
  | cons a p ih =>
    have : smul c (a :: p) = (c * a) :: smul c p := rfl
    rw [this]
    simp only [eval, ih]; push_cast; ring

theorem eval_mul (x : K) (p q : IPoly) : eval x (mul p q) = eval x p * eval x q := by
  induction p with
  | nil => simp [mul, eval]
  | cons a p ih => simp only [mul, eval_add, eval_smul, eval, ih]; push_cast; ring

theorem eval_shift (a : Int) (x : K) (p : IPoly) : eval x (shift a p) = eval ((a : K) + x) p := by
  induction p with
  | nil => simp [shift, eval]
  | cons c p ih => simp only [shift, eval_add, eval_mul, eval, ih]; push_cast; ring

variable [LinearOrder K] [IsStrictOrderedRing K]

theorem lower_le (w : Int) (x : K) (h0 : 0 ≤ x) (hw : x ≤ w) (p : IPoly) : (lower w p : K) ≤ eval x p := by
  induction p with
  | nil => simp [lower, eval]
  | cons c p ih =>
    simp only [lower, eval]
    split
    · rename_i hl
      have hl' : (lower w p : K) ≤ 0 := by exact_mod_cast hl
      push_cast
      have h1 : (w : K) * lower w p ≤ x * lower w p := mul_le_mul_of_nonpos_right hw hl'
      have h2 : x * lower w p ≤ x * eval x p := mul_le_mul_of_nonneg_left ih h0
      linarith
    · rename_i hl
      have hl' : (0 : K) ≤ (lower w p : K) := by exact_mod_cast (not_le.1 hl).le
      have := mul_nonneg h0 (hl'.trans ih)
      linarith

theorem nonneg_piece (p : IPoly) (a b : Nat) (h : 0 ≤ lower ((b - a : Nat) : Int) (shift a p)) (x : K)
    (ha : (a : K) ≤ x) (hb : x ≤ b) : 0 ≤ eval x p := by
  have hab : a ≤ b := by exact_mod_cast ha.trans hb
  have hx : x - a ≤ (((b - a : Nat) : Int) : K) := by
    rw [Int.cast_natCast, Nat.cast_sub hab]
    linarith
  have h1 := lower_le ((b - a : Nat) : Int) (x - a) (by linarith) hx (shift a p)
  rw [eval_shift] at h1
  have h2 : ((a : Int) : K) + (x - a) = x := by push_cast; ring
  rw [h2] at h1
  have h3 : (0 : K) ≤ (lower ((b - a : Nat) : Int) (shift a p) : K) := by exact_mod_cast h
  exact h3.trans h1

/-- A polynomial that passes the check is nonnegative at every point of the interval. -/
theorem nonneg_of_check (p : IPoly) (n : Nat) : ∀ a b : Nat, nonnegOn p a b n = true → ∀ x : K,
    (a : K) ≤ x → x ≤ b → 0 ≤ eval x p := by
  induction n with
  | zero =>
    intro a b h x ha hb
    simp only [nonnegOn, decide_eq_true_eq] at h
    exact nonneg_piece p a b h x ha hb
  | succ n ih =>
    intro a b h x ha hb
    simp only [nonnegOn, Bool.or_eq_true, decide_eq_true_eq, Bool.and_eq_true] at h
    rcases h with h | ⟨h1, h2⟩
    · exact nonneg_piece p a b h x ha hb
    · rcases le_total x (((a + b) / 2 : Nat) : K) with hx | hx
      · exact ih _ _ h1 x ha hx
      · exact ih _ _ h2 x hx hb

/-- Sum of the absolute values of the terms. -/
def absEval (x : K) : IPoly → K
  | [] => 0
  | c :: p => |(c : K)| + |x| * absEval x p

/-- Do the coefficients of `a p` and `b q` agree up to `k / l` of the latter? -/
def close (a b : Int) (k l : Nat) : IPoly → IPoly → Bool
  | [], [] => true
  | c :: p, d :: q => decide ((a * c - b * d).natAbs * l ≤ k * (b * d).natAbs) && close a b k l p q
  | _, _ => false

theorem close_eval (a b : Int) (k l : Nat) (p q : IPoly) (h : close a b k l p q = true) (x : K) :
    |a * eval x p - b * eval x q| * l ≤ k * (|(b : K)| * absEval x q) := by
  induction p, q using close.induct with
  | case1 => simp [eval, absEval]
  | case2 c p d q ih =>
    simp only [close, Bool.and_eq_true, decide_eq_true_eq] at h
    have h2 := ih h.2
    have h1 : |((a * c - b * d : Int) : K)| * l ≤ k * |((b * d : Int) : K)| := by
      have : ((((a * c - b * d).natAbs * l : Nat) : Int) : K) ≤ (((k * (b * d).natAbs : Nat) : Int) : K) := by
        exact_mod_cast h.1
      push_cast at this ⊢
      exact this
    push_cast at h1
    rw [abs_mul (b : K) d] at h1
    simp only [eval, absEval]
    have e : (a : K) * (c + x * eval x p) - b * (d + x * eval x q) =
        (a * c - b * d) + x * (a * eval x p - b * eval x q) := by ring
    rw [e]
    have h3 := abs_add_le ((a : K) * c - b * d) (x * (a * eval x p - b * eval x q))
    rw [abs_mul x] at h3
    have hl : (0 : K) ≤ l := Nat.cast_nonneg l
    have h4 : |x| * (|a * eval x p - b * eval x q| * l) ≤ |x| * (k * (|(b : K)| * absEval x q)) :=
      mul_le_mul_of_nonneg_left h2 (abs_nonneg x)
    have h5 := mul_le_mul_of_nonneg_right h3 hl
    nlinarith [h1, h4, h5]
  | case3 => simp [close] at h

end
end IPoly

/-- A polynomial with decimal coefficients: integer coefficients and a common exponent. -/
abbrev QPoly := IPoly × Nat

namespace QPoly

/-- Sum. -/
def add (p q : QPoly) : QPoly :=
  if p.2 ≤ q.2 then (IPoly.add (IPoly.smul (10 ^ (q.2 - p.2) : Nat) p.1) q.1, q.2)
  else (IPoly.add p.1 (IPoly.smul (10 ^ (p.2 - q.2) : Nat) q.1), p.2)

/-- Opposite. -/
def neg (p : QPoly) : QPoly := (IPoly.smul (-1) p.1, p.2)

/-- Product. -/
def mul (p q : QPoly) : QPoly := (IPoly.mul p.1 q.1, p.2 + q.2)

/-- Integer multiple. -/
def smul (c : Int) (p : QPoly) : QPoly := (IPoly.smul c p.1, p.2)

/-- The polynomial with given coefficients, lowest degree first. -/
def ofCoeffs : List SDec → QPoly
  | [] => ([], 0)
  | d :: ds => add ([d.1], d.2) (let r := ofCoeffs ds; (0 :: r.1, r.2))

section
variable {K : Type} [Field K] [CharZero K]

/-- Value. -/
def eval (x : K) (p : QPoly) : K := IPoly.eval x p.1 / 10 ^ p.2

theorem eval_add (x : K) (p q : QPoly) : eval x (add p q) = eval x p + eval x q := by
  have h10 : ∀ n : Nat, (10 : K) ^ n ≠ 0 := fun n => pow_ne_zero _ (by norm_num)
  unfold add eval
  split
  · rename_i h
    simp only [IPoly.eval_add, IPoly.eval_smul]
    have e : (10 : K) ^ q.2 = 10 ^ (q.2 - p.2) * 10 ^ p.2 := by rw [← pow_add]; congr 1; omega
    rw [e]
    push_cast
    have := h10 p.2
    have := h10 (q.2 - p.2)
    field_simp
  · rename_i h
    simp only [IPoly.eval_add, IPoly.eval_smul]
    have e : (10 : K) ^ p.2 = 10 ^ (p.2 - q.2) * 10 ^ q.2 := by rw [← pow_add]; congr 1; omega
    rw [e]
    push_cast
    have := h10 q.2
    have := h10 (p.2 - q.2)
    field_simp

theorem eval_neg (x : K) (p : QPoly) : eval x (neg p) = - eval x p := by
  unfold neg eval
  simp only [IPoly.eval_smul]
  push_cast
  ring

theorem eval_mul (x : K) (p q : QPoly) : eval x (mul p q) = eval x p * eval x q := by
  unfold mul eval
  simp only [IPoly.eval_mul, pow_add]
  rw [div_mul_div_comm]

theorem eval_smul (x : K) (c : Int) (p : QPoly) : eval x (smul c p) = c * eval x p := by
  unfold smul eval
  simp only [IPoly.eval_smul]
  rw [mul_div_assoc]

theorem eval_ofCoeffs_nil (x : K) : eval x (ofCoeffs []) = 0 := by simp [ofCoeffs, eval, IPoly.eval]

theorem eval_ofCoeffs_cons (x : K) (d : SDec) (ds : List SDec) :
    eval x (ofCoeffs (d :: ds)) = SDec.val d + x * eval x (ofCoeffs ds) := by
  rw [ofCoeffs, eval_add]
  simp only [eval, IPoly.eval, SDec.val]
  push_cast
  ring

end
end QPoly

/-- The polynomial in the temperature computed by an expression, if it is one. -/
def CExpr.poly : CExpr → Option QPoly
  | .num m e => some ([(m : Int)], e)
  | .rd (.var .T) => some ([0, 1], 0)
  | .neg a => do return QPoly.neg (← a.poly)
  | .add a b => do return QPoly.add (← a.poly) (← b.poly)
  | .sub a b => do return QPoly.add (← a.poly) (QPoly.neg (← b.poly))
  | .mul a b => do return QPoly.mul (← a.poly) (← b.poly)
  | _ => none

section
variable {K : Type} [Field K] [CharZero K] [CMath K]

theorem poly_sound (τ : CLoc → K) (e : CExpr) : ∀ p, e.poly = some p → e.evalT τ = p.eval (τ (.var .T)) := by
  induction e with
  | num m e =>
    intro p h
    simp only [CExpr.poly, Option.some.injEq] at h
    subst h
    simp [CExpr.evalT, sci_eq, QPoly.eval, IPoly.eval]
  | rd l =>
    intro p h
    unfold CExpr.poly at h
    split at h <;> simp_all
    subst h
    simp [CExpr.evalT, QPoly.eval, IPoly.eval]
  | neg a iha =>
    intro p h
    cases ha : a.poly with
    | none => simp [CExpr.poly, ha] at h
    | some pa =>
      simp [CExpr.poly, ha] at h
      subst h
      rw [CExpr.evalT, iha pa ha, QPoly.eval_neg]
  | add a b iha ihb | sub a b iha ihb | mul a b iha ihb =>
    intro p h
    cases ha : a.poly with
    | none => simp [CExpr.poly, ha] at h
    | some pa =>
      cases hb : b.poly with
      | none => simp [CExpr.poly, ha, hb] at h
      | some pb =>
        simp [CExpr.poly, ha, hb] at h
        subst h
        simp only [CExpr.evalT, iha pa ha, ihb pb hb, QPoly.eval_add, QPoly.eval_neg, QPoly.eval_mul, sub_eq_add_neg]
  | exp | log | log10 | pow | fmax | div => intro p h; simp [CExpr.poly] at h

end
end DLB
