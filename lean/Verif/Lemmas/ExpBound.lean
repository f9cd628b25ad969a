import Mathlib.Analysis.SpecialFunctions.Exp
import Mathlib.Analysis.SpecialFunctions.Log.Basic
import Mathlib.Analysis.Complex.ExponentialBounds
import Mathlib.Tactic.Positivity
import Mathlib.Tactic.FieldSimp
import Mathlib.Tactic.Linarith
/-
Bounds of the exponential function by computation with natural numbers (fixed point arithmetic with `2^128`), with proofs.
-/
set_option autoImplicit false

namespace DLB

/-- The unit of the fixed point numbers. -/
def fixUnit : Nat := 2 ^ 128

theorem fixUnit_pos : (0 : ℝ) < (fixUnit : ℝ) := by unfold fixUnit; norm_num

/-- Taylor sum of `exp` by Horner's rule, rounded down: `j` terms, starting with term `i`. -/
def taylorLo (x : Nat) : Nat → Nat → Nat
  | 0, _ => 0
  | j + 1, i => fixUnit + x * taylorLo x j (i + 1) / (fixUnit * (i + 1))

/-- Taylor sum of `exp` by Horner's rule, rounded up, with a bound of the remainder. -/
def taylorUp (x : Nat) : Nat → Nat → Nat
  | 0, _ => 2 * fixUnit
  | j + 1, i => fixUnit + (x * taylorUp x j (i + 1) / (fixUnit * (i + 1)) + 1)

/-- Repeated squaring, rounded down. -/
def squareLo : Nat → Nat → Nat
  | 0, v => v
  | k + 1, v => squareLo k (v * v / fixUnit)

/-- Repeated squaring, rounded up. -/
def squareUp : Nat → Nat → Nat
  | 0, v => v
  | k + 1, v => squareUp k (v * v / fixUnit + 1)

/-- Lower bound of `exp (a / b)`. -/
def expLo (a b : Nat) : Nat := squareLo 8 (taylorLo (a * fixUnit / (b * 256)) 30 0)

/-- Upper bound of `exp (a / b)`. -/
def expUp (a b : Nat) : Nat := squareUp 8 (taylorUp (a * fixUnit / (b * 256) + 1) 30 0)

/-- The exact Taylor sum with remainder term. -/
noncomputable def taylorR (x r : ℝ) : Nat → Nat → ℝ
  | 0, _ => r
  | j + 1, i => 1 + x * taylorR x r j (i + 1) / (i + 1)

theorem taylorR_eq (x r : ℝ) (j : Nat) : ∀ i : Nat, taylorR x r j i * (x ^ i / i.factorial) =
    (∑ m ∈ Finset.range j, x ^ (i + m) / (i + m).factorial) + r * (x ^ (i + j) / (i + j).factorial) := by
  induction j with
  | zero => intro i; simp [taylorR]
  | succ j ih =>
    intro i
    have h := ih (i + 1)
    rw [Finset.sum_range_succ']
    have e1 : ∀ m, i + (m + 1) = i + 1 + m := fun m => by omega
    have e0 : ∑ m ∈ Finset.range j, x ^ (i + (m + 1)) / ((i + (m + 1)).factorial : ℝ) =
        ∑ m ∈ Finset.range j, x ^ (i + 1 + m) / ((i + 1 + m).factorial : ℝ) :=
      Finset.sum_congr rfl fun m _ => by rw [e1 m]
    rw [e0, e1 j, Nat.add_zero, taylorR]
    have e2 : (1 + x * taylorR x r j (i + 1) / (i + 1)) * (x ^ i / i.factorial) =
        x ^ i / i.factorial + taylorR x r j (i + 1) * (x ^ (i + 1) / (i + 1).factorial) := by
      have h1 : (i.factorial : ℝ) ≠ 0 := by exact_mod_cast i.factorial_ne_zero
      have h2 : ((i : ℝ) + 1) ≠ 0 := by positivity
      rw [Nat.factorial_succ]
      push_cast
      field_simp
      ring
    rw [e2, h]
    ring_nf

theorem taylorR_zero (x r : ℝ) (j : Nat) : taylorR x r j 0 =
    (∑ m ∈ Finset.range j, x ^ m / m.factorial) + r * (x ^ j / j.factorial) := by
  have := taylorR_eq x r j 0
  simpa using this

theorem div_floor (a b : Nat) : ((a / b : Nat) : ℝ) ≤ (a : ℝ) / b := Nat.cast_div_le

theorem div_ceil (a b : Nat) (hb : 0 < b) : (a : ℝ) / b ≤ ((a / b + 1 : Nat) : ℝ) := by
  rw [div_le_iff₀ (by exact_mod_cast hb)]
  have : a ≤ (a / b + 1) * b := by
    have := Nat.div_add_mod a b
    have h2 := Nat.mod_lt a hb
    nlinarith
  exact_mod_cast this

theorem taylorLo_le (x : Nat) (y : ℝ) (h0 : (x : ℝ) ≤ y * fixUnit) (j : Nat) : ∀ i,
    (taylorLo x j i : ℝ) ≤ taylorR y 0 j i * fixUnit := by
  have hF := fixUnit_pos
  have hy : 0 ≤ y := by
    by_contra hc
    have : y * fixUnit < 0 := mul_neg_of_neg_of_pos (not_le.1 hc) hF
    have := Nat.cast_nonneg (α := ℝ) x
    linarith
  induction j with
  | zero => intro i; simp [taylorLo, taylorR]
  | succ j ih =>
    intro i
    rw [taylorLo, taylorR]
    push_cast
    have h1 := div_floor (x * taylorLo x j (i + 1)) (fixUnit * (i + 1))
    push_cast at h1
    have h2 := ih (i + 1)
    have h3 : (x : ℝ) * taylorLo x j (i + 1) ≤ (y * fixUnit) * (taylorR y 0 j (i + 1) * fixUnit) :=
      mul_le_mul h0 h2 (Nat.cast_nonneg _) (by positivity)
    have h4 : (x : ℝ) * taylorLo x j (i + 1) / (fixUnit * (i + 1)) ≤ y * taylorR y 0 j (i + 1) / (i + 1) * fixUnit := by
      rw [div_le_iff₀ (by positivity)]
      have e : y * taylorR y 0 j (i + 1) / (i + 1) * fixUnit * (fixUnit * (i + 1)) =
          (y * fixUnit) * (taylorR y 0 j (i + 1) * fixUnit) := by
        have : ((i : ℝ) + 1) ≠ 0 := by positivity
        field_simp
      rw [e]
      exact h3
    linarith

theorem taylorR_nonneg (y r : ℝ) (hy : 0 ≤ y) (hr : 0 ≤ r) (j : Nat) : ∀ i, 0 ≤ taylorR y r j i := by
  induction j with
  | zero => intro i; exact hr
  | succ j ih =>
    intro i
    have := ih (i + 1)
    rw [taylorR]
    positivity

theorem taylorUp_ge (x : Nat) (y : ℝ) (hy : 0 ≤ y) (h0 : y * fixUnit ≤ x) (j : Nat) : ∀ i,
    taylorR y 2 j i * fixUnit ≤ (taylorUp x j i : ℝ) := by
  have hF := fixUnit_pos
  induction j with
  | zero => intro i; simp [taylorUp, taylorR]
  | succ j ih =>
    intro i
    rw [taylorUp, taylorR]
    have h1 := div_ceil (x * taylorUp x j (i + 1)) (fixUnit * (i + 1)) (by unfold fixUnit; positivity)
    push_cast at h1 ⊢
    have h2 := ih (i + 1)
    have hn := taylorR_nonneg y 2 hy (by norm_num) j (i + 1)
    have h3 : (y * fixUnit) * (taylorR y 2 j (i + 1) * fixUnit) ≤ (x : ℝ) * taylorUp x j (i + 1) :=
      mul_le_mul h0 h2 (by positivity) (Nat.cast_nonneg _)
    have h4 : y * taylorR y 2 j (i + 1) / (i + 1) * fixUnit ≤ (x : ℝ) * taylorUp x j (i + 1) / (fixUnit * (i + 1)) := by
      rw [le_div_iff₀ (by positivity)]
      have e : y * taylorR y 2 j (i + 1) / (i + 1) * fixUnit * (fixUnit * (i + 1)) =
          (y * fixUnit) * (taylorR y 2 j (i + 1) * fixUnit) := by
        have : ((i : ℝ) + 1) ≠ 0 := by positivity
        field_simp
      rw [e]
      exact h3
    linarith

theorem squareLo_le (k : Nat) : ∀ (v : Nat) (z : ℝ), (v : ℝ) ≤ Real.exp z * fixUnit →
    (squareLo k v : ℝ) ≤ Real.exp (2 ^ k * z) * fixUnit := by
  have hF := fixUnit_pos
  induction k with
  | zero => intro v z h; simpa [squareLo] using h
  | succ k ih =>
    intro v z h
    rw [squareLo]
    have := ih (v * v / fixUnit) (2 * z) (by
      refine (div_floor _ _).trans ?_
      rw [div_le_iff₀ hF, two_mul, Real.exp_add]
      push_cast
      have := mul_le_mul h h (Nat.cast_nonneg _) (by positivity)
      nlinarith)
    rw [pow_succ, mul_assoc]
    exact this

theorem squareUp_ge (k : Nat) : ∀ (v : Nat) (z : ℝ), Real.exp z * fixUnit ≤ (v : ℝ) →
    Real.exp (2 ^ k * z) * fixUnit ≤ (squareUp k v : ℝ) := by
  have hF := fixUnit_pos
  induction k with
  | zero => intro v z h; simpa [squareUp] using h
  | succ k ih =>
    intro v z h
    rw [squareUp]
    have := ih (v * v / fixUnit + 1) (2 * z) (by
      refine le_trans ?_ (div_ceil _ _ (by unfold fixUnit; positivity))
      rw [le_div_iff₀ hF, two_mul, Real.exp_add]
      push_cast
      have := mul_le_mul h h (by positivity) (Nat.cast_nonneg _)
      nlinarith)
    rw [pow_succ, mul_assoc]
    exact this

theorem expLo_le (a b : Nat) (hb : 0 < b) : (expLo a b : ℝ) ≤ Real.exp ((a : ℝ) / b) * fixUnit := by
  have hF := fixUnit_pos
  have hb' : (0 : ℝ) < b := by exact_mod_cast hb
  have h0 : ((a * fixUnit / (b * 256) : Nat) : ℝ) ≤ (a : ℝ) / b / 256 * fixUnit := by
    refine (div_floor _ _).trans (le_of_eq ?_)
    push_cast
    field_simp
  have h1 := taylorLo_le _ _ h0 30 0
  rw [taylorR_zero] at h1
  have h2 := Real.sum_le_exp_of_nonneg (show 0 ≤ (a : ℝ) / b / 256 by positivity) 30
  have h3 : (taylorLo (a * fixUnit / (b * 256)) 30 0 : ℝ) ≤ Real.exp ((a : ℝ) / b / 256) * fixUnit := by
    refine h1.trans (mul_le_mul_of_nonneg_right ?_ hF.le)
    rw [zero_mul, add_zero]
    exact h2
  have h4 := squareLo_le 8 _ _ h3
  have e : (2 : ℝ) ^ 8 * ((a : ℝ) / b / 256) = (a : ℝ) / b := by norm_num; ring
  rw [e] at h4
  exact h4

theorem expUp_ge (a b : Nat) (hb : 0 < b) (h : a ≤ 256 * b) : Real.exp ((a : ℝ) / b) * fixUnit ≤ (expUp a b : ℝ) := by
  have hF := fixUnit_pos
  have hb' : (0 : ℝ) < b := by exact_mod_cast hb
  have hy : 0 ≤ (a : ℝ) / b / 256 := by positivity
  have hy1 : (a : ℝ) / b / 256 ≤ 1 := by
    rw [div_div, div_le_one (by positivity)]
    have : (a : ℝ) ≤ ((256 * b : Nat) : ℝ) := by exact_mod_cast h
    push_cast at this
    linarith
  have h0 : (a : ℝ) / b / 256 * fixUnit ≤ ((a * fixUnit / (b * 256) + 1 : Nat) : ℝ) := by
    refine le_trans (le_of_eq ?_) (div_ceil _ _ (by positivity))
    push_cast
    field_simp
  have h1 := taylorUp_ge _ _ hy h0 30 0
  rw [taylorR_zero] at h1
  have h2 := Real.exp_bound' hy hy1 (show 0 < 30 by norm_num)
  have h3 : Real.exp ((a : ℝ) / b / 256) * fixUnit ≤ (taylorUp (a * fixUnit / (b * 256) + 1) 30 0 : ℝ) := by
    refine le_trans (mul_le_mul_of_nonneg_right ?_ hF.le) h1
    refine h2.trans (add_le_add_right ?_ _)
    have hp : 0 ≤ ((a : ℝ) / b / 256) ^ 30 := by positivity
    have hf : (0 : ℝ) < (Nat.factorial 30 : ℝ) := by exact_mod_cast Nat.factorial_pos 30
    rw [show ((a : ℝ) / b / 256) ^ 30 * (((30 : Nat) : ℝ) + 1) / ((Nat.factorial 30 : ℝ) * ((30 : Nat) : ℝ)) =
      (31 / 30) * (((a : ℝ) / b / 256) ^ 30 / (Nat.factorial 30 : ℝ)) by
        push_cast; field_simp; norm_num]
    exact mul_le_mul_of_nonneg_right (by norm_num) (by positivity)
  have h4 := squareUp_ge 8 _ _ h3
  have e : (2 : ℝ) ^ 8 * ((a : ℝ) / b / 256) = (a : ℝ) / b := by norm_num; ring
  rw [e] at h4
  exact h4

/-- Checked: `exp (a / b) ≤ n / d`. -/
def expLe (a b n d : Nat) : Bool := decide (a ≤ 256 * b) && decide (expUp a b * d ≤ n * fixUnit)

/-- Checked: `n / d ≤ exp (a / b)`. -/
def leExp (a b n d : Nat) : Bool := decide (n * fixUnit ≤ expLo a b * d)

theorem expLe_sound {a b n d : Nat} (hb : 0 < b) (hd : 0 < d) (h : expLe a b n d = true) :
    Real.exp ((a : ℝ) / b) ≤ (n : ℝ) / d := by
  simp only [expLe, Bool.and_eq_true, decide_eq_true_eq] at h
  have h1 := expUp_ge a b hb h.1
  have h2 : (expUp a b : ℝ) * d ≤ n * fixUnit := by exact_mod_cast h.2
  have hd' : (0 : ℝ) < d := by exact_mod_cast hd
  rw [le_div_iff₀ hd']
  have := mul_le_mul_of_nonneg_right h1 hd'.le
  have hF := fixUnit_pos
  nlinarith

theorem leExp_sound {a b n d : Nat} (hb : 0 < b) (hd : 0 < d) (h : leExp a b n d = true) :
    (n : ℝ) / d ≤ Real.exp ((a : ℝ) / b) := by
  simp only [leExp, decide_eq_true_eq] at h
  have h1 := expLo_le a b hb
  have h2 : (n : ℝ) * fixUnit ≤ expLo a b * d := by exact_mod_cast h
  have hd' : (0 : ℝ) < d := by exact_mod_cast hd
  rw [div_le_iff₀ hd']
  have := mul_le_mul_of_nonneg_right h1 hd'.le
  have hF := fixUnit_pos
  nlinarith

/-- Checked: `|c / 10^e - ln (n / d)| ≤ 10^(-14)`. -/
def logOk (c : Int) (e n d : Nat) : Bool :=
  decide (0 < n) && decide (0 < d) &&
  match c * 10 ^ 14, (10 ^ e : Nat) with
  | x, y =>
    -- exp ((x - y) / (10^14 y)) ≤ n / d ≤ exp ((x + y) / (10^14 y))
    (if y ≤ x then expLe (x - y).toNat (10 ^ 14 * y) n d else leExp (y - x).toNat (10 ^ 14 * y) d n) &&
    (if -(y : Int) ≤ x then leExp (x + y).toNat (10 ^ 14 * y) n d else expLe (-x - y).toNat (10 ^ 14 * y) d n)

theorem logOk_sound {c : Int} {e n d : Nat} (h : logOk c e n d = true) :
    0 < n ∧ 0 < d ∧ |(c : ℝ) / 10 ^ e - Real.log ((n : ℝ) / d)| ≤ 1 / 10 ^ 14 := by
  simp only [logOk, Bool.and_eq_true, decide_eq_true_eq] at h
  obtain ⟨⟨hn, hd⟩, h1, h2⟩ := h
  refine ⟨hn, hd, ?_⟩
  have hn' : (0 : ℝ) < n := by exact_mod_cast hn
  have hd' : (0 : ℝ) < d := by exact_mod_cast hd
  have hq : (0 : ℝ) < (n : ℝ) / d := by positivity
  have hy : 0 < 10 ^ 14 * 10 ^ e := by positivity
  have hy' : (0 : ℝ) < 10 ^ e := by positivity
  have k1 : (c : ℝ) / 10 ^ e - 1 / 10 ^ 14 ≤ Real.log ((n : ℝ) / d) := by
    rw [Real.le_log_iff_exp_le hq]
    split at h1
    · rename_i hle
      have := expLe_sound hy hd h1
      have e1 : ((c * 10 ^ 14 - (10 ^ e : Nat) : Int).toNat : ℝ) = c * 10 ^ 14 - 10 ^ e := by
        have : ((c * 10 ^ 14 - (10 ^ e : Nat) : Int).toNat : Int) = c * 10 ^ 14 - (10 ^ e : Nat) :=
          Int.toNat_of_nonneg (by push_cast at hle ⊢; omega)
        have := congrArg (Int.cast : Int → ℝ) this
        push_cast at this ⊢
        rw [this]
        norm_num
      rw [e1] at this
      have e2 : ((c : ℝ) * 10 ^ 14 - 10 ^ e) / ((10 ^ 14 * 10 ^ e : Nat) : ℝ) = (c : ℝ) / 10 ^ e - 1 / 10 ^ 14 := by
        push_cast
        field_simp
        ring
      rw [e2] at this
      exact this
    · rename_i hle
      have := leExp_sound hy hn h1
      have e1 : (((10 ^ e : Nat) - c * 10 ^ 14 : Int).toNat : ℝ) = 10 ^ e - c * 10 ^ 14 := by
        have : (((10 ^ e : Nat) - c * 10 ^ 14 : Int).toNat : Int) = (10 ^ e : Nat) - c * 10 ^ 14 :=
          Int.toNat_of_nonneg (by push_cast at hle ⊢; omega)
        have := congrArg (Int.cast : Int → ℝ) this
        push_cast at this ⊢
        rw [this]
        norm_num
      rw [e1] at this
      have e2 : (c : ℝ) / 10 ^ e - 1 / 10 ^ 14 = -((10 ^ e - (c : ℝ) * 10 ^ 14) / ((10 ^ 14 * 10 ^ e : Nat) : ℝ)) := by
        push_cast
        field_simp
        ring
      rw [e2, Real.exp_neg, inv_le_comm₀ (Real.exp_pos _) hq, inv_div]
      exact this
  have k2 : Real.log ((n : ℝ) / d) ≤ (c : ℝ) / 10 ^ e + 1 / 10 ^ 14 := by
    rw [Real.log_le_iff_le_exp hq]
    split at h2
    · rename_i hle
      have := leExp_sound hy hd h2
      have e1 : ((c * 10 ^ 14 + (10 ^ e : Nat) : Int).toNat : ℝ) = c * 10 ^ 14 + 10 ^ e := by
        have : ((c * 10 ^ 14 + (10 ^ e : Nat) : Int).toNat : Int) = c * 10 ^ 14 + (10 ^ e : Nat) :=
          Int.toNat_of_nonneg (by push_cast at hle ⊢; omega)
        have := congrArg (Int.cast : Int → ℝ) this
        push_cast at this ⊢
        rw [this]
        norm_num
      rw [e1] at this
      have e2 : ((c : ℝ) * 10 ^ 14 + 10 ^ e) / ((10 ^ 14 * 10 ^ e : Nat) : ℝ) = (c : ℝ) / 10 ^ e + 1 / 10 ^ 14 := by
        push_cast
        field_simp
        ring
      rw [e2] at this
      exact this
    · rename_i hle
      have := expLe_sound hy hn h2
      have e1 : ((-(c * 10 ^ 14) - (10 ^ e : Nat) : Int).toNat : ℝ) = -(c * 10 ^ 14) - 10 ^ e := by
        have : ((-(c * 10 ^ 14) - (10 ^ e : Nat) : Int).toNat : Int) = -(c * 10 ^ 14) - (10 ^ e : Nat) :=
          Int.toNat_of_nonneg (by push_cast at hle ⊢; omega)
        have := congrArg (Int.cast : Int → ℝ) this
        push_cast at this ⊢
        rw [this]
        norm_num
      rw [e1] at this
      have e2 : (c : ℝ) / 10 ^ e + 1 / 10 ^ 14 = -((-((c : ℝ) * 10 ^ 14) - 10 ^ e) / ((10 ^ 14 * 10 ^ e : Nat) : ℝ)) := by
        push_cast
        field_simp
        ring
      rw [e2, Real.exp_neg, le_inv_comm₀ hq (Real.exp_pos _), inv_div]
      exact this
  rw [abs_le]
  constructor <;> linarith

end DLB
