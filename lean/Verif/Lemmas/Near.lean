import Mathlib.Analysis.SpecialFunctions.Exp
import Mathlib.Analysis.SpecialFunctions.Exponential
import Mathlib.Analysis.Complex.ExponentialBounds
import Mathlib.Algebra.Order.BigOperators.Group.Finset
import Mathlib.Tactic.Positivity
import Mathlib.Tactic.Linarith
import Mathlib.Tactic.GCongr
/-
Nonnegative reals that agree up to a factor of `exp(eps)`.
-/
set_option autoImplicit false

namespace DLB

/-- `x` and `y` are nonnegative and agree up to a factor of `exp(eps)`. -/
structure Near (ε x y : ℝ) : Prop where
  left : 0 ≤ x
  right : 0 ≤ y
  le : x ≤ y * Real.exp ε
  ge : y ≤ x * Real.exp ε

namespace Near
variable {ε δ x y x' y' : ℝ}

theorem refl (hx : 0 ≤ x) : Near 0 x x := ⟨hx, hx, by simp, by simp⟩

theorem symm (h : Near ε x y) : Near ε y x := ⟨h.right, h.left, h.ge, h.le⟩

theorem mono (h : Near ε x y) (hε : ε ≤ δ) : Near δ x y := by
  refine ⟨h.left, h.right, h.le.trans ?_, h.ge.trans ?_⟩
  · exact mul_le_mul_of_nonneg_left (Real.exp_le_exp.2 hε) h.right
  · exact mul_le_mul_of_nonneg_left (Real.exp_le_exp.2 hε) h.left

theorem of_exp {η : ℝ} (hy : 0 ≤ y) (hη : |η| ≤ ε) (h : x = y * Real.exp η) : Near ε x y := by
  obtain ⟨h1, h2⟩ := abs_le.1 hη
  refine ⟨by rw [h]; positivity, hy, ?_, ?_⟩
  · rw [h]; gcongr
  · rw [h, mul_assoc, ← Real.exp_add]
    exact le_mul_of_one_le_right hy (Real.one_le_exp (by linarith))

/-- Relative error. -/
theorem of_abs (hx : 0 ≤ x) (hy : 0 ≤ y) (h0 : 0 ≤ ε) (h1 : ε ≤ 1 / 2) (h : |x - y| ≤ ε * y) : Near (2 * ε) x y := by
  obtain ⟨a, b⟩ := abs_le.1 h
  have e := Real.add_one_le_exp (2 * ε)
  refine ⟨hx, hy, ?_, ?_⟩
  · have : y * (2 * ε + 1) ≤ y * Real.exp (2 * ε) := mul_le_mul_of_nonneg_left e hy
    nlinarith
  · have : x * (2 * ε + 1) ≤ x * Real.exp (2 * ε) := mul_le_mul_of_nonneg_left e hx
    have h2 : (1 - ε) * y ≤ x := by linarith
    have h3 : (1 - ε) * y * (2 * ε + 1) ≤ x * (2 * ε + 1) := mul_le_mul_of_nonneg_right h2 (by linarith)
    have h4 : y ≤ (1 - ε) * y * (2 * ε + 1) := by
      have : (1 - ε) * y * (2 * ε + 1) - y = y * (ε * (1 - 2 * ε)) := by ring
      have : 0 ≤ y * (ε * (1 - 2 * ε)) := mul_nonneg hy (mul_nonneg h0 (by linarith))
      linarith
    linarith

theorem abs_sub (h : Near ε x y) (h0 : 0 ≤ ε) (h1 : ε ≤ 1) : |x - y| ≤ 2 * ε * y := by
  have e : Real.exp ε - 1 ≤ 2 * ε := by
    have := Real.abs_exp_sub_one_le (x := ε) (by rw [abs_of_nonneg h0]; exact h1)
    rw [abs_of_nonneg h0] at this
    exact (le_abs_self _).trans this
  have e2 : Real.exp (-ε) - 1 ≥ -(2 * ε) := by
    have := Real.abs_exp_sub_one_le (x := -ε) (by rw [abs_neg, abs_of_nonneg h0]; exact h1)
    rw [abs_neg, abs_of_nonneg h0] at this
    linarith [(abs_le.1 this).1]
  have hl : y * Real.exp (-ε) ≤ x := by
    have := mul_le_mul_of_nonneg_right h.ge (Real.exp_pos (-ε)).le
    rwa [mul_assoc, ← Real.exp_add, add_neg_cancel, Real.exp_zero, mul_one] at this
  rw [abs_le]
  constructor
  · have := mul_le_mul_of_nonneg_left e2 h.right
    linarith
  · have := mul_le_mul_of_nonneg_left e h.right
    linarith [h.le]

theorem trans {z : ℝ} (h : Near ε x y) (h' : Near δ y z) : Near (ε + δ) x z := by
  refine ⟨h.left, h'.right, ?_, ?_⟩
  · have := mul_le_mul_of_nonneg_right h'.le (Real.exp_pos ε).le
    rw [add_comm, Real.exp_add, ← mul_assoc]
    exact h.le.trans this
  · have := mul_le_mul_of_nonneg_right h.ge (Real.exp_pos δ).le
    rw [Real.exp_add, ← mul_assoc]
    exact h'.ge.trans this

theorem mul (h : Near ε x y) (h' : Near δ x' y') : Near (ε + δ) (x * x') (y * y') := by
  refine ⟨mul_nonneg h.left h'.left, mul_nonneg h.right h'.right, ?_, ?_⟩
  · have := mul_le_mul h.le h'.le h'.left (mul_nonneg h.right (Real.exp_pos _).le)
    rw [Real.exp_add]
    linarith
  · have := mul_le_mul h.ge h'.ge h'.right (mul_nonneg h.left (Real.exp_pos _).le)
    rw [Real.exp_add]
    linarith

theorem inv (h : Near ε x y) : Near ε x⁻¹ y⁻¹ := by
  have key : ∀ {a b : ℝ}, 0 ≤ a → 0 ≤ b → b ≤ a * Real.exp ε → a ≤ b * Real.exp ε → a⁻¹ ≤ b⁻¹ * Real.exp ε := by
    intro a b ha hb h1 h2
    rcases ha.lt_or_eq with ha | ha
    · have hb' : 0 < b := by
        rcases hb.lt_or_eq with hb | hb
        · exact hb
        · rw [← hb, zero_mul] at h2; linarith
      rw [inv_mul_eq_div, le_div_iff₀ hb', inv_mul_eq_div, div_le_iff₀ ha]
      linarith
    · rw [← ha]
      simp only [inv_zero]
      exact mul_nonneg (inv_nonneg.2 hb) (Real.exp_pos _).le
  exact ⟨inv_nonneg.2 h.left, inv_nonneg.2 h.right, key h.left h.right h.ge h.le, key h.right h.left h.le h.ge⟩

theorem div (h : Near ε x y) (h' : Near δ x' y') : Near (ε + δ) (x / x') (y / y') := by
  rw [div_eq_mul_inv, div_eq_mul_inv]
  exact h.mul h'.inv

theorem add (h : Near ε x y) (h' : Near ε x' y') : Near ε (x + x') (y + y') :=
  ⟨add_nonneg h.left h'.left, add_nonneg h.right h'.right, by rw [add_mul]; exact add_le_add h.le h'.le,
    by rw [add_mul]; exact add_le_add h.ge h'.ge⟩

theorem max (h : Near ε x y) (h' : Near ε x' y') : Near ε (max x x') (max y y') := by
  refine ⟨le_max_of_le_left h.left, le_max_of_le_left h.right, max_le ?_ ?_, max_le ?_ ?_⟩
  · exact h.le.trans (mul_le_mul_of_nonneg_right (le_max_left _ _) (Real.exp_pos _).le)
  · exact h'.le.trans (mul_le_mul_of_nonneg_right (le_max_right _ _) (Real.exp_pos _).le)
  · exact h.ge.trans (mul_le_mul_of_nonneg_right (le_max_left _ _) (Real.exp_pos _).le)
  · exact h'.ge.trans (mul_le_mul_of_nonneg_right (le_max_right _ _) (Real.exp_pos _).le)

theorem sum {f g : Nat → ℝ} {n : Nat} (h : ∀ i, i < n → Near ε (f i) (g i)) :
    Near ε (∑ i ∈ Finset.range n, f i) (∑ i ∈ Finset.range n, g i) := by
  refine ⟨Finset.sum_nonneg fun i hi => (h i (Finset.mem_range.1 hi)).left,
    Finset.sum_nonneg fun i hi => (h i (Finset.mem_range.1 hi)).right, ?_, ?_⟩
  · rw [Finset.sum_mul]
    exact Finset.sum_le_sum fun i hi => (h i (Finset.mem_range.1 hi)).le
  · rw [Finset.sum_mul]
    exact Finset.sum_le_sum fun i hi => (h i (Finset.mem_range.1 hi)).ge

theorem prod {f g : Nat → ℝ} : ∀ l : List Nat, (∀ i ∈ l, Near ε (f i) (g i)) →
    Near (l.length * ε) (l.map f).prod (l.map g).prod
  | [], _ => by simpa using Near.refl (zero_le_one (α := ℝ))
  | a :: l, h => by
    have h1 := (h a (by simp)).mul (prod l fun i hi => h i (by simp [hi]))
    simp only [List.map_cons, List.prod_cons, List.length_cons]
    refine h1.mono (le_of_eq ?_)
    push_cast
    ring

/-- `x / (1 + x)` is no more sensitive than `x`. -/
theorem saturate (h : Near ε x y) (h0 : 0 ≤ ε) : Near ε (x / (1 + x)) (y / (1 + y)) := by
  have e := Real.one_le_exp h0
  have key : ∀ {a b : ℝ}, 0 ≤ a → 0 ≤ b → a ≤ b * Real.exp ε → a / (1 + a) ≤ b / (1 + b) * Real.exp ε := by
    intro a b ha hb h1
    rw [div_mul_eq_mul_div, div_le_div_iff₀ (by linarith) (by linarith)]
    have : a * b ≤ b * Real.exp ε * a := by
      have := mul_le_mul_of_nonneg_left e (mul_nonneg ha hb)
      linarith
    linarith
  exact ⟨div_nonneg h.left (by linarith [h.left]), div_nonneg h.right (by linarith [h.right]), key h.left h.right h.le,
    key h.right h.left h.ge⟩

theorem zero_iff (h : Near ε x y) : x = 0 ↔ y = 0 := by
  constructor
  · intro hx
    have := h.ge
    rw [hx, zero_mul] at this
    exact le_antisymm this h.right
  · intro hy
    have := h.le
    rw [hy, zero_mul] at this
    exact le_antisymm this h.left

end Near
end DLB
