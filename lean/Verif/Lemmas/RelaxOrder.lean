import Verif.Lemmas.Stability
import Verif.Lemmas.Convergence
import Mathlib.Data.Nat.Choose.Basic
import Mathlib.Analysis.Complex.Exponential
/-
Lemmas for C128: the extrapolation of `1/(1+z/n)^n` is the exponential function up to `z` to the number of rows plus one.
-/
set_option autoImplicit false
set_option linter.unusedSectionVars false

namespace DLB
open Spec

namespace RelaxOrder

/-- The first `p` terms of the power series of `1/(1+x)^n`. -/
def series (n p : Nat) (x : ℝ) : ℝ := ∑ m ∈ Finset.range p, (-1) ^ m * (Nat.multichoose n m : ℝ) * x ^ m

theorem series_succ (n p : Nat) (x : ℝ) : (1 + x) * series (n + 1) (p + 1) x =
    series n (p + 1) x + (-1) ^ p * (Nat.multichoose (n + 1) p : ℝ) * x ^ (p + 1) := by
  induction p with
  | zero => simp [series]
  | succ p ih =>
    rw [series, Finset.sum_range_succ, ← series, mul_add, ih, series, series, Finset.sum_range_succ _ (p + 1), Nat.multichoose_succ_succ]
    push_cast
    ring

/-- The remainder has the sign of the first term left out, and is not larger. -/
theorem series_remainder (n p : Nat) {x : ℝ} (hx : 0 ≤ x) :
    0 ≤ (-1) ^ p * (1 / (1 + x) ^ n - series n p x) ∧
    (-1) ^ p * (1 / (1 + x) ^ n - series n p x) ≤ (Nat.multichoose n p : ℝ) * x ^ p := by
  cases p with
  | zero =>
    have h1 : (1 : ℝ) ≤ (1 + x) ^ n := one_le_pow₀ (by linarith)
    simp only [pow_zero, series, Finset.range_zero, Finset.sum_empty, sub_zero, one_mul, Nat.multichoose_zero_right, Nat.cast_one, mul_one]
    exact ⟨by positivity, by rw [div_le_one (by positivity)]; exact h1⟩
  | succ p =>
    induction n with
    | zero =>
      have : series 0 (p + 1) x = 1 := by
        simp [series, Finset.sum_range_succ']
      simp [this]
    | succ n ih =>
      have hp : 0 < 1 + x := by linarith
      have e : (1 + x) * ((-1) ^ (p + 1) * (1 / (1 + x) ^ (n + 1) - series (n + 1) (p + 1) x)) =
          (-1) ^ (p + 1) * (1 / (1 + x) ^ n - series n (p + 1) x) + (Nat.multichoose (n + 1) p : ℝ) * x ^ (p + 1) := by
        have h1 : (1 + x) * (1 / (1 + x) ^ (n + 1)) = 1 / (1 + x) ^ n := by
          rw [pow_succ]; field_simp
        have h2 := series_succ n p x
        have h3 : (-1 : ℝ) ^ p * (-1) ^ p = 1 := by rw [← mul_pow]; norm_num
        calc _ = (-1) ^ (p + 1) * ((1 + x) * (1 / (1 + x) ^ (n + 1)) - (1 + x) * series (n + 1) (p + 1) x) := by ring
          _ = (-1) ^ (p + 1) * (1 / (1 + x) ^ n - series n (p + 1) x) + ((-1) ^ p * (-1) ^ p) * (Nat.multichoose (n + 1) p : ℝ) * x ^ (p + 1) := by
            rw [h1, h2]; ring
          _ = _ := by rw [h3, one_mul]
      have hc : 0 ≤ (Nat.multichoose (n + 1) p : ℝ) * x ^ (p + 1) := by positivity
      constructor
      · refine nonneg_of_mul_nonneg_right ?_ hp
        rw [e]
        exact add_nonneg ih.1 hc
      · have h0 : 0 ≤ (-1) ^ (p + 1) * (1 / (1 + x) ^ (n + 1) - series (n + 1) (p + 1) x) := by
          refine nonneg_of_mul_nonneg_right ?_ hp
          rw [e]
          exact add_nonneg ih.1 hc
        have h1 : (-1) ^ (p + 1) * (1 / (1 + x) ^ (n + 1) - series (n + 1) (p + 1) x) ≤
            (1 + x) * ((-1) ^ (p + 1) * (1 / (1 + x) ^ (n + 1) - series (n + 1) (p + 1) x)) :=
          le_mul_of_one_le_left h0 (by linarith)
        refine h1.trans ?_
        rw [e, Nat.multichoose_succ_succ]
        push_cast
        linarith [ih.2]

theorem series_error (n p : Nat) {x : ℝ} (hx : 0 ≤ x) :
    |1 / (1 + x) ^ n - series n p x| ≤ (Nat.multichoose n p : ℝ) * x ^ p := by
  obtain ⟨h1, h2⟩ := series_remainder n p hx
  have : |1 / (1 + x) ^ n - series n p x| = |(-1) ^ p * (1 / (1 + x) ^ n - series n p x)| := by
    rw [abs_mul, abs_pow, abs_neg, abs_one, one_pow, one_mul]
  rw [this, abs_of_nonneg h1]
  exact h2

/-- The coefficients are polynomials of `1/n`. -/
theorem multichoose_div (n m : Nat) (hn : n ≠ 0) :
    (Nat.multichoose n m : ℝ) / (n : ℝ) ^ m = (∏ i ∈ Finset.range m, (1 + (i : ℝ) / n)) / (m.factorial : ℝ) := by
  have h1 : (n.ascFactorial m : ℝ) = (m.factorial : ℝ) * (Nat.multichoose n m : ℝ) := by
    rw [Nat.multichoose_eq, Nat.ascFactorial_eq_factorial_mul_choose']
    push_cast; rfl
  have h2 : (n.ascFactorial m : ℝ) = ∏ i ∈ Finset.range m, ((n : ℝ) + i) := by
    rw [Nat.ascFactorial_eq_prod_range]
    push_cast; rfl
  have hn' : (n : ℝ) ≠ 0 := by exact_mod_cast hn
  have h3 : ∏ i ∈ Finset.range m, ((n : ℝ) + i) = (n : ℝ) ^ m * ∏ i ∈ Finset.range m, (1 + (i : ℝ) / n) := by
    have : (n : ℝ) ^ m = ∏ _i ∈ Finset.range m, (n : ℝ) := by simp
    rw [this, ← Finset.prod_mul_distrib]
    exact Finset.prod_congr rfl fun i _ => by field_simp
  have hf : (m.factorial : ℝ) ≠ 0 := by exact_mod_cast m.factorial_ne_zero
  rw [div_eq_div_iff (pow_ne_zero _ hn') hf, mul_comm, ← h1, h2, h3]
  ring

theorem multichoose_le (n m : Nat) (hn : n ≠ 0) : (Nat.multichoose n m : ℝ) / (n : ℝ) ^ m ≤ 1 := by
  rw [multichoose_div n m hn, div_le_one (by exact_mod_cast m.factorial_pos)]
  have h1 : (1 : ℝ) ≤ n := by exact_mod_cast Nat.one_le_iff_ne_zero.2 hn
  have h2 : (m.factorial : ℝ) = ∏ i ∈ Finset.range m, (1 + (i : ℝ)) := by
    rw [← Finset.prod_range_add_one_eq_factorial]
    push_cast
    exact Finset.prod_congr rfl fun i _ => add_comm _ _
  rw [h2]
  refine Finset.prod_le_prod (fun i _ => by positivity) fun i _ => ?_
  have : (i : ℝ) / n ≤ i := div_le_self (by positivity) h1
  linarith

open Polynomial in
/-- The polynomial, for step sizes `d/n`. -/
noncomputable def coefficient (d : ℝ) (m : Nat) : ℝ[X] :=
  C (1 / (m.factorial : ℝ)) * ∏ i ∈ Finset.range m, (1 + C ((i : ℝ) / d) * X)

theorem coefficient_eval {d : ℝ} (hd : d ≠ 0) (m n : Nat) (hn : n ≠ 0) :
    (coefficient d m).eval (d / (n : ℝ)) = (Nat.multichoose n m : ℝ) / (n : ℝ) ^ m := by
  rw [multichoose_div n m hn, coefficient, Polynomial.eval_mul, Polynomial.eval_C, Polynomial.eval_prod, mul_comm, div_eq_mul_one_div (∏ i ∈ Finset.range m, (1 + (i : ℝ) / n))]
  congr 1
  refine Finset.prod_congr rfl fun i _ => ?_
  simp only [Polynomial.eval_add, Polynomial.eval_one, Polynomial.eval_mul, Polynomial.eval_C, Polynomial.eval_X]
  field_simp

theorem coefficient_zero (d : ℝ) (m : Nat) : (coefficient d m).eval 0 = 1 / (m.factorial : ℝ) := by
  rw [coefficient, Polynomial.eval_mul, Polynomial.eval_C, Polynomial.eval_prod]
  simp

open Polynomial in
theorem coefficient_degree (d : ℝ) (m : Nat) : (coefficient d m).degree ≤ (m - 1 : Nat) := by
  have lin : ∀ i : Nat, (1 + C ((i : ℝ) / d) * X : ℝ[X]).degree ≤ 1 := fun i => by
    have := (degree_linear_le (a := (i : ℝ) / d) (b := 1))
    rwa [map_one, add_comm] at this
  have main : ∀ k : Nat, (∏ i ∈ Finset.range (k + 1), (1 + C ((i : ℝ) / d) * X) : ℝ[X]).degree ≤ (k : Nat) := by
    intro k
    induction k with
    | zero => simp
    | succ k ih =>
      rw [Finset.prod_range_succ]
      have h1 := (degree_mul_le (∏ i ∈ Finset.range (k + 1), (1 + C ((i : ℝ) / d) * X) : ℝ[X]) (1 + C (((k + 1 : Nat) : ℝ) / d) * X)).trans
        (add_le_add ih (lin _))
      have h2 : ((k : Nat) : WithBot Nat) + 1 = ((k + 1 : Nat) : WithBot Nat) := rfl
      rw [h2] at h1
      exact h1
  have h3 : (C (1 / (m.factorial : ℝ)) : ℝ[X]).degree ≤ 0 := degree_C_le
  cases m with
  | zero => simp [coefficient]
  | succ k =>
    have h4 := (degree_mul_le _ _).trans (add_le_add h3 (main k))
    rw [zero_add] at h4
    exact h4

variable [MathOps ℝ]

/-- The extrapolation reproduces the power series of the exponential function. -/
theorem extrapolant_series {d : ℝ} (hd : d ≠ 0) (k : Nat) (z : ℝ) :
    extrapolant (fun l => d / (nSeq l : ℝ)) (fun l => series (nSeq l) (k + 2) (z / nSeq l)) 0 k =
      ∑ m ∈ Finset.range (k + 2), (-z) ^ m / (m.factorial : ℝ) := by
  classical
  have hp : (∑ m ∈ Finset.range (k + 2), Polynomial.C ((-z) ^ m) * coefficient d m).degree ≤ (k : Nat) := by
    refine (Polynomial.degree_sum_le _ _).trans (Finset.sup_le fun m hm => ?_)
    refine (Polynomial.degree_mul_le _ _).trans ((add_le_add Polynomial.degree_C_le (coefficient_degree d m)).trans ?_)
    rw [zero_add]
    have := Finset.mem_range.1 hm
    exact_mod_cast (by omega : m - 1 ≤ k)
  have := C49_polynomial_results d hd k _ hp
  simp only [← nSeq_eq_stepNumber, Polynomial.eval_finsetSum, Polynomial.eval_mul, Polynomial.eval_C, coefficient_zero] at this
  simp only [div_eq_mul_one_div ((-z) ^ _)]
  rw [← this]
  congr 1
  funext l
  have hn : nSeq l ≠ 0 := by have := nSeq_ge_two l; omega
  refine Finset.sum_congr rfl fun m _ => ?_
  rw [coefficient_eval hd m _ hn, div_pow, neg_pow]
  ring

/-- The factor by which a step with `k + 1` rows multiplies a mode, against the exact one. -/
theorem factor_error {d : ℝ} (hd : d ≠ 0) {k : Nat} (h1 : 1 ≤ k) (h2 : k ≤ 12) {z : ℝ} (hz : 0 ≤ z) :
    |extrapolant (fun l => d / (nSeq l : ℝ)) (fun l => Stability.g (nSeq l) z) 0 k - Real.exp (-z)| ≤ 206 * z ^ (k + 2) := by
  rcases le_total z 1 with h | h
  · have hrow : ∀ l, l ≤ k → |(Stability.g (nSeq l) z - series (nSeq l) (k + 2) (z / nSeq l)) - (0 + d / (nSeq l : ℝ) * 0)| ≤ z ^ (k + 2) := by
      intro l _
      have hn : nSeq l ≠ 0 := by have := nSeq_ge_two l; omega
      have hn' : (0 : ℝ) < nSeq l := nSeq_cast_pos l
      rw [mul_zero, add_zero, sub_zero, Stability.g]
      refine (series_error (nSeq l) (k + 2) (div_nonneg hz hn'.le)).trans ?_
      rw [div_pow, mul_div_assoc', mul_comm, mul_div_assoc]
      exact mul_le_of_le_one_right (by positivity) (multichoose_le _ _ hn)
    have h3 := extrapolant_near_linear hd h2 (fun l => Stability.g (nSeq l) z - series (nSeq l) (k + 2) (z / nSeq l)) 0 0 (z ^ (k + 2)) (Or.inl rfl) hrow
    have h4 : extrapolant (fun l => d / (nSeq l : ℝ)) (fun l => Stability.g (nSeq l) z - series (nSeq l) (k + 2) (z / nSeq l)) 0 k =
        extrapolant (fun l => d / (nSeq l : ℝ)) (fun l => Stability.g (nSeq l) z) 0 k -
        extrapolant (fun l => d / (nSeq l : ℝ)) (fun l => series (nSeq l) (k + 2) (z / nSeq l)) 0 k := by
      unfold extrapolant
      rw [← Polynomial.eval_sub, ← map_sub]
      rfl
    rw [sub_zero, h4, extrapolant_series hd] at h3
    have h5 := Real.exp_bound (x := -z) (by rw [abs_neg, abs_of_nonneg hz]; exact h) (n := k + 2) (by omega)
    rw [abs_neg, abs_of_nonneg hz] at h5
    have h6 : ((k + 2).succ : ℝ) / ((k + 2).factorial * (k + 2 : Nat)) ≤ 1 := by
      rw [div_le_one (by positivity)]
      have : 2 ≤ (k + 2).factorial := by
        calc 2 = Nat.factorial 2 := rfl
          _ ≤ _ := Nat.factorial_le (by omega)
      have : (k + 2).succ ≤ (k + 2).factorial * (k + 2) := by
        calc (k + 2).succ ≤ 2 * (k + 2) := by omega
          _ ≤ _ := Nat.mul_le_mul_right _ this
      exact_mod_cast this
    have h7 : z ^ (k + 2) * (((k + 2).succ : ℝ) / ((k + 2).factorial * (k + 2 : Nat))) ≤ z ^ (k + 2) :=
      mul_le_of_le_one_right (by positivity) h6
    rw [abs_le] at h3 h5 ⊢
    constructor <;> linarith [h3.1, h3.2, h5.1, h5.2]
  · have h3 := Stability.amplification h1 h2 hd hz
    have h4 : |extrapolant (fun l => d / (nSeq l : ℝ)) (fun l => Stability.g (nSeq l) z) 0 k| ≤ 1 :=
      le_trans (le_mul_of_one_le_right (abs_nonneg _) (by linarith)) h3
    have h5 : Real.exp (-z) ≤ 1 := Real.exp_le_one_iff.2 (by linarith)
    have h6 := Real.exp_pos (-z)
    have h7 : (1 : ℝ) ≤ z ^ (k + 2) := one_le_pow₀ h
    rw [abs_le] at h4 ⊢
    constructor <;> linarith [h4.1, h4.2]

end RelaxOrder

end DLB
