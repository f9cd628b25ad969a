import Verif.Lemmas.JacobLast
import Verif.Lemmas.JacobSNear
import Verif.Spec.Jacobian
/-
The derivatives of the rate of change of the temperature, and a calculus of errors relative to sizes.
-/
set_option autoImplicit false
set_option linter.unusedSectionVars false

namespace DLB

theorem cpOverR_deriv (a : List SDec) (T : ℝ) : HasDerivAt (fun t => cpOverR a t) (cpSlope a T) T := by
  unfold cpOverR cpSlope
  have h := fun n : Nat => hasDerivAt_pow n T
  have := (((((hasDerivAt_const T (nasaCoeff a 0 : ℝ)).add ((hasDerivAt_id T).const_mul (nasaCoeff a 1))).add ((h 2).const_mul (nasaCoeff a 2))).add
    ((h 3).const_mul (nasaCoeff a 3))).add ((h 4).const_mul (nasaCoeff a 4)))
  refine (this.congr_deriv ?_)
  push_cast
  ring

theorem hOverR_deriv (a : List SDec) (T : ℝ) : HasDerivAt (fun t => hOverR a t) (cpOverR a T) T := by
  unfold cpOverR hOverR
  have h := fun n : Nat => hasDerivAt_pow n T
  have := ((((((hasDerivAt_const T (nasaCoeff a 5 : ℝ)).add ((hasDerivAt_id T).const_mul (nasaCoeff a 0))).add
    (((h 2).const_mul (nasaCoeff a 1)).div_const 2)).add (((h 3).const_mul (nasaCoeff a 2)).div_const 3)).add
    (((h 4).const_mul (nasaCoeff a 3)).div_const 4)).add (((h 5).const_mul (nasaCoeff a 4)).div_const 5))
  refine (this.congr_deriv ?_)
  push_cast
  ring

namespace Chemistry
variable (X : Chemistry)

/-- Derivative of the heat capacity of species `i`. -/
noncomputable def cpSlope (T : ℝ) (i : Nat) : ℝ := gasR / X.weight i * DLB.cpSlope ((X.fit i).at T) T

theorem cp_deriv {T : ℝ} {i : Nat} (h : T ≠ ((X.fit i).tMid.1 : ℝ) / 10 ^ (X.fit i).tMid.2) :
    HasDerivAt (fun t => X.cp t i) (X.cpSlope T i) T := by
  refine ((cpOverR_deriv ((X.fit i).at T) T).const_mul (gasR / X.weight i)).congr_of_eventuallyEq ?_
  filter_upwards [at_eventually (X.fit i) h] with t ht
  unfold cp
  rw [ht]

theorem enthalpy_deriv {T : ℝ} {i : Nat} (h : T ≠ ((X.fit i).tMid.1 : ℝ) / 10 ^ (X.fit i).tMid.2) :
    HasDerivAt (fun t => X.enthalpy t i) (X.cp T i) T := by
  refine ((hOverR_deriv ((X.fit i).at T) T).const_mul (gasR / X.weight i)).congr_of_eventuallyEq ?_
  filter_upwards [at_eventually (X.fit i) h] with t ht
  unfold enthalpy
  rw [ht]

theorem dTdt_eq (T p : ℝ) (Y : Nat → ℝ) :
    X.dTdt T p Y = -(∑ i ∈ Finset.range X.nsp, X.enthalpy T i * X.dYdt T p Y i) / X.meanCp T Y := rfl

/-- Derivative by the temperature. -/
theorem dTdt_deriv {T p : ℝ} {Y d : Nat → ℝ} (hmid : X.BetweenFits T) (hc : X.meanCp T Y ≠ 0)
    (hd : ∀ i, i < X.nsp → HasDerivAt (fun t => X.dYdt t p Y i) (d i) T) :
    HasDerivAt (fun t => X.dTdt t p Y) (-(∑ i ∈ Finset.range X.nsp, (X.dYdt T p Y i * (X.cp T i -
      (∑ k ∈ Finset.range X.nsp, Y k * X.cpSlope T k) * X.enthalpy T i * (X.meanCp T Y)⁻¹) + d i * X.enthalpy T i) * (X.meanCp T Y)⁻¹)) T := by
  have h1 : HasDerivAt (fun t => ∑ i ∈ Finset.range X.nsp, X.enthalpy t i * X.dYdt t p Y i)
      (∑ i ∈ Finset.range X.nsp, (X.cp T i * X.dYdt T p Y i + X.enthalpy T i * d i)) T :=
    HasDerivAt.fun_sum fun i hi => (X.enthalpy_deriv (hmid i (Finset.mem_range.1 hi))).mul (hd i (Finset.mem_range.1 hi))
  have h2 : HasDerivAt (fun t => X.meanCp t Y) (∑ k ∈ Finset.range X.nsp, X.cpSlope T k * Y k) T :=
    HasDerivAt.fun_sum fun i hi => (X.cp_deriv (hmid i (Finset.mem_range.1 hi))).mul_const (Y i)
  refine ((h1.fun_neg.fun_div h2 hc).congr_deriv ?_)
  rw [← Finset.sum_mul]
  have e1 : ∑ k ∈ Finset.range X.nsp, Y k * X.cpSlope T k = ∑ k ∈ Finset.range X.nsp, X.cpSlope T k * Y k :=
    Finset.sum_congr rfl fun k _ => mul_comm _ _
  have e2 : ∑ i ∈ Finset.range X.nsp, (X.dYdt T p Y i * (X.cp T i - (∑ k ∈ Finset.range X.nsp, Y k * X.cpSlope T k) * X.enthalpy T i * (X.meanCp T Y)⁻¹) +
      d i * X.enthalpy T i) = ∑ i ∈ Finset.range X.nsp, (X.cp T i * X.dYdt T p Y i + X.enthalpy T i * d i) -
      (∑ k ∈ Finset.range X.nsp, X.cpSlope T k * Y k) * (X.meanCp T Y)⁻¹ * ∑ i ∈ Finset.range X.nsp, X.enthalpy T i * X.dYdt T p Y i := by
    rw [Finset.mul_sum, ← Finset.sum_sub_distrib, e1]
    exact Finset.sum_congr rfl fun i _ => by ring
  rw [e2]
  field_simp
  ring

/-- Derivative along a path of mixtures. -/
theorem dTdt_along {T p x : ℝ} {f : ℝ → Nat → ℝ} {u d : Nat → ℝ} (hf : ∀ i, HasDerivAt (fun t => f t i) (u i) x) (hc : X.meanCp T (f x) ≠ 0)
    (hd : ∀ i, i < X.nsp → HasDerivAt (fun t => X.dYdt T p (f t) i) (d i) x) :
    HasDerivAt (fun t => X.dTdt T p (f t)) (-(∑ i ∈ Finset.range X.nsp, X.enthalpy T i * ((X.meanCp T (f x))⁻¹ * d i -
      (X.meanCp T (f x))⁻¹ * (X.meanCp T (f x))⁻¹ * (∑ k ∈ Finset.range X.nsp, X.cp T k * u k) * X.dYdt T p (f x) i))) x := by
  have h1 : HasDerivAt (fun t => ∑ i ∈ Finset.range X.nsp, X.enthalpy T i * X.dYdt T p (f t) i)
      (∑ i ∈ Finset.range X.nsp, X.enthalpy T i * d i) x :=
    HasDerivAt.fun_sum fun i hi => (hd i (Finset.mem_range.1 hi)).const_mul _
  have h2 : HasDerivAt (fun t => X.meanCp T (f t)) (∑ k ∈ Finset.range X.nsp, X.cp T k * u k) x :=
    HasDerivAt.fun_sum fun i _ => (hf i).const_mul _
  refine ((h1.fun_neg.fun_div h2 hc).congr_deriv ?_)
  have e2 : ∑ i ∈ Finset.range X.nsp, X.enthalpy T i * ((X.meanCp T (f x))⁻¹ * d i -
      (X.meanCp T (f x))⁻¹ * (X.meanCp T (f x))⁻¹ * (∑ k ∈ Finset.range X.nsp, X.cp T k * u k) * X.dYdt T p (f x) i) =
      (X.meanCp T (f x))⁻¹ * ∑ i ∈ Finset.range X.nsp, X.enthalpy T i * d i - (X.meanCp T (f x))⁻¹ * (X.meanCp T (f x))⁻¹ *
      (∑ k ∈ Finset.range X.nsp, X.cp T k * u k) * ∑ i ∈ Finset.range X.nsp, X.enthalpy T i * X.dYdt T p (f x) i := by
    generalize ∑ k ∈ Finset.range X.nsp, X.cp T k * u k = c'
    rw [Finset.mul_sum, Finset.mul_sum, ← Finset.sum_sub_distrib]
    exact Finset.sum_congr rfl fun i _ => by ring
  rw [e2]
  field_simp
  ring

end Chemistry

/-- `x` is at most `K s` and `x'` differs from it by at most `ε s`. -/
structure Rel (x' x s K ε : ℝ) : Prop where
  size : |x| ≤ K * s
  err : |x' - x| ≤ ε * s

namespace Rel
variable {x' x s K ε y' y t L δ : ℝ}

theorem mono (h : Rel x' x s K ε) (hs : 0 ≤ s) (hK : K ≤ L) (hε : ε ≤ δ) : Rel x' x s L δ :=
  ⟨h.size.trans (mul_le_mul_of_nonneg_right hK hs), h.err.trans (mul_le_mul_of_nonneg_right hε hs)⟩

theorem of_near (h : Near ε x' x) (h0 : 0 ≤ ε) (h1 : ε ≤ 1) : Rel x' x x 1 (2 * ε) :=
  ⟨by rw [abs_of_nonneg h.right, one_mul], by have := h.abs_sub h0 h1; linarith⟩

theorem mul (h : Rel x' x s K ε) (g : Rel y' y t L δ) (hs : 0 ≤ s) (hK : 0 ≤ K) (hε : 0 ≤ ε) :
    Rel (x' * y') (x * y) (s * t) (K * L) (K * δ + L * ε + ε * δ) := by
  constructor
  · rw [abs_mul]
    exact (mul_le_mul h.size g.size (abs_nonneg _) (mul_nonneg hK hs)).trans (le_of_eq (by ring))
  · have e : x' * y' - x * y = x * (y' - y) + (x' - x) * y + (x' - x) * (y' - y) := by ring
    rw [e]
    refine (abs_add_le _ _).trans ((add_le_add (abs_add_le _ _) le_rfl).trans ?_)
    rw [abs_mul, abs_mul, abs_mul]
    have q1 := mul_le_mul h.size g.err (abs_nonneg _) (mul_nonneg hK hs)
    have q2 := mul_le_mul h.err g.size (abs_nonneg _) (mul_nonneg hε hs)
    have q3 := mul_le_mul h.err g.err (abs_nonneg _) (mul_nonneg hε hs)
    refine (add_le_add (add_le_add q1 q2) q3).trans (le_of_eq (by ring))

theorem add (h : Rel x' x s K ε) (g : Rel y' y t K ε) : Rel (x' + y') (x + y) (s + t) K ε := by
  constructor
  · exact (abs_add_le _ _).trans ((add_le_add h.size g.size).trans (le_of_eq (by ring)))
  · rw [show x' + y' - (x + y) = (x' - x) + (y' - y) by ring]
    exact (abs_add_le _ _).trans ((add_le_add h.err g.err).trans (le_of_eq (by ring)))

theorem neg (h : Rel x' x s K ε) : Rel (-x') (-x) s K ε := by
  refine ⟨by rw [abs_neg]; exact h.size, ?_⟩
  rw [neg_sub_neg, abs_sub_comm]
  exact h.err

theorem sub (h : Rel x' x s K ε) (g : Rel y' y t K ε) : Rel (x' - y') (x - y) (s + t) K ε := by
  rw [sub_eq_add_neg, sub_eq_add_neg]
  exact h.add g.neg

theorem sum {n : Nat} {f' f g : Nat → ℝ} (h : ∀ i, i < n → Rel (f' i) (f i) (g i) K ε) :
    Rel (∑ i ∈ Finset.range n, f' i) (∑ i ∈ Finset.range n, f i) (∑ i ∈ Finset.range n, g i) K ε := by
  constructor
  · rw [Finset.mul_sum]
    exact (Finset.abs_sum_le_sum_abs _ _).trans (Finset.sum_le_sum fun i hi => (h i (Finset.mem_range.1 hi)).size)
  · rw [Finset.mul_sum, ← Finset.sum_sub_distrib]
    exact (Finset.abs_sum_le_sum_abs _ _).trans (Finset.sum_le_sum fun i hi => (h i (Finset.mem_range.1 hi)).err)

end Rel

/-- The pairs of species with the first one given, as a sum. -/
theorem EndSum.append {nsp : Nat} {W : Nat → ℝ} {v : JacobVals ℝ} {jac : Nat → ℝ} {j : Nat} (l l' : List (Nat × Nat)) : ∀ x,
    EndSum nsp W v jac j (l ++ l') x → ∃ x1 x2, EndSum nsp W v jac j l x1 ∧ EndSum nsp W v jac j l' x2 ∧ x = x1 + x2 := by
  induction l with
  | nil => exact fun x h => ⟨0, x, rfl, h, (zero_add x).symm⟩
  | cons a l ih =>
    obtain ⟨j', k⟩ := a
    intro x h
    simp only [List.cons_append, EndSum] at h ⊢
    by_cases hj : j' = j
    · rw [if_pos hj] at h
      obtain ⟨w, x', hw, h', e⟩ := h
      obtain ⟨x1, x2, e1, e2, e3⟩ := ih x' h'
      refine ⟨v.h k * (1 / v.cpAvg * jac (nsp * (j + 1) + (k + 1)) -
        1 / (v.rho * v.cpAvg * v.cpAvg) * (v.cp j - v.cp (nsp - 1)) * v.ω k * w) + x1, x2, ?_, e2, ?_⟩
      · rw [if_pos hj]
        exact ⟨w, x1, hw, e1, rfl⟩
      · rw [e, e3]
        ring
    · rw [if_neg hj] at h
      obtain ⟨x1, x2, e1, e2, e3⟩ := ih x h
      refine ⟨x1, x2, ?_, e2, e3⟩
      rw [if_neg hj]
      exact e1

theorem EndSum.row {nsp : Nat} {W : Nat → ℝ} {v : JacobVals ℝ} {jac : Nat → ℝ} {j k : Nat} (m : Nat) : ∀ x,
    EndSum nsp W v jac j ((List.range m).map fun j => (j, k)) x → (m ≤ j → x = 0) ∧ (j < m → ∃ w, |w - W k| ≤ W k / 10 ^ 14 ∧
      x = v.h k * (1 / v.cpAvg * jac (nsp * (j + 1) + (k + 1)) -
        1 / (v.rho * v.cpAvg * v.cpAvg) * (v.cp j - v.cp (nsp - 1)) * v.ω k * w)) := by
  induction m with
  | zero => exact fun x h => ⟨fun _ => h, fun h => absurd h (by omega)⟩
  | succ m ih =>
    intro x h
    rw [List.range_succ, List.map_append] at h
    obtain ⟨x1, x2, e1, e2, e3⟩ := EndSum.append _ _ x h
    obtain ⟨i1, i2⟩ := ih x1 e1
    simp only [List.map_cons, List.map_nil, EndSum] at e2
    by_cases hj : m = j
    · rw [if_pos hj] at e2
      obtain ⟨w, x', hw, h0, e⟩ := e2
      refine ⟨fun h => by omega, fun _ => ⟨w, hw, ?_⟩⟩
      rw [e3, i1 (by omega), e, h0]
      ring
    · rw [if_neg hj] at e2
      refine ⟨fun h => ?_, fun h => ?_⟩
      · rw [e3, e2, i1 (by omega), add_zero]
      · rw [e3, e2, add_zero]
        exact i2 (by omega)

theorem EndSum.rows {nsp : Nat} {W : Nat → ℝ} {v : JacobVals ℝ} {jac : Nat → ℝ} {j : Nat} (m : Nat) (hj : j < m) (l : Nat) : ∀ x,
    EndSum nsp W v jac j ((List.range l).flatMap fun k => (List.range m).map fun j => (j, k)) x →
    ∃ w : Nat → ℝ, (∀ k, k < l → |w k - W k| ≤ W k / 10 ^ 14) ∧
      x = ∑ k ∈ Finset.range l, v.h k * (1 / v.cpAvg * jac (nsp * (j + 1) + (k + 1)) -
        1 / (v.rho * v.cpAvg * v.cpAvg) * (v.cp j - v.cp (nsp - 1)) * v.ω k * w k) := by
  induction l with
  | zero => exact fun x h => ⟨fun _ => 0, fun k hk => absurd hk (by omega), by simpa [EndSum] using h⟩
  | succ l ih =>
    intro x h
    rw [List.range_succ, List.flatMap_append] at h
    obtain ⟨x1, x2, e1, e2, e3⟩ := EndSum.append _ _ x h
    obtain ⟨w, hw, e⟩ := ih x1 e1
    simp only [List.flatMap_cons, List.flatMap_nil, List.append_nil] at e2
    obtain ⟨u, hu, e'⟩ := (EndSum.row m x2 e2).2 hj
    refine ⟨fun k => if k = l then u else w k, fun k hk => ?_, ?_⟩
    · dsimp only
      by_cases hkl : k = l
      · rw [if_pos hkl, hkl]; exact hu
      · rw [if_neg hkl]; exact hw k (by omega)
    · rw [Finset.sum_range_succ, e3, e, e']
      simp only [if_true]
      congr 1
      refine Finset.sum_congr rfl fun k hk => ?_
      rw [if_neg (by have := Finset.mem_range.1 hk; omega)]

end DLB
