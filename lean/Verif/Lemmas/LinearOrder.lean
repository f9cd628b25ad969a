import Verif.Lemmas.RelaxOrder
/-
Lemmas for C128: the order of an extrapolated step for linear systems.
-/
set_option autoImplicit false
set_option linter.unusedSectionVars false

namespace DLB
open Spec

namespace LinearOrder

variable {N : Nat}

/-- The first `p` terms of the power series of `(1 - T)^(-n) v`. -/
def series (T : (Fin N → ℝ) →ₗ[ℝ] (Fin N → ℝ)) (n p : Nat) (v : Fin N → ℝ) : Fin N → ℝ :=
  ∑ m ∈ Finset.range p, (Nat.multichoose n m : ℝ) • (T ^ m) v

theorem series_succ (T : (Fin N → ℝ) →ₗ[ℝ] (Fin N → ℝ)) (n p : Nat) (v : Fin N → ℝ) :
    series T (n + 1) (p + 1) (v - T v) = series T n (p + 1) v - (Nat.multichoose (n + 1) p : ℝ) • (T ^ (p + 1)) v := by
  induction p with
  | zero => simp [series]
  | succ p ih =>
    have h : ∀ q w, series T q (p + 2) w = series T q (p + 1) w + (Nat.multichoose q (p + 1) : ℝ) • (T ^ (p + 1)) w := fun q w => by
      rw [series, Finset.sum_range_succ]; rfl
    rw [h, h, ih, Nat.multichoose_succ_succ]
    have e : (T ^ (p + 1)) (T v) = (T ^ (p + 1 + 1)) v := by
      rw [pow_succ T (p + 1)]; rfl
    rw [map_sub, e]
    push_cast
    module

theorem series_zero (T : (Fin N → ℝ) →ₗ[ℝ] (Fin N → ℝ)) (p : Nat) (v : Fin N → ℝ) : series T 0 (p + 1) v = v := by
  unfold series
  rw [Finset.sum_range_succ', Finset.sum_eq_zero]
  · simp
  · intro m _
    simp

theorem norm_pow_le {T : (Fin N → ℝ) →ₗ[ℝ] (Fin N → ℝ)} {b : ℝ} (hb : 0 ≤ b) (hT : ∀ v, ‖T v‖ ≤ b * ‖v‖) (m : Nat) (v : Fin N → ℝ) :
    ‖(T ^ m) v‖ ≤ b ^ m * ‖v‖ := by
  induction m with
  | zero => simp
  | succ m ih =>
    rw [pow_succ', pow_succ', mul_assoc]
    exact (hT _).trans (mul_le_mul_of_nonneg_left ih hb)

/-- One implicit step put before `n` others. -/
theorem remainder_step {T : (Fin N → ℝ) →ₗ[ℝ] (Fin N → ℝ)} {b : ℝ} (hb : 0 ≤ b) (hb1 : b < 1) (hT : ∀ v, ‖T v‖ ≤ b * ‖v‖) {n p : Nat}
    {v v1 w : Fin N → ℝ} (hv : v1 - T v1 = v)
    (h : ‖w - series T n (p + 1) v1‖ * (1 - b) ^ n ≤ (Nat.multichoose n (p + 1) : ℝ) * b ^ (p + 1) * ‖v1‖) :
    ‖w - series T (n + 1) (p + 1) v‖ * (1 - b) ^ (n + 1) ≤ (Nat.multichoose (n + 1) (p + 1) : ℝ) * b ^ (p + 1) * ‖v‖ := by
  have h1 : ‖v1‖ * (1 - b) ≤ ‖v‖ := by
    have : ‖v1‖ ≤ ‖v‖ + ‖T v1‖ := by
      rw [← hv]
      calc ‖v1‖ = ‖(v1 - T v1) + T v1‖ := by rw [sub_add_cancel]
        _ ≤ _ := norm_add_le _ _
    linarith [hT v1]
  have hp : 0 < 1 - b := by linarith
  have hp1 : (1 - b) ^ n ≤ 1 := pow_le_one₀ hp.le (by linarith)
  have h2 : ‖w - series T (n + 1) (p + 1) v‖ ≤ ‖w - series T n (p + 1) v1‖ + (Nat.multichoose (n + 1) p : ℝ) * (b ^ (p + 1) * ‖v1‖) := by
    rw [← hv, series_succ]
    calc _ = ‖(w - series T n (p + 1) v1) + (Nat.multichoose (n + 1) p : ℝ) • (T ^ (p + 1)) v1‖ := by congr 1; abel
      _ ≤ _ := by
        refine (norm_add_le _ _).trans (add_le_add le_rfl ?_)
        rw [norm_smul, Real.norm_natCast]
        exact mul_le_mul_of_nonneg_left (norm_pow_le hb hT _ _) (by positivity)
  have h3 : ‖w - series T (n + 1) (p + 1) v‖ * (1 - b) ^ n ≤ (Nat.multichoose (n + 1) (p + 1) : ℝ) * b ^ (p + 1) * ‖v1‖ := by
    have h4 := mul_le_mul_of_nonneg_right h2 (pow_pos hp n).le
    have h5 : (Nat.multichoose (n + 1) p : ℝ) * (b ^ (p + 1) * ‖v1‖) * (1 - b) ^ n ≤ (Nat.multichoose (n + 1) p : ℝ) * (b ^ (p + 1) * ‖v1‖) :=
      mul_le_of_le_one_right (by positivity) hp1
    rw [Nat.multichoose_succ_succ]
    push_cast
    linarith
  have h6 := mul_le_mul_of_nonneg_right h3 hp.le
  have h7 := mul_le_mul_of_nonneg_left h1 (by positivity : 0 ≤ (Nat.multichoose (n + 1) (p + 1) : ℝ) * b ^ (p + 1))
  rw [pow_succ]
  linarith

variable [MathOps ℝ]

/-- The results of the implicit Euler steps. -/
theorem path_series {A : Matrix (Fin N) (Fin N) ℝ} {y0 : Fin N → ℝ} {f : ℝ → (Fin N → ℝ) → Fin N → ℝ} (hf : ∀ x y, f x y = A.mulVec (y - y0))
    {inside : (Fin N → ℝ) → Prop} {h b : ℝ} (hh : 0 < h) (hb : 0 ≤ b) (hb1 : b < 1) (hT : ∀ v, ‖(h • A.mulVecLin) v‖ ≤ b * ‖v‖) (p : Nat)
    {s : Nat} {x : ℝ} {y z : Fin N → ℝ} (hp : EulerPath A f inside h s x y z) :
    ‖(z - y0) - series (h • A.mulVecLin) s (p + 1) (y - y0)‖ * (1 - b) ^ s ≤ (Nat.multichoose s (p + 1) : ℝ) * b ^ (p + 1) * ‖y - y0‖ := by
  have inc : ∀ {x : ℝ} {y d : Fin N → ℝ}, EulerIncrement A f h x y d →
      ((fun i => y i + d i) - y0) - (h • A.mulVecLin) ((fun i => y i + d i) - y0) = y - y0 := by
    intro x y d hd
    have h1 := increment_eq hh hd
    rw [hf] at h1
    have h2 : (fun i => y i + d i) - y0 = (y - y0) + d := by funext i; simp only [Pi.sub_apply, Pi.add_apply]; ring
    have h3 : (fun i => ∑ j, A i j * d j) = A.mulVec d := rfl
    rw [h3] at h1
    rw [h2, map_add, LinearMap.smul_apply, LinearMap.smul_apply, Matrix.mulVecLin_apply, Matrix.mulVecLin_apply]
    calc (y - y0) + d - (h • A.mulVec (y - y0) + h • A.mulVec d) = (y - y0) + (d - (h • A.mulVec (y - y0) + h • A.mulVec d)) := by abel
      _ = y - y0 := by rw [← h1, sub_self, add_zero]
  induction hp with
  | one hd =>
    refine remainder_step hb hb1 hT (inc hd) ?_
    rw [series_zero, sub_self, norm_zero, zero_mul]
    positivity
  | step hd _ _ ih => exact remainder_step hb hb1 hT (inc hd) ih

/-- Taylor's theorem for solutions of linear systems. -/
theorem solution_series {A : Matrix (Fin N) (Fin N) ℝ} {y0 : Fin N → ℝ} {f : ℝ → (Fin N → ℝ) → Fin N → ℝ} (hf : ∀ x y, f x y = A.mulVec (y - y0))
    {L : ℝ} (hL : 0 ≤ L) (hT : ∀ v, ‖A.mulVecLin v‖ ≤ L * ‖v‖) {φ : ℝ → Fin N → ℝ} {a b M : ℝ} (hφ : SolvesOn f φ a b)
    (hM : ∀ t ∈ Set.Icc a b, ‖φ t - y0‖ ≤ M) (p : Nat) :
    ∀ t ∈ Set.Icc a b, ‖φ t - y0 - ∑ m ∈ Finset.range p, ((t - a) ^ m / (m.factorial : ℝ)) • (A.mulVecLin ^ m) (φ a - y0)‖ ≤ M * (L * (t - a)) ^ p := by
  induction p with
  | zero => intro t ht; simpa using hM t ht
  | succ p ih =>
    intro t ht
    have hat : a ≤ t := ht.1
    have hM0 : 0 ≤ M := (norm_nonneg _).trans (hM t ht)
    have hsub : Set.Icc a t ⊆ Set.Icc a b := Set.Icc_subset_Icc le_rfl ht.2
    have key := (convex_Icc a t).norm_image_sub_le_of_norm_hasDerivWithin_le
      (f := fun t => φ t - y0 - ∑ m ∈ Finset.range (p + 1), ((t - a) ^ m / (m.factorial : ℝ)) • (A.mulVecLin ^ m) (φ a - y0))
      (f' := fun t => A.mulVecLin (φ t - y0 - ∑ m ∈ Finset.range p, ((t - a) ^ m / (m.factorial : ℝ)) • (A.mulVecLin ^ m) (φ a - y0)))
      (C := L * (M * (L * (t - a)) ^ p)) (x := a) (y := t) (by
        intro s hs
        have h1 := ((hφ s (hsub hs)).mono hsub).sub_const y0
        have h2 : HasDerivWithinAt (fun s : ℝ => ∑ m ∈ Finset.range (p + 1), ((s - a) ^ m / (m.factorial : ℝ)) • (A.mulVecLin ^ m) (φ a - y0))
            (∑ m ∈ Finset.range p, ((s - a) ^ m / (m.factorial : ℝ)) • (A.mulVecLin ^ (m + 1)) (φ a - y0)) (Set.Icc a t) s := by
          have e : (fun s : ℝ => ∑ m ∈ Finset.range (p + 1), ((s - a) ^ m / (m.factorial : ℝ)) • (A.mulVecLin ^ m) (φ a - y0)) =
              fun s : ℝ => (∑ m ∈ Finset.range p, ((s - a) ^ (m + 1) / ((m + 1).factorial : ℝ)) • (A.mulVecLin ^ (m + 1)) (φ a - y0)) + (φ a - y0) := by
            funext s
            rw [Finset.sum_range_succ']
            simp
          rw [e]
          refine HasDerivWithinAt.add_const _ (HasDerivWithinAt.fun_sum fun m _ => HasDerivWithinAt.smul_const ?_ _)
          have h3 : HasDerivAt (fun s : ℝ => (s - a) ^ (m + 1) / ((m + 1).factorial : ℝ)) ((s - a) ^ m / (m.factorial : ℝ)) s := by
            have h := (((hasDerivAt_id s).sub_const a).pow (m + 1)).div_const ((m + 1).factorial : ℝ)
            have e : (((m + 1 : Nat) : ℝ) * (id s - a) ^ (m + 1 - 1) * 1) / ((m + 1).factorial : ℝ) = (s - a) ^ m / (m.factorial : ℝ) := by
              rw [Nat.factorial_succ]
              have : ((m + 1 : Nat) : ℝ) ≠ 0 := by positivity
              have : (m.factorial : ℝ) ≠ 0 := by positivity
              push_cast
              simp only [id, mul_one]
              field_simp
            rw [e] at h
            exact h
          exact h3.hasDerivWithinAt
        have h4 := h1.sub h2
        rw [hf] at h4
        have e : A.mulVecLin (φ s - y0 - ∑ m ∈ Finset.range p, ((s - a) ^ m / (m.factorial : ℝ)) • (A.mulVecLin ^ m) (φ a - y0)) =
            A.mulVec (φ s - y0) - ∑ m ∈ Finset.range p, ((s - a) ^ m / (m.factorial : ℝ)) • (A.mulVecLin ^ (m + 1)) (φ a - y0) := by
          rw [map_sub, map_sum, Matrix.mulVecLin_apply]
          congr 1
          refine Finset.sum_congr rfl fun m _ => ?_
          rw [map_smul, pow_succ']
          rfl
        rw [e]
        exact h4) (by
        intro s hs
        refine (hT _).trans (mul_le_mul_of_nonneg_left ((ih s (hsub hs)).trans ?_) hL)
        have : 0 ≤ s - a := by linarith [hs.1]
        have : s - a ≤ t - a := by linarith [hs.2]
        gcongr) ⟨le_rfl, hat⟩ ⟨hat, le_rfl⟩
    have e0 : φ a - y0 - ∑ m ∈ Finset.range (p + 1), ((a - a) ^ m / (m.factorial : ℝ)) • (A.mulVecLin ^ m) (φ a - y0) = 0 := by
      rw [Finset.sum_range_succ', Finset.sum_eq_zero]
      · simp
      · intro m _; simp
    rw [e0, sub_zero, Real.norm_of_nonneg (by linarith)] at key
    refine key.trans (le_of_eq ?_)
    rw [pow_succ]
    ring

/-- Over a short time a solution does not leave twice the initial distance. -/
theorem solution_bounded {A : Matrix (Fin N) (Fin N) ℝ} {y0 : Fin N → ℝ} {f : ℝ → (Fin N → ℝ) → Fin N → ℝ} (hf : ∀ x y, f x y = A.mulVec (y - y0))
    {L : ℝ} (hL : 0 ≤ L) (hT : ∀ v, ‖A.mulVecLin v‖ ≤ L * ‖v‖) {φ : ℝ → Fin N → ℝ} {a b : ℝ} (hab : a ≤ b) (hφ : SolvesOn f φ a b)
    (hs : L * (b - a) ≤ 1 / 2) : ∀ t ∈ Set.Icc a b, ‖φ t - y0‖ ≤ 2 * ‖φ a - y0‖ := by
  have hc : ContinuousOn (fun t => ‖φ t - y0‖) (Set.Icc a b) :=
    (ContinuousOn.sub (fun t ht => (hφ t ht).continuousWithinAt) continuousOn_const).norm
  obtain ⟨s, hs1, hs2⟩ := isCompact_Icc.exists_isMaxOn ⟨a, le_rfl, hab⟩ hc
  have hM : ∀ t ∈ Set.Icc a b, ‖φ t - y0‖ ≤ ‖φ s - y0‖ := fun t ht => hs2 ht
  have h1 := solution_series hf hL hT hφ hM 1 s hs1
  simp only [Finset.range_one, Finset.sum_singleton, pow_zero, Nat.factorial_zero, Nat.cast_one, div_one, one_smul, pow_one] at h1
  have h2 : ‖φ s - y0‖ * (L * (s - a)) ≤ ‖φ s - y0‖ * (1 / 2) := by
    refine mul_le_mul_of_nonneg_left (le_trans ?_ hs) (norm_nonneg _)
    exact mul_le_mul_of_nonneg_left (by linarith [hs1.2]) hL
  have h3 : ‖φ s - y0‖ ≤ ‖φ s - y0 - (φ a - y0)‖ + ‖φ a - y0‖ := by
    calc _ = ‖(φ s - y0 - (φ a - y0)) + (φ a - y0)‖ := by rw [sub_add_cancel]
      _ ≤ _ := norm_add_le _ _
  have h4 : ‖(φ s - y0) - (1 : (Fin N → ℝ) →ₗ[ℝ] (Fin N → ℝ)) (φ a - y0)‖ = ‖φ s - y0 - (φ a - y0)‖ := rfl
  rw [h4] at h1
  intro t ht
  linarith [hM t ht]

/-- The extrapolation reproduces the series of the solution. -/
theorem extrapolant_series {d : ℝ} (hd : d ≠ 0) (A : Matrix (Fin N) (Fin N) ℝ) (k : Nat) (v : Fin N → ℝ) (i : Fin N) :
    extrapolant (fun l => d / (nSeq l : ℝ)) (fun l => series ((d / (nSeq l : ℝ)) • A.mulVecLin) (nSeq l) (k + 2) v i) 0 k =
      (∑ m ∈ Finset.range (k + 2), (d ^ m / (m.factorial : ℝ)) • (A.mulVecLin ^ m) v) i := by
  have hp : (∑ m ∈ Finset.range (k + 2), Polynomial.C (d ^ m * ((A.mulVecLin ^ m) v) i) * RelaxOrder.coefficient d m).degree ≤ (k : Nat) := by
    refine (Polynomial.degree_sum_le _ _).trans (Finset.sup_le fun m hm => ?_)
    refine (Polynomial.degree_mul_le _ _).trans ((add_le_add Polynomial.degree_C_le (RelaxOrder.coefficient_degree d m)).trans ?_)
    rw [zero_add]
    have := Finset.mem_range.1 hm
    exact_mod_cast (by omega : m - 1 ≤ k)
  have := C49_polynomial_results d hd k _ hp
  simp only [← nSeq_eq_stepNumber, Polynomial.eval_finsetSum, Polynomial.eval_mul, Polynomial.eval_C, RelaxOrder.coefficient_zero] at this
  rw [Finset.sum_apply]
  have e : ∀ m, ((d ^ m / (m.factorial : ℝ)) • (A.mulVecLin ^ m) v) i = d ^ m * ((A.mulVecLin ^ m) v) i * (1 / (m.factorial : ℝ)) := fun m => by
    rw [Pi.smul_apply, smul_eq_mul]; ring
  simp only [e]
  rw [← this]
  congr 1
  funext l
  have hn : nSeq l ≠ 0 := by have := nSeq_ge_two l; omega
  rw [series, Finset.sum_apply]
  refine Finset.sum_congr rfl fun m _ => ?_
  rw [RelaxOrder.coefficient_eval hd m _ hn, smul_pow, LinearMap.smul_apply, Pi.smul_apply, Pi.smul_apply, smul_eq_mul, smul_eq_mul, div_pow]
  ring

/-- One extrapolated step for a linear system, against the solution. -/
theorem step_order {A : Matrix (Fin N) (Fin N) ℝ} {y0 : Fin N → ℝ} {f : ℝ → (Fin N → ℝ) → Fin N → ℝ} (hf : ∀ x y, f x y = A.mulVec (y - y0))
    {inside : (Fin N → ℝ) → Prop} {L d x : ℝ} (hL : 0 ≤ L) (hA : RowsAtMost A L) (hd : 0 < d) (hs : L * d ≤ 1 / 2) {k : Nat} (hk : k ≤ 12)
    {y z : Fin N → ℝ} (hz : ExtrapolatedStep A f inside k x y d z) {φ : ℝ → Fin N → ℝ} (hφ0 : φ x = y) (hφ : SolvesOn f φ x (x + d)) :
    ‖z - φ (x + d)‖ ≤ 412 * (L * d) ^ (k + 2) * ‖y - y0‖ := by
  have hT : ∀ v, ‖A.mulVecLin v‖ ≤ L * ‖v‖ := fun v =>
    (pi_norm_le_iff_of_nonneg (by positivity)).2 fun i => mulVec_le hA v i
  obtain ⟨r, hr, hz⟩ := hz
  have h1 : ∀ i, |z i - y0 i - (∑ m ∈ Finset.range (k + 2), (d ^ m / (m.factorial : ℝ)) • (A.mulVecLin ^ m) (y - y0)) i| ≤
      205 * (2 * (L * d) ^ (k + 2) * ‖y - y0‖) := by
    intro i
    have hrow : ∀ l, l ≤ k → |((r l i - y0 i) - series ((d / (nSeq l : ℝ)) • A.mulVecLin) (nSeq l) (k + 2) (y - y0) i) - (0 + d / (nSeq l : ℝ) * 0)| ≤
        2 * (L * d) ^ (k + 2) * ‖y - y0‖ := by
      intro l hl
      have h2 := hr l hl
      rw [← nSeq_eq_stepNumber] at h2
      have hn2 := nSeq_ge_two l
      have hn : nSeq l ≠ 0 := by omega
      have hn' : (0 : ℝ) < nSeq l := nSeq_cast_pos l
      set nn := nSeq l
      have hn1 : (1 : ℝ) ≤ nn := by exact_mod_cast (by omega : 1 ≤ nn)
      have hb0 : 0 ≤ L * d / nn := by positivity
      have hb2 : L * d / nn ≤ 1 / 2 := (div_le_self (by positivity) hn1).trans hs
      have h3 := path_series hf (div_pos hd hn') hb0 (by linarith) (fun v => by
        rw [LinearMap.smul_apply, norm_smul, Real.norm_of_nonneg (by positivity)]
        calc d / nn * ‖A.mulVecLin v‖ ≤ d / nn * (L * ‖v‖) := mul_le_mul_of_nonneg_left (hT v) (by positivity)
          _ = L * d / nn * ‖v‖ := by ring) (k + 1) h2
      have h4 : 1 / 2 ≤ (1 - L * d / nn) ^ nn := by
        have := one_add_mul_le_pow (a := -(L * d / nn)) (by linarith) nn
        have e : (nn : ℝ) * -(L * d / nn) = -(L * d) := by field_simp
        rw [e, ← sub_eq_add_neg, ← sub_eq_add_neg] at this
        linarith
      have h5 : (Nat.multichoose nn (k + 2) : ℝ) * (L * d / nn) ^ (k + 2) ≤ (L * d) ^ (k + 2) := by
        rw [div_pow, mul_div_assoc', mul_comm, mul_div_assoc]
        exact mul_le_of_le_one_right (by positivity) (RelaxOrder.multichoose_le _ _ hn)
      have h6 := norm_le_pi_norm ((r l - y0) - series ((d / (nn : ℝ)) • A.mulVecLin) nn (k + 2) (y - y0)) i
      rw [mul_zero, add_zero, sub_zero]
      refine h6.trans ?_
      have h7 := mul_le_mul_of_nonneg_left h4 (norm_nonneg ((r l - y0) - series ((d / (nn : ℝ)) • A.mulVecLin) nn (k + 2) (y - y0)))
      have h8 := mul_le_mul_of_nonneg_right h5 (norm_nonneg (y - y0))
      linarith
    have h3 := extrapolant_near_linear hd.ne' hk
      (fun l => (r l i - y0 i) - series ((d / (nSeq l : ℝ)) • A.mulVecLin) (nSeq l) (k + 2) (y - y0) i) 0 0 _ (Or.inl rfl) hrow
    have h4 : extrapolant (fun l => d / (nSeq l : ℝ)) (fun l => (r l i - y0 i) - series ((d / (nSeq l : ℝ)) • A.mulVecLin) (nSeq l) (k + 2) (y - y0) i) 0 k =
        (extrapolant (fun l => d / (nSeq l : ℝ)) (fun l => r l i) 0 k - extrapolant (fun l => d / (nSeq l : ℝ)) (fun _ => y0 i) 0 k) -
        extrapolant (fun l => d / (nSeq l : ℝ)) (fun l => series ((d / (nSeq l : ℝ)) • A.mulVecLin) (nSeq l) (k + 2) (y - y0) i) 0 k := by
      unfold extrapolant
      rw [← Polynomial.eval_sub, ← Polynomial.eval_sub, ← map_sub, ← map_sub]
      rfl
    have h5 : extrapolant (fun l => d / (nSeq l : ℝ)) (fun _ => y0 i) 0 k = y0 i := by
      have := C49_polynomial_results d hd.ne' k (Polynomial.C (y0 i)) (Polynomial.degree_C_le.trans (by exact_mod_cast Nat.zero_le k))
      simpa only [← nSeq_eq_stepNumber, Polynomial.eval_C] using this
    have h6 := hz i
    simp only [← nSeq_eq_stepNumber] at h6
    rw [h4, h5, ← h6, extrapolant_series hd.ne', sub_zero] at h3
    exact h3
  have h2 : ‖z - y0 - ∑ m ∈ Finset.range (k + 2), (d ^ m / (m.factorial : ℝ)) • (A.mulVecLin ^ m) (y - y0)‖ ≤
      205 * (2 * (L * d) ^ (k + 2) * ‖y - y0‖) := (pi_norm_le_iff_of_nonneg (by positivity)).2 fun i => h1 i
  have h3 := solution_series hf hL hT hφ (solution_bounded hf hL hT (by linarith) hφ (by rw [add_sub_cancel_left]; exact hs)) (k + 2) (x + d)
    ⟨by linarith, le_rfl⟩
  rw [add_sub_cancel_left, hφ0] at h3
  calc ‖z - φ (x + d)‖ = ‖(z - y0 - ∑ m ∈ Finset.range (k + 2), (d ^ m / (m.factorial : ℝ)) • (A.mulVecLin ^ m) (y - y0)) -
        (φ (x + d) - y0 - ∑ m ∈ Finset.range (k + 2), (d ^ m / (m.factorial : ℝ)) • (A.mulVecLin ^ m) (y - y0))‖ := by congr 1; abel
    _ ≤ _ := norm_sub_le _ _
    _ ≤ _ := add_le_add h2 h3
    _ = _ := by ring

end LinearOrder

end DLB
