import Verif.Lemmas.TroeBound
/-
How much Troe's broadening factor changes with the reduced pressure and with the centre.
-/
set_option autoImplicit false
set_option linter.unusedSectionVars false

namespace DLB

/-- The exponent of Troe's factor, without division by zero at the pole: `L a^2 / (u^2 + a^2)`. -/
noncomputable def troeExponent (L p : ℝ) : ℝ :=
  L * (806 / 1000 - 14 / 100 * p - 11762 / 10000 * L) ^ 2 /
    ((p - 4 / 10 - 67 / 100 * L) ^ 2 + (806 / 1000 - 14 / 100 * p - 11762 / 10000 * L) ^ 2)

theorem troeExponent_eq (L p : ℝ) (h : 75 / 100 - 127 / 100 * L - 14 / 100 * (p + (-(4 / 10) - 67 / 100 * L)) ≠ 0) :
    L / (1 + ((p + (-(4 / 10) - 67 / 100 * L)) /
      (75 / 100 - 127 / 100 * L - 14 / 100 * (p + (-(4 / 10) - 67 / 100 * L)))) ^ 2) = troeExponent L p := by
  unfold troeExponent
  have e1 : 75 / 100 - 127 / 100 * L - 14 / 100 * (p + (-(4 / 10) - 67 / 100 * L)) =
      806 / 1000 - 14 / 100 * p - 11762 / 10000 * L := by ring
  have e2 : p + (-(4 / 10) - 67 / 100 * L) = p - 4 / 10 - 67 / 100 * L := by ring
  rw [e1] at h
  rw [e1, e2]
  generalize 806 / 1000 - 14 / 100 * p - 11762 / 10000 * L = a at *
  generalize p - 4 / 10 - 67 / 100 * L = u at *
  have : 0 < u ^ 2 + a ^ 2 := by positivity
  field_simp
  ring

/-- The size of `(u, a)` bounds `L`. -/
theorem troe_size (L p : ℝ) (hL : L ≤ 302 / 1000) (u a : ℝ) (hu : u = p - 4 / 10 - 67 / 100 * L)
    (ha : a = 806 / 1000 - 14 / 100 * p - 11762 / 10000 * L) :
    0 < Real.sqrt (u ^ 2 + a ^ 2) ∧ |L| ≤ 85 / 100 * Real.sqrt (u ^ 2 + a ^ 2) ∧
      |L| * (75 / 100 - 127 / 100 * L) ≤ 85 / 100 * (u ^ 2 + a ^ 2) := by
  obtain ⟨n, hn⟩ : ∃ n, n = 75 / 100 - 127 / 100 * L := ⟨_, rfl⟩
  have hna : n = a + 14 / 100 * u := by rw [hn, ha, hu]; ring
  have hn0 : 0 < n := by rw [hn]; linarith
  have h1 : n ^ 2 ≤ 10196 / 10000 * (u ^ 2 + a ^ 2) := by
    rw [hna]
    nlinarith [sq_nonneg (u - 14 / 100 * a)]
  have hD : 0 < u ^ 2 + a ^ 2 := by nlinarith
  have hL' : |L| * (10196 / 10000) ≤ 85 / 100 * n := by
    rcases le_or_gt 0 L with h | h
    · rw [abs_of_nonneg h, hn]; linarith
    · rw [abs_of_neg h, hn]; linarith
  obtain ⟨s, hs⟩ : ∃ s, s = Real.sqrt (u ^ 2 + a ^ 2) := ⟨_, rfl⟩
  have hs0 : 0 < s := by rw [hs]; exact Real.sqrt_pos.2 hD
  have hs2 : s ^ 2 = u ^ 2 + a ^ 2 := by rw [hs]; exact Real.sq_sqrt hD.le
  rw [← hs, ← hn]
  refine ⟨hs0, ?_, ?_⟩
  · have : n ≤ 10196 / 10000 * s := by
      refine abs_le_of_sq_le_sq' ?_ (by positivity) |>.2
      rw [mul_pow, hs2]
      nlinarith
    linarith
  · have := mul_le_mul_of_nonneg_right hL' hn0.le
    nlinarith

/-- A difference of two fractions `a^2 / (u^2 + a^2)`. -/
theorem fraction_sub (u a v b : ℝ) (h1 : 0 < u ^ 2 + a ^ 2) (h2 : 0 < v ^ 2 + b ^ 2) :
    |a ^ 2 / (u ^ 2 + a ^ 2) - b ^ 2 / (v ^ 2 + b ^ 2)| * (Real.sqrt (u ^ 2 + a ^ 2) * Real.sqrt (v ^ 2 + b ^ 2)) ≤
      |a * v - b * u| := by
  have e : a ^ 2 / (u ^ 2 + a ^ 2) - b ^ 2 / (v ^ 2 + b ^ 2) =
      (a * v - b * u) * (a * v + b * u) / ((u ^ 2 + a ^ 2) * (v ^ 2 + b ^ 2)) := by
    field_simp
    ring
  obtain ⟨s, hs⟩ : ∃ s, s = Real.sqrt (u ^ 2 + a ^ 2) := ⟨_, rfl⟩
  obtain ⟨t, ht⟩ : ∃ t, t = Real.sqrt (v ^ 2 + b ^ 2) := ⟨_, rfl⟩
  have hs0 : 0 < s := by rw [hs]; exact Real.sqrt_pos.2 h1
  have ht0 : 0 < t := by rw [ht]; exact Real.sqrt_pos.2 h2
  have hs2 : s ^ 2 = u ^ 2 + a ^ 2 := by rw [hs]; exact Real.sq_sqrt h1.le
  have ht2 : t ^ 2 = v ^ 2 + b ^ 2 := by rw [ht]; exact Real.sq_sqrt h2.le
  have c : |a * v + b * u| ≤ s * t := by
    refine abs_le_of_sq_le_sq' ?_ (by positivity) |>.2
    rw [sq_abs, mul_pow, hs2, ht2]
    nlinarith [sq_nonneg (u * v - a * b)]
  rw [e, ← hs, ← ht, ← hs2, ← ht2, abs_div, abs_mul, abs_of_pos (show 0 < s ^ 2 * t ^ 2 by positivity), div_mul_eq_mul_div,
    div_le_iff₀ (by positivity)]
  have := mul_le_mul_of_nonneg_left c (mul_nonneg (abs_nonneg (a * v - b * u)) (mul_pos hs0 ht0).le)
  calc |a * v - b * u| * |a * v + b * u| * (s * t) = |a * v - b * u| * (s * t) * |a * v + b * u| := by ring
    _ ≤ |a * v - b * u| * (s * t) * (s * t) := this
    _ = |a * v - b * u| * (s ^ 2 * t ^ 2) := by ring

/-- Dependence on the reduced pressure. -/
theorem troeExponent_pressure (L p q : ℝ) (hL : L ≤ 302 / 1000) : |troeExponent L p - troeExponent L q| ≤ 85 / 100 * |p - q| := by
  obtain ⟨u, hu⟩ : ∃ u, u = p - 4 / 10 - 67 / 100 * L := ⟨_, rfl⟩
  obtain ⟨a, ha⟩ : ∃ a, a = 806 / 1000 - 14 / 100 * p - 11762 / 10000 * L := ⟨_, rfl⟩
  obtain ⟨v, hv⟩ : ∃ v, v = q - 4 / 10 - 67 / 100 * L := ⟨_, rfl⟩
  obtain ⟨b, hb⟩ : ∃ b, b = 806 / 1000 - 14 / 100 * q - 11762 / 10000 * L := ⟨_, rfl⟩
  obtain ⟨s1, -, b1⟩ := troe_size L p hL u a hu ha
  obtain ⟨s2, -, b2⟩ := troe_size L q hL v b hv hb
  have d1 := Real.sqrt_pos.1 s1
  have d2 := Real.sqrt_pos.1 s2
  have f := fraction_sub u a v b d1 d2
  unfold troeExponent
  rw [← hu, ← ha, ← hv, ← hb, mul_div_assoc, mul_div_assoc, ← mul_sub, abs_mul]
  obtain ⟨x, hx⟩ : ∃ x, x = |a ^ 2 / (u ^ 2 + a ^ 2) - b ^ 2 / (v ^ 2 + b ^ 2)| := ⟨_, rfl⟩
  rw [← hx] at f ⊢
  have hx0 : 0 ≤ x := by rw [hx]; exact abs_nonneg _
  obtain ⟨s, hs⟩ : ∃ s, s = Real.sqrt (u ^ 2 + a ^ 2) := ⟨_, rfl⟩
  obtain ⟨t, ht⟩ : ∃ t, t = Real.sqrt (v ^ 2 + b ^ 2) := ⟨_, rfl⟩
  have hs2 : s ^ 2 = u ^ 2 + a ^ 2 := by rw [hs]; exact Real.sq_sqrt d1.le
  have ht2 : t ^ 2 = v ^ 2 + b ^ 2 := by rw [ht]; exact Real.sq_sqrt d2.le
  rw [← hs] at s1 f
  rw [← ht] at s2 f
  rw [← hs2] at b1
  rw [← ht2] at b2
  obtain ⟨n, hn⟩ : ∃ n, n = 75 / 100 - 127 / 100 * L := ⟨_, rfl⟩
  rw [← hn] at b1 b2
  have hn0 : 0 < n := by rw [hn]; linarith
  have e : a * v - b * u = n * (q - p) := by rw [ha, hb, hu, hv, hn]; ring
  rw [e, abs_mul, abs_of_pos hn0, abs_sub_comm q p] at f
  -- |L| n <= 0.85 s t
  have b3 : |L| * n ≤ 85 / 100 * (s * t) := by
    refine abs_le_of_sq_le_sq' ?_ (by positivity) |>.2
    have := mul_le_mul b1 b2 (by positivity) (by positivity)
    nlinarith
  have g := mul_le_mul_of_nonneg_left f (abs_nonneg L)
  have g2 := mul_le_mul_of_nonneg_right b3 (abs_nonneg (p - q))
  have hst : 0 < s * t := mul_pos s1 s2
  have : |L| * x * (s * t) ≤ 85 / 100 * |p - q| * (s * t) := by nlinarith
  exact le_of_mul_le_mul_right this hst

/-- Dependence on the centre. -/
theorem troeExponent_centre (L M p : ℝ) (hL : L ≤ 302 / 1000) (hM : M ≤ 302 / 1000) : |troeExponent L p - troeExponent M p| ≤ 3 * |L - M| := by
  obtain ⟨u, hu⟩ : ∃ u, u = p - 4 / 10 - 67 / 100 * L := ⟨_, rfl⟩
  obtain ⟨a, ha⟩ : ∃ a, a = 806 / 1000 - 14 / 100 * p - 11762 / 10000 * L := ⟨_, rfl⟩
  obtain ⟨v, hv⟩ : ∃ v, v = p - 4 / 10 - 67 / 100 * M := ⟨_, rfl⟩
  obtain ⟨b, hb⟩ : ∃ b, b = 806 / 1000 - 14 / 100 * p - 11762 / 10000 * M := ⟨_, rfl⟩
  obtain ⟨s1, -, -⟩ := troe_size L p hL u a hu ha
  obtain ⟨s2, b2, -⟩ := troe_size M p hM v b hv hb
  have d1 := Real.sqrt_pos.1 s1
  have d2 := Real.sqrt_pos.1 s2
  have f := fraction_sub u a v b d1 d2
  unfold troeExponent
  rw [← hu, ← ha, ← hv, ← hb, mul_div_assoc, mul_div_assoc]
  obtain ⟨y, hy⟩ : ∃ y, y = a ^ 2 / (u ^ 2 + a ^ 2) := ⟨_, rfl⟩
  obtain ⟨z, hz⟩ : ∃ z, z = b ^ 2 / (v ^ 2 + b ^ 2) := ⟨_, rfl⟩
  rw [← hy, ← hz] at f ⊢
  have y0 : 0 ≤ y := by rw [hy]; positivity
  have y1 : y ≤ 1 := by rw [hy, div_le_one d1]; nlinarith [sq_nonneg u]
  obtain ⟨s, hs⟩ : ∃ s, s = Real.sqrt (u ^ 2 + a ^ 2) := ⟨_, rfl⟩
  obtain ⟨t, ht⟩ : ∃ t, t = Real.sqrt (v ^ 2 + b ^ 2) := ⟨_, rfl⟩
  have hs2 : s ^ 2 = u ^ 2 + a ^ 2 := by rw [hs]; exact Real.sq_sqrt d1.le
  rw [← hs] at s1 f
  rw [← ht] at s2 f b2
  have e : a * v - b * u = (L - M) * (67 / 100 * a - 11762 / 10000 * u) := by rw [ha, hb, hu, hv]; ring
  have hw : |67 / 100 * a - 11762 / 10000 * u| ≤ 14 / 10 * s := by
    refine abs_le_of_sq_le_sq' ?_ (by positivity) |>.2
    rw [sq_abs, mul_pow, hs2]
    nlinarith [sq_nonneg (67 / 100 * u + 11762 / 10000 * a), sq_nonneg u, sq_nonneg a]
  rw [e, abs_mul] at f
  have f2 : |y - z| * t ≤ 14 / 10 * |L - M| := by
    have h1 : |y - z| * (s * t) ≤ |L - M| * (14 / 10 * s) := f.trans (mul_le_mul_of_nonneg_left hw (abs_nonneg _))
    have h2 : |y - z| * t * s ≤ 14 / 10 * |L - M| * s := by linarith
    exact le_of_mul_le_mul_right h2 s1
  have f3 : |M| * |y - z| ≤ 85 / 100 * (14 / 10 * |L - M|) := by
    have := mul_le_mul_of_nonneg_right b2 (abs_nonneg (y - z))
    linarith
  have e2 : L * y - M * z = (L - M) * y + M * (y - z) := by ring
  rw [e2]
  refine (abs_add_le _ _).trans ?_
  rw [abs_mul, abs_mul, abs_of_nonneg y0]
  have := mul_le_of_le_one_right (abs_nonneg (L - M)) y1
  have := abs_nonneg (L - M)
  linarith

theorem lg_two : lg 2 ≤ 302 / 1000 := by
  unfold lg
  rw [div_le_iff₀ log_ten_pos]
  have h : Real.log ((2 : ℝ) ^ 93) ≤ Real.log ((10 : ℝ) ^ 28) := Real.log_le_log (by norm_num) (by norm_num)
  rw [Real.log_pow, Real.log_pow] at h
  push_cast at h
  have := log_ten_pos
  linarith

theorem near_pos {ε x y : ℝ} (h : Near ε x y) (hy : 0 < y) : 0 < x := by
  rcases h.left.lt_or_eq with h' | h'
  · exact h'
  · exact absurd (h.zero_iff.1 h'.symm) hy.ne'

/-- Troe's factors at reduced pressures and centres near each other. -/
theorem troe_near_both {ε δ F G P Q : ℝ} (h : Near ε P Q) (hQ : 0 < Q) (hF : Near δ F G) (hG : 0 < G) (hF2 : F ≤ 2) (hG2 : G ≤ 2)
    (hp : lg P ≠ Troe.pole F) (hq : lg Q ≠ Troe.pole G) :
    Near (85 / 100 * ε + 3 * δ) (Troe.factor F P) (Troe.factor G Q) := by
  have hF0 := near_pos hF hG
  have hLF : lg F ≤ 302 / 1000 := (lg_le hF0 hF2).trans lg_two
  have hLG : lg G ≤ 302 / 1000 := (lg_le hG hG2).trans lg_two
  have key : ∀ Fc x : ℝ, x ≠ Troe.pole Fc →
      75 / 100 - 127 / 100 * lg Fc - 14 / 100 * (x + (-(4 / 10) - 67 / 100 * lg Fc)) ≠ 0 := by
    intro Fc x hx e
    apply hx
    unfold Troe.pole
    linarith
  have h1 := troeExponent_pressure (lg F) (lg P) (lg Q) hLF
  have h2 := troeExponent_centre (lg F) (lg G) (lg Q) hLF hLG
  have l1 := lg_near h hQ
  have l2 := lg_near hF hG
  unfold Troe.factor
  simp only
  rw [troeExponent_eq _ _ (key _ _ hp), troeExponent_eq _ _ (key _ _ hq)]
  refine Near.of_exp (η := Real.log 10 * (troeExponent (lg F) (lg P) - troeExponent (lg G) (lg Q))) (Real.rpow_nonneg (by norm_num) _) ?_ ?_
  · rw [abs_mul, abs_of_pos log_ten_pos]
    have e : troeExponent (lg F) (lg P) - troeExponent (lg G) (lg Q) =
        (troeExponent (lg F) (lg P) - troeExponent (lg F) (lg Q)) + (troeExponent (lg F) (lg Q) - troeExponent (lg G) (lg Q)) := by ring
    have h3 := (abs_add_le (troeExponent (lg F) (lg P) - troeExponent (lg F) (lg Q)) (troeExponent (lg F) (lg Q) - troeExponent (lg G) (lg Q))).trans (add_le_add h1 h2)
    rw [← e] at h3
    have := mul_le_mul_of_nonneg_left h3 log_ten_pos.le
    linarith
  · rw [Real.rpow_def_of_pos (by norm_num), Real.rpow_def_of_pos (by norm_num), ← Real.exp_add]
    congr 1
    ring

end DLB
