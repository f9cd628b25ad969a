import Verif.Lemmas.Near
import Verif.Spec.Reactor
import Mathlib.Analysis.SpecialFunctions.Log.Basic
/-
How Troe's broadening factor depends on the reduced pressure.
-/
set_option autoImplicit false

namespace DLB

theorem log_ten_pos : 0 < Real.log 10 := Real.log_pos (by norm_num)

theorem lg_three : lg 3 ≤ 12 / 25 := by
  unfold lg
  rw [div_le_iff₀ log_ten_pos]
  have h : Real.log ((3 : ℝ) ^ 25) ≤ Real.log ((10 : ℝ) ^ 12) := Real.log_le_log (by norm_num) (by norm_num)
  rw [Real.log_pow, Real.log_pow] at h
  push_cast at h
  linarith

theorem lg_le {x y : ℝ} (hx : 0 < x) (h : x ≤ y) : lg x ≤ lg y :=
  div_le_div_of_nonneg_right (Real.log_le_log hx h) log_ten_pos.le

theorem lg_near {ε P Q : ℝ} (h : Near ε P Q) (hQ : 0 < Q) : |lg P - lg Q| * Real.log 10 ≤ ε := by
  have hP : 0 < P := by
    rcases h.left.lt_or_eq with h' | h'
    · exact h'
    · exact absurd (h.zero_iff.1 h'.symm) hQ.ne'
  have e : |lg P - lg Q| * Real.log 10 = |Real.log P - Real.log Q| := by
    unfold lg
    rw [← sub_div, abs_div, abs_of_pos log_ten_pos, div_mul_cancel₀ _ log_ten_pos.ne']
  rw [e, abs_le]
  have h1 := Real.log_le_log hP h.le
  have h2 := Real.log_le_log hQ h.ge
  rw [Real.log_mul hQ.ne' (Real.exp_pos _).ne', Real.log_exp] at h1
  rw [Real.log_mul hP.ne' (Real.exp_pos _).ne', Real.log_exp] at h2
  constructor <;> linarith

/-- The exponent of Troe's factor changes by at most four times the change of `lg Pr`. -/
theorem troe_exponent (L u v : ℝ) (hL : L ≤ 12 / 25) (n : ℝ) (hn : n = 75 / 100 - 127 / 100 * L)
    (hu : n - 14 / 100 * u ≠ 0) (hv : n - 14 / 100 * v ≠ 0) :
    |L / (1 + (u / (n - 14 / 100 * u)) ^ 2) - L / (1 + (v / (n - 14 / 100 * v)) ^ 2)| ≤ 4 * |u - v| := by
  have hn0 : 0 < n := by rw [hn]; linarith
  obtain ⟨a, ha⟩ : ∃ a, a = n - 14 / 100 * u := ⟨_, rfl⟩
  obtain ⟨b, hb⟩ : ∃ b, b = n - 14 / 100 * v := ⟨_, rfl⟩
  rw [← ha] at hu ⊢
  rw [← hb] at hv ⊢
  have hD1 : 0 < u ^ 2 + a ^ 2 := by positivity
  have hD2 : 0 < v ^ 2 + b ^ 2 := by positivity
  have e1 : L / (1 + (u / a) ^ 2) = L * a ^ 2 / (u ^ 2 + a ^ 2) := by
    field_simp
    ring
  have e2 : L / (1 + (v / b) ^ 2) = L * b ^ 2 / (v ^ 2 + b ^ 2) := by
    field_simp
    ring
  have e3 : L * a ^ 2 / (u ^ 2 + a ^ 2) - L * b ^ 2 / (v ^ 2 + b ^ 2) =
      L * (n * (v - u)) * (a * v + b * u) / ((u ^ 2 + a ^ 2) * (v ^ 2 + b ^ 2)) := by
    have : n * (v - u) = a * v - b * u := by rw [ha, hb]; ring
    rw [this]
    field_simp
    ring
  -- lower bounds of the denominators
  have low : ∀ x c : ℝ, c = n - 14 / 100 * x → n ^ 2 ≤ 10196 / 10000 * (x ^ 2 + c ^ 2) := by
    intro x c hc
    have : n = c + 14 / 100 * x := by rw [hc]; ring
    rw [this]
    nlinarith [sq_nonneg (x - 14 / 100 * c)]
  have l1 := low u a ha
  have l2 := low v b hb
  -- Cauchy-Schwarz
  have cs : |a * v + b * u| ^ 2 ≤ (u ^ 2 + a ^ 2) * (v ^ 2 + b ^ 2) := by
    rw [sq_abs]
    nlinarith [sq_nonneg (u * v - a * b)]
  obtain ⟨s, hs⟩ : ∃ s, s = Real.sqrt ((u ^ 2 + a ^ 2) * (v ^ 2 + b ^ 2)) := ⟨_, rfl⟩
  have hs2 : s ^ 2 = (u ^ 2 + a ^ 2) * (v ^ 2 + b ^ 2) := by rw [hs]; exact Real.sq_sqrt (by positivity)
  have hs0 : 0 < s := by rw [hs]; exact Real.sqrt_pos.2 (by positivity)
  have c1 : |a * v + b * u| ≤ s := abs_le_of_sq_le_sq' (by rw [hs2]; exact cs) hs0.le |>.2
  have c2 : n ^ 2 ≤ 10196 / 10000 * s := by
    refine abs_le_of_sq_le_sq' ?_ (by positivity) |>.2
    rw [mul_pow, hs2]
    have := mul_le_mul l1 l2 (by positivity) (by positivity)
    nlinarith
  have hL' : |L| * (10196 / 10000) ≤ 4 * n := by
    rcases le_or_gt 0 L with h | h
    · rw [abs_of_nonneg h, hn]; linarith
    · rw [abs_of_neg h, hn]; linarith
  rw [e1, e2, e3, abs_div, abs_mul, abs_mul, abs_mul, ← hs2, abs_of_pos hn0, abs_of_pos (show 0 < s ^ 2 by positivity),
    div_le_iff₀ (by positivity), abs_sub_comm v u]
  have hd : 0 ≤ |u - v| := abs_nonneg _
  have k1 : |L| * n * s ≤ 4 * s ^ 2 := by
    have : |L| * n ≤ 4 * s := by
      have h1 : |L| * n ^ 2 ≤ |L| * (10196 / 10000 * s) := mul_le_mul_of_nonneg_left c2 (abs_nonneg _)
      have h2 : |L| * (10196 / 10000) * s ≤ 4 * n * s := mul_le_mul_of_nonneg_right hL' hs0.le
      have h3 : |L| * n * n ≤ 4 * s * n := by linarith
      exact le_of_mul_le_mul_right h3 hn0
    have := mul_le_mul_of_nonneg_right this hs0.le
    linarith
  calc |L| * (n * |u - v|) * |a * v + b * u| ≤ |L| * (n * |u - v|) * s :=
        mul_le_mul_of_nonneg_left c1 (by positivity)
    _ = |L| * n * s * |u - v| := by ring
    _ ≤ 4 * s ^ 2 * |u - v| := mul_le_mul_of_nonneg_right k1 hd
    _ = 4 * |u - v| * s ^ 2 := by ring

theorem troe_near {ε Fc P Q : ℝ} (h : Near ε P Q) (hQ : 0 < Q) (hF : 0 < Fc) (hF' : Fc ≤ 3)
    (hp : lg P ≠ Troe.pole Fc) (hq : lg Q ≠ Troe.pole Fc) : Near (4 * ε) (Troe.factor Fc P) (Troe.factor Fc Q) := by
  have hL : lg Fc ≤ 12 / 25 := (lg_le hF hF').trans lg_three
  have key : ∀ x : ℝ, x ≠ Troe.pole Fc →
      75 / 100 - 127 / 100 * lg Fc - 14 / 100 * (x + (-(4 / 10) - 67 / 100 * lg Fc)) ≠ 0 := by
    intro x hx e
    apply hx
    unfold Troe.pole
    linarith
  have hb := troe_exponent (lg Fc) _ _ hL _ rfl (key _ hp) (key _ hq)
  have hl := lg_near h hQ
  unfold Troe.factor
  simp only
  obtain ⟨x, hx⟩ : ∃ x, x = lg Fc / (1 + ((lg P + (-(4 / 10) - 67 / 100 * lg Fc)) /
    (75 / 100 - 127 / 100 * lg Fc - 14 / 100 * (lg P + (-(4 / 10) - 67 / 100 * lg Fc)))) ^ 2) := ⟨_, rfl⟩
  obtain ⟨y, hy⟩ : ∃ y, y = lg Fc / (1 + ((lg Q + (-(4 / 10) - 67 / 100 * lg Fc)) /
    (75 / 100 - 127 / 100 * lg Fc - 14 / 100 * (lg Q + (-(4 / 10) - 67 / 100 * lg Fc)))) ^ 2) := ⟨_, rfl⟩
  rw [← hx, ← hy] at hb ⊢
  refine Near.of_exp (η := Real.log 10 * (x - y)) (Real.rpow_nonneg (by norm_num) _) ?_ ?_
  · rw [abs_mul, abs_of_pos log_ten_pos]
    have e : lg P + (-(4 / 10) - 67 / 100 * lg Fc) - (lg Q + (-(4 / 10) - 67 / 100 * lg Fc)) = lg P - lg Q := by ring
    rw [e] at hb
    have := mul_le_mul_of_nonneg_left hb log_ten_pos.le
    linarith
  · rw [Real.rpow_def_of_pos (by norm_num), Real.rpow_def_of_pos (by norm_num), ← Real.exp_add]
    congr 1
    ring

/-- The centre is at most 3. -/
def centreSmall (t : Troe) : Bool :=
  decide (0 ≤ t.A.1) && decide (1000 * t.A.1 ≤ 1985 * 10 ^ t.A.2) && decide (0 ≤ t.T1.1) && decide (0 ≤ t.T3.1) && match t.T2 with
    | some d => decide (-10 ^ d.2 ≤ d.1)
    | none => true

theorem centreSmall_sound {t : Troe} (h : centreSmall t = true) (T : ℝ) (hT : 200 ≤ T) : t.centre T ≤ 3 := by
  simp only [centreSmall, Bool.and_eq_true, decide_eq_true_eq] at h
  obtain ⟨⟨⟨⟨h1, h2⟩, h3⟩, h4⟩, h5⟩ := h
  have nn : ∀ d : SDec, 0 ≤ d.1 → (0 : ℝ) ≤ SDec.val d := by
    intro d hd
    unfold SDec.val
    exact div_nonneg (by exact_mod_cast hd) (by positivity)
  have hA0 := nn _ h1
  have hA1 : (SDec.val t.A : ℝ) ≤ 1985 / 1000 := by
    unfold SDec.val
    rw [div_le_div_iff₀ (by positivity) (by norm_num)]
    have : ((1000 * t.A.1 : Int) : ℝ) ≤ ((1985 * 10 ^ t.A.2 : Int) : ℝ) := Int.cast_le.2 h2
    push_cast at this
    linarith
  have ex : ∀ d : SDec, 0 ≤ d.1 → Real.exp (-(T / SDec.val d)) ≤ 1 := by
    intro d hd
    rw [Real.exp_le_one_iff, neg_nonpos]
    exact div_nonneg (by linarith) (nn d hd)
  have e1 := ex _ h3
  have e3 := ex _ h4
  have p1 := Real.exp_pos (-(T / SDec.val t.T1))
  have p3 := Real.exp_pos (-(T / SDec.val t.T3))
  have hlast : (match t.T2 with
      | some d => Real.exp (-(SDec.val d / T))
      | none => 0) ≤ 101 / 100 := by
    split
    · rename_i d hd
      rw [hd] at h5
      simp only [decide_eq_true_eq] at h5
      have hv : (-1 : ℝ) ≤ SDec.val d := by
        unfold SDec.val
        rw [le_div_iff₀ (by positivity)]
        have : ((-10 ^ d.2 : Int) : ℝ) ≤ (d.1 : ℝ) := Int.cast_le.2 h5
        push_cast at this
        linarith
      have hq : -(SDec.val d / T) ≤ 1 / 200 := by
        rw [← neg_div, div_le_div_iff₀ (by linarith) (by norm_num)]
        linarith
      refine (Real.exp_le_exp.2 hq).trans ?_
      have := Real.abs_exp_sub_one_le (x := 1 / 200) (by norm_num [abs_of_pos])
      rw [abs_of_pos (show (0 : ℝ) < 1 / 200 by norm_num)] at this
      linarith [(abs_le.1 this).2]
    · norm_num
  have a1 : SDec.val t.A * Real.exp (-(T / SDec.val t.T1)) ≤ SDec.val t.A := mul_le_of_le_one_right hA0 e1
  have a2 : (1 - SDec.val t.A) * Real.exp (-(T / SDec.val t.T3)) ≤ max 0 (1 - SDec.val t.A) := by
    rcases le_or_gt 0 (1 - (SDec.val t.A : ℝ)) with h | h
    · exact (mul_le_of_le_one_right h e3).trans (le_max_right _ _)
    · exact (mul_nonpos_of_nonpos_of_nonneg h.le p3.le).trans (le_max_left _ _)
  unfold Troe.centre
  refine (add_le_add (add_le_add a2 a1) hlast).trans ?_
  rcases le_or_gt (0 : ℝ) (1 - SDec.val t.A) with h | h
  · rw [max_eq_right h]; linarith
  · rw [max_eq_left h.le]; linarith

end DLB
