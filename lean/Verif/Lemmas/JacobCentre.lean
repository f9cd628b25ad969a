import Verif.Lemmas.JacobTroe
import Verif.Lemmas.JacobSlope
import Verif.Lemmas.JacobDeriv
import Verif.Lemmas.Near
/-
The centre of Troe's falloff and its slope as `eval_jacob` computes them.
-/
set_option autoImplicit false
set_option linter.unusedSectionVars false

namespace DLB

/-! ### Tight estimates -/

theorem exp_sub_one_tight {η : ℝ} (h : |η| ≤ 1 / 100) : |Real.exp η - 1| ≤ 101 / 100 * |η| := by
  have h1 := Real.abs_exp_sub_one_sub_id_le (x := η) (h.trans (by norm_num))
  have h2 : η ^ 2 ≤ 1 / 100 * |η| := by
    rw [← sq_abs, pow_two]
    exact mul_le_mul_of_nonneg_right h (abs_nonneg _)
  have e : Real.exp η - 1 = (Real.exp η - 1 - η) + η := by ring
  rw [e]
  refine (abs_add_le _ _).trans ?_
  linarith

theorem near_of_abs_tight {ε x y : ℝ} (hy : 0 ≤ y) (h0 : 0 ≤ ε) (h1 : ε ≤ 1 / 100) (h : |x - y| ≤ ε * y) : Near (102 / 100 * ε) x y := by
  obtain ⟨a, b⟩ := abs_le.1 h
  have hx : 0 ≤ x := by
    have : ε * y ≤ 1 / 100 * y := mul_le_mul_of_nonneg_right h1 hy
    linarith
  have e := Real.add_one_le_exp (102 / 100 * ε)
  refine ⟨hx, hy, ?_, ?_⟩
  · have : y * (102 / 100 * ε + 1) ≤ y * Real.exp (102 / 100 * ε) := mul_le_mul_of_nonneg_left e hy
    nlinarith [mul_nonneg h0 hy]
  · have h2 : x * (102 / 100 * ε + 1) ≤ x * Real.exp (102 / 100 * ε) := mul_le_mul_of_nonneg_left e hx
    have h3 : (1 - ε) * y * (102 / 100 * ε + 1) ≤ x * (102 / 100 * ε + 1) :=
      mul_le_mul_of_nonneg_right (by linarith) (by linarith)
    have h4 : (1 - ε) * y * (102 / 100 * ε + 1) - y = y * (ε * (2 / 100 - 102 / 100 * ε)) := by ring
    have h5 : 0 ≤ y * (ε * (2 / 100 - 102 / 100 * ε)) := mul_nonneg hy (mul_nonneg h0 (by linarith))
    linarith

/-- A term `b exp(-y)` with a rounded factor and a rounded exponent. -/
theorem term_near {b b' y y' k : ℝ} (hb : |b' - b| ≤ |b| / 10 ^ 14) (hy0 : |y| ≤ k) (hk : k ≤ 100) (hy : |y' - y| ≤ 101 / 10 ^ 16 * |y|) :
    |b' * Real.exp (-y') - b * Real.exp (-y)| ≤ (101 + 104 * k) / 10 ^ 16 * (|b| * Real.exp (-y)) := by
  have he : Real.exp (-y') = Real.exp (-y) * Real.exp (y - y') := by
    rw [← Real.exp_add]
    congr 1
    ring
  have hk0 : 0 ≤ k := (abs_nonneg y).trans hy0
  have hη : |y - y'| ≤ 101 / 10 ^ 16 * k := by
    rw [abs_sub_comm]
    exact hy.trans (mul_le_mul_of_nonneg_left hy0 (by positivity))
  have hη1 : |y - y'| ≤ 1 / 100 := hη.trans (by norm_num; linarith)
  have h1 := exp_sub_one_tight hη1
  have e : b' * Real.exp (-y') - b * Real.exp (-y) =
      ((b' - b) * (Real.exp (y - y') - 1) + (b' - b) + b * (Real.exp (y - y') - 1)) * Real.exp (-y) := by
    rw [he]
    ring
  rw [e, abs_mul, abs_of_pos (Real.exp_pos (-y)), ← mul_assoc]
  refine mul_le_mul_of_nonneg_right ?_ (Real.exp_pos _).le
  have h2 : |Real.exp (y - y') - 1| ≤ 10202 / 10 ^ 18 * k := by
    refine h1.trans ?_
    have := mul_le_mul_of_nonneg_left hη (by norm_num : (0 : ℝ) ≤ 101 / 100)
    norm_num at this ⊢
    linarith
  have h3 : |(b' - b) * (Real.exp (y - y') - 1)| ≤ |b| / 10 ^ 14 * (1 / 1000) := by
    rw [abs_mul]
    refine mul_le_mul hb (h2.trans ?_) (abs_nonneg _) (by positivity)
    norm_num
    linarith
  have h4 : |b * (Real.exp (y - y') - 1)| ≤ |b| * (10202 / 10 ^ 18 * k) := by
    rw [abs_mul]
    exact mul_le_mul_of_nonneg_left h2 (abs_nonneg _)
  refine (abs_add_le _ _).trans ?_
  refine (add_le_add (abs_add_le _ _) le_rfl).trans ?_
  have hbk : 0 ≤ |b| * k := mul_nonneg (abs_nonneg _) hk0
  have := abs_nonneg b
  norm_num at hb h3 h4 ⊢
  linarith

/-- A term with a large exponent is small. -/
theorem term_small {b b' a y y' Y : ℝ} (ha : 0 ≤ a) (hbn : |b| ≤ a * (1 + y)) (hb : |b' - b| ≤ |b| / 10 ^ 14) (hY : 40 ≤ Y) (h1 : Y ≤ y)
    (hy : |y' - y| ≤ 101 / 10 ^ 16 * |y|) :
    |b' * Real.exp (-y')| ≤ 12 * a * Real.exp (-(85 / 100 * Y)) ∧ |b * Real.exp (-y)| ≤ 12 * a * Real.exp (-(85 / 100 * Y)) := by
  have hy0 : 0 < y := by linarith
  rw [abs_of_pos hy0] at hy
  have hy' : 99 / 100 * y ≤ y' := by
    have := (abs_le.1 hy).1
    norm_num at this ⊢
    linarith
  have key : (1 + y) * Real.exp (-(99 / 100 * y)) ≤ 10 * Real.exp (-(85 / 100 * Y)) := by
    have e : Real.exp (-(99 / 100 * y)) = Real.exp (-(1 / 10 * y)) * Real.exp (-(89 / 100 * y)) := by
      rw [← Real.exp_add]
      congr 1
      ring
    have e2 : Real.exp (-(89 / 100 * y)) ≤ Real.exp (-(85 / 100 * Y)) := Real.exp_le_exp.2 (by linarith)
    have e3 : (1 + y) * Real.exp (-(1 / 10 * y)) ≤ 10 := by
      have := Real.add_one_le_exp (1 / 10 * y)
      rw [Real.exp_neg, ← div_eq_mul_inv, div_le_iff₀ (Real.exp_pos _)]
      linarith
    rw [e, ← mul_assoc]
    exact mul_le_mul e3 e2 (Real.exp_pos _).le (by norm_num)
  have m1 : Real.exp (-y') ≤ Real.exp (-(99 / 100 * y)) := Real.exp_le_exp.2 (by linarith)
  have m2 : Real.exp (-y) ≤ Real.exp (-(99 / 100 * y)) := Real.exp_le_exp.2 (by linarith)
  have hb' : |b'| ≤ 12 / 10 * |b| := by
    have e : b' = (b' - b) + b := by ring
    have : |b'| ≤ |b' - b| + |b| := by
      calc |b'| = |(b' - b) + b| := by rw [← e]
        _ ≤ _ := abs_add_le _ _
    have := abs_nonneg b
    norm_num at hb ⊢
    linarith
  have bound : ∀ c x : ℝ, |c| ≤ 12 / 10 * (a * (1 + y)) → x ≤ Real.exp (-(99 / 100 * y)) → 0 < x →
      |c * x| ≤ 12 * a * Real.exp (-(85 / 100 * Y)) := by
    intro c x hc hx hx0
    rw [abs_mul, abs_of_pos hx0]
    refine (mul_le_mul hc hx hx0.le (by positivity)).trans ?_
    have := mul_le_mul_of_nonneg_left key (show 0 ≤ 12 / 10 * a by positivity)
    linarith
  refine ⟨bound b' _ (hb'.trans (by linarith)) m1 (Real.exp_pos _), bound b _ (hbn.trans ?_) m2 (Real.exp_pos _)⟩
  have : 0 ≤ a * (1 + y) := by positivity
  linarith

theorem exp_neg_84 : Real.exp (-(85 / 100 * 99)) ≤ 1 / 10 ^ 30 := by
  have h2 : (27 / 10 : ℝ) ≤ Real.exp 1 := by
    have := Real.exp_one_gt_d9
    linarith
  have e : Real.exp (-(84 : ℝ)) = (Real.exp 1 ^ 84)⁻¹ := by
    rw [← Real.exp_nat_mul, ← Real.exp_neg]
    congr 1
    norm_num
  refine (Real.exp_le_exp.2 (show -(85 / 100 * 99) ≤ -(84 : ℝ) by norm_num)).trans ?_
  rw [e, one_div]
  refine inv_anti₀ (by positivity) (le_trans ?_ (pow_le_pow_left₀ (by norm_num) h2 84))
  norm_num

theorem exp_neg_39 : Real.exp (-(85 / 100 * 46)) ≤ 1 / 10 ^ 16 := by
  have h2 : (27 / 10 : ℝ) ≤ Real.exp 1 := by
    have := Real.exp_one_gt_d9
    linarith
  have e : Real.exp (-(39 : ℝ)) = (Real.exp 1 ^ 39)⁻¹ := by
    rw [← Real.exp_nat_mul, ← Real.exp_neg]
    congr 1
    norm_num
  refine (Real.exp_le_exp.2 (show -(85 / 100 * 46) ≤ -(39 : ℝ) by norm_num)).trans ?_
  rw [e, one_div]
  refine inv_anti₀ (by positivity) (le_trans ?_ (pow_le_pow_left₀ (by norm_num) h2 39))
  norm_num

theorem quot_near {s d T : ℝ} (hT : 0 < T) (hd : 0 < d) (h : |s - d| ≤ |d| / 10 ^ 14) : |T / s - T / d| ≤ 101 / 10 ^ 16 * |T / d| := by
  rw [abs_of_pos hd] at h
  obtain ⟨a1, a2⟩ := abs_le.1 h
  have hs : 999 / 1000 * d ≤ s := by norm_num at a1 ⊢; linarith
  have hs0 : 0 < s := lt_of_lt_of_le (by positivity) hs
  have e : T / s - T / d = T / d * ((d - s) / s) := by field_simp
  rw [e, abs_mul, mul_comm]
  refine mul_le_mul_of_nonneg_right ?_ (abs_nonneg _)
  rw [abs_div, abs_of_pos hs0, div_le_iff₀ hs0, abs_sub_comm]
  refine h.trans ?_
  norm_num at hs ⊢
  linarith

theorem quot_near' {s d T : ℝ} (hT : 0 < T) (h : |s - d| ≤ |d| / 10 ^ 14) : |s / T - d / T| ≤ 101 / 10 ^ 16 * |d / T| := by
  rw [← sub_div, abs_div, abs_div, abs_of_pos hT, ← mul_div_assoc]
  refine div_le_div_of_nonneg_right (h.trans ?_) hT.le
  have := abs_nonneg d
  norm_num
  linarith

/-! ### The kinds of parameters -/

/-- At least `n`. -/
def SDec.ge (d : SDec) (n : Int) : Bool := decide (n * 10 ^ d.2 ≤ d.1)

/-- At most `n / k`. -/
def SDec.leQ (d : SDec) (n : Int) (k : Nat) : Bool := decide (d.1 * k ≤ n * 10 ^ d.2)

theorem SDec.ge_sound {d : SDec} {n : Int} (h : d.ge n = true) : (n : ℝ) ≤ SDec.val d := by
  have h := of_decide_eq_true h
  unfold SDec.val
  rw [le_div_iff₀ (by positivity)]
  exact_mod_cast h

theorem SDec.leQ_sound {d : SDec} {n : Int} {k : Nat} (hk : 0 < k) (h : d.leQ n k = true) : (SDec.val d : ℝ) ≤ n / k := by
  have h := of_decide_eq_true h
  unfold SDec.val
  rw [div_le_div_iff₀ (by positivity) (by positivity)]
  exact_mod_cast h

/-- `A` from 0 to 1, `T3` and `T1` at least 62 K, `T2` from 0 to 19000 K. -/
def Troe.plain (t : Troe) : Bool := t.A.ge 0 && t.A.leQ 1 1 && t.T3.ge 62 && t.T1.ge 62 && match t.T2 with
  | some d => d.ge 0 && d.leQ 19000 1
  | none => true

/-- `A` from 0.4 to 1, `T1` at least 1000 K. -/
def Troe.broad (t : Troe) : Bool := t.A.leQ 1 1 && SDec.leQ (-t.A.1, t.A.2) (-2) 5 && decide (0 < t.T3.1) && t.T1.ge 1000 && match t.T2 with
  | some d => d.ge 0
  | none => true

/-- `A` from 1 to 1.982, `T3` at least 5000 K, `T1` at most 4.3 K, `T2` from -1 to 0 K. -/
def Troe.steep (t : Troe) : Bool := t.A.ge 1 && t.A.leQ 1982 1000 && t.T3.ge 5000 && decide (0 < t.T1.1) && t.T1.leQ 43 10 && match t.T2 with
  | some d => d.ge (-1) && d.leQ 0 1
  | none => false

/-- One of these. -/
def Troe.modest (t : Troe) : Bool := t.plain || t.broad || t.steep

theorem val_pos {d : SDec} (h : 0 < d.1) : 0 < (SDec.val d : ℝ) := div_pos (by exact_mod_cast h) (by positivity)

theorem Troe.plain_sound {t : Troe} (h : t.plain = true) : 0 ≤ (SDec.val t.A : ℝ) ∧ (SDec.val t.A : ℝ) ≤ 1 ∧ 62 ≤ (SDec.val t.T3 : ℝ) ∧
    62 ≤ (SDec.val t.T1 : ℝ) ∧ ∀ d, t.T2 = some d → 0 ≤ (SDec.val d : ℝ) ∧ (SDec.val d : ℝ) ≤ 19000 := by
  simp only [Troe.plain, Bool.and_eq_true] at h
  obtain ⟨⟨⟨⟨h1, h2⟩, h3⟩, h4⟩, h5⟩ := h
  have h1 := SDec.ge_sound h1
  have h2 := SDec.leQ_sound (by norm_num) h2
  have h3 := SDec.ge_sound h3
  have h4 := SDec.ge_sound h4
  norm_num at h1 h2 h3 h4
  refine ⟨h1, h2, h3, h4, fun d hd => ?_⟩
  rw [hd] at h5
  simp only [Bool.and_eq_true] at h5
  have h6 := SDec.ge_sound h5.1
  have h7 := SDec.leQ_sound (by norm_num) h5.2
  norm_num at h6 h7
  exact ⟨h6, h7⟩

theorem Troe.broad_sound {t : Troe} (h : t.broad = true) : 2 / 5 ≤ (SDec.val t.A : ℝ) ∧ (SDec.val t.A : ℝ) ≤ 1 ∧ 0 < (SDec.val t.T3 : ℝ) ∧
    1000 ≤ (SDec.val t.T1 : ℝ) ∧ ∀ d, t.T2 = some d → 0 ≤ (SDec.val d : ℝ) := by
  simp only [Troe.broad, Bool.and_eq_true, decide_eq_true_eq] at h
  obtain ⟨⟨⟨⟨h1, h2⟩, h3⟩, h4⟩, h5⟩ := h
  have h1 := SDec.leQ_sound (by norm_num) h1
  have h2 := SDec.leQ_sound (by norm_num) h2
  have h4 := SDec.ge_sound h4
  have e : (SDec.val (-t.A.1, t.A.2) : ℝ) = - SDec.val t.A := by simp [SDec.val, neg_div]
  rw [e] at h2
  norm_num at h1 h2 h4
  refine ⟨by linarith, h1, val_pos h3, h4, fun d hd => ?_⟩
  rw [hd] at h5
  exact_mod_cast SDec.ge_sound h5

theorem Troe.steep_sound {t : Troe} (h : t.steep = true) : 1 ≤ (SDec.val t.A : ℝ) ∧ (SDec.val t.A : ℝ) ≤ 1982 / 1000 ∧
    5000 ≤ (SDec.val t.T3 : ℝ) ∧ 0 < (SDec.val t.T1 : ℝ) ∧ (SDec.val t.T1 : ℝ) ≤ 43 / 10 ∧
    ∃ d, t.T2 = some d ∧ -1 ≤ (SDec.val d : ℝ) ∧ (SDec.val d : ℝ) ≤ 0 := by
  simp only [Troe.steep, Bool.and_eq_true, decide_eq_true_eq] at h
  obtain ⟨⟨⟨⟨⟨h1, h2⟩, h3⟩, h4⟩, h5⟩, h6⟩ := h
  have h1 := SDec.ge_sound h1
  have h2 := SDec.leQ_sound (by norm_num) h2
  have h3 := SDec.ge_sound h3
  have h5 := SDec.leQ_sound (by norm_num) h5
  push_cast at h1 h2 h3 h5
  refine ⟨h1, h2, h3, val_pos h4, h5, ?_⟩
  split at h6
  · rename_i d hd
    simp only [Bool.and_eq_true] at h6
    have a := SDec.ge_sound h6.1
    have b := SDec.leQ_sound (by norm_num) h6.2
    push_cast at a b
    norm_num at b
    exact ⟨d, hd, a, b⟩
  · exact absurd h6 (by simp)

/-! ### The centre and its slope -/

theorem centre_core {F Fc N N' K ε δ : ℝ} (hF : 0 < F) (hε0 : 0 ≤ ε) (hε : ε ≤ 29 / 10 ^ 13) (hv : |Fc - F| ≤ ε * F) (hN : |N| ≤ K * F)
    (hK0 : 0 ≤ K) (hK : K ≤ 100) (hd : |N' - N| ≤ δ * F) (hδ : δ ≤ 2 / 10 ^ 10) (hKε : K * ε ≤ 15 / 10 ^ 11) :
    Near (30 / 10 ^ 13) Fc F ∧ Ap (N' / Fc) (N / F) 100 (1 / 10 ^ 9) := by
  have hF2 : F / 2 ≤ Fc := by
    have h1 := (abs_le.1 hv).1
    have : ε * F ≤ 29 / 10 ^ 13 * F := mul_le_mul_of_nonneg_right hε hF.le
    norm_num at this
    linarith
  have hFc : 0 < Fc := by linarith
  refine ⟨(near_of_abs_tight hF.le hε0 (hε.trans (by norm_num)) hv).mono (by norm_num at hε ⊢; linarith), ?_, ?_⟩
  · rw [abs_div, abs_of_pos hF, div_le_iff₀ hF]
    exact hN.trans (mul_le_mul_of_nonneg_right hK hF.le)
  · have e : N' / Fc - N / F = ((N' - N) * F + N * (F - Fc)) / (Fc * F) := by
      field_simp
      ring
    have hp : 0 < Fc * F := mul_pos hFc hF
    rw [e, abs_div, abs_of_pos hp, div_le_iff₀ hp]
    refine (abs_add_le _ _).trans ?_
    rw [abs_mul, abs_mul, abs_of_pos hF, abs_sub_comm F Fc]
    have a1 : |N' - N| * F ≤ δ * F * F := mul_le_mul_of_nonneg_right hd hF.le
    have a2 : |N| * |Fc - F| ≤ K * F * (ε * F) := mul_le_mul hN hv (abs_nonneg _) (by positivity)
    have a3 : F * F ≤ 2 * (Fc * F) := by nlinarith
    have a4 : δ * F * F ≤ 2 / 10 ^ 10 * (F * F) := by
      rw [mul_assoc]
      exact mul_le_mul_of_nonneg_right hδ (mul_self_nonneg F)
    have a5 : K * F * (ε * F) ≤ 15 / 10 ^ 11 * (F * F) := by
      have : K * F * (ε * F) = K * ε * (F * F) := by ring
      rw [this]
      exact mul_le_mul_of_nonneg_right hKε (mul_self_nonneg F)
    norm_num at a4 a5 ⊢
    linarith

/-- A term of the centre with a non-negative factor. -/
theorem term_ok {a b β y y' y'' F : ℝ} (ha : 0 ≤ a) (ha1 : a ≤ 1) (hy0 : 0 ≤ y) (hb : |b - a| ≤ |a| / 10 ^ 14)
    (hβ : |β - y * a| ≤ |y * a| / 10 ^ 14) (hy' : |y' - y| ≤ 101 / 10 ^ 16 * |y|) (hy'' : |y'' - y| ≤ 101 / 10 ^ 16 * |y|) (hF0 : 0 < F)
    (hF : y ≤ 99 ∨ 1 / 2000 ≤ F) :
    |b * Real.exp (-y') - a * Real.exp (-y)| ≤ 10501 / 10 ^ 16 * (a * Real.exp (-y)) + F / 10 ^ 20 ∧
    |y * a * Real.exp (-y)| ≤ 99 * (a * Real.exp (-y)) + F / 10 ^ 20 ∧
    |β * Real.exp (-y'') - y * a * Real.exp (-y)| ≤ 10501 / 10 ^ 14 * (a * Real.exp (-y)) + F / 10 ^ 20 := by
  have hx : 0 ≤ a * Real.exp (-y) := mul_nonneg ha (Real.exp_pos _).le
  have hF20 : 0 ≤ F / 10 ^ 20 := by positivity
  have hya : 0 ≤ y * a := mul_nonneg hy0 ha
  rcases le_or_gt y 99 with h100 | h100
  · have hk : |y| ≤ 99 := by rw [abs_of_nonneg hy0]; exact h100
    have t1 := term_near hb hk (by norm_num) hy'
    have t2 := term_near hβ hk (by norm_num) hy''
    rw [abs_of_nonneg ha] at t1
    rw [abs_of_nonneg hya] at t2
    have s : y * a * Real.exp (-y) ≤ 99 * (a * Real.exp (-y)) := by
      rw [mul_assoc]
      exact mul_le_mul_of_nonneg_right h100 hx
    refine ⟨?_, ?_, ?_⟩
    · norm_num at t1 hF20 ⊢
      linarith
    · rw [abs_of_nonneg (mul_nonneg hya (Real.exp_pos _).le)]
      linarith
    · norm_num at t2 hF20 ⊢
      linarith
  · have hF := hF.resolve_left (not_le.2 h100)
    have q1 := term_small (Y := 99) ha (by rw [abs_of_nonneg ha]; nlinarith) hb (by norm_num) h100.le hy'
    have q2 := term_small (b := y * a) (Y := 99) ha (by rw [abs_of_nonneg hya]; linarith) hβ (by norm_num) h100.le hy''
    have hs : 12 * a * Real.exp (-(85 / 100 * 99)) ≤ F / 10 ^ 21 := by
      have := mul_le_mul (show 12 * a ≤ 12 by linarith) exp_neg_84 (Real.exp_pos _).le (by norm_num)
      refine this.trans ?_
      norm_num
      linarith
    have c : ∀ u w : ℝ, |u| ≤ F / 10 ^ 21 → |w| ≤ F / 10 ^ 21 → |u - w| ≤ F / 10 ^ 20 := by
      intro u w h1 h2
      refine (abs_sub _ _).trans ?_
      norm_num at h1 h2 ⊢
      linarith
    refine ⟨(c _ _ (q1.1.trans hs) (q1.2.trans hs)).trans (by linarith), ?_, (c _ _ (q2.1.trans hs) (q2.2.trans hs)).trans (by linarith)⟩
    refine (q2.2.trans hs).trans ?_
    norm_num
    linarith

/-- The last term of the centre. -/
noncomputable def lastTerm (t2 : Option SDec) (T : ℝ) : ℝ := match t2 with
  | some d => Real.exp (-(SDec.val d / T))
  | none => 0

/-- The last term of its slope. -/
noncomputable def lastSlopeTerm (t2 : Option SDec) (T : ℝ) : ℝ := match t2 with
  | some d => SDec.val d / (T * T) * Real.exp (-(SDec.val d / T))
  | none => 0

theorem last_terms {t2 : Option SDec} {T x z : ℝ} (hT : 0 < T) (hx : LastVal t2 T x) (hz : LastSlope t2 T z)
    (h0 : ∀ d, t2 = some d → 0 ≤ (SDec.val d : ℝ)) :
    ∃ a b β y y' y'' : ℝ, 0 ≤ a ∧ a ≤ 1 ∧ 0 ≤ y ∧ |b - a| ≤ |a| / 10 ^ 14 ∧ |β - y * a| ≤ |y * a| / 10 ^ 14 ∧
      |y' - y| ≤ 101 / 10 ^ 16 * |y| ∧ |y'' - y| ≤ 101 / 10 ^ 16 * |y| ∧ x = b * Real.exp (-y') ∧ T * z = β * Real.exp (-y'') ∧
      lastTerm t2 T = a * Real.exp (-y) ∧ T * lastSlopeTerm t2 T = y * a * Real.exp (-y) ∧ (∀ d, t2 = some d → y = SDec.val d / T) ∧
      (t2 = none → y = 0) := by
  cases t2 with
  | none =>
    refine ⟨0, 0, 0, 0, 0, 0, le_rfl, zero_le_one, le_rfl, by simp, by simp, by simp, by simp, ?_, ?_, ?_, ?_, ?_, fun _ => rfl⟩
    · have : x = 0 := hx
      simp [this]
    · have : z = 0 := hz
      simp [this]
    · simp [lastTerm]
    · simp [lastSlopeTerm]
    · intro d hd
      exact absurd hd (by simp)
  | some d =>
    obtain ⟨s, hs, ex⟩ := hx
    obtain ⟨q, s', hq, hs', ez⟩ := hz
    have hd := h0 d rfl
    refine ⟨1, 1, q / T, SDec.val d / T, s / T, s' / T, zero_le_one, le_rfl, div_nonneg hd hT.le, by simp, ?_, quot_near' hT hs, quot_near' hT hs',
      ?_, ?_, ?_, ?_, ?_, fun h => absurd h (by simp)⟩
    · rw [mul_one, ← sub_div, abs_div, abs_div, abs_of_pos hT, div_right_comm]
      exact div_le_div_of_nonneg_right hq hT.le
    · rw [one_mul, ex]
    · rw [ez]
      field_simp
    · rw [one_mul]
      rfl
    · rw [lastSlopeTerm]
      field_simp
    · intro d' hd'
      rw [Option.some.inj hd']

theorem centre_eq (t : Troe) (T : ℝ) : t.centre T = (1 - SDec.val t.A) * Real.exp (-(T / SDec.val t.T3)) +
    SDec.val t.A * Real.exp (-(T / SDec.val t.T1)) + lastTerm t.T2 T := by
  unfold Troe.centre lastTerm
  cases t.T2 <;> rfl

theorem centreSlope_eq (t : Troe) (T : ℝ) : t.centreSlope T = (-(T / SDec.val t.T3 * (1 - SDec.val t.A) * Real.exp (-(T / SDec.val t.T3))) -
    T / SDec.val t.T1 * SDec.val t.A * Real.exp (-(T / SDec.val t.T1)) + T * lastSlopeTerm t.T2 T) / t.centre T := by
  unfold Troe.centreSlope lastSlopeTerm
  cases t.T2 <;> ring

theorem scaled_near {c a s T : ℝ} (hT : 0 < T) (h : |c - a / s| ≤ |a / s| / 10 ^ 14) : |T * c - T / s * a| ≤ |T / s * a| / 10 ^ 14 := by
  have e1 : T * c - T / s * a = T * (c - a / s) := by ring
  have e2 : T / s * a = T * (a / s) := by ring
  rw [e1, e2, abs_mul, abs_mul, abs_of_pos hT, mul_div_assoc]
  exact mul_le_mul_of_nonneg_left h hT.le

/-- Non-negative terms. -/
theorem centre_sum {t : Troe} {T Fc FP : ℝ} (hT : 0 < T) (hF : FcVal t T Fc) (hP : FpVal t T FP) (h0 : 0 < t.centre T)
    (hA0 : 0 ≤ (SDec.val t.A : ℝ)) (hA1 : (SDec.val t.A : ℝ) ≤ 1) (h2 : ∀ d, t.T2 = some d → 0 ≤ (SDec.val d : ℝ))
    (c3 : T / SDec.val t.T3 ≤ 99 ∨ 1 / 2000 ≤ t.centre T) (c1 : T / SDec.val t.T1 ≤ 99 ∨ 1 / 2000 ≤ t.centre T)
    (c2 : ∀ d, t.T2 = some d → SDec.val d / T ≤ 99 ∨ 1 / 2000 ≤ t.centre T) :
    Near (30 / 10 ^ 13) Fc (t.centre T) ∧ Ap (T * FP / Fc) (t.centreSlope T) 100 (1 / 10 ^ 9) := by
  obtain ⟨k1, k2, s3, s1, last, n3, n1, q1, q2, hl, eF⟩ := hF
  obtain ⟨p3, p1, k1', k2', s3', s1', last', n3', n1', q1', q2', hl', eP⟩ := hP
  obtain ⟨a, b, β, y, y', y'', ha0, ha1, hy0, hb, hβ, hy', hy'', ex, ez, et, es, hsome, hnone⟩ := last_terms hT hl hl' h2
  have hA1' : (0 : ℝ) ≤ 1 - SDec.val t.A := by linarith
  have cc2 : y ≤ 99 ∨ 1 / 2000 ≤ t.centre T := by
    cases h : t.T2 with
    | none => left; rw [hnone h]; norm_num
    | some d => rw [hsome d h]; exact c2 d h
  obtain ⟨u1, u2, u3⟩ := term_ok hA1' (by linarith) (div_nonneg hT.le p3.le) q1 (scaled_near hT q1') (quot_near hT p3 n3) (quot_near hT p3 n3') h0 c3
  obtain ⟨v1, v2, v3⟩ := term_ok hA0 hA1 (div_nonneg hT.le p1.le) q2 (scaled_near hT q2') (quot_near hT p1 n1) (quot_near hT p1 n1') h0 c1
  obtain ⟨w1, w2, w3⟩ := term_ok ha0 ha1 hy0 hb hβ hy' hy'' h0 cc2
  have e1 := centre_eq t T
  rw [et] at e1
  have e2 := centreSlope_eq t T
  rw [es] at e2
  have eFP : T * FP = -(T * k1' * Real.exp (-(T / s3'))) - T * k2' * Real.exp (-(T / s1')) + β * Real.exp (-y'') := by
    rw [eP, ← ez]
    ring
  rw [ex] at eF
  obtain ⟨F, hFe⟩ : ∃ F, F = t.centre T := ⟨_, rfl⟩
  rw [e2, eFP, eF]
  rw [← hFe] at h0 u1 u2 u3 v1 v2 v3 w1 w2 w3 e1 ⊢
  obtain ⟨r3, hr3⟩ : ∃ r, r = (1 - SDec.val t.A) * Real.exp (-(T / SDec.val t.T3)) := ⟨_, rfl⟩
  obtain ⟨r1, hr1⟩ : ∃ r, r = SDec.val t.A * Real.exp (-(T / SDec.val t.T1)) := ⟨_, rfl⟩
  obtain ⟨r2, hr2⟩ : ∃ r, r = a * Real.exp (-y) := ⟨_, rfl⟩
  rw [← hr3] at u1 u2 u3
  rw [← hr1] at v1 v2 v3
  rw [← hr2] at w1 w2 w3
  rw [← hr3, ← hr1, ← hr2] at e1
  refine centre_core (K := 100) (ε := 12 / 10 ^ 13) (δ := 106 / 10 ^ 12) h0 (by norm_num) (by norm_num) ?_ ?_ (by norm_num) le_rfl ?_
    (by norm_num) (by norm_num)
  · rw [e1]
    have e : ∀ x1 x2 x3 z1 z2 z3 : ℝ, x1 + x2 + x3 - (z1 + z2 + z3) = (x1 - z1) + (x2 - z2) + (x3 - z3) := by intros; ring
    rw [e]
    refine (abs_add_le _ _).trans ((add_le_add (abs_add_le _ _) le_rfl).trans ?_)
    norm_num at u1 v1 w1 ⊢
    linarith
  · have e : ∀ x1 x2 x3 : ℝ, |-x1 - x2 + x3| ≤ |x1| + |x2| + |x3| := by
      intro x1 x2 x3
      refine (abs_add_le _ _).trans (add_le_add ((abs_sub _ _).trans ?_) le_rfl)
      rw [abs_neg]
    refine (e _ _ _).trans ?_
    norm_num at u2 v2 w2 ⊢
    linarith
  · have e : ∀ x1 x2 x3 z1 z2 z3 : ℝ, |-x1 - x2 + x3 - (-z1 - z2 + z3)| ≤ |x1 - z1| + |x2 - z2| + |x3 - z3| := by
      intro x1 x2 x3 z1 z2 z3
      have : -x1 - x2 + x3 - (-z1 - z2 + z3) = -(x1 - z1) - (x2 - z2) + (x3 - z3) := by ring
      rw [this]
      refine (abs_add_le _ _).trans (add_le_add ((abs_sub _ _).trans ?_) le_rfl)
      rw [abs_neg]
    refine (e _ _ _ _ _ _).trans ?_
    norm_num at u3 v3 w3 ⊢
    linarith

theorem exp_neg_6 : 1 / 800 ≤ Real.exp (-6 : ℝ) := by
  have h2 : Real.exp 1 ≤ 2719 / 1000 := by
    have := Real.exp_one_lt_d9
    linarith
  have e : Real.exp (-(6 : ℝ)) = (Real.exp 1 ^ 6)⁻¹ := by
    rw [← Real.exp_nat_mul, ← Real.exp_neg]
    congr 1
    norm_num
  rw [e, one_div]
  refine inv_anti₀ (by positivity) (le_trans (pow_le_pow_left₀ (Real.exp_pos 1).le h2 6) ?_)
  norm_num

theorem lastTerm_nonneg (t2 : Option SDec) (T : ℝ) : 0 ≤ lastTerm t2 T := by
  cases t2 with
  | none => exact le_rfl
  | some d => exact (Real.exp_pos _).le

set_option maxHeartbeats 1000000 in
/-- A large negative first term. -/
theorem centre_steep {t : Troe} (hm : t.steep = true) {T Fc FP : ℝ} (h1 : 200 ≤ T) (h2 : T ≤ 6000) (hF : FcVal t T Fc) (hP : FpVal t T FP) :
    Near (30 / 10 ^ 13) Fc (t.centre T) ∧ Ap (T * FP / Fc) (t.centreSlope T) 100 (1 / 10 ^ 9) := by
  have hT : 0 < T := by linarith
  obtain ⟨m1, m2, m3, m4, m5, d, hd, m6, m7⟩ := Troe.steep_sound hm
  obtain ⟨k1, k2, s3, s1, last, n3, n1, q1, q2, hl, eF⟩ := hF
  obtain ⟨p3, p1, k1', k2', s3', s1', last', n3', n1', q1', q2', hl', eP⟩ := hP
  rw [hd] at hl hl'
  obtain ⟨s2, n2, ex⟩ := hl
  obtain ⟨q, s2', nq, n2', ez⟩ := hl'
  have e1 := centre_eq t T
  rw [hd, lastTerm] at e1
  have e2 := centreSlope_eq t T
  rw [hd, lastSlopeTerm] at e2
  -- the arguments of the exponentials
  have y3 : |T / SDec.val t.T3| ≤ 12 / 10 := by
    rw [abs_of_nonneg (div_nonneg hT.le p3.le), div_le_iff₀ p3]
    linarith
  have y3' : 0 ≤ T / SDec.val t.T3 := div_nonneg hT.le p3.le
  have y1 : 46 ≤ T / SDec.val t.T1 := by
    rw [le_div_iff₀ p1]
    linarith
  have y2 : |SDec.val d / T| ≤ 1 / 200 := by
    rw [abs_div, abs_of_pos hT, abs_of_nonpos m7, div_le_iff₀ hT]
    linarith
  have a3 : |1 - (SDec.val t.A : ℝ)| = SDec.val t.A - 1 := by rw [abs_of_nonpos (by linarith)]; ring
  have a1 : |(SDec.val t.A : ℝ)| = SDec.val t.A := abs_of_nonneg (by linarith)
  -- the terms
  have u1 := term_near q1 y3 (by norm_num) (quot_near hT p3 n3)
  have u3 := term_near (scaled_near hT q1') y3 (by norm_num) (quot_near hT p3 n3')
  obtain ⟨v1, v1'⟩ := term_small (b := SDec.val t.A) (a := SDec.val t.A) (Y := 46) (by linarith)
    (by rw [a1]; nlinarith) q2 (by norm_num) y1 (quot_near hT p1 n1)
  obtain ⟨v3, v3'⟩ := term_small (b := T / SDec.val t.T1 * SDec.val t.A) (a := SDec.val t.A) (Y := 46) (by linarith)
    (by rw [abs_of_nonneg (mul_nonneg (by linarith) (by linarith))]; nlinarith) (scaled_near hT q2') (by norm_num) y1 (quot_near hT p1 n1')
  have hsm : 12 * (SDec.val t.A : ℝ) * Real.exp (-(85 / 100 * 46)) ≤ 24 / 10 ^ 16 := by
    refine (mul_le_mul (show 12 * (SDec.val t.A : ℝ) ≤ 24 by linarith) exp_neg_39 (Real.exp_pos _).le (by norm_num)).trans ?_
    norm_num
  have hq1 : |(1 : ℝ) - 1| ≤ |(1 : ℝ)| / 10 ^ 14 := by norm_num
  have w1 := term_near hq1 y2 (by norm_num) (quot_near' hT n2)
  have hqT : |q / T - SDec.val d / T| ≤ |(SDec.val d : ℝ) / T| / 10 ^ 14 := by
    rw [← sub_div, abs_div, abs_div, abs_of_pos hT, div_right_comm]
    exact div_le_div_of_nonneg_right nq hT.le
  have w3 := term_near hqT y2 (by norm_num) (quot_near' hT n2')
  -- sizes
  have x3 : Real.exp (-(T / SDec.val t.T3)) ≤ 1 := Real.exp_le_one_iff.2 (by linarith)
  have x3' : T / SDec.val t.T3 * Real.exp (-(T / SDec.val t.T3)) ≤ 6 / 10 := by
    have := Real.add_one_le_exp (T / SDec.val t.T3)
    rw [Real.exp_neg, ← div_eq_mul_inv, div_le_iff₀ (Real.exp_pos _)]
    rw [abs_of_nonneg y3'] at y3
    linarith
  have p3x := Real.exp_pos (-(T / SDec.val t.T3))
  have p1x := Real.exp_pos (-(T / SDec.val t.T1))
  have x2 : 1 ≤ Real.exp (-(SDec.val d / T)) := by
    refine Real.one_le_exp ?_
    have : SDec.val d / T ≤ 0 := div_nonpos_of_nonpos_of_nonneg m7 hT.le
    linarith
  have x2' : Real.exp (-(SDec.val d / T)) ≤ 102 / 100 := by
    have h := exp_sub_one_tight (η := -(SDec.val d / T)) (by rw [abs_neg]; exact y2.trans (by norm_num))
    rw [abs_neg] at h
    have := (abs_le.1 h).2
    linarith
  obtain ⟨X3, hX3⟩ : ∃ X, X = Real.exp (-(T / SDec.val t.T3)) := ⟨_, rfl⟩
  obtain ⟨X1, hX1⟩ : ∃ X, X = Real.exp (-(T / SDec.val t.T1)) := ⟨_, rfl⟩
  obtain ⟨X2, hX2⟩ : ∃ X, X = Real.exp (-(SDec.val d / T)) := ⟨_, rfl⟩
  have hFlow : 18 / 1000 ≤ t.centre T := by
    rw [e1]
    have : (SDec.val t.A - 1) * Real.exp (-(T / SDec.val t.T3)) ≤ 982 / 1000 := by
      refine (mul_le_mul (show (SDec.val t.A : ℝ) - 1 ≤ 982 / 1000 by linarith) x3 p3x.le (by norm_num)).trans (by norm_num)
    have h3 : 0 ≤ SDec.val t.A * Real.exp (-(T / SDec.val t.T1)) := mul_nonneg (by linarith) p1x.le
    linarith
  have eFP : T * FP = -(T * k1' * Real.exp (-(T / s3'))) - T * k2' * Real.exp (-(T / s1')) + q / T * Real.exp (-(s2' / T)) := by
    rw [eP, ez]
    field_simp
  have eS : T * (SDec.val d / (T * T) * Real.exp (-(SDec.val d / T))) = SDec.val d / T * Real.exp (-(SDec.val d / T)) := by
    field_simp
  rw [eS] at e2
  rw [ex] at eF
  rw [e2, eFP, eF]
  have b3 : |1 - (SDec.val t.A : ℝ)| * Real.exp (-(T / SDec.val t.T3)) ≤ 1 := by
    rw [a3]
    refine (mul_le_mul (show (SDec.val t.A : ℝ) - 1 ≤ 1 by linarith) x3 p3x.le (by norm_num)).trans (by norm_num)
  have b3' : |T / SDec.val t.T3 * (1 - SDec.val t.A)| * Real.exp (-(T / SDec.val t.T3)) ≤ 6 / 10 := by
    rw [abs_mul, a3, abs_of_nonneg y3', mul_right_comm]
    refine (mul_le_mul x3' (show (SDec.val t.A : ℝ) - 1 ≤ 1 by linarith) (by linarith) (by norm_num)).trans (by norm_num)
  have b2' : |SDec.val d / T| * Real.exp (-(SDec.val d / T)) ≤ 6 / 1000 := by
    refine (mul_le_mul y2 x2' (Real.exp_pos _).le (by norm_num)).trans (by norm_num)
  refine centre_core (K := 40) (ε := 25 / 10 ^ 13) (δ := 10 / 10 ^ 12) (by linarith) (by norm_num) (by norm_num) ?_ ?_ (by norm_num)
    (by norm_num) ?_ (by norm_num) (by norm_num)
  · have hle : |k1 * Real.exp (-(T / s3)) + k2 * Real.exp (-(T / s1)) + Real.exp (-(s2 / T)) - t.centre T| ≤ 4 / 10 ^ 14 := by
      rw [e1]
      have e : ∀ x1 x2 x3 z1 z2 z3 : ℝ, x1 + x2 + x3 - (z1 + z2 + z3) = (x1 - z1) + (x2 - z2) + (x3 - z3) := by intros; ring
      rw [e]
      refine (abs_add_le _ _).trans ((add_le_add (abs_add_le _ _) le_rfl).trans ?_)
      have v := (abs_sub (k2 * Real.exp (-(T / s1))) (SDec.val t.A * Real.exp (-(T / SDec.val t.T1))))
      rw [one_mul, one_mul, abs_one, one_mul] at w1
      norm_num at u1 w1 hsm v1 v1' v ⊢
      linarith
    norm_num at hle ⊢
    linarith
  · have e : ∀ x1 x2 x3 : ℝ, |-x1 - x2 + x3| ≤ |x1| + |x2| + |x3| := by
      intro x1 x2 x3
      refine (abs_add_le _ _).trans (add_le_add ((abs_sub _ _).trans ?_) le_rfl)
      rw [abs_neg]
    refine (e _ _ _).trans ?_
    rw [abs_mul _ (Real.exp (-(T / SDec.val t.T3))), abs_mul _ (Real.exp (-(SDec.val d / T))), abs_of_pos p3x, abs_of_pos (Real.exp_pos (-(SDec.val d / T)))]
    refine (add_le_add (add_le_add b3' (v3'.trans hsm)) b2').trans ?_
    norm_num
    linarith
  · have e : ∀ x1 x2 x3 z1 z2 z3 : ℝ, |-x1 - x2 + x3 - (-z1 - z2 + z3)| ≤ |x1 - z1| + |x2 - z2| + |x3 - z3| := by
      intro x1 x2 x3 z1 z2 z3
      have : -x1 - x2 + x3 - (-z1 - z2 + z3) = -(x1 - z1) - (x2 - z2) + (x3 - z3) := by ring
      rw [this]
      refine (abs_add_le _ _).trans (add_le_add ((abs_sub _ _).trans ?_) le_rfl)
      rw [abs_neg]
    refine (e _ _ _ _ _ _).trans ?_
    have v := (abs_sub (T * k2' * Real.exp (-(T / s1'))) (T / SDec.val t.T1 * SDec.val t.A * Real.exp (-(T / SDec.val t.T1))))
    refine (add_le_add (add_le_add (u3.trans (mul_le_mul_of_nonneg_left b3' (by norm_num))) (v.trans (add_le_add (v3.trans hsm) (v3'.trans hsm))))
      (w3.trans (mul_le_mul_of_nonneg_left b2' (by norm_num)))).trans ?_
    norm_num
    linarith

/-- Some value is near the slope of the centre. -/
theorem FpVal.exists {t : Troe} (h3 : (0 : ℝ) < SDec.val t.T3) (h1 : (0 : ℝ) < SDec.val t.T1) (T : ℝ) : ∃ x, FpVal t T x := by
  have hn : ∀ d : SDec, NearDec (SDec.val d) d := fun d => by unfold NearDec; rw [sub_self, abs_zero]; positivity
  have hz : ∀ x : ℝ, |x - x| ≤ |x| / 10 ^ 14 := fun x => by rw [sub_self, abs_zero]; positivity
  have hl : ∃ x, LastSlope t.T2 T x := by
    cases t.T2 with
    | none => exact ⟨_, rfl⟩
    | some d => exact ⟨_, SDec.val d, SDec.val d, hn d, hn d, rfl⟩
  obtain ⟨x, hx⟩ := hl
  exact ⟨_, h3, h1, _, _, _, _, x, hn _, hn _, hz _, hz _, hx, rfl⟩

/-- The centre of the falloff and its slope. -/
theorem centre_near {t : Troe} (hm : t.modest = true) {T Fc FP : ℝ} (h1 : 200 ≤ T) (h2 : T ≤ 6000) (hF : FcVal t T Fc) (hP : FpVal t T FP)
    (h0 : 0 < t.centre T) :
    Near (30 / 10 ^ 13) Fc (t.centre T) ∧ Ap (T * FP / Fc) (t.centreSlope T) 100 (1 / 10 ^ 9) := by
  have hT : 0 < T := by linarith
  simp only [Troe.modest, Bool.or_eq_true] at hm
  rcases hm with (hm | hm) | hm
  · obtain ⟨m1, m2, m3, m4, m5⟩ := Troe.plain_sound hm
    refine centre_sum hT hF hP h0 m1 m2 (fun d hd => (m5 d hd).1) (.inl ?_) (.inl ?_) fun d hd => .inl ?_
    · rw [div_le_iff₀ (by linarith)]
      linarith
    · rw [div_le_iff₀ (by linarith)]
      linarith
    · rw [div_le_iff₀ hT]
      linarith [(m5 d hd).2]
  · obtain ⟨m1, m2, m3, m4, m5⟩ := Troe.broad_sound hm
    have hlow : 1 / 2000 ≤ t.centre T := by
      rw [centre_eq]
      have a1 : 0 ≤ (1 - SDec.val t.A) * Real.exp (-(T / SDec.val t.T3)) := mul_nonneg (by linarith) (Real.exp_pos _).le
      have a2 : Real.exp (-6) ≤ Real.exp (-(T / SDec.val t.T1)) := by
        refine Real.exp_le_exp.2 (neg_le_neg ?_)
        rw [div_le_iff₀ (by linarith)]
        linarith
      have a3 := mul_le_mul m1 (exp_neg_6.trans a2) (by norm_num) (by linarith)
      have a4 := lastTerm_nonneg t.T2 T
      linarith
    exact centre_sum hT hF hP h0 (by linarith) m2 m5 (.inr hlow) (.inr hlow) fun d hd => .inr hlow
  · exact centre_steep hm h1 h2 hF hP

/-- The centre of the falloff. -/
theorem centre_near' {t : Troe} (hm : t.modest = true) {T Fc : ℝ} (h1 : 200 ≤ T) (h2 : T ≤ 6000) (hF : FcVal t T Fc)
    (h0 : 0 < t.centre T) : Near (30 / 10 ^ 13) Fc (t.centre T) := by
  have hp : (0 : ℝ) < SDec.val t.T3 ∧ (0 : ℝ) < SDec.val t.T1 := by
    have hm' := hm
    simp only [Troe.modest, Bool.or_eq_true] at hm'
    rcases hm' with (hm' | hm') | hm'
    · obtain ⟨m1, m2, m3, m4, m5⟩ := Troe.plain_sound hm'
      constructor <;> linarith
    · obtain ⟨m1, m2, m3, m4, m5⟩ := Troe.broad_sound hm'
      constructor <;> linarith
    · obtain ⟨m1, m2, m3, m4, m5⟩ := Troe.steep_sound hm'
      constructor <;> linarith
  obtain ⟨FP, hP⟩ := FpVal.exists hp.1 hp.2 T
  exact (centre_near hm h1 h2 hF hP h0).1

end DLB
