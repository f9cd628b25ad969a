import Verif.Lemmas.JacobDeriv
import Verif.Lemmas.TroeBound
import Verif.Lemmas.ExpBound
/-
How the slope of Troe's factor depends on its arguments.
-/
set_option autoImplicit false
set_option linter.unusedSectionVars false

namespace DLB

/-- `x` is at most `M` in absolute value, `x'` differs from it by at most `ε`. -/
structure Ap (x' x M ε : ℝ) : Prop where
  size : |x| ≤ M
  err : |x' - x| ≤ ε

namespace Ap
variable {x' x M ε y' y N δ : ℝ}

theorem mono (h : Ap x' x M ε) (h1 : M ≤ N) (h2 : ε ≤ δ) : Ap x' x N δ := ⟨h.size.trans h1, h.err.trans h2⟩

theorem bound (h : Ap x' x M ε) (h1 : |x| ≤ N) : Ap x' x N ε := ⟨h1, h.err⟩

theorem const (c : ℝ) (h : |c| ≤ M) : Ap c c M 0 := ⟨h, by simp⟩

theorem nonneg (h : Ap x' x M ε) : 0 ≤ M ∧ 0 ≤ ε := ⟨(abs_nonneg _).trans h.size, (abs_nonneg _).trans h.err⟩

theorem add (h : Ap x' x M ε) (h' : Ap y' y N δ) : Ap (x' + y') (x + y) (M + N) (ε + δ) := by
  refine ⟨(abs_add_le _ _).trans (add_le_add h.size h'.size), ?_⟩
  have : x' + y' - (x + y) = (x' - x) + (y' - y) := by ring
  rw [this]
  exact (abs_add_le _ _).trans (add_le_add h.err h'.err)

theorem neg (h : Ap x' x M ε) : Ap (-x') (-x) M ε := by
  refine ⟨by rw [abs_neg]; exact h.size, ?_⟩
  have : -x' - -x = -(x' - x) := by ring
  rw [this, abs_neg]
  exact h.err

theorem sub (h : Ap x' x M ε) (h' : Ap y' y N δ) : Ap (x' - y') (x - y) (M + N) (ε + δ) := by
  rw [sub_eq_add_neg, sub_eq_add_neg]
  exact h.add h'.neg

theorem mul (h : Ap x' x M ε) (h' : Ap y' y N δ) : Ap (x' * y') (x * y) (M * N) (ε * (N + δ) + M * δ) := by
  refine ⟨by rw [abs_mul]; exact mul_le_mul h.size h'.size (abs_nonneg _) h.nonneg.1, ?_⟩
  have e : x' * y' - x * y = (x' - x) * y' + x * (y' - y) := by ring
  have hy : |y'| ≤ N + δ := by
    have : y' = y + (y' - y) := by ring
    rw [this]
    exact (abs_add_le _ _).trans (add_le_add h'.size h'.err)
  rw [e]
  refine (abs_add_le _ _).trans ?_
  rw [abs_mul, abs_mul]
  exact add_le_add (mul_le_mul h.err hy (abs_nonneg _) h.nonneg.2) (mul_le_mul h.size h'.err (abs_nonneg _) h.nonneg.1)

theorem inv (h : Ap x' x M ε) {m : ℝ} (hm : m ≤ x) (he : ε < m) (h0 : 0 < m) : Ap x'⁻¹ x⁻¹ m⁻¹ (ε / (m * (m - ε))) := by
  have hx : 0 < x := h0.trans_le hm
  have hx' : m - ε ≤ x' := by linarith [(abs_le.1 h.err).1]
  have hp : 0 < m - ε := by linarith
  have hx0 : 0 < x' := hp.trans_le hx'
  refine ⟨by rw [abs_of_pos (inv_pos.2 hx)]; exact inv_anti₀ h0 hm, ?_⟩
  have e : x'⁻¹ - x⁻¹ = -(x' - x) / (x * x') := by
    field_simp
    ring
  rw [e, abs_div, abs_neg, abs_of_pos (mul_pos hx hx0)]
  exact div_le_div₀ h.nonneg.2 h.err (mul_pos h0 hp) (mul_le_mul hm hx' hp.le hx.le)

end Ap

theorem log10_val : |2302585092994046 / 10 ^ 15 - Real.log 10| ≤ 1 / 10 ^ 14 := by
  have h : logOk 2302585092994046 15 10 1 = true := by decide +kernel
  have := (logOk_sound h).2.2
  norm_num at this ⊢
  exact this

/-- `2 v A B (x B + y A) / (A^2 + B^2)^2` -/
noncomputable def hh (v A B x y : ℝ) : ℝ := 2 * (v * (A * B) * (x * B + y * A) * ((A ^ 2 + B ^ 2) ^ 2)⁻¹)

theorem hh_scale (v A B x y : ℝ) {s : ℝ} (hs : s ≠ 0) : hh (v / s) (A / s) (B / s) x y = hh v A B x y := by
  unfold hh
  by_cases h : A ^ 2 + B ^ 2 = 0
  · have hA : A = 0 := by nlinarith [sq_nonneg A, sq_nonneg B]
    simp [hA]
  · have e : (A / s) ^ 2 + (B / s) ^ 2 = (A ^ 2 + B ^ 2) / s ^ 2 := by field_simp
    rw [e]
    field_simp

/-- Normalised arguments of `hh` and how far they are off. -/
structure Normal (a' b' w' a b w : ℝ) : Prop where
  one : |a| + |b| = 1
  w : Ap w' w 4 (1 / 10 ^ 10)
  a : |a' - a| ≤ 1 / 10 ^ 10
  b : |b' - b| ≤ 1 / 10 ^ 10

namespace Normal
variable {a' b' w' a b w : ℝ}

theorem sq_ge (h : |a| + |b| = 1) : 1 / 2 ≤ a ^ 2 + b ^ 2 ∧ a ^ 2 + b ^ 2 ≤ 1 ∧ |a * b| ≤ 1 / 4 ∧ |a| ≤ 1 ∧ |b| ≤ 1 := by
  have h0 := abs_nonneg a
  have h1 := abs_nonneg b
  rw [← sq_abs a, ← sq_abs b, abs_mul]
  refine ⟨by nlinarith [sq_nonneg (|a| - |b|)], by nlinarith, by nlinarith [sq_nonneg (|a| - |b|)], by linarith, by linarith⟩

/-- The sum of squares. -/
theorem den (h : Normal a' b' w' a b w) : Ap (a' ^ 2 + b' ^ 2) (a ^ 2 + b ^ 2) 1 (21 / 10 ^ 11) := by
  obtain ⟨s1, s2, -, s4, s5⟩ := sq_ge h.one
  have key : ∀ {x x' : ℝ}, |x' - x| ≤ 1 / 10 ^ 10 → |x' ^ 2 - x ^ 2| ≤ 2 / 10 ^ 10 * |x| + 1 / 10 ^ 20 := by
    intro x x' hx
    have e : x' ^ 2 - x ^ 2 = (x' - x) * (2 * x) + (x' - x) * (x' - x) := by ring
    rw [e]
    refine (abs_add_le _ _).trans ?_
    rw [abs_mul, abs_mul, abs_mul, abs_of_pos (by norm_num : (0 : ℝ) < 2)]
    have h1 : |x' - x| * |x' - x| ≤ 1 / 10 ^ 10 * (1 / 10 ^ 10) := mul_le_mul hx hx (abs_nonneg _) (by norm_num)
    have h2 : |x' - x| * (2 * |x|) ≤ 1 / 10 ^ 10 * (2 * |x|) := mul_le_mul_of_nonneg_right hx (by positivity)
    norm_num at h1 h2 ⊢
    linarith
  refine ⟨by rw [abs_of_nonneg (by positivity)]; exact s2, ?_⟩
  have e : a' ^ 2 + b' ^ 2 - (a ^ 2 + b ^ 2) = (a' ^ 2 - a ^ 2) + (b' ^ 2 - b ^ 2) := by ring
  rw [e]
  refine (abs_add_le _ _).trans ?_
  have h1 := key h.a
  have h2 := key h.b
  have := h.one
  norm_num at h1 h2 ⊢
  linarith

theorem apA (h : Normal a' b' w' a b w) : Ap a' a 1 (1 / 10 ^ 10) := ⟨(sq_ge h.one).2.2.2.1, h.a⟩
theorem apB (h : Normal a' b' w' a b w) : Ap b' b 1 (1 / 10 ^ 10) := ⟨(sq_ge h.one).2.2.2.2, h.b⟩

theorem ab (h : Normal a' b' w' a b w) : Ap (a' * b') (a * b) (1 / 4) (101 / 10 ^ 12) := by
  refine ⟨(sq_ge h.one).2.2.1, ?_⟩
  have e : a' * b' - a * b = (a' - a) * b + a * (b' - b) + (a' - a) * (b' - b) := by ring
  rw [e]
  refine (abs_add_le _ _).trans ((add_le_add (abs_add_le _ _) le_rfl).trans ?_)
  rw [abs_mul, abs_mul, abs_mul]
  have h1 : |a' - a| * |b| ≤ 1 / 10 ^ 10 * |b| := mul_le_mul_of_nonneg_right h.a (abs_nonneg _)
  have h2 : |a| * |b' - b| ≤ |a| * (1 / 10 ^ 10) := mul_le_mul_of_nonneg_left h.b (abs_nonneg _)
  have h3 : |a' - a| * |b' - b| ≤ 1 / 10 ^ 10 * (1 / 10 ^ 10) := mul_le_mul h.a h.b (abs_nonneg _) (by norm_num)
  have := h.one
  norm_num at h1 h2 h3 ⊢
  linarith

/-- `b^2 / (a^2 + b^2)` -/
theorem first (h : Normal a' b' w' a b w) :
    Ap (b' ^ 2 * (a' ^ 2 + b' ^ 2)⁻¹) (b ^ 2 * (a ^ 2 + b ^ 2)⁻¹) 1 (2 / 10 ^ 9) := by
  have hN := (h.den.inv (sq_ge h.one).1 (by norm_num) (by norm_num)).mono (N := 2) (δ := 85 / 10 ^ 11) (by norm_num) (by norm_num)
  have hb := h.apB.mul h.apB
  rw [← pow_two, ← pow_two] at hb
  refine ((hb.mul hN).bound (N := 1) ?_).mono le_rfl (by norm_num)
  have s1 := (sq_ge h.one).1
  have hp : 0 < a ^ 2 + b ^ 2 := by linarith
  rw [abs_of_nonneg (by positivity), ← div_eq_mul_inv, div_le_one hp]
  nlinarith [sq_nonneg a]

/-- The function `hh` with coefficients `x`, `y`. -/
theorem second (h : Normal a' b' w' a b w) {x' x y' y : ℝ} (hx : Ap x' x (12 / 10) (1 / 10 ^ 12)) (hy : Ap y' y (12 / 10) (1 / 10 ^ 12)) :
    Ap (hh w' a' b' x' y') (hh w a b x y) 10 (24 / 10 ^ 9) := by
  have s1 := (sq_ge h.one).1
  have hN2 : Ap ((a' ^ 2 + b' ^ 2) ^ 2) ((a ^ 2 + b ^ 2) ^ 2) 1 (43 / 10 ^ 11) := by
    have := h.den.mul h.den
    rw [← pow_two, ← pow_two] at this
    exact this.mono (by norm_num) (by norm_num)
  have hNi := (hN2.inv (m := 1 / 4) (by nlinarith) (by norm_num) (by norm_num)).mono (N := 4) (δ := 69 / 10 ^ 10) (by norm_num) (by norm_num)
  have hl : Ap (x' * b' + y' * a') (x * b + y * a) (12 / 10) (25 / 10 ^ 11) := by
    refine (((hx.mul h.apB).add (hy.mul h.apA)).bound (N := 12 / 10) ?_).mono le_rfl (by norm_num)
    refine (abs_add_le _ _).trans ?_
    rw [abs_mul, abs_mul]
    have h1 := mul_le_mul_of_nonneg_right hx.size (abs_nonneg b)
    have h2 := mul_le_mul_of_nonneg_right hy.size (abs_nonneg a)
    have := h.one
    linarith
  have hwab : Ap (w' * (a' * b')) (w * (a * b)) 1 (43 / 10 ^ 11) := (h.w.mul h.ab).mono (by norm_num) (by norm_num)
  have hnum : Ap (w' * (a' * b') * (x' * b' + y' * a')) (w * (a * b) * (x * b + y * a)) (12 / 10) (78 / 10 ^ 11) :=
    (hwab.mul hl).mono (by norm_num) (by norm_num)
  have := (Ap.const (M := 2) 2 (by norm_num)).mul (hnum.mul hNi)
  unfold hh
  exact this.mono (by norm_num) (by norm_num)

end Normal

/-- The slope of Troe's factor in terms of `hh`. -/
theorem troe_terms (lf A B x y l : ℝ) (hB : B ≠ 0) :
    1 / (1 + A * A / (B * B)) = B ^ 2 * (A ^ 2 + B ^ 2)⁻¹ ∧
    2 * (l * lf) * A / (B * B * B * (1 + A * A / (B * B)) * (1 + A * A / (B * B))) * (x * B + y * A) =
      hh lf A B (l * x) (l * y) := by
  have hp : A ^ 2 + B ^ 2 ≠ 0 := by positivity
  have e : 1 + A * A / (B * B) = (A ^ 2 + B ^ 2) / B ^ 2 := by
    field_simp
    ring
  rw [e]
  constructor
  · field_simp
  · unfold hh
    field_simp

/-- Normalising `A`, `B` and `lg Fc`. -/
theorem normal_of {u v u' v' : ℝ} (hv : v ≤ 12 / 25) (h1 : |u' - u| ≤ 7 / 10 ^ 12) (h2 : |v' - v| ≤ 7 / 10 ^ 12) {A B A' B' s : ℝ}
    (hA : A = u - 67 / 100 * v - 4 / 10) (hB : B = 806 / 1000 - 11762 / 10000 * v - 14 / 100 * u)
    (hA' : A' = u' - 67 / 100 * v' - 4 / 10) (hB' : B' = 806 / 1000 - 11762 / 10000 * v' - 14 / 100 * u') (hs : s = |A| + |B|) :
    0 < s ∧ Normal (A' / s) (B' / s) (v' / s) (A / s) (B / s) (v / s) := by
  have e : B + 14 / 100 * A = 75 / 100 - 127 / 100 * v := by rw [hA, hB]; ring
  have hb : 75 / 100 - 127 / 100 * v ≤ s := by
    rw [← e, hs]
    have a1 := le_abs_self A
    have a2 := le_abs_self B
    have a3 := abs_nonneg A
    linarith
  have hs0 : 14 / 100 ≤ s := by linarith
  have hsp : 0 < s := by linarith
  have hsmall : ∀ {x' x : ℝ}, |x' - x| ≤ 14 / 10 ^ 12 → |x' / s - x / s| ≤ 1 / 10 ^ 10 := by
    intro x' x hx
    rw [← sub_div, abs_div, abs_of_pos hsp, div_le_iff₀ hsp]
    norm_num at hx ⊢
    linarith
  obtain ⟨p1, p2⟩ := abs_le.1 h1
  obtain ⟨q1, q2⟩ := abs_le.1 h2
  norm_num at p1 p2 q1 q2
  refine ⟨hsp, ?_, ⟨?_, hsmall (h2.trans (by norm_num))⟩, hsmall ?_, hsmall ?_⟩
  · rw [abs_div, abs_div, abs_of_pos hsp, ← add_div, ← hs, div_self hsp.ne']
  · rw [abs_div, abs_of_pos hsp, div_le_iff₀ hsp, abs_le]
    constructor <;> linarith
  · rw [hA, hA', abs_le]
    norm_num
    constructor <;> linarith
  · rw [hB, hB', abs_le]
    norm_num
    constructor <;> linarith

/-- The literals for `0.67 / ln 10` etc. -/
theorem literals_near :
    Ap (Real.log 10 * -(2909773028751787 / 10 ^ 16)) (-(67 / 100)) (12 / 10) (1 / 10 ^ 12) ∧
    Ap (Real.log 10 * (51081716961460466 / 10 ^ 17)) (11762 / 10000) (12 / 10) (1 / 10 ^ 12) ∧
    Ap (Real.log 10 * (43429448190325176 / 10 ^ 17)) 1 (12 / 10) (1 / 10 ^ 12) ∧
    Ap (Real.log 10 * (60801227466455256 / 10 ^ 18)) (14 / 100) (12 / 10) (1 / 10 ^ 12) ∧
    Ap (Real.log 10 * (4342944819032518 / 10 ^ 16)) 1 (12 / 10) (1 / 10 ^ 12) ∧
    Ap (Real.log 10 * (6080122746645526 / 10 ^ 17)) (14 / 100) (12 / 10) (1 / 10 ^ 12) := by
  obtain ⟨h1, h2⟩ := abs_le.1 log10_val
  norm_num at h1 h2
  refine ⟨⟨?_, ?_⟩, ⟨?_, ?_⟩, ⟨?_, ?_⟩, ⟨?_, ?_⟩, ⟨?_, ?_⟩, ⟨?_, ?_⟩⟩ <;> rw [abs_le] <;> norm_num <;> constructor <;> linarith

/-- The slope of Troe's factor with inexact arguments and literals; `v' = lg Fc'`. -/
theorem factorSlope_near {P Fc u' v' φ φ' S S' A' B' : ℝ} (hF : lg Fc ≤ 12 / 25) (hB : exactB P Fc ≠ 0)
    (h1 : |u' - lg P| ≤ 7 / 10 ^ 12) (h2 : |v' - lg Fc| ≤ 7 / 10 ^ 12)
    (hA' : A' = u' - 67 / 100 * v' - 4 / 10) (hB' : B' = 806 / 1000 - 11762 / 10000 * v' - 14 / 100 * u') (hB0 : B' ≠ 0)
    (hφ : Ap φ' φ 100 (1 / 10 ^ 9)) (hS : Ap S' S 70 (1 / 10 ^ 11)) :
    Ap ((1 / (1 + A' * A' / (B' * B')) - 2 * (Real.log 10 * v') * A' / (B' * B' * B' * (1 + A' * A' / (B' * B')) * (1 + A' * A' / (B' * B'))) *
        (-(2909773028751787 / 10 ^ 16) * B' + 51081716961460466 / 10 ^ 17 * A')) * φ' -
      2 * (Real.log 10 * v') * A' / (B' * B' * B' * (1 + A' * A' / (B' * B')) * (1 + A' * A' / (B' * B'))) *
        (43429448190325176 / 10 ^ 17 * B' + 60801227466455256 / 10 ^ 18 * A') * S')
      (factorSlope P Fc φ S) 1800 (5 / 10 ^ 6) := by
  obtain ⟨A, hA⟩ : ∃ A, A = exactA P Fc := ⟨_, rfl⟩
  obtain ⟨B, hBB⟩ : ∃ B, B = exactB P Fc := ⟨_, rfl⟩
  rw [← hBB] at hB
  obtain ⟨hs, hN⟩ := normal_of (A := A) (B := B) (s := |A| + |B|) hF h1 h2 hA hBB hA' hB' rfl
  have hlog : Real.log Fc = Real.log 10 * lg Fc := by
    unfold lg
    rw [mul_div_cancel₀ _ log_ten_pos.ne']
  obtain ⟨l1, l2, l3, l4, -, -⟩ := literals_near
  have hl : Real.log 10 ≠ 0 := log_ten_pos.ne'
  have m1 : Real.log 10 * -(67 / 100 / Real.log 10) = -(67 / 100) := by field_simp
  have m2 : Real.log 10 * (11762 / 10000 / Real.log 10) = 11762 / 10000 := by field_simp
  have m3 : Real.log 10 * (1 / Real.log 10) = 1 := by field_simp
  have m4 : Real.log 10 * (14 / 100 / Real.log 10) = 14 / 100 := by field_simp
  unfold factorSlope
  dsimp only
  rw [← hA, ← hBB, hlog]
  rw [(troe_terms v' A' B' _ _ _ hB0).2, (troe_terms v' A' B' _ _ _ hB0).2, (troe_terms v' A' B' 0 0 0 hB0).1,
    (troe_terms _ A B _ _ _ hB).2, (troe_terms _ A B _ _ _ hB).2, (troe_terms 0 A B 0 0 0 hB).1, m1, m2, m3, m4]
  have g2 := hN.second l1 l2
  have g3 := hN.second l3 l4
  rw [hh_scale _ _ _ _ _ hs.ne', hh_scale _ _ _ _ _ hs.ne'] at g2 g3
  have g1 := hN.first
  have sc : ∀ a b : ℝ, (b / (|A| + |B|)) ^ 2 * ((a / (|A| + |B|)) ^ 2 + (b / (|A| + |B|)) ^ 2)⁻¹ = b ^ 2 * (a ^ 2 + b ^ 2)⁻¹ := by
    intro a b
    generalize |A| + |B| = s at hs
    rw [div_pow, div_pow, ← add_div, inv_div]
    have := hs.ne'
    field_simp
  rw [sc, sc] at g1
  exact (((g1.sub g2).mul hφ).sub (g3.mul hS)).mono (by norm_num) (by norm_num)

end DLB
