import Verif.Lemmas.JacobS
import Verif.Lemmas.JacobRate
import Verif.Lemmas.JacobDerivY
/-
The derivatives of the rate of each reaction by the mass fractions, as computed by `eval_jacob`, are near the exact ones.
-/
set_option autoImplicit false
set_option linter.unusedSectionVars false

namespace DLB

theorem prodDiff_add (C c c' : Nat → ℝ) (l : List Nat) : prodDiff C (fun i => c i + c' i) l = prodDiff C c l + prodDiff C c' l := by
  induction l with
  | nil => simp [prodDiff]
  | cons a l ih =>
    simp only [prodDiff, ih]
    ring

/-- The direction in which the mass fraction of species `j` grows at the expense of species `N`. -/
noncomputable def massShift (N j i : Nat) : ℝ := (if i = j then 1 else 0) + if i = N then -1 else 0

theorem complement_along (N j : Nat) (hj : j < N) (y : Nat → ℝ) (x : ℝ) (i : Nat) :
    HasDerivAt (fun t => complement N (Function.update y j t) i) (massShift N j i) x := by
  unfold complement massShift
  have hu : ∀ i, HasDerivAt (fun t => Function.update y j t i) (if i = j then 1 else 0) x := by
    intro i
    by_cases h : i = j
    · subst h
      simp only [Function.update_self, if_true]
      exact hasDerivAt_id' x
    · simp only [Function.update_of_ne h, if_neg h]
      exact hasDerivAt_const x (y i)
  by_cases h : i = N
  · simp only [h, if_true, if_neg (show ¬ N = j by omega)]
    have : HasDerivAt (fun t => 1 - ∑ i ∈ Finset.range N, Function.update y j t i) (-∑ i ∈ Finset.range N, if i = j then 1 else 0) x :=
      (HasDerivAt.fun_sum fun i _ => hu i).const_sub 1
    rw [Finset.sum_ite_eq' (Finset.range N) j, if_pos (Finset.mem_range.2 hj)] at this
    simpa using this
  · simp only [h, if_false, add_zero]
    exact hu i

theorem massShift_sum (N j : Nat) (hj : j < N) (a : Nat → ℝ) :
    ∑ i ∈ Finset.range (N + 1), a i * massShift N j i = a j - a N := by
  unfold massShift
  have e : ∀ i, a i * ((if i = j then 1 else 0) + if i = N then -1 else 0) = (if i = j then a i else 0) + if i = N then -a i else 0 := by
    intro i
    split_ifs <;> ring
  simp only [e]
  rw [Finset.sum_add_distrib, Finset.sum_ite_eq', Finset.sum_ite_eq', if_pos (Finset.mem_range.2 (by omega)),
    if_pos (Finset.mem_range.2 (by omega))]
  ring

theorem massShift_prodDiff (N j : Nat) (C W : Nat → ℝ) (l : List Nat) :
    prodDiff C (fun i => massShift N j i / W i) l = Chemistry.productBy l C j / W j - Chemistry.productBy l C N / W N := by
  have e : ∀ i, massShift N j i / W i = (if i = j then 1 / W j else 0) + if i = N then -(1 / W N) else 0 := by
    intro i
    unfold massShift
    split_ifs <;> simp_all [neg_div]
  rw [prodDiff_congr C _ _ l fun i _ => e i, prodDiff_add, prodDiff_single, prodDiff_single]
  ring

namespace Chemistry
variable (X : Chemistry)

/-- The parts of the derivative of the rate of a reaction over the density by the mass fraction of species `j`, without that of the density
as denominator. -/
noncomputable def rateBy (n : Numbered) (T p : ℝ) (Y : Nat → ℝ) (j : Nat) : ℝ :=
  let C := X.concentrations T p Y
  let N := X.nsp - 1
  let g := X.thirdSlope n T C
  let z := X.modification n T C / (X.density T p Y * ∑ i ∈ Finset.range X.nsp, Y i / X.weight i)
  (efficiencyOf n.r j / X.weight j - efficiencyOf n.r N / X.weight N) *
    (g * (X.modificationPer n T C * X.forward n T C) - g * (X.modificationPer n T C * X.reverse n T C)) +
  (X.modification n T C * X.coefficient n T * (productBy n.r.reactants C j / X.weight j - productBy n.r.reactants C N / X.weight N) -
    X.modification n T C * (X.coefficient n T / equilibriumConstant X.nsp X.fit n.r T) *
      (productBy n.r.products C j / X.weight j - productBy n.r.products C N / X.weight N)) -
  (1 / X.weight j - 1 / X.weight N) * ((n.r.reactants.length + g) * (z * X.forward n T C) - (n.r.products.length + g) * (z * X.reverse n T C))

theorem rateAlong_massShift (n : Numbered) (hr : n.r.reversible = true) (T p : ℝ) (Y : Nat → ℝ) (j : Nat) (hj : j < X.nsp - 1) :
    X.rateAlong n T p Y (massShift (X.nsp - 1) j) =
      (1 / X.weight j - 1 / X.weight (X.nsp - 1)) * (X.modification n T (X.concentrations T p Y) /
        (X.density T p Y * ∑ i ∈ Finset.range X.nsp, Y i / X.weight i) *
        (X.forward n T (X.concentrations T p Y) - X.reverse n T (X.concentrations T p Y))) + X.rateBy n T p Y j := by
  obtain ⟨N, hN⟩ : ∃ N, X.nsp = N + 1 := ⟨X.nsp - 1, by omega⟩
  have hN1 : X.nsp - 1 = N := by omega
  have s1 : ∑ i ∈ Finset.range X.nsp, massShift N j i / X.weight i = 1 / X.weight j - 1 / X.weight N := by
    rw [hN, ← massShift_sum N j (by omega) (fun i => 1 / X.weight i)]
    exact Finset.sum_congr rfl fun i _ => by ring
  have s2 : ∑ i ∈ Finset.range X.nsp, efficiencyOf n.r i * (massShift N j i / X.weight i) =
      efficiencyOf n.r j / X.weight j - efficiencyOf n.r N / X.weight N := by
    rw [hN, ← massShift_sum N j (by omega) (fun i => efficiencyOf n.r i / X.weight i)]
    exact Finset.sum_congr rfl fun i _ => by ring
  unfold rateAlong rateBy
  dsimp only
  rw [hN1, s1, s2, massShift_prodDiff, massShift_prodDiff, if_pos hr]
  simp only [div_eq_mul_inv, mul_inv]
  ring

end Chemistry

theorem abs_of_sum_sq {x y : ℝ} : |x| + |y| ≤ 2 * Real.sqrt (x ^ 2 + y ^ 2) := by
  have h1 : |x| ≤ Real.sqrt (x ^ 2 + y ^ 2) := Real.abs_le_sqrt (by nlinarith [sq_nonneg y])
  have h2 : |y| ≤ Real.sqrt (x ^ 2 + y ^ 2) := Real.abs_le_sqrt (by nlinarith [sq_nonneg x])
  linarith

/-- How `v B^2 / (A^2 + B^2)` depends on its arguments. -/
theorem weighted_near {A B A' B' v v' s : ℝ} (hs : s = |A| + |B|) (h0 : 14 / 100 ≤ s) (hv : |v| ≤ 4 * s) (hA : |A' - A| ≤ 14 / 10 ^ 12)
    (hB : |B' - B| ≤ 14 / 10 ^ 12) (hv' : |v' - v| ≤ 7 / 10 ^ 12) :
    |v' * (B' ^ 2 * (A' ^ 2 + B' ^ 2)⁻¹) - v * (B ^ 2 * (A ^ 2 + B ^ 2)⁻¹)| ≤ 5 / 10 ^ 10 := by
  have hs' : 99 / 100 * s ≤ |A'| + |B'| := by
    have e1 := abs_sub_abs_le_abs_sub A A'
    have e2 := abs_sub_abs_le_abs_sub B B'
    rw [abs_sub_comm] at e1 e2
    norm_num at hA hB
    linarith
  obtain ⟨M, hM⟩ : ∃ M, M = Real.sqrt (A ^ 2 + B ^ 2) := ⟨_, rfl⟩
  obtain ⟨M', hM'⟩ : ∃ M', M' = Real.sqrt (A' ^ 2 + B' ^ 2) := ⟨_, rfl⟩
  have q : M ^ 2 = A ^ 2 + B ^ 2 := by rw [hM]; exact Real.sq_sqrt (by positivity)
  have q' : M' ^ 2 = A' ^ 2 + B' ^ 2 := by rw [hM']; exact Real.sq_sqrt (by positivity)
  have hMs : s ≤ 2 * M := by rw [hs, hM]; exact abs_of_sum_sq
  have hMs' : 99 / 100 * s ≤ 2 * M' := by rw [hM']; exact hs'.trans abs_of_sum_sq
  have hM0 : 0 < M := by linarith
  have hM0' : 0 < M' := by linarith
  rw [← q, ← q']
  have e : v' * (B' ^ 2 * (M' ^ 2)⁻¹) - v * (B ^ 2 * (M ^ 2)⁻¹) =
      (v' - v) * (B' ^ 2 * (M' ^ 2)⁻¹) + v * ((B' * A - B * A') * (B' * A + B * A') / (M ^ 2 * M' ^ 2)) := by
    have e1 : (B' * A - B * A') * (B' * A + B * A') = B' ^ 2 * M ^ 2 - B ^ 2 * M' ^ 2 := by rw [q, q']; ring
    rw [e1]
    field_simp
    ring
  rw [e]
  refine (abs_add_le _ _).trans ?_
  rw [abs_mul, abs_mul v]
  have b1 : |B' ^ 2 * (M' ^ 2)⁻¹| ≤ 1 := by
    rw [abs_of_nonneg (by positivity), ← div_eq_mul_inv, div_le_one (by positivity), q']
    nlinarith [sq_nonneg A']
  have b2 : |B' * A - B * A'| ≤ 14 / 10 ^ 12 * s := by
    have : B' * A - B * A' = (B' - B) * A - B * (A' - A) := by ring
    rw [this]
    refine (abs_sub _ _).trans ?_
    rw [abs_mul, abs_mul, hs]
    have := mul_le_mul_of_nonneg_right hB (abs_nonneg A)
    have := mul_le_mul_of_nonneg_left hA (abs_nonneg B)
    linarith
  have b3 : |B' * A + B * A'| ≤ M * M' := by
    refine abs_le_of_sq_le_sq ?_ (by positivity)
    rw [mul_pow, q, q']
    nlinarith [sq_nonneg (A * A' - B * B')]
  have b4 : |(B' * A - B * A') * (B' * A + B * A') / (M ^ 2 * M' ^ 2)| ≤ 14 / 10 ^ 12 * s / (M * M') := by
    rw [abs_div, abs_mul, abs_of_pos (show 0 < M ^ 2 * M' ^ 2 by positivity), div_le_div_iff₀ (by positivity) (by positivity)]
    have := mul_le_mul b2 b3 (abs_nonneg _) (by positivity)
    have h2 := mul_le_mul_of_nonneg_right this (show 0 ≤ M * M' by positivity)
    refine h2.trans (le_of_eq (by ring))
  have b5 : |v| * (14 / 10 ^ 12 * s / (M * M')) ≤ 4 * s * (14 / 10 ^ 12 * s / (M * M')) := mul_le_mul_of_nonneg_right hv (by positivity)
  have b6 : 4 * s * (14 / 10 ^ 12 * s / (M * M')) ≤ 4 * 14 / 10 ^ 12 * (4 * 100 / 99) := by
    have hss : s * s ≤ 4 * 100 / 99 * (M * M') := by
      have := mul_le_mul hMs hMs' (by linarith) (by linarith)
      nlinarith
    have : 4 * s * (14 / 10 ^ 12 * s / (M * M')) = 4 * 14 / 10 ^ 12 * (s * s / (M * M')) := by ring
    rw [this]
    refine mul_le_mul_of_nonneg_left ?_ (by norm_num)
    rw [div_le_iff₀ (by positivity)]
    exact hss
  have b7 := mul_le_mul hv' b1 (abs_nonneg _) (by norm_num)
  have b8 := mul_le_mul_of_nonneg_left b4 (abs_nonneg v)
  norm_num at b6 b7 ⊢
  linarith

theorem log10_lt : Real.log 10 ≤ 2303 / 1000 := by
  have := (abs_le.1 log10_val).1
  norm_num at this
  linarith

/-- The slope of the modification by the concentration of third bodies, and the modification per concentration of third bodies. -/
theorem troe_third_near {t : Troe} (hm : t.modest = true) {T P P' Fc : ℝ} (h1 : 200 ≤ T) (h2 : T ≤ 6000)
    (hF : FcVal t T Fc) (hF0 : 1 / 10 ^ 300 ≤ t.centre T) (hF3 : t.centre T ≤ 3)
    (hn : Near (67 / 10 ^ 13) P' P) (hP0 : 1 / 10 ^ 300 < P) (hB : 14 / 10 ^ 11 < |exactB P (t.centre T)|) :
    Ap (troeG P' Fc (troeA P' Fc) (troeB P' Fc)) (1 / (1 + P) + factorSlope P (t.centre T) 0 1) 11 (25 / 10 ^ 9) ∧
    Near (12 / 10 ^ 10) (Fc ^ (1 / (1 + troeA P' Fc * troeA P' Fc / (troeB P' Fc * troeB P' Fc))) / (1 + P'))
      (Troe.factor (t.centre T) P / (1 + P)) := by
  have h300 : (0 : ℝ) < 1 / 10 ^ 300 := by positivity
  have hc0 : 0 < t.centre T := h300.trans_le hF0
  have hPp : 0 < P := h300.trans hP0
  have nF := centre_near' hm h1 h2 hF hc0
  have nP' : Near (67 / 10 ^ 13) (max P' (1 / 10 ^ 300)) P := by
    have := hn.max ((Near.refl h300.le).mono (by norm_num))
    rwa [max_eq_left hP0.le] at this
  have nF' : Near (30 / 10 ^ 13) (max Fc (1 / 10 ^ 300)) (t.centre T) := by
    have := nF.max ((Near.refl h300.le).mono (by norm_num))
    rwa [max_eq_left hF0] at this
  have g1 : |lg (max P' (1 / 10 ^ 300)) - lg P| ≤ 7 / 10 ^ 12 := (lg_near' nP' hPp).trans (by norm_num)
  have g2 : |lg (max Fc (1 / 10 ^ 300)) - lg (t.centre T)| ≤ 7 / 10 ^ 12 := (lg_near' nF' hc0).trans (by norm_num)
  have g3 : |lg Fc - lg (t.centre T)| ≤ 7 / 10 ^ 12 := (lg_near' nF hc0).trans (by norm_num)
  have dB : |troeB P' Fc - exactB P (t.centre T)| ≤ 14 / 10 ^ 12 := by
    unfold troeB exactB
    rw [abs_le] at g1 g2 ⊢
    norm_num at g1 g2 ⊢
    constructor <;> linarith [g1.1, g1.2, g2.1, g2.2]
  have dA : |troeA P' Fc - exactA P (t.centre T)| ≤ 14 / 10 ^ 12 := by
    unfold troeA exactA
    rw [abs_le] at g1 g2 ⊢
    norm_num at g1 g2 ⊢
    constructor <;> linarith [g1.1, g1.2, g2.1, g2.2]
  have hB' : troeB P' Fc ≠ 0 := by
    intro h0
    rw [h0, zero_sub, abs_neg] at dB
    norm_num at dB hB
    linarith
  have hB0 : exactB P (t.centre T) ≠ 0 := by
    intro h0
    rw [h0, abs_zero] at hB
    norm_num at hB
  have hlF : lg (t.centre T) ≤ 12 / 25 := (lg_le hc0 hF3).trans lg_three
  have n1 : Near (67 / 10 ^ 13) (1 + P') (1 + P) := Near.add ((Near.refl zero_le_one).mono (by norm_num)) hn
  have hFcp : 0 < Fc := by
    rcases nF.left.lt_or_eq with h | h
    · exact h
    · exact absurd (nF.zero_iff.1 h.symm) hc0.ne'
  obtain ⟨A, hA⟩ : ∃ A, A = exactA P (t.centre T) := ⟨_, rfl⟩
  obtain ⟨B, hBB⟩ : ∃ B, B = exactB P (t.centre T) := ⟨_, rfl⟩
  obtain ⟨s, hs⟩ : ∃ s, s = |A| + |B| := ⟨_, rfl⟩
  obtain ⟨hs0, hN⟩ := normal_of (A := A) (B := B) (A' := troeA P' Fc) (B' := troeB P' Fc) hlF g1 g2 hA hBB rfl rfl hs
  have hs14 : 14 / 100 ≤ s := by
    have e : B + 14 / 100 * A = 75 / 100 - 127 / 100 * lg (t.centre T) := by rw [hA, hBB]; unfold exactA exactB; ring
    have a1 := le_abs_self A
    have a2 := le_abs_self B
    have a3 := abs_nonneg A
    rw [hs]
    linarith
  have hv4 : |lg (t.centre T)| ≤ 4 * s := by
    have := hN.w.size
    rwa [abs_div, abs_of_pos hs0, div_le_iff₀ hs0] at this
  rw [← hA] at dA
  rw [← hBB] at dB hB0
  constructor
  · obtain ⟨-, -, -, -, l5, l6⟩ := literals_near
    have g := hN.second l5 l6
    rw [hh_scale _ _ _ _ _ hs0.ne', hh_scale _ _ _ _ _ hs0.ne'] at g
    have hl : Real.log 10 ≠ 0 := log_ten_pos.ne'
    have m3 : Real.log 10 * (1 / Real.log 10) = 1 := by field_simp
    have m4 : Real.log 10 * (14 / 100 / Real.log 10) = 14 / 100 := by field_simp
    have hlog : ∀ x : ℝ, Real.log x = Real.log 10 * lg x := by
      intro x
      unfold lg
      rw [mul_div_cancel₀ _ log_ten_pos.ne']
    have e1 : troeG P' Fc (troeA P' Fc) (troeB P' Fc) = (1 + P')⁻¹ - hh (lg (max Fc (1 / 10 ^ 300))) (troeA P' Fc) (troeB P' Fc)
        (Real.log 10 * (4342944819032518 / 10 ^ 16)) (Real.log 10 * (6080122746645526 / 10 ^ 17)) := by
      rw [← (troe_terms _ _ _ _ _ _ hB').2]
      unfold troeG
      rw [hlog (max Fc (1 / 10 ^ 300))]
      ring
    have e2 : 1 / (1 + P) + factorSlope P (t.centre T) 0 1 = (1 + P)⁻¹ - hh (lg (t.centre T)) A B 1 (14 / 100) := by
      unfold factorSlope
      dsimp only
      rw [← hA, ← hBB, hlog (t.centre T), (troe_terms _ A B _ _ _ hB0).2, (troe_terms _ A B _ _ _ hB0).2, m3, m4]
      ring
    have hinv := n1.inv.abs_sub (by norm_num) (by norm_num)
    have hle : (1 + P)⁻¹ ≤ 1 := inv_le_one_of_one_le₀ (le_add_of_nonneg_right hPp.le)
    have hA1 : Ap (1 + P')⁻¹ (1 + P)⁻¹ 1 (14 / 10 ^ 12) := by
      refine ⟨by rw [abs_of_nonneg n1.inv.right]; exact hle, hinv.trans ?_⟩
      have := n1.inv.right
      norm_num at this ⊢
      linarith
    rw [e1, e2]
    exact (hA1.sub g).mono (by norm_num) (by norm_num)
  · have w := weighted_near hs hs14 hv4 dA dB g3
    have hf : Troe.factor (t.centre T) P = Real.exp (Real.log 10 * (lg (t.centre T) * (B ^ 2 * (A ^ 2 + B ^ 2)⁻¹))) := by
      unfold Troe.factor
      dsimp only
      rw [Real.rpow_def_of_pos (by norm_num)]
      congr 2
      rw [← (troe_terms 0 A B 0 0 0 hB0).1, mul_one_div]
      have hA2 : lg P + (-(4 / 10) - 67 / 100 * lg (t.centre T)) = A := by rw [hA]; unfold exactA; ring
      have hB2 : 75 / 100 - 127 / 100 * lg (t.centre T) - 14 / 100 * A = B := by rw [hA, hBB]; unfold exactA exactB; ring
      rw [hA2, hB2, div_pow, pow_two, pow_two]
    have hf' : Fc ^ (1 / (1 + troeA P' Fc * troeA P' Fc / (troeB P' Fc * troeB P' Fc))) =
        Real.exp (Real.log 10 * (lg Fc * (troeB P' Fc ^ 2 * (troeA P' Fc ^ 2 + troeB P' Fc ^ 2)⁻¹))) := by
      rw [Real.rpow_def_of_pos hFcp, (troe_terms 0 _ _ 0 0 0 hB').1]
      congr 1
      unfold lg
      have := log_ten_pos.ne'
      field_simp
    refine ((Near.of_exp (ε := 1152 / 10 ^ 12) ?_ (η := Real.log 10 * (lg Fc * (troeB P' Fc ^ 2 * (troeA P' Fc ^ 2 + troeB P' Fc ^ 2)⁻¹) -
      lg (t.centre T) * (B ^ 2 * (A ^ 2 + B ^ 2)⁻¹))) ?_ ?_).div n1).mono (by norm_num)
    · rw [hf]
      exact (Real.exp_pos _).le
    · rw [abs_mul, abs_of_pos log_ten_pos]
      refine (mul_le_mul log10_lt w (abs_nonneg _) (by norm_num)).trans (by norm_num)
    · rw [hf, hf', ← Real.exp_add]
      congr 1
      ring

end DLB
