import Verif.Lemmas.JacobSizes
import Verif.Lemmas.JacobSlope
import Verif.Lemmas.JacobParts
import Verif.Lemmas.ReactorNear
/-
The temperature derivative of the rate of each reaction, as computed by `eval_jacob`, is near the exact one.
-/
set_option autoImplicit false
set_option linter.unusedSectionVars false

namespace DLB

theorem hOverR_abs (a : List SDec) (T : ℝ) : |hOverR a T| ≤ hTerms a T := by
  unfold hOverR hTerms
  refine (abs_add_le _ _).trans (add_le_add ?_ le_rfl)
  refine (abs_add_le _ _).trans (add_le_add ?_ le_rfl)
  refine (abs_add_le _ _).trans (add_le_add ?_ le_rfl)
  refine (abs_add_le _ _).trans (add_le_add ?_ le_rfl)
  exact abs_add_le _ _

theorem count_sum (l : List Nat) (n : Nat) (h : ∀ s ∈ l, s < n) : ∑ s ∈ Finset.range n, (l.count s : ℝ) = l.length := by
  induction l with
  | nil => simp
  | cons a l ih =>
    have ha : a ∈ Finset.range n := Finset.mem_range.2 (h a (by simp))
    have e : ∀ s, ((a :: l).count s : ℝ) = l.count s + if a = s then 1 else 0 := by
      intro s
      rw [List.count_cons]
      by_cases hs : a = s <;> simp [hs]
    simp only [e]
    rw [Finset.sum_add_distrib, ih fun s hs => h s (by simp [hs]), Finset.sum_ite_eq, if_pos ha]
    simp

theorem net_sum (r : Reaction) (n : Nat) (h1 : ∀ s ∈ r.reactants, s < n) (h2 : ∀ s ∈ r.products, s < n) :
    ∑ s ∈ Finset.range n, (r.net s : ℝ) = r.molecules := by
  unfold Reaction.net Reaction.molecules
  push_cast
  rw [Finset.sum_sub_distrib, count_sum _ _ h1, count_sum _ _ h2]

/-- The slope of the equilibrium constant. -/
theorem kcSlope_near {nsp : Nat} {fit : Nat → Nasa} {r : Reaction} {T : ℝ} (hT : 0 < T) (h1 : ∀ s ∈ r.reactants, s < nsp)
    (h2 : ∀ s ∈ r.products, s < nsp) {dB : Nat → ℝ} (hB : ∀ s, s < nsp → r.net s ≠ 0 → DBVal (fit s) T (dB s))
    (hs : ∑ s ∈ Finset.range nsp, |(r.net s : ℝ)| * (hTerms ((fit s).at T) T / T + 1) ≤ 2000) :
    Ap (T * ∑ s ∈ Finset.range nsp, (r.net s : ℝ) * dB s) (kcSlope nsp fit r T) 2000 (2000 / 10 ^ 14) := by
  have e : kcSlope nsp fit r T = ∑ s ∈ Finset.range nsp, (r.net s : ℝ) * (hOverR ((fit s).at T) T / T - 1) := by
    unfold kcSlope
    rw [← net_sum r nsp h1 h2, ← Finset.sum_sub_distrib]
    exact Finset.sum_congr rfl fun s _ => by ring
  constructor
  · rw [e]
    refine (Finset.abs_sum_le_sum_abs _ _).trans (le_trans (Finset.sum_le_sum fun s _ => ?_) hs)
    rw [abs_mul]
    refine mul_le_mul_of_nonneg_left ?_ (abs_nonneg _)
    refine (abs_sub _ _).trans (add_le_add ?_ (by norm_num))
    rw [abs_div, abs_of_pos hT]
    exact div_le_div_of_nonneg_right (hOverR_abs _ _) hT.le
  · rw [e, Finset.mul_sum, ← Finset.sum_sub_distrib]
    refine (Finset.abs_sum_le_sum_abs _ _).trans (le_trans (Finset.sum_le_sum (g := fun s =>
      |(r.net s : ℝ)| * (hTerms ((fit s).at T) T / T + 1) / 10 ^ 14) fun s hs' => ?_) ?_)
    · by_cases hz : r.net s = 0
      · rw [hz]
        simp
      have := hB s (Finset.mem_range.1 hs') hz
      unfold DBVal at this
      have e2 : T * ((r.net s : ℝ) * dB s) - (r.net s : ℝ) * (hOverR ((fit s).at T) T / T - 1) =
          (r.net s : ℝ) * (T * (dB s - (hOverR ((fit s).at T) T / T - 1) / T)) := by
        field_simp
      rw [e2, abs_mul, abs_mul, abs_of_pos hT, mul_div_assoc]
      refine mul_le_mul_of_nonneg_left ((mul_le_mul_of_nonneg_left this hT.le).trans (le_of_eq ?_)) (abs_nonneg _)
      field_simp
    · rw [← Finset.sum_div]
      exact div_le_div_of_nonneg_right hs (by norm_num)

/-- The part of the derivative that comes from rate coefficients and concentrations. -/
theorem lin_near {a : Arrhenius} {n : Numbered} {nsp : Nat} {fit : Nat → Nasa} {φ : Int} {v : JacobVals ℝ} {x : ℝ} (hx : TLin a n nsp φ v x)
    (h1 : 200 ≤ v.T) (ha : a.modest = true) (hl1 : n.r.reactants.length ≤ 5)
    (hl2 : n.r.reversible = true → n.r.products.length ≤ 5)
    (hr1 : ∀ s ∈ n.r.reactants, s < nsp) (hr2 : ∀ s ∈ n.r.products, s < nsp) (hφ : |(φ : ℝ)| ≤ 1)
    (hB : n.r.reversible = true → ∀ s, s < nsp → n.r.net s ≠ 0 → DBVal (fit s) v.T (v.dB s))
    (hs : n.r.reversible = true → ∑ s ∈ Finset.range nsp, |(n.r.net s : ℝ)| * (hTerms ((fit s).at v.T) v.T / v.T + 1) ≤ 2000) :
    ∃ f r : ℝ, x = 1 / v.rho * v.pm n * (1 / v.T) * (v.F n.k * f - v.Rv n * r) ∧
      Ap f (SDec.val a.b + a.temperature / v.T - n.r.reactants.length + 1 + φ) 350 (1 / 10 ^ 10) ∧
      (n.r.reversible = true →
        Ap r (SDec.val a.b + a.temperature / v.T - kcSlope nsp fit n.r v.T - n.r.products.length + 1 + φ) 2355 (1 / 10 ^ 10)) := by
  obtain ⟨c1, c2, c3, c4, q1, q2, q3, q4, e⟩ := hx
  have hT : 0 < v.T := by linarith
  obtain ⟨m1, m2⟩ := modest_sound ha h1
  have q : ∀ c : ℝ, |c - a.temperature| ≤ |a.temperature| / 10 ^ 14 → |c / v.T - a.temperature / v.T| ≤ 328 / 10 ^ 14 := by
    intro c hc
    rw [← sub_div, abs_div, abs_of_pos hT]
    refine (div_le_div_of_nonneg_right hc hT.le).trans ?_
    rw [div_right_comm]
    exact div_le_div_of_nonneg_right m1 (by norm_num)
  have q3 := q c3 q3
  have q4 := q c4 q4
  have m1' : |a.temperature / v.T| ≤ 328 := by rw [abs_div, abs_of_pos hT]; exact m1
  have l1 : (n.r.reactants.length : ℝ) ≤ 5 := by exact_mod_cast hl1
  have l1' : (0 : ℝ) ≤ n.r.reactants.length := Nat.cast_nonneg _
  refine ⟨_, _, e, ⟨?_, ?_⟩, fun hr => ?_⟩
  · rw [abs_le] at *
    norm_num at q1 q3 ⊢
    constructor <;> linarith
  · rw [abs_le] at *
    norm_num at q1 q3 ⊢
    constructor <;> linarith
  · have l2 : (n.r.products.length : ℝ) ≤ 5 := by exact_mod_cast hl2 hr
    have l2' : (0 : ℝ) ≤ n.r.products.length := Nat.cast_nonneg _
    obtain ⟨k1, k2⟩ := kcSlope_near hT hr1 hr2 (hB hr) (hs hr)
    refine ⟨?_, ?_⟩ <;> (rw [abs_le] at *; norm_num at q1 q2 q3 q4 k2 ⊢; constructor <;> linarith)

theorem log10_ge : 1 ≤ Real.log 10 := by
  have := (abs_le.1 log10_val).2
  norm_num at this
  linarith

theorem lg_near' {ε P Q : ℝ} (h : Near ε P Q) (hQ : 0 < Q) : |lg P - lg Q| ≤ ε := by
  have h1 := lg_near h hQ
  have h2 := mul_le_mul_of_nonneg_left log10_ge (abs_nonneg (lg P - lg Q))
  linarith

/-- The logarithmic slope of the modification of a falloff reaction. -/
theorem troe_slope_near {t : Troe} (hm : t.modest = true) {T P P' Fc FP S1 S2 S : ℝ} (h1 : 200 ≤ T) (h2 : T ≤ 6000)
    (hF : FcVal t T Fc) (hP : FpVal t T FP) (hF0 : 1 / 10 ^ 300 ≤ t.centre T) (hF3 : t.centre T ≤ 3)
    (hn : Near (67 / 10 ^ 13) P' P) (hP0 : 1 / 10 ^ 300 < P) (hB : 14 / 10 ^ 11 < |exactB P (t.centre T)|)
    (hS : |S| ≤ 70) (hS1 : |S1 - S| ≤ 7 / 10 ^ 12) (hS2 : |S2 - S| ≤ 7 / 10 ^ 12) :
    Ap (T * troeX T P' Fc (troeA P' Fc) (troeB P' Fc) (troeL Fc (troeA P' Fc) (troeB P' Fc)) S1 FP S2)
      (S / (1 + P) + factorSlope P (t.centre T) (t.centreSlope T) S) 1870 (501 / 10 ^ 8) := by
  have h300 : (0 : ℝ) < 1 / 10 ^ 300 := by positivity
  have hc0 : 0 < t.centre T := h300.trans_le hF0
  have hPp : 0 < P := h300.trans hP0
  have hT : 0 < T := by linarith
  obtain ⟨nF, nφ⟩ := centre_near hm h1 h2 hF hP hc0
  have nP' : Near (67 / 10 ^ 13) (max P' (1 / 10 ^ 300)) P := by
    have := hn.max ((Near.refl h300.le).mono (by norm_num))
    rwa [max_eq_left hP0.le] at this
  have nF' : Near (30 / 10 ^ 13) (max Fc (1 / 10 ^ 300)) (t.centre T) := by
    have := nF.max ((Near.refl h300.le).mono (by norm_num))
    rwa [max_eq_left hF0] at this
  have g1 : |lg (max P' (1 / 10 ^ 300)) - lg P| ≤ 7 / 10 ^ 12 := (lg_near' nP' hPp).trans (by norm_num)
  have g2 : |lg (max Fc (1 / 10 ^ 300)) - lg (t.centre T)| ≤ 7 / 10 ^ 12 := (lg_near' nF' hc0).trans (by norm_num)
  have hB' : troeB P' Fc ≠ 0 := by
    intro h0
    have : |troeB P' Fc - exactB P (t.centre T)| ≤ 10 / 10 ^ 12 := by
      unfold troeB exactB
      rw [abs_le] at g1 g2 ⊢
      norm_num at g1 g2 ⊢
      constructor <;> linarith [g1.1, g1.2, g2.1, g2.2]
    rw [h0, zero_sub, abs_neg] at this
    norm_num at this hB
    linarith
  have hB0 : exactB P (t.centre T) ≠ 0 := by
    intro h0
    rw [h0, abs_zero] at hB
    norm_num at hB
  have hlF : lg (t.centre T) ≤ 12 / 25 := (lg_le hc0 hF3).trans lg_three
  have hs2 : Ap S2 S 70 (1 / 10 ^ 11) := ⟨hS, hS2.trans (by norm_num)⟩
  have hX := factorSlope_near (A' := troeA P' Fc) (B' := troeB P' Fc) hlF hB0 g1 g2 rfl rfl hB' nφ hs2
  have hlog : Real.log (max Fc (1 / 10 ^ 300)) = Real.log 10 * lg (max Fc (1 / 10 ^ 300)) := by
    unfold lg
    rw [mul_div_cancel₀ _ log_ten_pos.ne']
  rw [← hlog] at hX
  -- the first term
  have n1 : Near (67 / 10 ^ 13) (1 + P') (1 + P) := Near.add ((Near.refl zero_le_one).mono (by norm_num)) hn
  have hinv := n1.inv.abs_sub (by norm_num) (by norm_num)
  have hle : (1 + P)⁻¹ ≤ 1 := inv_le_one_of_one_le₀ (le_add_of_nonneg_right hPp.le)
  have hA : Ap (1 + P')⁻¹ (1 + P)⁻¹ 1 (14 / 10 ^ 12) := by
    refine ⟨by rw [abs_of_nonneg n1.inv.right]; exact hle, hinv.trans ?_⟩
    have := n1.inv.right
    norm_num at this ⊢
    linarith
  have hs1 : Ap S1 S 70 (7 / 10 ^ 12) := ⟨hS, hS1⟩
  have := (hs1.mul hA).add hX
  have hFc : Fc ≠ 0 := fun h0 => hc0.ne' (nF.zero_iff.1 h0)
  have e : T * troeX T P' Fc (troeA P' Fc) (troeB P' Fc) (troeL Fc (troeA P' Fc) (troeB P' Fc)) S1 FP S2 =
      S1 * (1 + P')⁻¹ + ((1 / (1 + troeA P' Fc * troeA P' Fc / (troeB P' Fc * troeB P' Fc)) -
        troeL Fc (troeA P' Fc) (troeB P' Fc) * (-(2909773028751787 / 10 ^ 16) * troeB P' Fc + 51081716961460466 / 10 ^ 17 * troeA P' Fc)) *
        (T * FP / Fc) - troeL Fc (troeA P' Fc) (troeB P' Fc) *
        (43429448190325176 / 10 ^ 17 * troeB P' Fc + 60801227466455256 / 10 ^ 18 * troeA P' Fc) * S2) := by
    unfold troeX
    have hp : 1 + P' ≠ 0 := by have := hn.left; positivity
    have hD : 1 + troeA P' Fc * troeA P' Fc / (troeB P' Fc * troeB P' Fc) ≠ 0 := by
      have := div_nonneg (mul_self_nonneg (troeA P' Fc)) (mul_self_nonneg (troeB P' Fc))
      positivity
    generalize troeL Fc (troeA P' Fc) (troeB P' Fc) = L
    generalize 1 + troeA P' Fc * troeA P' Fc / (troeB P' Fc * troeB P' Fc) = D at hD
    generalize troeA P' Fc = A
    generalize troeB P' Fc = B
    field_simp
    ring
  rw [e, div_eq_mul_inv S]
  unfold troeL
  exact this.mono (by norm_num) (by norm_num)

/-- The same without Troe's parameters. -/
theorem lind_slope_near {T P P' S1 S : ℝ} (hT : 0 < T) (hn : Near (67 / 10 ^ 13) P' P) (hS : |S| ≤ 70) (hS1 : |S1 - S| ≤ 7 / 10 ^ 12) :
    Ap (T * (S1 / (T * (1 + P')))) (S / (1 + P)) 71 (1 / 10 ^ 8) := by
  have hP := hn.right
  have n1 : Near (67 / 10 ^ 13) (1 + P') (1 + P) := Near.add ((Near.refl zero_le_one).mono (by norm_num)) hn
  have hinv := n1.inv.abs_sub (by norm_num) (by norm_num)
  have hle : (1 + P)⁻¹ ≤ 1 := inv_le_one_of_one_le₀ (le_add_of_nonneg_right hP)
  have hA : Ap (1 + P')⁻¹ (1 + P)⁻¹ 1 (14 / 10 ^ 12) := by
    refine ⟨by rw [abs_of_nonneg n1.inv.right]; exact hle, hinv.trans ?_⟩
    have := n1.inv.right
    norm_num at this ⊢
    linarith
  have hs1 : Ap S1 S 70 (7 / 10 ^ 12) := ⟨hS, hS1⟩
  have e : T * (S1 / (T * (1 + P'))) = S1 * (1 + P')⁻¹ := by
    have hp : 1 + P' ≠ 0 := by have := hn.left; positivity
    field_simp
  rw [e, div_eq_mul_inv S]
  exact (hs1.mul hA).mono (by norm_num) (by norm_num)

end DLB
