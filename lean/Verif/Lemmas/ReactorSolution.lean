import Verif.Spec.ReactorTube
import Verif.Lemmas.ReactorLipschitz
import Mathlib.Analysis.ODE.ExistUnique
/-
The reactor has a solution that starts at a state inside its domain; mass fractions do not become negative.
-/
set_option autoImplicit false
set_option linter.unusedSectionVars false

namespace DLB
open scoped Topology NNReal
open Spec

variable {m : Nat}

/-- The state with negative mass fractions replaced by zero. -/
noncomputable def clip (z : Fin (m + 2) → ℝ) : Fin (m + 2) → ℝ := fun i =>
  if i.val = 0 ∨ i.val = m + 1 then z i else max 0 (z i)

theorem clip_nonNegative (z : Fin (m + 2) → ℝ) : NonNegative (clip z) := fun i => by
  have := i.isLt
  unfold clip
  rw [if_neg (by simp; omega)]
  exact le_max_left _ _

theorem clip_of_nonNegative {z : Fin (m + 2) → ℝ} (h : NonNegative z) : clip z = z := by
  funext i
  unfold clip
  split
  · rfl
  · rename_i hi
    have hi' : ¬ i.val = 0 ∧ ¬ i.val = m + 1 := not_or.1 hi
    have hlt := i.isLt
    have := h ⟨i.val - 1, by omega⟩
    have e : (Fin.castSucc (⟨i.val - 1, by omega⟩ : Fin m)).succ = i := by
      apply Fin.ext; simp; omega
    rw [e] at this
    exact max_eq_right this

theorem clip_contracts (z z' : Fin (m + 2) → ℝ) : ‖clip z - clip z'‖ ≤ ‖z - z'‖ := by
  refine (pi_norm_le_iff_of_nonneg (norm_nonneg _)).2 fun i => ?_
  refine le_trans ?_ (norm_le_pi_norm (z - z') i)
  simp only [Pi.sub_apply, clip, Real.norm_eq_abs]
  split
  · exact le_rfl
  · have := abs_max_sub_max_le_abs (z i) (z' i) 0
    rwa [max_comm, max_comm (z' i)] at this

theorem clip_zero (z : Fin (m + 2) → ℝ) : clip z 0 = z 0 := by simp [clip]

theorem clip_last (z : Fin (m + 2) → ℝ) : clip z (Fin.last (m + 1)) = z (Fin.last (m + 1)) := by simp [clip]

theorem lipAt_entry (z : Fin (m + 2) → ℝ) (i : Fin (m + 2)) : LipAt (fun x : Fin (m + 2) → ℝ => x i) z :=
  LipAt.of_lipschitz (LipschitzWith.eval i) z

theorem stateComposition_lipAt (z : Fin (m + 2) → ℝ) (i : Nat) : LipAt (fun x => stateComposition x i) z := by
  have one : ∀ k, LipAt (fun x : Fin (m + 2) → ℝ => if h : k < m then x ⟨k + 1, by omega⟩ else 0) z := fun k => by
    by_cases h : k < m
    · simp only [dif_pos h]; exact lipAt_entry z _
    · simp only [dif_neg h]; exact LipAt.const _ z
  unfold stateComposition complement
  by_cases h : i = m
  · simp only [if_pos h]
    exact (LipAt.const _ z).sub (LipAt.sum fun k _ => one k)
  · simp only [if_neg h]; exact one i

variable {X : Chemistry} (hn : X.nsp = m + 1) {z : Fin (m + 2) → ℝ} (hX : ∀ t, 200 ≤ t → t ≤ 5000 → X.ProperAt t)
include hn hX

theorem regularAt_of (h : X.Interior z) : X.RegularAt (z 0) (z (Fin.last (m + 1))) (stateComposition z) where
  proper := hX _ h.temperature.1 h.temperature.2
  fits := h.fits
  pressure := h.pressure
  fractions := fun i hi => h.fractions i (by omega)
  some_pos := ⟨m, by omega, h.last⟩
  poles := h.poles

theorem stateRate_lipAt (h : X.Interior z) : LipAt (fun x : Fin (m + 2) → ℝ => X.stateRate x) z := by
  have hR := regularAt_of hn hX h
  refine LipAt.pi fun i => ?_
  unfold Chemistry.stateRate
  by_cases h0 : i.val = 0
  · simp only [if_pos h0]
    exact dTdt_lipAt hR (lipAt_entry z 0) (lipAt_entry z _) fun i _ => stateComposition_lipAt z i
  · by_cases h1 : i.val = m + 1
    · simp only [if_neg h0, if_pos h1]; exact LipAt.const _ z
    · simp only [if_neg h0, if_neg h1]
      exact dYdt_lipAt hR (lipAt_entry z 0) (lipAt_entry z _) (fun i _ => stateComposition_lipAt z i) _

theorem stateTerms_lipAt (h : X.Interior z) (i : Fin (m + 2)) : LipAt (fun x : Fin (m + 2) → ℝ => X.stateTerms x i) z := by
  have hR := regularAt_of hn hX h
  unfold Chemistry.stateTerms
  by_cases h0 : i.val = 0
  · simp only [if_pos h0]
    exact dTdtTerms_lipAt hR (lipAt_entry z 0) (lipAt_entry z _) fun i _ => stateComposition_lipAt z i
  · by_cases h1 : i.val = m + 1
    · simp only [if_neg h0, if_pos h1]; exact LipAt.const _ z
    · simp only [if_neg h0, if_neg h1]
      exact dYdtTerms_lipAt hR (lipAt_entry z 0) (lipAt_entry z _) (fun i _ => stateComposition_lipAt z i) _

omit hn hX in
theorem nonNegative_of (h : X.Admissible z) : NonNegative z := fun i => by
  have := h.fractions i.val (by omega)
  unfold stateComposition complement at this
  rw [if_neg (by omega)] at this
  dsimp only at this
  rw [dif_pos i.isLt] at this
  exact this

omit hn hX in
theorem stateComposition_of_nonNegative (h : NonNegative z) (hl : 0 ≤ stateComposition z m) (i : Nat) (hi : i < m + 1) :
    0 ≤ stateComposition z i := by
  by_cases e : i = m
  · rw [e]; exact hl
  · unfold stateComposition complement
    rw [if_neg e]
    dsimp only
    rw [dif_pos (by omega)]
    exact h ⟨i, by omega⟩

theorem admissible_eventually (h : X.Interior z) :
    ∀ᶠ x in 𝓝 z, NonNegative x → X.Admissible x ∧ 0 < stateComposition x m := by
  have hR := regularAt_of hn hX h
  filter_upwards [poles_eventually hR (lipAt_entry z 0) (lipAt_entry z _) fun i _ => stateComposition_lipAt z i,
    (lipAt_entry z 0).continuousAt.eventually_const_lt h.inside.1,
    (lipAt_entry z 0).continuousAt.eventually_lt_const h.inside.2,
    (lipAt_entry z (Fin.last (m + 1))).continuousAt.eventually_const_lt h.pressure,
    (stateComposition_lipAt z m).continuousAt.eventually_const_lt h.last] with x h1 h2 h3 h4 h5 hx
  exact ⟨⟨⟨h2.le, h3.le⟩, h4, stateComposition_of_nonNegative hx h5.le, h1⟩, h5⟩

/-- A mass fraction that is zero does not decrease. -/
theorem stateRate_of_absent {x : Fin (m + 2) → ℝ} (h : X.Admissible x) (hl : 0 < stateComposition x m) (j : Fin m)
    (hj : x j.castSucc.succ = 0) : 0 ≤ X.stateRate x j.castSucc.succ := by
  have hj' := j.isLt
  have hP := hX _ h.temperature.1 h.temperature.2
  have hf : ∀ i, i < X.nsp → 0 ≤ stateComposition x i := fun i hi => h.fractions i (by omega)
  have hd := density_pos hP h.pressure hf ⟨m, by omega, hl⟩
  unfold Chemistry.stateRate
  rw [if_neg (by simp), if_neg (by simp; omega)]
  have e : (j.castSucc.succ : Fin (m + 2)).val - 1 = j.val := by simp
  rw [e]
  have hz : stateComposition x j = 0 := by
    unfold stateComposition complement
    rw [if_neg (by omega)]
    dsimp only
    rw [dif_pos hj']
    exact hj
  refine div_nonneg (mul_nonneg (production_of_absent hP (fun i hi => ?_) ?_) (hP.weight _ (by omega)).le) hd.le
  · exact div_nonneg (mul_nonneg hd.le (hf i hi)) (hP.weight i hi).le
  · unfold Chemistry.concentrations; rw [hz, mul_zero, zero_div]

omit hn hX in
/-- A function that starts at a value that is not negative, and does not decrease where it is negative, never becomes negative. -/
theorem nonneg_of_barrier {f f' : ℝ → ℝ} {b : ℝ} (h0 : 0 ≤ f 0)
    (hf : ∀ t ∈ Set.Icc 0 b, HasDerivWithinAt f (f' t) (Set.Icc 0 b) t)
    (hb : ∀ t ∈ Set.Icc 0 b, f t ≤ 0 → 0 ≤ f' t) : ∀ t ∈ Set.Icc 0 b, 0 ≤ f t := by
  have key : ∀ ε : ℝ, 0 < ε → ∀ t ∈ Set.Icc 0 b, -f t ≤ ε * (t + 1) := by
    intro ε hε
    refine image_le_of_deriv_right_lt_deriv_boundary' (f' := fun t => -f' t) (B' := fun _ => ε)
      (fun t ht => (hf t ht).continuousWithinAt.neg) (fun t ht => ?_) (by rw [Pi.neg_apply]; linarith) (by fun_prop) (fun t _ => ?_)
      fun t ht e => ?_
    · have := (hf t ⟨ht.1, ht.2.le⟩).neg
      exact this.mono_of_mem_nhdsWithin (Icc_mem_nhdsGE_of_mem ht)
    · have := ((hasDerivAt_id t).add_const 1).const_mul ε
      simpa using this.hasDerivWithinAt
    · rw [Pi.neg_apply] at e
      have hp : 0 < ε * (t + 1) := mul_pos hε (by linarith [ht.1])
      have := hb t ⟨ht.1, ht.2.le⟩ (by linarith)
      linarith
  intro t ht
  by_contra hc
  rw [not_le] at hc
  have ht1 : 0 < t + 1 := by linarith [ht.1]
  have := key (-f t / (2 * (t + 1))) (div_pos (by linarith) (by linarith)) t ht
  have e : -f t / (2 * (t + 1)) * (t + 1) = -f t / 2 := by field_simp
  rw [e] at this
  linarith

/-- A state inside the domain is the start of a solution of the reactor, with a neighbourhood in which the rates are bounded and Lipschitz continuous. -/
theorem exists_tube (h : X.Interior z) : ∃ b ρ B Λ S : ℝ, ∃ φ : ℝ → Fin (m + 2) → ℝ, 0 < b ∧ 0 < ρ ∧ 0 ≤ B ∧ 0 ≤ Λ ∧ 0 ≤ S ∧
    φ 0 = z ∧ X.Tube φ b ρ B Λ S := by
  obtain ⟨K, U, hU, hL⟩ := stateRate_lipAt hn hX h
  have hterms : ∀ᶠ x in 𝓝 z, ∀ i, X.stateTerms x i ≤ ∑ k, |X.stateTerms z k| + 1 := by
    refine Filter.eventually_all.2 fun i => ?_
    refine ((stateTerms_lipAt hn hX h i).continuousAt.eventually_lt_const (?_ : X.stateTerms z i < _)).mono fun x hx => hx.le
    have := Finset.single_le_sum (f := fun k => |X.stateTerms z k|) (fun k _ => abs_nonneg _) (Finset.mem_univ i)
    have := le_abs_self (X.stateTerms z i)
    linarith
  obtain ⟨r, hr, hball⟩ := Metric.nhds_basis_closedBall.eventually_iff.1
    ((Filter.eventually_mem_set.2 hU).and ((admissible_eventually hn hX h).and hterms))
  have hnn := nonNegative_of h.toAdmissible
  have hB0 : 0 ≤ ‖X.stateRate z‖ + K * r := by positivity
  have hbound : ∀ x ∈ Metric.closedBall z r, ‖X.stateRate x‖ ≤ ‖X.stateRate z‖ + K * r := by
    intro x hx
    have h1 := (hL.dist_le_mul x (hball hx).1 z (hball (Metric.mem_closedBall_self hr.le)).1)
    rw [dist_eq_norm] at h1
    have h2 := norm_le_norm_add_norm_sub' (X.stateRate x) (X.stateRate z)
    have h3 : (K : ℝ) * dist x z ≤ K * r := mul_le_mul_of_nonneg_left hx K.2
    linarith
  have hclip : ∀ {s : ℝ} {x}, x ∈ Metric.closedBall z s → clip x ∈ Metric.closedBall z s := by
    intro s x hx
    rw [Metric.mem_closedBall, dist_eq_norm] at hx ⊢
    refine le_trans ?_ hx
    have := clip_contracts x z
    rwa [clip_of_nonNegative hnn] at this
  set B := ‖X.stateRate z‖ + K * r with hB
  have hhalf : Metric.closedBall z (r / 2) ⊆ Metric.closedBall z r := Metric.closedBall_subset_closedBall (by linarith)
  have hb0 : 0 < r / 2 / (B + 1) := by positivity
  have hPL : IsPicardLindelof (fun _ : ℝ => fun x : Fin (m + 2) → ℝ => X.stateRate (clip x)) (tmin := 0) (tmax := r / 2 / (B + 1))
      ⟨0, le_rfl, hb0.le⟩ z ⟨r / 2, by positivity⟩ 0 ⟨B, hB0⟩ K := by
    refine ⟨fun t _ x hx y hy => ?_, fun x _ => continuousOn_const, fun t _ x hx => ?_, ?_⟩
    · refine (hL (hball (hclip (hhalf hx))).1 (hball (hclip (hhalf hy))).1).trans ?_
      gcongr
      rw [edist_dist, edist_dist]
      refine ENNReal.ofReal_le_ofReal ?_
      rw [dist_eq_norm, dist_eq_norm]
      exact clip_contracts x y
    · exact hbound _ (hclip (hhalf hx))
    · show B * max (r / 2 / (B + 1) - 0) (0 - 0) ≤ r / 2 - 0
      rw [sub_zero, sub_zero, sub_zero, max_eq_left hb0.le]
      have : B * (r / 2 / (B + 1)) = r / 2 * (B / (B + 1)) := by field_simp
      rw [this]
      refine mul_le_of_le_one_right (by positivity) ((div_le_one (by positivity)).2 (by linarith))
  obtain ⟨φ, hφ0, hφ⟩ := hPL.exists_eq_forall_mem_Icc_hasDerivWithinAt₀
  have hφ0 : φ 0 = z := hφ0
  obtain ⟨δ, hδ, hcont⟩ := Metric.continuousWithinAt_iff.1
    (hφ 0 ⟨le_rfl, hb0.le⟩).continuousWithinAt (r / 2) (by positivity)
  set b := min (r / 2 / (B + 1)) (δ / 2) with hbdef
  have hbpos : 0 < b := lt_min hb0 (by positivity)
  have hin : ∀ t ∈ Set.Icc 0 b, φ t ∈ Metric.closedBall z (r / 2) := by
    intro t ht
    have h1 := hcont (x := t) ⟨ht.1, ht.2.trans (min_le_left _ _)⟩ (by
      rw [Real.dist_eq, sub_zero, abs_of_nonneg ht.1]
      exact lt_of_le_of_lt (ht.2.trans (min_le_right _ _)) (by linarith))
    rw [hφ0] at h1
    exact h1.le
  have hder : ∀ t ∈ Set.Icc 0 b, HasDerivWithinAt φ (X.stateRate (clip (φ t))) (Set.Icc 0 b) t := fun t ht =>
    (hφ t ⟨ht.1, ht.2.trans (min_le_left _ _)⟩).mono (Set.Icc_subset_Icc le_rfl (min_le_left _ _))
  have hpos : ∀ t ∈ Set.Icc 0 b, NonNegative (φ t) := by
    intro t ht j
    refine nonneg_of_barrier (f := fun t => φ t j.castSucc.succ)
      (f' := fun t => X.stateRate (clip (φ t)) j.castSucc.succ) (by rw [hφ0]; exact hnn j)
      (fun t ht => hasDerivWithinAt_pi.1 (hder t ht) _) (fun t ht hle => ?_) t ht
    obtain ⟨a1, a2⟩ := (hball (hclip (hhalf (hin t ht)))).2.1 (clip_nonNegative _)
    refine stateRate_of_absent hn hX a1 a2 j ?_
    have := j.isLt
    unfold clip
    rw [if_neg (by simp; omega)]
    exact max_eq_left hle
  have hnear : ∀ t x, Spec.Near φ 0 b (r / 2) t x → x ∈ Metric.closedBall z r := by
    rintro t x ⟨ht, hx⟩
    have h1 := hin t ht
    rw [Metric.mem_closedBall] at h1 ⊢
    rw [← dist_eq_norm] at hx
    linarith [dist_triangle x (φ t) z]
  refine ⟨b, r / 2, B, K, ∑ k, |X.stateTerms z k| + 1, φ, hbpos, by positivity, hB0, K.2, by positivity, hφ0,
    fun t ht => ?_, fun t x hx hx0 => ((hball (hnear t x hx)).2.1 hx0).1, fun t x hx _ => (hball (hnear t x hx)).2.2,
    fun t x hx _ => hbound x (hnear t x hx), fun t x t' x' hx hx' _ _ => ?_, hpos⟩
  · have := hder t ht
    rwa [clip_of_nonNegative (hpos t ht)] at this
  · have := hL.dist_le_mul x (hball (hnear t x hx)).1 x' (hball (hnear t' x' hx')).1
    rwa [dist_eq_norm, dist_eq_norm] at this

end DLB
