import Verif.Props.Rounded
/-
No transfer of the plan is far below zero, with rounding: the amounts that the filter drops are
small in absolute value.
-/
set_option autoImplicit false
set_option linter.unusedSectionVars false

namespace DLB

variable {K : Type} [Field K] [LinearOrder K] [IsStrictOrderedRing K] {F : FloatFormat K}

/-- If everything left is near the mean, no transfer that follows is far below zero. -/
theorem Run.fl_quiet_ge {mean : Fl F} {v v' : Nat → Fl F} {s r : Nat} {tr : List (Nat × Nat × Fl F)}
    (h : Run mean v s r tr v') {α : K} (hα : α ≤ mean.val / 2) (hm0 : 0 ≤ mean.val) :
    ∑ i ∈ Finset.Icc r s, |(v i).val - mean.val| +
      ((s - r : Nat) : K) * (F.u * (2 * mean.val)) ≤ α →
    ∀ t ∈ tr, -α ≤ t.2.2.val := by
  have hu2 : 0 ≤ F.u * (2 * mean.val) := mul_nonneg F.u_nonneg (by linarith)
  induction h with
  | done => simp
  | @down v v' s r tr h hc hr ih =>
    intro hA
    have e : ((s + 1 - r : Nat) : K) = ((s - r : Nat) : K) + 1 := by
      rw [Nat.sub_add_comm (by omega)]; push_cast; rfl
    rw [e] at hA
    have hn : (0 : K) ≤ ((s - r : Nat) : K) * (F.u * (2 * mean.val)) :=
      mul_nonneg (Nat.cast_nonneg _) hu2
    have ha := term_le_sum (m := mean.val) (W := fun i => (v i).val) (s := s + 1) (r := r)
      (i := s + 1) (by omega) (le_refl _)
    have hb := term_le_sum (m := mean.val) (W := fun i => (v i).val) (s := s + 1) (r := r)
      (i := r) (le_refl _) (by omega)
    obtain ⟨hx, hd⟩ := fl_step_quiet F mean.ok (v (s + 1)).ok (v r).ok
      (ha.trans (by linarith)) (hb.trans (by linarith))
    have hxv : (amount mean v (s + 1) r).val =
        min ((v (s + 1)).val - mean.val) (mean.val - (v r).val) := by rw [amount_val, hx]
    intro t ht
    rcases List.mem_cons.1 ht with rfl | ht
    · simp only [hxv]
      have h1 := (abs_le.1 (ha.trans (by linarith : _ ≤ α))).1
      have h2 := (abs_le.1 (hb.trans (by linarith : _ ≤ α))).2
      exact le_min (by linarith) (by linarith)
    · refine ih ?_ t ht
      have hb' := abs_nonneg (F.rnd ((v (s + 1)).val -
        min ((v (s + 1)).val - mean.val) (mean.val - (v r).val)) - mean.val)
      rw [Finset.sum_Icc_succ_top (by omega)] at hA
      rw [sum_change (fun i => |(v i).val - mean.val|) _ (le_refl r) (by omega : r ≤ s) ?_]
      · simp only [xfer_val, hxv]
        rw [if_neg (by omega : ¬ r = s + 1), if_true]
        linarith
      · intro i h1 h2 h3
        simp only [xfer_val]
        rw [if_neg (by omega), if_neg h3]
  | @up v v' s r tr h hc hr ih =>
    intro hA
    have e : ((s - r : Nat) : K) = ((s - (r + 1) : Nat) : K) + 1 := by
      have : s - r = s - (r + 1) + 1 := by omega
      rw [this]; push_cast; rfl
    rw [e] at hA
    have hn : (0 : K) ≤ ((s - (r + 1) : Nat) : K) * (F.u * (2 * mean.val)) :=
      mul_nonneg (Nat.cast_nonneg _) hu2
    have ha := term_le_sum (m := mean.val) (W := fun i => (v i).val) (s := s) (r := r)
      (i := s) (by omega) (le_refl _)
    have hb := term_le_sum (m := mean.val) (W := fun i => (v i).val) (s := s) (r := r)
      (i := r) (le_refl _) (by omega)
    obtain ⟨hx, hd⟩ := fl_step_quiet F mean.ok (v s).ok (v r).ok
      (ha.trans (by linarith)) (hb.trans (by linarith))
    have hxv : (amount mean v s r).val =
        min ((v s).val - mean.val) (mean.val - (v r).val) := by rw [amount_val, hx]
    intro t ht
    rcases List.mem_cons.1 ht with rfl | ht
    · simp only [hxv]
      have h1 := (abs_le.1 (ha.trans (by linarith : _ ≤ α))).1
      have h2 := (abs_le.1 (hb.trans (by linarith : _ ≤ α))).2
      exact le_min (by linarith) (by linarith)
    · refine ih ?_ t ht
      have hb' := abs_nonneg (F.rnd ((v r).val +
        min ((v s).val - mean.val) (mean.val - (v r).val)) - mean.val)
      have e2 : Finset.Icc r s = insert r (Finset.Icc (r + 1) s) := by
        ext i; simp only [Finset.mem_Icc, Finset.mem_insert]; omega
      rw [e2, Finset.sum_insert (by simp)] at hA
      rw [sum_change (fun i => |(v i).val - mean.val|) _ (by omega : r + 1 ≤ s) (le_refl s) ?_]
      · simp only [xfer_val, hxv]
        rw [if_true]
        linarith
      · intro i h1 h2 h3
        simp only [xfer_val]
        rw [if_neg h3, if_neg (by omega)]

section

variable {mean : Fl F} {N : Nat} {σ Emax : K}

/-- No transfer of the loop is far below zero. -/
theorem Run.fl_lower (B : FlBudget F mean N σ Emax) {θ : K}
    (hθ : 3 * Emax + (N : K) * (F.u * (2 * mean.val)) ≤ θ)
    (hα : 3 * Emax + (N : K) * (F.u * (2 * mean.val)) ≤ mean.val / 2)
    {v v' : Nat → Fl F} {s r : Nat} {tr : List (Nat × Nat × Fl F)} (h : Run mean v s r tr v') :
    ∀ E, FlInv mean.val (fun i => (v i).val) s r E →
      ((v r).val ≤ mean.val + 3 * (F.u * mean.val) ∨
        ∀ i, r < i → i < s → (v r).val ≤ (v i).val) →
      s - r ≤ N → 3 * (F.u * mean.val) ≤ E →
      E + ((s - r : Nat) : K) * (flRho F mean.val N + σ) ≤ Emax →
      ∀ t ∈ tr, -θ ≤ t.2.2.val := by
  have hu2 : 0 ≤ F.u * (2 * mean.val) := mul_nonneg F.u_nonneg (by linarith [B.m0])
  have hum := mul_nonneg F.u_nonneg B.m0
  have hum' : F.u * mean.val ≤ 1 / 10 * mean.val := mul_le_mul_of_nonneg_right B.hu B.m0
  have hNu : 0 ≤ (N : K) * (F.u * (2 * mean.val)) := mul_nonneg (Nat.cast_nonneg _) hu2
  have quiet : ∀ {v v' : Nat → Fl F} {s r : Nat} {tr : List (Nat × Nat × Fl F)},
      Run mean v s r tr v' → s - r ≤ N → ∀ E, E ≤ Emax →
      ∑ i ∈ Finset.Icc r s, |(v i).val - mean.val| ≤ 3 * E → ∀ t ∈ tr, -θ ≤ t.2.2.val := by
    intro v v' s r tr hrun hN E hE hsum t ht
    have hc : ((s - r : Nat) : K) * (F.u * (2 * mean.val)) ≤ (N : K) * (F.u * (2 * mean.val)) :=
      mul_le_mul_of_nonneg_right (by exact_mod_cast hN) hu2
    have := hrun.fl_quiet_ge hα B.m0 (by linarith) t ht
    linarith
  have live : ∀ {v : Nat → Fl F} {s r : Nat} {E : K} {tr : List (Nat × Nat × Fl F)},
      r < s → FlInv mean.val (fun i => (v i).val) s r E →
      3 * (F.u * mean.val) ≤ E → E ≤ Emax → mean.val ≤ (v s).val →
      (v r).val ≤ mean.val + 3 * (F.u * mean.val) → (∀ t ∈ tr, -θ ≤ t.2.2.val) →
      ∀ t ∈ (s, r, amount mean v s r) :: tr, -θ ≤ t.2.2.val := by
    intro v s r E tr hrs hI h3 hEm ham hbm ih t ht
    rcases List.mem_cons.1 ht with rfl | ht
    · show -θ ≤ (amount mean v s r).val
      rw [amount_val]
      rcases le_or_gt (v r).val mean.val with hb | hb
      · have := F.rnd_nonneg (x := min ((v s).val - mean.val) (mean.val - (v r).val))
          (le_min (by linarith) (by linarith))
        linarith
      · rw [min_eq_right (by linarith), F.sterbenz _ _ mean.ok (v r).ok (by linarith)
          (by linarith)]
        linarith
    · exact ih t ht
  have hδ : 0 ≤ flRho F mean.val N + σ := add_nonneg B.rho_nonneg B.sigma
  induction h with
  | done v m => simp
  | @down v v' s r tr h hc hr ih =>
    intro E hI hf hN h3 hE
    have e : ((s + 1 - r : Nat) : K) = ((s - r : Nat) : K) + 1 := by
      rw [Nat.sub_add_comm (by omega)]; push_cast; rfl
    have hn : (0 : K) ≤ ((s - r : Nat) : K) * (flRho F mean.val N + σ) :=
      mul_nonneg (Nat.cast_nonneg _) hδ
    have hE' := hE
    rw [e] at hE'
    have hEm : E ≤ Emax := by linarith
    have hE0 : 0 ≤ E := by linarith
    have hrun : Run mean v (s + 1) r ((s + 1, r, amount mean v (s + 1) r) :: tr) v' :=
      Run.down h hc hr
    rcases lt_or_ge (v (s + 1)).val mean.val with hl | hl
    · exact quiet hrun hN E hEm (hI.quiet_low h hE0 hl)
    · rcases le_or_gt (v r).val (mean.val + 3 * (F.u * mean.val)) with hb | hb
      · have hI' := hI.run_down B h hN h3 hEm hc
        obtain ⟨st, -⟩ := hI.step h mean.ok (v (s + 1)).ok (v r).ok B.hu h3
          (hEm.trans B.Emax_le) B.m0
        have ih' := ih _ hI' (.inl (by
          rw [xfer_val, if_neg (by omega), if_pos rfl, amount_val]; exact st.recv_le))
          (by omega) (by linarith) (by linarith)
        exact live h hI h3 hEm hl hb ih'
      · exact quiet hrun hN E hEm (hI.quiet_high h hE0 (by linarith)
          (hf.resolve_left (not_le.2 hb)))
  | @up v v' s r tr h hc hr ih =>
    intro E hI hf hN h3 hE
    have e : ((s - r : Nat) : K) = ((s - (r + 1) : Nat) : K) + 1 := by
      have : s - r = s - (r + 1) + 1 := by omega
      rw [this]; push_cast; rfl
    have hn : (0 : K) ≤ ((s - (r + 1) : Nat) : K) * (flRho F mean.val N + σ) :=
      mul_nonneg (Nat.cast_nonneg _) hδ
    have hE' := hE
    rw [e] at hE'
    have hEm : E ≤ Emax := by linarith
    have hE0 : 0 ≤ E := by linarith
    have hrun : Run mean v s r ((s, r, amount mean v s r) :: tr) v' := Run.up h hc hr
    rcases lt_or_ge (v s).val mean.val with hl | hl
    · exact quiet hrun hN E hEm (hI.quiet_low h hE0 hl)
    · rcases le_or_gt (v r).val (mean.val + 3 * (F.u * mean.val)) with hb | hb
      · obtain ⟨hI', -⟩ := hI.run_up B h hN h3 hEm hc
        have ih' := ih _ hI' (.inr (by
          intro i h1 h2
          rw [xfer_val, if_neg (by omega), if_neg (by omega), xfer_val, if_neg (by omega),
            if_neg (by omega)]
          exact hI.mono (r + 1) i (by omega) (by omega) h2))
          (by omega) (by linarith) (by linarith)
        exact live h hI h3 hEm hl hb ih'
      · exact quiet hrun hN E hEm (hI.quiet_high h hE0 (by linarith)
          (hf.resolve_left (not_le.2 hb)))

end

/-- The transfers of the plan of `FloatLoads.plan` are not far below zero. -/
theorem FloatLoads.plan_lower {loads : List (ChemistryLoad (Fl F))} (h : FloatLoads F loads)
    (hne : loads ≠ []) {sort : List (ChemistryLoad (Fl F)) → List (ChemistryLoad (Fl F))}
    (hsort : Sorts sort) {rk : Nat → Nat} {v v' : Nat → Fl F} {tr : List (Nat × Nat × Fl F)}
    (hh : Holds (sort loads) loads.length rk v)
    (hrun : Run (getMean loads) v (loads.length - 1) 0 tr v') :
    ∀ t ∈ tr, -(7 / 10 ^ 4 * exactMean loads) ≤ t.2.2.val := by
  obtain ⟨hI, hf⟩ := h.start hne hsort hh
  obtain ⟨b1, b2⟩ := h.E0_budget hne
  have B := h.budget hne
  obtain ⟨hn1, hmu, hu, hnu, hn2u, hbig⟩ := h.basics hne
  have hmb := h.mean_bounds hne
  have hEm := h.Emax_le hne
  have hq : 3 * flEmax F loads + (loads.length : K) * (F.u * (2 * (getMean loads).val)) ≤
      7 / 10 ^ 4 * exactMean loads := by
    have e : (loads.length : K) * (F.u * (2 * (getMean loads).val)) =
        2 * ((loads.length : K) * F.u * (getMean loads).val) := by ring
    have e2 : (loads.length : K) * F.u * (getMean loads).val ≤
        1 / 10 ^ 5 * ((1 + 1 / 10 ^ 4) * exactMean loads) :=
      mul_le_mul hnu hmb.2 B.m0 (by positivity)
    rw [e]
    norm_num at e2 hEm ⊢
    linarith
  exact hrun.fl_lower B hq (by norm_num at hq hmb ⊢; linarith [hmb.1]) _ hI (.inr hf)
    (by omega) b1 b2

end DLB
