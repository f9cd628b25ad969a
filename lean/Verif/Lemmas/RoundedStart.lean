import Verif.Lemmas.RoundedMean
/-
The plan of `getOperations` with rounding: all bounds together.
-/
set_option autoImplicit false
set_option linter.unusedSectionVars false

namespace DLB

variable {K : Type} [Field K] [LinearOrder K] [IsStrictOrderedRing K] {F : FloatFormat K}

theorem exactOps_filter (rk : Nat → Nat) (tr : List (Nat × Nat × Fl F)) (p : Operation (Fl F) → Bool)
    (p' : Operation K → Bool) (hp : ∀ o : Operation (Fl F), p o = p' ⟨o.src, o.dst, o.value.val⟩)
    (me : Nat) :
    exactOps (((tr.map (toOp rk)).filter p).filter (involves me)) =
      (((vals tr).map (toOp rk)).filter p').filter (involves me) := by
  unfold exactOps vals
  simp only [List.filter_map, List.map_map, List.filter_filter]
  congr 1
  apply List.filter_congr
  intro t _
  simp only [Function.comp, hp, toOp]
  rfl

variable {loads : List (ChemistryLoad (Fl F))}

/-- Errors at the start. -/
def flE0 (F : FloatFormat K) (loads : List (ChemistryLoad (Fl F))) : K :=
  4 * ((loads.length : K) ^ 2 * F.u) * exactMean loads + (loads.length : K) * F.eta

theorem FloatLoads.E0_budget (h : FloatLoads F loads) (hne : loads ≠ []) :
    3 * (F.u * (getMean loads).val) ≤ flE0 F loads ∧
    flE0 F loads + ((loads.length - 1 - 0 : Nat) : K) *
      (flRho F (getMean loads).val loads.length + 2 / 10 ^ 15) ≤ flEmax F loads := by
  obtain ⟨hn1, hmu, hu, hnu, hn2u, hbig⟩ := h.basics hne
  have hmb := h.mean_bounds hne
  have hu0 := F.u_nonneg
  have hη := h.tiny
  have hrho := h.rho_le hne
  have hr0 := (h.budget hne).rho_nonneg
  have hn2 : F.u ≤ (loads.length : K) ^ 2 * F.u :=
    le_mul_of_one_le_left hu0 (one_le_pow₀ hn1)
  have hnη : (loads.length : K) * F.eta ≤ (loads.length : K) * (1 / 10 ^ 18) :=
    mul_le_mul_of_nonneg_left hη (by linarith)
  have hη0 := mul_nonneg (by linarith : (0 : K) ≤ loads.length) F.eta_nonneg
  unfold flE0 flEmax
  constructor
  · have h1 : F.u * (getMean loads).val ≤ (loads.length : K) ^ 2 * F.u * ((1 + 1 / 10 ^ 4) * exactMean loads) :=
      mul_le_mul hn2 hmb.2 (h.budget hne).m0 (mul_nonneg (sq_nonneg _) hu0)
    have h2 : 0 ≤ (loads.length : K) ^ 2 * F.u * exactMean loads :=
      mul_nonneg (mul_nonneg (sq_nonneg _) hu0) hmu.le
    have e : (loads.length : K) ^ 2 * F.u * ((1 + 1 / 10 ^ 4) * exactMean loads) =
      (1 + 1 / 10 ^ 4) * ((loads.length : K) ^ 2 * F.u * exactMean loads) := by ring
    rw [e] at h1
    norm_num at h1 h2 ⊢
    linarith
  · have hc : ((loads.length - 1 - 0 : Nat) : K) ≤ loads.length := by
      exact_mod_cast (by omega : loads.length - 1 - 0 ≤ loads.length)
    have h1 : ((loads.length - 1 - 0 : Nat) : K) *
        (flRho F (getMean loads).val loads.length + 2 / 10 ^ 15) ≤
        (loads.length : K) * (flRho F (getMean loads).val loads.length + 2 / 10 ^ 15) :=
      mul_le_mul_of_nonneg_right hc (add_nonneg hr0 (by positivity))
    have h2 : 0 ≤ (loads.length : K) ^ 2 * F.u * exactMean loads :=
      mul_nonneg (mul_nonneg (sq_nonneg _) hu0) hmu.le
    norm_num at h1 h2 hrho hnη hη ⊢
    linarith

/-- The loop starts with the invariant. -/
theorem FloatLoads.start (h : FloatLoads F loads) (hne : loads ≠ [])
    {sort : List (ChemistryLoad (Fl F)) → List (ChemistryLoad (Fl F))} (hsort : Sorts sort)
    {rk : Nat → Nat} {v : Nat → Fl F} (hh : Holds (sort loads) loads.length rk v) :
    FlInv (getMean loads).val (fun i => (v i).val) (loads.length - 1) 0 (flE0 F loads) ∧
    ∀ i, 0 < i → i < loads.length - 1 → (v 0).val ≤ (v i).val := by
  obtain ⟨hn1, hmu, hu, hnu, hn2u, hbig⟩ := h.basics hne
  have hpos : 0 < loads.length := List.length_pos_of_ne_nil hne
  have hn0 : (0 : K) < loads.length := by linarith
  have hmono : ∀ i j, i ≤ j → j < loads.length → (v i).val ≤ (v j).val := by
    intro i j hij hj
    rcases Nat.eq_or_lt_of_le hij with rfl | hlt
    · exact le_refl _
    · have hi' : i < (sort loads).length := by rw [hh.1]; omega
      have hj' : j < (sort loads).length := by rw [hh.1]; omega
      have := List.pairwise_iff_getElem.1 (hsort.sorted loads) i j hi' hj' hlt
      have e1 := hh.2 i (by omega)
      have e2 := hh.2 j hj
      rw [List.getElem?_eq_getElem hi', Option.some.injEq] at e1
      rw [List.getElem?_eq_getElem hj', Option.some.injEq] at e2
      rw [e1, e2] at this
      exact this
  have hsum : ∑ i ∈ Finset.range loads.length, (v i).val = loads.length * exactMean loads := by
    have e : exactLoads (sort loads) =
        (List.range loads.length).map (fun i => (⟨rk i, (v i).val⟩ : ChemistryLoad K)) := by
      apply List.ext_getElem?
      intro i
      unfold exactLoads
      by_cases hi : i < loads.length
      · rw [List.getElem?_map, hh.2 i hi]; simp [hi]
      · rw [List.getElem?_eq_none (by rw [List.length_map, hh.1]; omega),
          List.getElem?_eq_none (by simp; omega)]
    have hp : ((exactLoads (sort loads)).map (·.value)).sum =
        (loads.map (fun l => l.value.val)).sum := by
      unfold exactLoads
      rw [List.map_map]
      exact ((hsort.perm loads).map _).sum_eq
    rw [exactMean_eq, mul_div_cancel₀ _ hn0.ne', ← hp, e, List.map_map, Finset.sum_range,
      ← List.sum_ofFn]
    congr 1
    apply List.ext_getElem <;> simp
  have hI : Finset.Icc 0 (loads.length - 1) = Finset.range loads.length := by
    ext i; simp only [Finset.mem_Icc, Finset.mem_range]; omega
  have hnn : ∀ i, i < loads.length → 0 ≤ (v i).val := by
    intro i hi
    have e1 := hh.2 i hi
    have hm : (⟨rk i, v i⟩ : ChemistryLoad (Fl F)) ∈ sort loads := List.mem_of_getElem? e1
    exact h.nonneg _ ((hsort.perm loads).mem_iff.1 hm)
  have hnear := h.mean_near hne
  have hE : (loads.length : K) * |(getMean loads).val - exactMean loads| ≤ flE0 F loads := by
    refine (mul_le_mul_of_nonneg_left hnear hn0.le).trans (le_of_eq ?_)
    unfold flE0; ring
  refine ⟨⟨by omega, ?_, ?_, ?_, ?_, ?_⟩, fun i h1 h2 => hmono 0 i (by omega) (by omega)⟩
  · rw [hI, Finset.sum_sub_distrib, hsum, Finset.sum_const, Finset.card_range, nsmul_eq_mul,
      ← mul_sub, abs_mul, abs_of_pos hn0, abs_sub_comm]
    exact hE
  · intro i _ h2; exact hnn i (by omega)
  · intro i j _ h2 h3; exact hmono i j h2 (by omega)
  · rcases le_or_gt (getMean loads).val (v (loads.length - 1)).val with hl | hl
    · exact .inl hl
    · right
      intro i _ h2
      exact (hmono i _ h2.le (by omega)).trans hl.le
  · intro _
    have h1 : (loads.length : K) * (v 0).val ≤ loads.length * exactMean loads := by
      rw [← hsum, ← nsmul_eq_mul, ← Finset.card_range loads.length, ← Finset.sum_const,
        Finset.card_range]
      exact Finset.sum_le_sum fun i hi => hmono 0 i (by omega) (Finset.mem_range.1 hi)
    have h2 := le_of_mul_le_mul_left h1 hn0
    have h3 : |(getMean loads).val - exactMean loads| ≤
        (loads.length : K) * |(getMean loads).val - exactMean loads| :=
      le_mul_of_one_le_left (abs_nonneg _) hn1
    have h4 := (abs_le.1 (h3.trans hE)).1
    show (v 0).val ≤ _
    linarith

/-- All that is known about the plan: positions, transfers, and bounds for the sums of the
transfers of each position. -/
theorem FloatLoads.plan (h : FloatLoads F loads) (hne : loads ≠ [])
    {sort : List (ChemistryLoad (Fl F)) → List (ChemistryLoad (Fl F))} (hsort : Sorts sort) :
    ∃ rk v tr v' loads', Holds (sort loads) loads.length rk v ∧
      Holds loads' loads.length rk v' ∧
      Run (getMean loads) v (loads.length - 1) 0 tr v' ∧
      (∀ i, i < loads.length → |(v' i).val - (getMean loads).val| ≤ flEmax F loads) ∧
      (∀ i, |(v' i).val - ((v i).val - outflow (vals tr) i + inflow (vals tr) i)| ≤
        19 / 2 * ((loads.length : K) ^ 2 * F.u) * exactMean loads) ∧
      (∀ i, outflow (big (9 / 1000 * exactMean loads) tr) i ≤
          max ((v i).val - (getMean loads).val) 0 +
            19 / 2 * ((loads.length : K) ^ 2 * F.u) * exactMean loads ∧
        inflow (big (9 / 1000 * exactMean loads) tr) i ≤
          max ((getMean loads).val - (v i).val) 0 +
            19 / 2 * ((loads.length : K) ^ 2 * F.u) * exactMean loads) ∧
      (∀ me fuel, loads.length - 1 ≤ fuel → ∃ m, runPlan sort fuel loads me =
        .ok ⟨loads', m, m, (tr.map (toOp rk)).filter (involves me)⟩) ∧
      ∀ me fuel, loads.length - 1 ≤ fuel → getOperations sort fuel loads me =
        .ok (((tr.map (toOp rk)).filter (isLarge (getMean loads))).filter (involves me)) := by
  obtain ⟨rk, v, tr, v', loads', hh, hh', hrun, h1, h2⟩ :=
    getOperations_run sort hsort.perm loads hne
  obtain ⟨hI, hf⟩ := h.start hne hsort hh
  obtain ⟨b1, b2⟩ := h.E0_budget hne
  have B := h.budget hne
  obtain ⟨hn1, hmu, hu, hnu, hn2u, hbig⟩ := h.basics hne
  have hmb := h.mean_bounds hne
  have hEm := h.Emax_le hne
  have hu0 := F.u_nonneg
  have hr := h.rho_le hne
  have hc : ((loads.length - 1 - 0 : Nat) : K) * flRho F (getMean loads).val loads.length ≤
      (loads.length : K) * flRho F (getMean loads).val loads.length :=
    mul_le_mul_of_nonneg_right (by exact_mod_cast (by omega : loads.length - 1 - 0 ≤ loads.length))
      B.rho_nonneg
  have hq : 3 * flEmax F loads + (loads.length : K) * (F.u * (2 * (getMean loads).val)) ≤
      7 / 10 ^ 4 * exactMean loads := by
    have e : (loads.length : K) * (F.u * (2 * (getMean loads).val)) =
        2 * ((loads.length : K) * F.u * (getMean loads).val) := by ring
    have e2 : (loads.length : K) * F.u * (getMean loads).val ≤
        1 / 10 ^ 5 * ((1 + 1 / 10 ^ 4) * exactMean loads) :=
      mul_le_mul hnu hmb.2 B.m0 (by positivity)
    rw [e]
    norm_num at e2 hEm ⊢
    linarith
  refine ⟨rk, v, tr, v', loads', hh, hh', hrun, ?_, ?_, ?_, h1, h2⟩
  · intro i hi
    exact hrun.fl_levels B _ hI (by omega) b1 b2 i (by omega) (by omega)
  · intro i
    exact (hrun.fl_final B _ hI (by omega) b1 b2 i).trans (hc.trans hr)
  · intro i
    have := hrun.fl_flow B (θ := 9 / 1000 * exactMean loads)
      (by norm_num at hq ⊢; linarith) (by norm_num at hq hmb ⊢; linarith [hmb.1]) _ hI (.inr hf)
      (by omega) b1 b2 i
    exact ⟨by linarith [this.1], by linarith [this.2]⟩

/-- The kept operations of a rank, in terms of the transfers. -/
theorem FloatLoads.kept_le (h : FloatLoads F loads) (hne : loads ≠ []) {len : Nat} {rk : Nat → Nat}
    (hinj : ∀ i j, i < len → j < len → rk i = rk j → i = j) {tr : List (Nat × Nat × Fl F)}
    (htr : ∀ t ∈ tr, t.1 < len ∧ t.2.1 < len) {i : Nat} (hi : i < len) :
    0 ≤ sentBy (exactOps (((tr.map (toOp rk)).filter (isLarge (getMean loads))).filter
        (involves (rk i)))) (rk i) ∧
    sentBy (exactOps (((tr.map (toOp rk)).filter (isLarge (getMean loads))).filter
        (involves (rk i)))) (rk i) ≤ outflow (big (9 / 1000 * exactMean loads) tr) i ∧
    0 ≤ receivedBy (exactOps (((tr.map (toOp rk)).filter (isLarge (getMean loads))).filter
        (involves (rk i)))) (rk i) ∧
    receivedBy (exactOps (((tr.map (toOp rk)).filter (isLarge (getMean loads))).filter
        (involves (rk i)))) (rk i) ≤ inflow (big (9 / 1000 * exactMean loads) tr) i := by
  obtain ⟨-, hmu, -⟩ := h.basics hne
  have hf := h.filter_ge hne
  set c := ((Consts.filterFrac : Fl F) * getMean loads).val with hcdef
  rw [exactOps_filter rk tr (isLarge (getMean loads)) (fun o => decide (c < o.value))
    (fun o => rfl) (rk i)]
  have htr' : ∀ t ∈ vals tr, t.1 < len ∧ t.2.1 < len := by
    intro t ht
    obtain ⟨t', h', rfl⟩ := List.mem_map.1 ht
    exact htr t' h'
  obtain ⟨e1, e2⟩ := sentBy_ops hinj htr' (fun o => decide (c < o.value)) hi
  rw [e1, e2]
  have hsub : ((vals tr).filter (fun t => decide (c < (toOp rk t).value))).Sublist
      (big (9 / 1000 * exactMean loads) tr) := by
    have : (vals tr).filter (fun t => decide (c < (toOp rk t).value)) =
        (big (9 / 1000 * exactMean loads) tr).filter (fun t => decide (c < t.2.2)) := by
      unfold big
      rw [List.filter_filter]
      apply List.filter_congr
      intro t _
      by_cases hc : c < t.2.2
      · have : 9 / 1000 * exactMean loads < t.2.2 := lt_of_le_of_lt hf hc
        simp [toOp, hc, this]
      · simp [toOp, hc]
    rw [this]
    exact List.filter_sublist
  have hpos : ∀ t ∈ big (9 / 1000 * exactMean loads) tr, 0 ≤ t.2.2 := by
    intro t ht
    have := (List.mem_filter.1 ht).2
    have h1 : 9 / 1000 * exactMean loads < t.2.2 := by simpa using this
    have : 0 ≤ 9 / 1000 * exactMean loads := mul_nonneg (by norm_num) hmu.le
    linarith
  obtain ⟨o1, o2⟩ := outflow_sublist hsub hpos i
  obtain ⟨i1, i2⟩ := inflow_sublist hsub hpos i
  exact ⟨o1, o2, i1, i2⟩

end DLB
