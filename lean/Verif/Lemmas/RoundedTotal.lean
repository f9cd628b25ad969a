import Verif.Lemmas.RoundedStart
/-
The total of the values of the planning loop with rounding, and the mean of the values it leaves
behind; the loop when all loads are zero.
-/
set_option autoImplicit false
set_option linter.unusedSectionVars false

namespace DLB

variable {K : Type} [Field K] [LinearOrder K] [IsStrictOrderedRing K] {F : FloatFormat K}

/-- One transfer changes the total by the two rounding errors. -/
theorem sum_xfer {v : Nat → Fl F} {s r len : Nat} (hr : r < s) (hs : s < len) (x : Fl F) :
    ∑ i ∈ Finset.range len, (xfer v s r x i).val = ∑ i ∈ Finset.range len, (v i).val +
      (F.rnd ((v s).val - x.val) - ((v s).val - x.val)) +
      (F.rnd ((v r).val + x.val) - ((v r).val + x.val)) := by
  have : ∀ i ∈ Finset.range len, (xfer v s r x i).val = (v i).val +
      ((if i = s then F.rnd ((v s).val - x.val) - (v s).val else 0) +
       (if i = r then F.rnd ((v r).val + x.val) - (v r).val else 0)) := by
    intro i _
    rw [xfer_val]
    by_cases h1 : i = s
    · subst h1
      have hne : ¬ (i = r) := by omega
      rw [if_pos rfl, if_pos rfl, if_neg hne]; ring
    · by_cases h2 : i = r
      · subst h2
        rw [if_neg h1, if_pos rfl, if_neg h1, if_pos rfl]; ring
      · rw [if_neg h1, if_neg h2, if_neg h1, if_neg h2]; ring
  rw [Finset.sum_congr rfl this, Finset.sum_add_distrib, Finset.sum_add_distrib,
    Finset.sum_ite_eq', Finset.sum_ite_eq', if_pos (Finset.mem_range.2 hs),
    if_pos (Finset.mem_range.2 (by omega))]
  ring

section
variable {mean : Fl F} {N : Nat} {σ Emax : K}

/-- The total changes by the rounding errors only. -/
theorem Run.fl_total (B : FlBudget F mean N σ Emax) {v v' : Nat → Fl F} {s r len : Nat}
    {tr : List (Nat × Nat × Fl F)} (h : Run mean v s r tr v') :
    ∀ E, FlInv mean.val (fun i => (v i).val) s r E → s - r ≤ N → 3 * (F.u * mean.val) ≤ E →
      E + ((s - r : Nat) : K) * (flRho F mean.val N + σ) ≤ Emax → s < len →
      |∑ i ∈ Finset.range len, (v' i).val - ∑ i ∈ Finset.range len, (v i).val| ≤
        ((s - r : Nat) : K) * flRho F mean.val N := by
  induction h with
  | done v m =>
    intro E hI _ _ hE _
    simp
  | @down v v' s r tr h hc hr ih =>
    intro E hI hN h3 hE hs
    have hδ : 0 ≤ flRho F mean.val N + σ := add_nonneg B.rho_nonneg B.sigma
    have e : ((s + 1 - r : Nat) : K) = ((s - r : Nat) : K) + 1 := by
      rw [Nat.sub_add_comm (by omega)]; push_cast; rfl
    rw [e] at hE ⊢
    have hn : (0 : K) ≤ ((s - r : Nat) : K) * (flRho F mean.val N + σ) :=
      mul_nonneg (Nat.cast_nonneg _) hδ
    have hEm : E ≤ Emax := by linarith
    have hI' := hI.run_down B h hN h3 hEm hc
    have ih' := ih _ hI' (by omega) (by have := hI.sum; linarith) (by linarith) (by omega)
    obtain ⟨st, -⟩ := hI.step h mean.ok (v (s + 1)).ok (v r).ok B.hu h3 (hEm.trans B.Emax_le) B.m0
    have herr := hI.step_errors B hN (hEm.trans B.Emax_le) st
    have hum := mul_nonneg F.u_nonneg B.m0
    rw [sum_xfer h hs] at ih'
    rw [← amount_val] at herr
    rw [abs_le] at ih' ⊢
    have a1 := abs_le.1 (le_refl |F.rnd ((v (s + 1)).val - (amount mean v (s + 1) r).val) -
      ((v (s + 1)).val - (amount mean v (s + 1) r).val)|)
    have a2 := abs_le.1 (le_refl |F.rnd ((v r).val + (amount mean v (s + 1) r).val) -
      ((v r).val + (amount mean v (s + 1) r).val)|)
    constructor <;> linarith [ih'.1, ih'.2, a1.1, a1.2, a2.1, a2.2]
  | @up v v' s r tr h hc hr ih =>
    intro E hI hN h3 hE hs
    have hδ : 0 ≤ flRho F mean.val N + σ := add_nonneg B.rho_nonneg B.sigma
    have e : ((s - r : Nat) : K) = ((s - (r + 1) : Nat) : K) + 1 := by
      have : s - r = s - (r + 1) + 1 := by omega
      rw [this]; push_cast; rfl
    rw [e] at hE ⊢
    have hn : (0 : K) ≤ ((s - (r + 1) : Nat) : K) * (flRho F mean.val N + σ) :=
      mul_nonneg (Nat.cast_nonneg _) hδ
    have hEm : E ≤ Emax := by linarith
    obtain ⟨hI', -⟩ := hI.run_up B h hN h3 hEm hc
    have ih' := ih _ hI' (by omega) (by linarith) (by linarith) hs
    obtain ⟨st, -⟩ := hI.step h mean.ok (v s).ok (v r).ok B.hu h3 (hEm.trans B.Emax_le) B.m0
    have herr := hI.step_errors B hN (hEm.trans B.Emax_le) st
    have hum := mul_nonneg F.u_nonneg B.m0
    rw [sum_xfer h hs] at ih'
    rw [← amount_val] at herr
    rw [abs_le] at ih' ⊢
    have a1 := abs_le.1 (le_refl |F.rnd ((v s).val - (amount mean v s r).val) -
      ((v s).val - (amount mean v s r).val)|)
    have a2 := abs_le.1 (le_refl |F.rnd ((v r).val + (amount mean v s r).val) -
      ((v r).val + (amount mean v s r).val)|)
    constructor <;> linarith [ih'.1, ih'.2, a1.1, a1.2, a2.1, a2.2]

end

theorem Holds.fl_sum {loads : List (ChemistryLoad (Fl F))} {len : Nat} {rk : Nat → Nat}
    {v : Nat → Fl F} (h : Holds loads len rk v) :
    (loads.map (fun l => l.value.val)).sum = ∑ i ∈ Finset.range len, (v i).val := by
  have h' : Holds (exactLoads loads) len rk (fun i => (v i).val) := by
    refine ⟨by unfold exactLoads; rw [List.length_map]; exact h.1, fun i hi => ?_⟩
    unfold exactLoads
    rw [List.getElem?_map, h.2 i hi]
    rfl
  have := h'.sum_eq
  unfold exactLoads at this
  rw [List.map_map] at this
  exact this

variable {loads : List (ChemistryLoad (Fl F))}

/-- The mean computed from the values left by the loop. -/
theorem FloatLoads.mean_after (h : FloatLoads F loads) (hne : loads ≠ [])
    {sort : List (ChemistryLoad (Fl F)) → List (ChemistryLoad (Fl F))} (hsort : Sorts sort) (me : Nat) :
    ∃ st, runPlan sort loads.length loads me = .ok st ∧
      |(getMean st.loads - getMean loads).val| ≤
        20 * ((loads.length : K) * F.u) * exactMean loads + 3 * F.eta := by
  obtain ⟨rk, v, tr, v', loads', hh, hh', hrun, h1, -⟩ :=
    getOperations_run sort hsort.perm loads hne
  obtain ⟨hI, -⟩ := h.start hne hsort hh
  obtain ⟨b1, b2⟩ := h.E0_budget hne
  have B := h.budget hne
  obtain ⟨hn1, hmu, hu, hnu, hn2u, hbig⟩ := h.basics hne
  have hmb := h.mean_bounds hne
  have hEm := h.Emax_le hne
  have hu0 := F.u_nonneg
  have hpos : 0 < loads.length := List.length_pos_of_ne_nil hne
  have hn0 : (0 : K) < loads.length := by linarith
  obtain ⟨m, hm⟩ := h1 me loads.length (by omega)
  refine ⟨_, hm, ?_⟩
  simp only
  have hT := hrun.fl_total (len := loads.length) B _ hI (by omega) b1 b2 (by omega)
  rw [← hh'.fl_sum, ← hh.fl_sum,
    ((hsort.perm loads).map (fun l : ChemistryLoad (Fl F) => l.value.val)).sum_eq] at hT
  have hlen' : loads'.length = loads.length := hh'.1
  have hμ' : exactMean loads' - exactMean loads = ((loads'.map (fun l => l.value.val)).sum -
      (loads.map (fun l => l.value.val)).sum) / loads.length := by
    rw [exactMean_eq, exactMean_eq, hlen', sub_div]
  have hnum0 : 0 ≤ (loads.length : K) * F.u * exactMean loads :=
    mul_nonneg (mul_nonneg hn0.le hu0) hmu.le
  -- drift of the exact mean
  have hrho : flRho F (getMean loads).val loads.length ≤
      91 / 10 * ((loads.length : K) * F.u * exactMean loads) := by
    unfold flRho
    have c : ((loads.length + 8 : Nat) : K) ≤ 9 * loads.length := by push_cast; linarith
    have c2 := mul_le_mul c hmb.2 B.m0 (by linarith)
    have c3 := mul_le_mul_of_nonneg_left c2 hu0
    have e : F.u * (9 * (loads.length : K) * ((1 + 1 / 10 ^ 4) * exactMean loads)) =
      9 * (1 + 1 / 10 ^ 4) * ((loads.length : K) * F.u * exactMean loads) := by ring
    rw [e] at c3
    norm_num at c3 hnum0 ⊢
    linarith
  have hdrift : |exactMean loads' - exactMean loads| ≤
      91 / 10 * ((loads.length : K) * F.u * exactMean loads) := by
    rw [hμ', abs_div, abs_of_pos hn0, div_le_iff₀ hn0]
    refine hT.trans ?_
    have c : ((loads.length - 1 - 0 : Nat) : K) ≤ loads.length := by
      exact_mod_cast (by omega : loads.length - 1 - 0 ≤ loads.length)
    have := mul_le_mul c hrho B.rho_nonneg hn0.le
    linarith
  have hsmall : (loads.length : K) * F.u * exactMean loads ≤ 1 / 10 ^ 5 * exactMean loads :=
    mul_le_mul_of_nonneg_right hnu hmu.le
  have hd := abs_le.1 hdrift
  have hμ1 : exactMean loads' ≤ 11 / 10 * exactMean loads := by
    norm_num at hsmall; linarith [hd.2]
  have hμ0 : 0 ≤ exactMean loads' := by
    norm_num at hsmall; linarith [hd.1]
  -- the computed means
  have hnn : ∀ l ∈ loads', 0 ≤ l.value.val := by
    intro l hl
    obtain ⟨i, hi, e⟩ := List.mem_iff_getElem.1 hl
    have hi' : i < loads.length := by rw [← hlen']; exact hi
    have := hh'.2 i hi'
    rw [List.getElem?_eq_getElem hi, Option.some.injEq, e] at this
    have hl := abs_le.1 (hrun.fl_levels B _ hI (by omega) b1 b2 i (by omega) (by omega))
    rw [this]
    simp only
    norm_num at hEm hmb
    linarith [hl.1, hmb.1]
  have n1 := h.mean_near hne
  have n2 := mean_near_of (loads := loads') (by rw [← List.length_pos_iff]; omega) hnn
    (by rw [hlen']; exact h.count) (by rw [hlen']; exact hnu) hμ0
  rw [hlen'] at n2
  have n2' : 4 * ((loads.length : K) * F.u) * exactMean loads' ≤
      4 * ((loads.length : K) * F.u) * (11 / 10 * exactMean loads) :=
    mul_le_mul_of_nonneg_left hμ1 (by linarith [mul_nonneg hn0.le hu0])
  have n1' := abs_le.1 n1
  have n2'' := abs_le.1 n2
  have hη := F.eta_nonneg
  have hdiff : |(getMean loads').val - (getMean loads).val| ≤
      18 * ((loads.length : K) * F.u * exactMean loads) + 2 * F.eta := by
    rw [abs_le]
    constructor <;> linarith [hd.1, hd.2, n1'.1, n1'.2, n2''.1, n2''.2]
  rw [Fl.val_sub]
  have hr := F.near_sub (getMean loads').ok (getMean loads).ok
  have hr2 : F.u * |(getMean loads').val - (getMean loads).val| ≤
      1 / 10 ^ 5 * |(getMean loads').val - (getMean loads).val| :=
    mul_le_mul_of_nonneg_right hu (abs_nonneg _)
  have e : F.rnd ((getMean loads').val - (getMean loads).val) =
      (F.rnd ((getMean loads').val - (getMean loads).val) -
        ((getMean loads').val - (getMean loads).val)) +
      ((getMean loads').val - (getMean loads).val) := by ring
  rw [e]
  refine (abs_add_le _ _).trans ?_
  norm_num at hr2
  linarith

/-- All loads zero: all transfers are zero. -/
theorem Run.fl_zero {mean : Fl F} (hm : mean.val = 0) {v v' : Nat → Fl F} {s r : Nat}
    {tr : List (Nat × Nat × Fl F)} (h : Run mean v s r tr v') :
    (∀ i, i ≤ s → (v i).val = 0) → ∀ t ∈ tr, t.2.2.val = 0 := by
  have key : ∀ {v : Nat → Fl F} {s r : Nat}, r < s → (∀ i, i ≤ s → (v i).val = 0) →
      (amount mean v s r).val = 0 ∧
      ∀ i, i ≤ s → (xfer v s r (amount mean v s r) i).val = 0 := by
    intro v s r h hv
    have ha : (amount mean v s r).val = 0 := by
      rw [amount_val, hv s (le_refl _), hv r h.le, hm]
      simp [F.rnd_zero]
    refine ⟨ha, fun i hi => ?_⟩
    rw [xfer_val, ha, hv s (le_refl _), hv r h.le, hv i hi]
    simp [F.rnd_zero]
  induction h with
  | done => simp
  | @down v v' s r tr h _ _ ih =>
    intro hv t ht
    obtain ⟨k1, k2⟩ := key h hv
    rcases List.mem_cons.1 ht with rfl | ht
    · exact k1
    · exact ih (fun i hi => k2 i (by omega)) t ht
  | @up v v' s r tr h _ _ ih =>
    intro hv t ht
    obtain ⟨k1, k2⟩ := key h hv
    rcases List.mem_cons.1 ht with rfl | ht
    · exact k1
    · exact ih k2 t ht

end DLB
