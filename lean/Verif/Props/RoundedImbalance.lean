import Verif.Lemmas.RoundedLower
/-
What the filter leaves unbalanced, in floating-point arithmetic: C105.
-/
set_option autoImplicit false
set_option linter.unusedSectionVars false

namespace DLB

variable {K : Type} [Field K] [LinearOrder K] [IsStrictOrderedRing K] {F : FloatFormat K}

/-- An operation that the filter drops carries at most 1.01 per cent of the exact mean. -/
theorem FloatLoads.filter_le {loads : List (ChemistryLoad (Fl F))} (h : FloatLoads F loads)
    (hne : loads ≠ []) :
    ((Consts.filterFrac : Fl F) * getMean loads).val ≤ 101 / 10000 * exactMean loads := by
  obtain ⟨hn1, hmu, hu, hnu, hn2u, hbig⟩ := h.basics hne
  have hmb := h.mean_bounds hne
  have hη := h.tiny
  rw [Fl.val_mul]
  have h1 := (abs_le.1 (F.near (1 / 100))).2
  rw [abs_of_pos (by positivity : (0 : K) < 1 / 100)] at h1
  have hc : (Consts.filterFrac : Fl F).val ≤ 10002 / 1000000 := by
    show F.rnd (1 / 100) ≤ 10002 / 1000000
    norm_num at h1 hu hη ⊢
    linarith
  have hc0 : 0 ≤ (Consts.filterFrac : Fl F).val := F.rnd_nonneg (by positivity)
  set c := (Consts.filterFrac : Fl F).val
  set m := (getMean loads).val
  have hm0 : 0 ≤ m := (h.budget hne).m0
  have h2 : c * m ≤ 10002 / 1000000 * m := mul_le_mul_of_nonneg_right hc hm0
  have hcm : 0 ≤ c * m := mul_nonneg hc0 hm0
  have h3 := (abs_le.1 (F.near (c * m))).2
  rw [abs_of_nonneg hcm] at h3
  have h4 : F.u * (c * m) ≤ 1 / 10 ^ 5 * (c * m) := mul_le_mul_of_nonneg_right hu hcm
  norm_num at h2 h3 h4 hη hmb hbig ⊢
  linarith [hmb.2]

/-- Dropping small operations changes a planned load by at most their number times the bound. -/
theorem planned_filter {p : Operation K → Bool} {b : K} {me : Nat} {val : K} :
    ∀ ops : List (Operation K), (∀ op ∈ ops, op.src ≠ op.dst) →
    (∀ op ∈ ops, p op = false → |op.value| ≤ b) →
    |planned (ops.filter p) me val - planned ops me val| ≤
      ((ops.length - (ops.filter p).length : Nat) : K) * b
  | [], _, _ => by simp
  | o :: ops, hne, hb => by
    have ih := planned_filter (val := val) (me := me) ops
      (fun op h => hne op (List.mem_cons_of_mem _ h)) (fun op h => hb op (List.mem_cons_of_mem _ h))
    have hle := (List.filter_sublist (p := p) (l := ops)).length_le
    have ho := hne o List.mem_cons_self
    have e : ∀ l : List (Operation K), planned (o :: l) me val =
        planned l me val - (if o.src == me then o.value else 0) +
          (if o.dst == me then o.value else 0) := by
      intro l
      unfold planned sentBy receivedBy
      rw [List.filter_cons, List.filter_cons]
      by_cases h1 : (o.src == me) = true <;> by_cases h2 : (o.dst == me) = true <;>
        simp only [h1, h2, if_true, if_false, List.map_cons, List.sum_cons, Bool.false_eq_true] <;>
        ring
    by_cases h : p o = true
    · rw [List.filter_cons_of_pos h, e, e]
      simp only [List.length_cons]
      rw [Nat.add_sub_add_right]
      refine le_trans (le_of_eq ?_) ih
      congr 1; ring
    · have hx := hb o List.mem_cons_self (by simpa using h)
      rw [List.filter_cons_of_neg h, e]
      simp only [List.length_cons]
      rw [Nat.sub_add_comm hle, Nat.cast_add, Nat.cast_one, add_mul, one_mul]
      have hd : |(if o.src == me then o.value else 0) - (if o.dst == me then o.value else 0)| ≤ b := by
        by_cases h1 : o.src = me <;> by_cases h2 : o.dst = me
        · exact absurd (h1.trans h2.symm) ho
        · simpa [h1, h2] using hx
        · simpa [h1, h2] using hx
        · simpa [h1, h2] using (abs_nonneg _).trans hx
      have e2 : planned (ops.filter p) me val - (planned ops me val -
          (if o.src == me then o.value else 0) + (if o.dst == me then o.value else 0)) =
          (planned (ops.filter p) me val - planned ops me val) +
          ((if o.src == me then o.value else 0) - (if o.dst == me then o.value else 0)) := by ring
      rw [e2]
      exact (abs_add_le _ _).trans (add_le_add ih hd)

/-- C105.  With rounding, after the operations that are kept the planned load of a rank differs from
the exact mean by at most 1.01 per cent of the mean for each of its operations that was dropped,
plus the error of C95. -/
theorem C105_remaining_imbalance_with_rounding
    {sort : List (ChemistryLoad (Fl F)) → List (ChemistryLoad (Fl F))} (hsort : Sorts sort)
    (loads : List (ChemistryLoad (Fl F))) (h : FloatLoads F loads)
    (hnd : (loads.map (·.rank)).Nodup) :
    ∀ l ∈ loads, ∃ st ops, runPlan sort loads.length loads l.rank = .ok st ∧
      getOperations sort loads.length loads l.rank = .ok ops ∧
      |planned (exactOps ops) l.rank l.value.val - exactMean loads| ≤
        (droppedCount (exactOps st.operations) (exactOps ops) : K) *
          (101 / 10000 * exactMean loads) +
        (30 * ((loads.length : K) ^ 2 * F.u) * exactMean loads +
          4 * (loads.length : K) / 10 ^ 15) ∧
      droppedCount (exactOps st.operations) (exactOps ops) + ops.length ≤ loads.length - 1 := by
  intro l hl
  have hne : loads ≠ [] := List.ne_nil_of_mem hl
  have hpos : 0 < loads.length := List.length_pos_of_ne_nil hne
  obtain ⟨st, hst, hC95⟩ := C95_full_plan_levels_with_rounding hsort loads h hnd l hl
  obtain ⟨rk, v, tr, v', loads', hh, hh', hrun, -, -, -, hplan, hops⟩ := h.plan hne hsort
  obtain ⟨m, hm⟩ := hplan l.rank loads.length (by omega)
  rw [hm] at hst
  obtain rfl := Except.ok.inj hst
  refine ⟨_, _, hm, hops l.rank loads.length (by omega), ?_⟩
  have hlow := h.plan_lower hne hsort hh hrun
  have hfl := h.filter_le hne
  obtain ⟨hn1, hmu, -, -, -, -⟩ := h.basics hne
  have hp : ((sort loads).map (·.rank)).Perm (loads.map (·.rank)) := (hsort.perm loads).map _
  have hinj := hh.inj' (hp.nodup_iff.2 hnd)
  set c := ((Consts.filterFrac : Fl F) * getMean loads).val with hcdef
  set all := (tr.map (toOp rk)).filter (involves l.rank) with hall
  have hswap : exactOps (((tr.map (toOp rk)).filter (isLarge (getMean loads))).filter
      (involves l.rank)) = (exactOps all).filter (fun o => decide (c < o.value)) := by
    have : ((tr.map (toOp rk)).filter (isLarge (getMean loads))).filter (involves l.rank) =
        all.filter (isLarge (getMean loads)) := by
      rw [hall, List.filter_filter, List.filter_filter]
      apply List.filter_congr
      intro x _
      rw [Bool.and_comm]
    rw [this]
    unfold exactOps
    rw [List.filter_map]
    rfl
  rw [hswap]
  simp only
  have hall_ne : ∀ op ∈ exactOps all, op.src ≠ op.dst := by
    intro op hop
    obtain ⟨o, ho, rfl⟩ := List.mem_map.1 hop
    obtain ⟨t, ht, rfl⟩ := List.mem_map.1 (List.mem_of_mem_filter ho)
    have hp := hrun.positions' t ht
    show rk t.1 ≠ rk t.2.1
    intro he
    have := hinj _ _ (by omega) (by omega) he
    omega
  have hsmall : ∀ op ∈ exactOps all, (decide (c < op.value)) = false →
      |op.value| ≤ 101 / 10000 * exactMean loads := by
    intro op hop hd
    obtain ⟨o, ho, rfl⟩ := List.mem_map.1 hop
    obtain ⟨t, ht, rfl⟩ := List.mem_map.1 (List.mem_of_mem_filter ho)
    have h1 := hlow t ht
    have h2 : t.2.2.val ≤ c := not_lt.1 (of_decide_eq_false hd)
    show |t.2.2.val| ≤ _
    rw [abs_le]
    norm_num at h1 ⊢
    constructor <;> linarith
  have hd := planned_filter (me := l.rank) (val := l.value.val) _ hall_ne hsmall
  refine ⟨?_, ?_⟩
  · have e : planned ((exactOps all).filter (fun o => decide (c < o.value))) l.rank l.value.val -
        exactMean loads =
        (planned ((exactOps all).filter (fun o => decide (c < o.value))) l.rank l.value.val -
          planned (exactOps all) l.rank l.value.val) +
        (planned (exactOps all) l.rank l.value.val - exactMean loads) := by ring
    rw [e]
    exact (abs_add_le _ _).trans (add_le_add hd hC95)
  · have h1 : (exactOps all).length ≤ tr.length := by
      unfold exactOps
      rw [List.length_map, hall]
      exact (List.filter_sublist.length_le).trans (by simp)
    have h2 := hrun.length
    have h3 : ((exactOps all).filter (fun o => decide (c < o.value))).length ≤ (exactOps all).length :=
      List.filter_sublist.length_le
    have h4 := congrArg List.length hswap
    unfold exactOps at h4
    rw [List.length_map] at h4
    unfold droppedCount
    unfold exactOps at h3 h1 ⊢
    omega

/-- C105 for doubles and at most 300000 ranks. -/
theorem C105_remaining_imbalance_in_doubles
    {sort : List (ChemistryLoad (Fl binary64)) → List (ChemistryLoad (Fl binary64))}
    (hsort : Sorts sort) (loads : List (ChemistryLoad (Fl binary64)))
    (hnd : (loads.map (·.rank)).Nodup) (hnn : ∀ l ∈ loads, 0 ≤ l.value.val)
    (hn : loads.length ≤ 300000) (hen : (loads.length : ℚ) / 10 ^ 10 ≤ exactMean loads) :
    ∀ l ∈ loads, ∃ st ops, runPlan sort loads.length loads l.rank = .ok st ∧
      getOperations sort loads.length loads l.rank = .ok ops ∧
      |planned (exactOps ops) l.rank l.value.val - exactMean loads| ≤
        (droppedCount (exactOps st.operations) (exactOps ops) : ℚ) *
          (101 / 10000 * exactMean loads) +
        (30 * ((loads.length : ℚ) ^ 2 / 2 ^ 53) * exactMean loads +
          4 * (loads.length : ℚ) / 10 ^ 15) := by
  intro l hl
  obtain ⟨st, ops, h1, h2, h3, -⟩ := C105_remaining_imbalance_with_rounding hsort loads
    (binary64_loads hnn hn hen) hnd l hl
  refine ⟨st, ops, h1, h2, ?_⟩
  have hu : binary64.u = 1 / 2 ^ 53 := rfl
  rw [hu, mul_one_div] at h3
  exact h3

/-- C105: the doubles nearest to 1.5, 1.006, 0.994 and 0.5.  The assumptions hold; the operation from
rank 1 to rank 2 is dropped, and the two ranks stay 0.6 per cent away from the mean. -/
def Example.four64 : List (ChemistryLoad (Fl binary64)) :=
  [⟨0, Fl.of binary64 (3 / 2)⟩, ⟨1, Fl.of binary64 (1006 / 1000)⟩,
    ⟨2, Fl.of binary64 (994 / 1000)⟩, ⟨3, Fl.of binary64 (1 / 2)⟩]

example : FloatLoads binary64 Example.four64 ∧ (Example.four64.map (·.rank)).Nodup :=
  ⟨binary64_loads (by decide +kernel) (by decide +kernel) (by decide +kernel), by decide +kernel⟩

example : (runPlan Example.sort64 4 Example.four64 2).toOption.map (fun st =>
      st.operations.map (fun o => (o.src, o.dst))) = some [(1, 2)] ∧
    (getOperations Example.sort64 4 Example.four64 2).toOption.map List.length = some 0 ∧
    (getOperations Example.sort64 4 Example.four64 0).toOption.map
      (·.map (fun o => (o.src, o.dst, o.value.val))) = some [(0, 3, 1 / 2)] ∧
    |(Fl.of binary64 (994 / 1000)).val - exactMean Example.four64| ≤
      1 * (101 / 10000 * exactMean Example.four64) := by decide +kernel

end DLB
