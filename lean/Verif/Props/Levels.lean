import Verif.Lemmas.Levels
import Verif.Lemmas.World
import Verif.Props.Balancer
/-
Quantitative properties of the load balancer: C12-C17, C19, C21.
Exact arithmetic: any linearly ordered field.  Of `std::sort` it is assumed that the
result is a permutation of its argument sorted by value.
-/
set_option autoImplicit false
set_option linter.unusedSectionVars false

namespace DLB

/-- `sort` behaves like `std::sort` with the comparison of ChemistryLoad.H. -/
structure Sorts {K : Type} [LE K] (sort : List (ChemistryLoad K) → List (ChemistryLoad K)) : Prop where
  perm : ∀ l, (sort l).Perm l
  sorted : ∀ l, (sort l).Pairwise (fun a b => a.value ≤ b.value)

section

variable {K : Type} [Field K] [LinearOrder K] [IsStrictOrderedRing K]

/-- Sum of the values of the operations that start at rank `r`. -/
def sentBy (ops : List (Operation K)) (r : Nat) : K :=
  ((ops.filter (fun op => op.src == r)).map (·.value)).sum

/-- Sum of the values of the operations that end at rank `r`. -/
def receivedBy (ops : List (Operation K)) (r : Nat) : K :=
  ((ops.filter (fun op => op.dst == r)).map (·.value)).sum

/-- The load of rank `r` if the operations `ops` are carried out. -/
def planned (ops : List (Operation K)) (r : Nat) (load : K) : K :=
  load - sentBy ops r + receivedBy ops r

/-- Arithmetic mean of the loads. -/
def meanLoad (loads : List (ChemistryLoad K)) : K := (loads.map (·.value)).sum / loads.length

/-! ### Helper lemmas -/

theorem foldl_add_sum {α : Type} (f : α → K) : ∀ (l : List α) (a : K),
    l.foldl (fun s x => s + f x) a = a + (l.map f).sum
  | [], a => by simp
  | x :: l, a => by
    rw [List.foldl_cons, foldl_add_sum f l, List.map_cons, List.sum_cons, add_assoc]

theorem getMean_eq (loads : List (ChemistryLoad K)) : getMean loads = meanLoad loads := by
  unfold getMean meanLoad
  rw [foldl_add_sum ChemistryLoad.value, zero_add]

theorem Holds.list_eq {loads : List (ChemistryLoad K)} {len : Nat} {rk : Nat → Nat} {v : Nat → K}
    (h : Holds loads len rk v) : loads = (List.range len).map (fun i => ⟨rk i, v i⟩) := by
  apply List.ext_getElem?
  intro i
  by_cases hi : i < len
  · rw [h.2 i hi]; simp [hi]
  · rw [List.getElem?_eq_none (by rw [h.1]; omega), List.getElem?_eq_none (by simp; omega)]

theorem Holds.sum_eq {loads : List (ChemistryLoad K)} {len : Nat} {rk : Nat → Nat} {v : Nat → K}
    (h : Holds loads len rk v) : (loads.map (·.value)).sum = ∑ i ∈ Finset.range len, v i := by
  rw [h.list_eq, List.map_map, Finset.sum_range, ← List.sum_ofFn]
  congr 1
  apply List.ext_getElem <;> simp

theorem Holds.pos_of_mem {loads : List (ChemistryLoad K)} {len : Nat} {rk : Nat → Nat} {v : Nat → K}
    (h : Holds loads len rk v) {l : ChemistryLoad K} (hl : l ∈ loads) :
    ∃ i, i < len ∧ rk i = l.rank ∧ v i = l.value := by
  rw [h.list_eq] at hl
  obtain ⟨i, hi, rfl⟩ := List.mem_map.1 hl
  exact ⟨i, List.mem_range.1 hi, rfl, rfl⟩

/-- The run behind the operations, with the invariant of exact arithmetic. -/
theorem plan_levels {sort : List (ChemistryLoad K) → List (ChemistryLoad K)} (hsort : Sorts sort)
    {loads : List (ChemistryLoad K)} (hne : loads ≠ []) :
    ∃ rk v tr v' loads', Holds (sort loads) loads.length rk v ∧
      Holds loads' loads.length rk v' ∧
      Run (meanLoad loads) v (loads.length - 1) 0 tr v' ∧
      LevelInv (meanLoad loads) v (loads.length - 1) 0 0 ∧
      (∀ me fuel, loads.length - 1 ≤ fuel → ∃ m, runPlan sort fuel loads me =
        .ok ⟨loads', m, m, (tr.map (toOp rk)).filter (involves me)⟩) ∧
      ∀ me fuel, loads.length - 1 ≤ fuel → getOperations sort fuel loads me =
        .ok (((tr.map (toOp rk)).filter (isLarge (meanLoad loads))).filter (involves me)) := by
  obtain ⟨rk, v, tr, v', loads', hh, hh', hrun, h1, h2⟩ :=
    getOperations_run sort hsort.perm loads hne
  rw [getMean_eq] at hrun h2
  refine ⟨rk, v, tr, v', loads', hh, hh', hrun, ?_, h1, h2⟩
  have hpos : 0 < loads.length := List.length_pos_of_ne_nil hne
  have hposK : (0 : K) < loads.length := by exact_mod_cast hpos
  have hsum : ∑ i ∈ Finset.range loads.length, v i = (loads.map (·.value)).sum := by
    rw [← hh.sum_eq]
    exact ((hsort.perm loads).map _).sum_eq
  have hsrt := hsort.sorted loads
  have hmono : ∀ i j, i ≤ j → j < loads.length → v i ≤ v j := by
    intro i j hij hj
    rcases Nat.eq_or_lt_of_le hij with rfl | hlt
    · exact le_refl _
    · have hi' : i < (sort loads).length := by rw [hh.1]; omega
      have hj' : j < (sort loads).length := by rw [hh.1]; omega
      have := List.pairwise_iff_getElem.1 hsrt i j hi' hj' hlt
      have e1 := hh.2 i (by omega)
      have e2 := hh.2 j hj
      rw [List.getElem?_eq_getElem hi', Option.some.injEq] at e1
      rw [List.getElem?_eq_getElem hj', Option.some.injEq] at e2
      rw [e1, e2] at this
      exact this
  have hI : Finset.Icc 0 (loads.length - 1) = Finset.range loads.length := by
    ext i; simp only [Finset.mem_Icc, Finset.mem_range]; omega
  have hs0 : ∑ i ∈ Finset.range loads.length, (v i - meanLoad loads) = 0 := by
    rw [Finset.sum_sub_distrib, hsum, Finset.sum_const, Finset.card_range, nsmul_eq_mul]
    unfold meanLoad
    rw [mul_div_cancel₀ _ hposK.ne', sub_self]
  refine ⟨by omega, le_refl 0, by rw [hI, hs0, neg_zero], ?_, ?_, ?_⟩
  · by_contra hc
    push Not at hc
    have : 0 < ∑ i ∈ Finset.range loads.length, (v i - meanLoad loads) := by
      apply Finset.sum_pos
      · intro i hi
        have := hmono 0 i (by omega) (Finset.mem_range.1 hi)
        linarith
      · exact ⟨0, Finset.mem_range.2 hpos⟩
    rw [hs0] at this
    exact lt_irrefl _ this
  · intro i j _ h2 h3; exact hmono i j h2 (by omega)
  · intro i _ h2 h3; exact lt_of_lt_of_le h3 (hmono i _ h2 (by omega))

theorem Run.positions {mean : K} {v v' : Nat → K} {s : Nat} {tr : List (Nat × Nat × K)}
    (h : Run mean v s 0 tr v') : ∀ t ∈ tr, t.1 ≤ s ∧ t.2.1 < t.1 :=
  fun t ht => ⟨(h.bounds t ht).1, h.pos_lt t ht⟩

theorem sentBy_ops {len : Nat} {rk : Nat → Nat} (hinj : ∀ i j, i < len → j < len → rk i = rk j → i = j)
    {tr : List (Nat × Nat × K)} (htr : ∀ t ∈ tr, t.1 < len ∧ t.2.1 < len) (p : Operation K → Bool)
    {i : Nat} (hi : i < len) :
    sentBy (((tr.map (toOp rk)).filter p).filter (involves (rk i))) (rk i) =
      outflow (tr.filter (fun t => p (toOp rk t))) i ∧
    receivedBy (((tr.map (toOp rk)).filter p).filter (involves (rk i))) (rk i) =
      inflow (tr.filter (fun t => p (toOp rk t))) i := by
  unfold sentBy receivedBy outflow inflow
  simp only [List.filter_filter, List.filter_map, List.map_map]
  constructor
  · congr 1
    refine (congrArg (List.map _) (List.filter_congr (q := fun t => t.1 == i && p (toOp rk t)) ?_))
    · intro t ht
      have hb := htr t ht
      have : (rk t.1 = rk i) ↔ t.1 = i := ⟨fun h => hinj _ _ hb.1 hi h, fun h => by rw [h]⟩
      by_cases h : t.1 = i
      · simp [toOp, involves, h]
      · have h' : ¬ rk t.1 = rk i := fun hc => h (this.1 hc)
        simp [toOp, beq_eq_false_iff_ne.2 h, beq_eq_false_iff_ne.2 h']
  · congr 1
    refine (congrArg (List.map _) (List.filter_congr (q := fun t => t.2.1 == i && p (toOp rk t)) ?_))
    · intro t ht
      have hb := htr t ht
      have : (rk t.2.1 = rk i) ↔ t.2.1 = i := ⟨fun h => hinj _ _ hb.2 hi h, fun h => by rw [h]⟩
      by_cases h : t.2.1 = i
      · simp [toOp, involves, h]
      · have h' : ¬ rk t.2.1 = rk i := fun hc => h (this.1 hc)
        simp [toOp, beq_eq_false_iff_ne.2 h, beq_eq_false_iff_ne.2 h']

theorem filterFrac_nonneg {loads : List (ChemistryLoad K)} (hnn : ∀ l ∈ loads, 0 ≤ l.value) :
    0 ≤ meanLoad loads ∧ 0 ≤ Consts.filterFrac * meanLoad loads := by
  have h1 : 0 ≤ (loads.map (·.value)).sum := by
    apply List.sum_nonneg
    intro x hx
    obtain ⟨l, hl, rfl⟩ := List.mem_map.1 hx
    exact hnn l hl
  have h2 : 0 ≤ meanLoad loads := div_nonneg h1 (Nat.cast_nonneg _)
  refine ⟨h2, mul_nonneg ?_ h2⟩
  simp only [Consts.filterFrac]; positivity

theorem outflow_sublist {tr tr' : List (Nat × Nat × K)} (h : tr.Sublist tr')
    (hp : ∀ t ∈ tr', 0 ≤ t.2.2) (i : Nat) :
    0 ≤ outflow tr i ∧ outflow tr i ≤ outflow tr' i := by
  constructor
  · apply List.sum_nonneg
    intro x hx
    obtain ⟨t, ht, rfl⟩ := List.mem_map.1 hx
    exact hp t (h.subset (List.mem_of_mem_filter ht))
  · apply List.Sublist.sum_le_sum ((h.filter _).map _)
    intro x hx
    obtain ⟨t, ht, rfl⟩ := List.mem_map.1 hx
    exact hp t (List.mem_of_mem_filter ht)

theorem inflow_sublist {tr tr' : List (Nat × Nat × K)} (h : tr.Sublist tr')
    (hp : ∀ t ∈ tr', 0 ≤ t.2.2) (i : Nat) :
    0 ≤ inflow tr i ∧ inflow tr i ≤ inflow tr' i := by
  constructor
  · apply List.sum_nonneg
    intro x hx
    obtain ⟨t, ht, rfl⟩ := List.mem_map.1 hx
    exact hp t (h.subset (List.mem_of_mem_filter ht))
  · apply List.Sublist.sum_le_sum ((h.filter _).map _)
    intro x hx
    obtain ⟨t, ht, rfl⟩ := List.mem_map.1 hx
    exact hp t (List.mem_of_mem_filter ht)

theorem kept_sublist {rk : Nat → Nat} {mean : K} (hm : 0 ≤ Consts.filterFrac * mean)
    (tr : List (Nat × Nat × K)) :
    (tr.filter (fun t => isLarge mean (toOp rk t))).Sublist (positive tr) := by
  unfold positive
  have : tr.filter (fun t => isLarge mean (toOp rk t)) =
      (tr.filter (fun t => decide (0 < t.2.2))).filter (fun t => isLarge mean (toOp rk t)) := by
    rw [List.filter_filter]
    apply List.filter_congr
    intro t _
    by_cases h : Consts.filterFrac * mean < t.2.2
    · have : 0 < t.2.2 := lt_of_le_of_lt hm h
      simp [isLarge, toOp, h, this]
    · simp [isLarge, toOp, h]
  rw [this]
  exact List.filter_sublist

theorem positive_nonneg (tr : List (Nat × Nat × K)) : ∀ t ∈ positive tr, 0 ≤ t.2.2 := by
  intro t ht
  have := (List.mem_filter.1 ht).2
  exact (by simpa using this : 0 < t.2.2).le

/-! ### C12 -/

theorem sum_over_ranks (key : Operation K → Nat) : ∀ (ranks : List Nat), ranks.Nodup →
    ∀ (ops : List (Operation K)), (∀ op ∈ ops, key op ∈ ranks) →
    (ranks.map (fun r => ((ops.filter (fun op => key op == r)).map (·.value)).sum)).sum =
      (ops.map (·.value)).sum
  | ranks, hnd, [], _ => by simp
  | ranks, hnd, op :: ops, h => by
    have ih := sum_over_ranks key ranks hnd ops (fun o ho => h o (by simp [ho]))
    have hm := h op (by simp)
    rw [List.map_cons, List.sum_cons, ← ih]
    have key2 : ∀ (rs : List Nat), rs.Nodup →
        (rs.map (fun r => (((op :: ops).filter (fun op => key op == r)).map (·.value)).sum)).sum =
        (if key op ∈ rs then op.value else 0) +
          (rs.map (fun r => ((ops.filter (fun op => key op == r)).map (·.value)).sum)).sum := by
      intro rs
      induction rs with
      | nil => simp
      | cons r rs ih2 =>
        intro hn
        rw [List.nodup_cons] at hn
        rw [List.map_cons, List.sum_cons, ih2 hn.2, List.map_cons, List.sum_cons]
        by_cases hk : key op = r
        · have : key op ∉ rs := by rw [hk]; exact hn.1
          simp only [hk, List.mem_cons, true_or, if_true, List.filter_cons, beq_self_eq_true,
            List.map_cons, List.sum_cons]
          rw [if_neg hn.1]
          ring
        · simp only [List.mem_cons, hk, false_or, List.filter_cons, beq_iff_eq, if_false]
          ring
    rw [key2 ranks hnd, if_pos hm]

/-- C12, the values the loop leaves behind: their total and mean are those of the gathered loads,
and the ranks are the same; the second debug assertion of LoadBalancer.C:157-159 (`Vanishing
load`) holds. -/
theorem C12_loop_conserves_total {sort : List (ChemistryLoad K) → List (ChemistryLoad K)}
    (hsort : Sorts sort) (loads : List (ChemistryLoad K)) (hne : loads ≠ []) (me : Nat) :
    ∃ st, runPlan sort loads.length loads me = .ok st ∧
      (st.loads.map (·.value)).sum = (loads.map (·.value)).sum ∧
      (st.loads.map (·.rank)).Perm (loads.map (·.rank)) ∧
      getMean st.loads = getMean loads ∧
      absS (getMean st.loads - getMean loads) < 1 / 10 ^ 7 := by
  obtain ⟨rk, v, tr, v', loads', hh, hh', hrun, hinv, hplan, -⟩ := plan_levels hsort hne
  obtain ⟨m, hm⟩ := hplan me loads.length (by omega)
  have hpos : 0 < loads.length := List.length_pos_of_ne_nil hne
  have hsum : (loads'.map (·.value)).sum = (loads.map (·.value)).sum := by
    rw [← ((hsort.perm loads).map (·.value)).sum_eq, hh.sum_eq, hh'.sum_eq]
    clear hm hplan hh hh' hinv
    generalize hs : loads.length - 1 = s at hrun
    have hlt : ∀ {v v' : Nat → K} {s r : Nat} {tr : List (Nat × Nat × K)},
        Run (meanLoad loads) v s r tr v' → s < loads.length →
        ∑ i ∈ Finset.range loads.length, v' i = ∑ i ∈ Finset.range loads.length, v i := by
      have hx : ∀ (v : Nat → K) (s r : Nat) (x : K), r < s → s < loads.length →
          ∑ i ∈ Finset.range loads.length, xfer v s r x i =
            ∑ i ∈ Finset.range loads.length, v i := by
        intro v s r x hrs hs
        have h2 : ∀ i ∈ Finset.range loads.length, xfer v s r x i =
            v i + (if i = s then - x else 0) + (if i = r then x else 0) := by
          intro i _
          by_cases h1 : i = s
          · have : i ≠ r := by omega
            subst h1; simp [xfer, this]; ring
          · by_cases h3 : i = r
            · subst h3; simp [xfer, h1]
            · simp [xfer, h1, h3]
        rw [Finset.sum_congr rfl h2, Finset.sum_add_distrib, Finset.sum_add_distrib,
          Finset.sum_ite_eq', Finset.sum_ite_eq', if_pos (Finset.mem_range.2 hs),
          if_pos (Finset.mem_range.2 (by omega))]
        ring
      intro v v' s r tr hr
      induction hr with
      | done => intro _; rfl
      | down h _ _ ih => intro hs; rw [ih (by omega), hx _ _ _ _ h hs]
      | up h _ _ ih => intro hs; rw [ih hs, hx _ _ _ _ h hs]
    exact hlt hrun (by omega)
  have hmean : getMean loads' = getMean loads := by
    rw [getMean_eq, getMean_eq]; unfold meanLoad; rw [hsum, hh'.1]
  refine ⟨_, hm, hsum, ?_, hmean, ?_⟩
  · have e1 : loads'.map (·.rank) = (sort loads).map (·.rank) := by
      rw [hh'.list_eq, hh.list_eq, List.map_map, List.map_map]; rfl
    simp only [e1]
    exact (hsort.perm loads).map _
  · simp only [hmean]
    rw [sub_self, absS_eq_abs, abs_zero]; positivity

/-- C12, the operations: whether all planned operations (`runPlan`) or only the kept ones
(`getOperations`) are carried out, each rank using its own list, the total of the planned loads
is the total of the loads. -/
theorem C12_operations_conserve_total {sort : List (ChemistryLoad K) → List (ChemistryLoad K)}
    (hsort : Sorts sort) (loads : List (ChemistryLoad K)) (hne : loads ≠ [])
    (hnd : (loads.map (·.rank)).Nodup) :
    ∃ full kept : Nat → List (Operation K),
      (∀ me, ∃ st, runPlan sort loads.length loads me = .ok st ∧ st.operations = full me) ∧
      (∀ me, getOperations sort loads.length loads me = .ok (kept me)) ∧
      (loads.map (fun l => planned (full l.rank) l.rank l.value)).sum =
        (loads.map (·.value)).sum ∧
      (loads.map (fun l => planned (kept l.rank) l.rank l.value)).sum =
        (loads.map (·.value)).sum := by
  obtain ⟨rk, v, tr, v', loads', hh, hh', hrun, hinv, hplan, hops⟩ := plan_levels hsort hne
  have hpos : 0 < loads.length := List.length_pos_of_ne_nil hne
  have hp : ((sort loads).map (·.rank)).Perm (loads.map (·.rank)) := (hsort.perm loads).map _
  have hok := (planOK_of_run hh (hp.nodup_iff.2 hnd) hpos hrun).perm hp
  have gen : ∀ plan : List (Operation K), PlanOK (loads.map (·.rank)) plan →
      (loads.map (fun l => planned (plan.filter (involves l.rank)) l.rank l.value)).sum =
        (loads.map (·.value)).sum := by
    intro plan hok
    have e : ∀ l ∈ loads, planned (plan.filter (involves l.rank)) l.rank l.value =
        l.value + (receivedBy plan l.rank - sentBy plan l.rank) := by
      intro l _
      have e1 : sentBy (plan.filter (involves l.rank)) l.rank = sentBy plan l.rank := by
        unfold sentBy
        rw [List.filter_filter]
        congr 2
        apply List.filter_congr
        intro op _
        by_cases h : op.src = l.rank <;> simp [involves, h]
      have e2 : receivedBy (plan.filter (involves l.rank)) l.rank = receivedBy plan l.rank := by
        unfold receivedBy
        rw [List.filter_filter]
        congr 2
        apply List.filter_congr
        intro op _
        by_cases h : op.dst = l.rank <;> simp [involves, h]
      unfold planned
      rw [e1, e2]; ring
    have hsub : ∀ (f g : ChemistryLoad K → K) (ls : List (ChemistryLoad K)),
        (ls.map (fun l => f l - g l)).sum = (ls.map f).sum - (ls.map g).sum := by
      intro f g ls
      induction ls with
      | nil => simp
      | cons a ls ih => simp only [List.map_cons, List.sum_cons, ih]; ring
    rw [List.map_congr_left e, List.sum_map_add, hsub]
    have s1 := sum_over_ranks (·.src) (loads.map (·.rank)) hnd plan hok.src_mem
    have s2 := sum_over_ranks (·.dst) (loads.map (·.rank)) hnd plan hok.dst_mem
    rw [List.map_map] at s1 s2
    have : (loads.map (fun l => receivedBy plan l.rank)).sum =
        (loads.map (fun l => sentBy plan l.rank)).sum := s2.trans s1.symm
    rw [this]; ring
  refine ⟨fun me => (tr.map (toOp rk)).filter (involves me),
    fun me => ((tr.map (toOp rk)).filter (isLarge (meanLoad loads))).filter (involves me),
    fun me => ?_, fun me => hops me _ (by omega), gen _ hok, gen _ (hok.filter _)⟩
  obtain ⟨m, hm⟩ := hplan me loads.length (by omega)
  exact ⟨_, hm, rfl⟩

/-! ### C13 -/

/-- C13.  Carrying out all planned operations brings every rank to the mean: at most `SMALL`
above and at most `n - 1` times `SMALL` below. -/
theorem C13_full_plan_levels {sort : List (ChemistryLoad K) → List (ChemistryLoad K)}
    (hsort : Sorts sort) (loads : List (ChemistryLoad K)) (hnd : (loads.map (·.rank)).Nodup) :
    ∀ l ∈ loads, ∃ st, runPlan sort loads.length loads l.rank = .ok st ∧
      meanLoad loads - ((loads.length - 1 : Nat) : K) * (1 / 10 ^ 15) ≤
        planned st.operations l.rank l.value ∧
      planned st.operations l.rank l.value < meanLoad loads + 1 / 10 ^ 15 := by
  intro l hl
  have hne : loads ≠ [] := List.ne_nil_of_mem hl
  obtain ⟨rk, v, tr, v', loads', hh, hh', hrun, hinv, hplan, hops⟩ := plan_levels hsort hne
  have hpos : 0 < loads.length := List.length_pos_of_ne_nil hne
  have hp : ((sort loads).map (·.rank)).Perm (loads.map (·.rank)) := (hsort.perm loads).map _
  obtain ⟨i, hi, e1, e2⟩ := hh.pos_of_mem ((hsort.perm loads).mem_iff.2 hl)
  obtain ⟨m, hm⟩ := hplan l.rank loads.length (by omega)
  refine ⟨_, hm, ?_⟩
  have htr : ∀ t ∈ tr, t.1 < loads.length ∧ t.2.1 < loads.length := by
    intro t ht; have := hrun.positions t ht; omega
  have hinj : ∀ i j, i < loads.length → j < loads.length → rk i = rk j → i = j :=
    fun i j hi hj he => hh.rk_inj (hp.nodup_iff.2 hnd) hi hj he
  obtain ⟨s1, s2⟩ := sentBy_ops hinj htr (fun _ => true) hi
  simp only [List.filter_true, e1] at s1 s2
  have hlev := hrun.level hinv i (by omega) (by omega)
  rw [hrun.final, e2] at hlev
  unfold planned
  rw [s1, s2]
  simpa only [zero_add, Nat.sub_zero, Consts.SMALL] using hlev

/-! ### C14 -/

/-- C14.  Every kept operation starts at a rank with more than the mean load and ends at a rank
with less, and its value is positive and more than one per cent of the mean. -/
theorem C14_only_overloaded_send {sort : List (ChemistryLoad K) → List (ChemistryLoad K)}
    (hsort : Sorts sort) (loads : List (ChemistryLoad K)) (hne : loads ≠ [])
    (hnn : ∀ l ∈ loads, 0 ≤ l.value) (me : Nat) :
    ∃ ops, getOperations sort loads.length loads me = .ok ops ∧
      ∀ op ∈ ops, (∃ ls ∈ loads, ls.rank = op.src ∧ meanLoad loads < ls.value) ∧
        (∃ ld ∈ loads, ld.rank = op.dst ∧ ld.value < meanLoad loads) ∧
        0 < op.value ∧ meanLoad loads / 100 < op.value := by
  obtain ⟨rk, v, tr, v', loads', hh, hh', hrun, hinv, hplan, hops⟩ := plan_levels hsort hne
  have hpos : 0 < loads.length := List.length_pos_of_ne_nil hne
  refine ⟨_, hops me _ (by omega), fun op hop => ?_⟩
  have h1 := List.mem_filter.1 (List.mem_of_mem_filter hop)
  obtain ⟨t, ht, rfl⟩ := List.mem_map.1 h1.1
  have hlarge : Consts.filterFrac * meanLoad loads < t.2.2 := by
    exact of_decide_eq_true h1.2
  have hx : 0 < t.2.2 := lt_of_le_of_lt (filterFrac_nonneg hnn).2 hlarge
  obtain ⟨d1, d2⟩ := hrun.direction hinv t ht hx
  have hb := hrun.positions t ht
  have hmem : ∀ i, i < loads.length → (⟨rk i, v i⟩ : ChemistryLoad K) ∈ loads := by
    intro i hi
    exact (hsort.perm loads).mem_iff.1 (List.mem_of_getElem? (hh.2 i hi))
  refine ⟨⟨_, hmem t.1 (by omega), rfl, d1⟩, ⟨_, hmem t.2.1 (by omega), rfl, d2⟩, hx, ?_⟩
  simp only [Consts.filterFrac] at hlarge
  simp only [toOp]
  linarith

/-! ### C15 -/

/-- C15.  The kept operations of a rank send at most its surplus over the mean and receive at
most its deficit, exactly; so the planned load lies between its load and the mean. -/
theorem C15_never_past_the_mean {sort : List (ChemistryLoad K) → List (ChemistryLoad K)}
    (hsort : Sorts sort) (loads : List (ChemistryLoad K)) (hnd : (loads.map (·.rank)).Nodup)
    (hnn : ∀ l ∈ loads, 0 ≤ l.value) :
    ∀ l ∈ loads, ∃ ops, getOperations sort loads.length loads l.rank = .ok ops ∧
      0 ≤ sentBy ops l.rank ∧ sentBy ops l.rank ≤ max (l.value - meanLoad loads) 0 ∧
      0 ≤ receivedBy ops l.rank ∧ receivedBy ops l.rank ≤ max (meanLoad loads - l.value) 0 ∧
      min l.value (meanLoad loads) ≤ planned ops l.rank l.value ∧
      planned ops l.rank l.value ≤ max l.value (meanLoad loads) := by
  intro l hl
  have hne : loads ≠ [] := List.ne_nil_of_mem hl
  obtain ⟨rk, v, tr, v', loads', hh, hh', hrun, hinv, hplan, hops⟩ := plan_levels hsort hne
  have hpos : 0 < loads.length := List.length_pos_of_ne_nil hne
  have hp : ((sort loads).map (·.rank)).Perm (loads.map (·.rank)) := (hsort.perm loads).map _
  obtain ⟨i, hi, e1, e2⟩ := hh.pos_of_mem ((hsort.perm loads).mem_iff.2 hl)
  refine ⟨_, hops l.rank _ (by omega), ?_⟩
  have htr : ∀ t ∈ tr, t.1 < loads.length ∧ t.2.1 < loads.length := by
    intro t ht; have := hrun.positions t ht; omega
  have hinj : ∀ i j, i < loads.length → j < loads.length → rk i = rk j → i = j :=
    fun i j hi hj he => hh.rk_inj (hp.nodup_iff.2 hnd) hi hj he
  obtain ⟨s1, s2⟩ := sentBy_ops hinj htr (isLarge (meanLoad loads)) hi
  rw [e1] at s1 s2
  have hk := kept_sublist (rk := rk) (filterFrac_nonneg hnn).2 tr
  obtain ⟨o1, o2⟩ := outflow_sublist hk (positive_nonneg tr) i
  obtain ⟨i1, i2⟩ := inflow_sublist hk (positive_nonneg tr) i
  have o3 := hrun.outflow_le hinv i
  have i3 := hrun.inflow_le hinv i
  rw [← s1] at o1 o2
  rw [← s2] at i1 i2
  rw [e2] at o3 i3
  have o4 := o2.trans o3
  have i4 := i2.trans i3
  refine ⟨o1, o4, i1, i4, ?_, ?_⟩
  · unfold planned
    rcases le_total l.value (meanLoad loads) with h | h
    · rw [min_eq_left h]
      rw [max_eq_right (by linarith)] at o4
      linarith
    · rw [min_eq_right h]
      rw [max_eq_left (by linarith)] at o4
      linarith
  · unfold planned
    rcases le_total l.value (meanLoad loads) with h | h
    · rw [max_eq_right h]
      rw [max_eq_left (by linarith)] at i4
      linarith
    · rw [max_eq_left h]
      rw [max_eq_right (by linarith)] at i4
      linarith

/-! ### C19 -/

/-- The number of operations of `all` that are not in `kept`, both being lists of the same
rank. -/
def droppedCount (all kept : List (Operation K)) : Nat := all.length - kept.length

theorem sum_dropped {α : Type} (f : α → K) (p : α → Bool) (b : K)
    (hb : ∀ x, p x = false → f x ≤ b) : ∀ (l : List α),
    (l.map f).sum ≤ ((l.filter p).map f).sum + ((l.length - (l.filter p).length : Nat) : K) * b
  | [] => by simp
  | x :: l => by
    have ih := sum_dropped f p b hb l
    have hle := (List.filter_sublist (p := p) (l := l)).length_le
    by_cases h : p x = true
    · rw [List.filter_cons_of_pos h]
      simp only [List.map_cons, List.sum_cons, List.length_cons]
      rw [Nat.add_sub_add_right]
      linarith
    · have hx := hb x (by simpa using h)
      rw [List.filter_cons_of_neg h]
      simp only [List.map_cons, List.sum_cons, List.length_cons]
      rw [Nat.sub_add_comm hle, Nat.cast_add, Nat.cast_one, add_mul, one_mul]
      linarith

/-- C19.  After the kept operations the planned load of a rank exceeds the mean by at most one
per cent of the mean for each dropped operation of that rank plus `SMALL`, and falls short of
it by at most one per cent for each dropped operation plus `n - 1` times `SMALL`; a rank has at
most `n - 1` operations, dropped or kept. -/
theorem C19_remaining_imbalance {sort : List (ChemistryLoad K) → List (ChemistryLoad K)}
    (hsort : Sorts sort) (loads : List (ChemistryLoad K)) (hnd : (loads.map (·.rank)).Nodup)
    (hnn : ∀ l ∈ loads, 0 ≤ l.value) :
    ∀ l ∈ loads, ∃ st ops, runPlan sort loads.length loads l.rank = .ok st ∧
      getOperations sort loads.length loads l.rank = .ok ops ∧
      planned ops l.rank l.value ≤ meanLoad loads +
        (droppedCount st.operations ops : K) * (meanLoad loads / 100) + 1 / 10 ^ 15 ∧
      meanLoad loads - (droppedCount st.operations ops : K) * (meanLoad loads / 100) -
        ((loads.length - 1 : Nat) : K) * (1 / 10 ^ 15) ≤ planned ops l.rank l.value ∧
      droppedCount st.operations ops + ops.length ≤ loads.length - 1 := by
  intro l hl
  have hne : loads ≠ [] := List.ne_nil_of_mem hl
  obtain ⟨rk, v, tr, v', loads', hh, hh', hrun, hinv, hplan, hops⟩ := plan_levels hsort hne
  have hpos : 0 < loads.length := List.length_pos_of_ne_nil hne
  have hp : ((sort loads).map (·.rank)).Perm (loads.map (·.rank)) := (hsort.perm loads).map _
  have hok := planOK_of_run hh (hp.nodup_iff.2 hnd) hpos hrun
  obtain ⟨i, hi, e1, e2⟩ := hh.pos_of_mem ((hsort.perm loads).mem_iff.2 hl)
  obtain ⟨m, hm⟩ := hplan l.rank loads.length (by omega)
  refine ⟨_, _, hm, hops l.rank _ (by omega), ?_⟩
  have htr : ∀ t ∈ tr, t.1 < loads.length ∧ t.2.1 < loads.length := by
    intro t ht; have := hrun.positions t ht; omega
  have hinj : ∀ i j, i < loads.length → j < loads.length → rk i = rk j → i = j :=
    fun i j hi hj he => hh.rk_inj (hp.nodup_iff.2 hnd) hi hj he
  obtain ⟨f1, f2⟩ := sentBy_ops hinj htr (fun _ => true) hi
  simp only [List.filter_true, e1] at f1 f2
  have hlev := hrun.level hinv i (by omega) (by omega)
  rw [hrun.final, e2, ← f1, ← f2] at hlev
  obtain ⟨hmean, hfrac⟩ := filterFrac_nonneg hnn
  -- operations of this rank, all and kept
  have hswap : ((tr.map (toOp rk)).filter (isLarge (meanLoad loads))).filter (involves l.rank) =
      ((tr.map (toOp rk)).filter (involves l.rank)).filter (isLarge (meanLoad loads)) := by
    rw [List.filter_filter, List.filter_filter]
    apply List.filter_congr
    intro x _; rw [Bool.and_comm]
  obtain ⟨ops', ho', -, -, -, -, hmin, hmax⟩ := C15_never_past_the_mean hsort loads hnd hnn l hl
  rw [hops l.rank _ (by omega)] at ho'
  obtain rfl := Except.ok.inj ho'
  rw [hswap] at hmin hmax ⊢
  set all := (tr.map (toOp rk)).filter (involves l.rank) with hall
  simp only
  have hsmall : ∀ op : Operation K, isLarge (meanLoad loads) op = false →
      op.value ≤ meanLoad loads / 100 := by
    intro op h
    have : ¬ Consts.filterFrac * meanLoad loads < op.value := by
      simpa [isLarge] using h
    simp only [Consts.filterFrac] at this
    linarith [not_lt.1 this]
  have hlenall : all.length ≤ loads.length - 1 := by
    have h1 : all.length ≤ (tr.map (toOp rk)).length := List.filter_sublist.length_le
    have h2 := hrun.length
    simp only [List.length_map] at h1
    omega
  have hcount : droppedCount all (all.filter (isLarge (meanLoad loads))) +
      (all.filter (isLarge (meanLoad loads))).length ≤ loads.length - 1 := by
    have h1 : (all.filter (isLarge (meanLoad loads))).length ≤ all.length := List.filter_sublist.length_le
    unfold droppedCount
    omega
  have hk1 : (0 : K) ≤ (droppedCount all (all.filter (isLarge (meanLoad loads))) : K) *
      (meanLoad loads / 100) := mul_nonneg (Nat.cast_nonneg _) (by positivity)
  have hk2 : (0 : K) ≤ ((loads.length - 1 : Nat) : K) * (1 / 10 ^ 15) :=
    mul_nonneg (Nat.cast_nonneg _) (by positivity)
  have hsend : ∀ (q : Operation K → Bool), (∀ op ∈ all, q op = true) →
      ((all.filter q).map (·.value)).sum ≤
        (((all.filter (isLarge (meanLoad loads))).filter q).map (·.value)).sum +
        (droppedCount all (all.filter (isLarge (meanLoad loads))) : K) * (meanLoad loads / 100) := by
    intro q hq
    rw [List.filter_eq_self.2 hq,
      List.filter_eq_self.2 (fun op hop => hq op (List.mem_of_mem_filter hop))]
    exact sum_dropped _ _ _ hsmall all
  have htol : (1 : K) / 10 ^ 15 = Consts.SMALL := rfl
  have hS : (0 : K) < 1 / 10 ^ 15 := SMALL_pos
  simp only [zero_add, Nat.sub_zero, ← htol] at hlev
  rcases involves_cases hok l.rank with ⟨hi1, hi2⟩ | ⟨hi1, hi2⟩
  · -- a sender
    have hq : ∀ op ∈ all, (op.src == l.rank) = true := by
      intro op hop
      have : op ∈ sends (tr.map (toOp rk)) l.rank := by rw [← hi1]; exact hop
      exact (List.mem_filter.1 this).2
    have hz : receivedBy all l.rank = 0 := by
      unfold receivedBy
      rw [List.filter_eq_nil_iff.2]
      · rfl
      · intro op hop
        have h2 := hok.roles op (List.mem_of_mem_filter hop) op (List.mem_of_mem_filter hop)
        have h1 : op.src = l.rank := by simpa using hq op hop
        rw [h1] at h2
        simpa using fun h => h2 h.symm
    have hz' : receivedBy (all.filter (isLarge (meanLoad loads))) l.rank = 0 := by
      unfold receivedBy at hz ⊢
      rw [List.filter_eq_nil_iff.2]
      · rfl
      · intro op hop
        have hop := List.mem_of_mem_filter hop
        have h2 := hok.roles op (List.mem_of_mem_filter hop) op (List.mem_of_mem_filter hop)
        have h1 : op.src = l.rank := by simpa using hq op hop
        rw [h1] at h2
        simpa using fun h => h2 h.symm
    have hd := hsend _ hq
    rw [hz] at hlev
    refine ⟨?_, ?_, hcount⟩
    · unfold planned
      rw [hz']
      unfold sentBy at hlev ⊢
      linarith
    · by_cases hem : all = []
      · rw [hem] at hlev ⊢
        have : planned ([].filter (isLarge (meanLoad loads))) l.rank l.value = l.value := by
          simp [planned, sentBy, receivedBy]
        rw [this]
        have : sentBy ([] : List (Operation K)) l.rank = 0 := by simp [sentBy]
        rw [this] at hlev
        have h0 : (droppedCount ([] : List (Operation K)) ([].filter (isLarge (meanLoad loads))) : K)
          = 0 := by simp [droppedCount]
        rw [h0]
        linarith
      · obtain ⟨op, hop⟩ := List.exists_mem_of_ne_nil _ hem
        have h1 : op.src = l.rank := by simpa using hq op hop
        obtain ⟨t, ht, rfl⟩ := List.mem_map.1 (List.mem_of_mem_filter hop)
        have hti : t.1 = i := hinj _ _ (htr t ht).1 hi (by rw [e1]; exact h1)
        have hge := hrun.sender_ge hinv t ht
        rw [hti, e2] at hge
        simp only [zero_add, Nat.sub_zero, ← htol] at hge
        have : meanLoad loads - ((loads.length - 1 : Nat) : K) * (1 / 10 ^ 15) ≤
            min l.value (meanLoad loads) := le_min hge (by linarith)
        linarith
  · -- a receiver
    have hq : ∀ op ∈ all, (op.dst == l.rank) = true := by
      intro op hop
      have : op ∈ recvs (tr.map (toOp rk)) l.rank := by rw [← hi1]; exact hop
      exact (List.mem_filter.1 this).2
    have hz : sentBy all l.rank = 0 := by
      unfold sentBy
      rw [List.filter_eq_nil_iff.2]
      · rfl
      · intro op hop
        have h2 := hok.roles op (List.mem_of_mem_filter hop) op (List.mem_of_mem_filter hop)
        have h1 : op.dst = l.rank := by simpa using hq op hop
        rw [h1] at h2
        simpa using h2
    have hz' : sentBy (all.filter (isLarge (meanLoad loads))) l.rank = 0 := by
      unfold sentBy
      rw [List.filter_eq_nil_iff.2]
      · rfl
      · intro op hop
        have hop := List.mem_of_mem_filter hop
        have h2 := hok.roles op (List.mem_of_mem_filter hop) op (List.mem_of_mem_filter hop)
        have h1 : op.dst = l.rank := by simpa using hq op hop
        rw [h1] at h2
        simpa using h2
    have hd := hsend _ hq
    rw [hz] at hlev
    refine ⟨?_, ?_, hcount⟩
    · -- either nothing is received or the receiver is below the mean
      by_cases hem : all = []
      · rw [hem] at hlev ⊢
        have : planned ([].filter (isLarge (meanLoad loads))) l.rank l.value = l.value := by
          simp [planned, sentBy, receivedBy]
        rw [this]
        have : receivedBy ([] : List (Operation K)) l.rank = 0 := by simp [receivedBy]
        rw [this] at hlev
        have h0 : (droppedCount ([] : List (Operation K)) ([].filter (isLarge (meanLoad loads))) : K)
          = 0 := by simp [droppedCount]
        rw [h0]
        linarith
      · obtain ⟨op, hop⟩ := List.exists_mem_of_ne_nil _ hem
        have h1 : op.dst = l.rank := by simpa using hq op hop
        obtain ⟨t, ht, rfl⟩ := List.mem_map.1 (List.mem_of_mem_filter hop)
        have hti : t.2.1 = i := hinj _ _ (htr t ht).2 hi (by rw [e1]; exact h1)
        have hle := hrun.receiver_le hinv t ht
        rw [hti, e2] at hle
        rw [max_eq_right hle] at hmax
        linarith
    · unfold planned
      rw [hz']
      unfold receivedBy at hlev ⊢
      linarith

/-! ### C17 -/

/-- C17.  If all loads are equal (and not negative) no rank gets an operation. -/
theorem C17_equal_loads_no_traffic {sort : List (ChemistryLoad K) → List (ChemistryLoad K)}
    (hsort : Sorts sort) (loads : List (ChemistryLoad K)) (hne : loads ≠ []) (c : K) (hc : 0 ≤ c)
    (heq : ∀ l ∈ loads, l.value = c) (me : Nat) :
    getOperations sort loads.length loads me = .ok [] := by
  obtain ⟨ops, h1, h2⟩ := C14_only_overloaded_send hsort loads hne
    (fun l hl => by rw [heq l hl]; exact hc) me
  cases ops with
  | nil => exact h1
  | cons op ops =>
    obtain ⟨⟨ls, hs, -, h3⟩, ⟨ld, hd, -, h4⟩, -⟩ := h2 op (by simp)
    rw [heq ls hs] at h3
    rw [heq ld hd] at h4
    exact absurd h3 (not_lt.2 h4.le)

/-- C17, on the level of problems: then every rank keeps all its problems and gets none. -/
theorem C17_equal_loads_keep_problems {n : Nat} (hn : 0 < n)
    {sort : List (ChemistryLoad K) → List (ChemistryLoad K)} (hsort : Sorts sort)
    (problems : Fin n → List (ChemistryProblem K)) (parRun : Bool) (hpar : parRun = true ∨ n = 1)
    (c : K) (hc : 0 ≤ c) (heq : ∀ r, ((problems r).map (·.cpuTime)).sum = c) :
    ∃ st, splitProblems parRun sort problems = .ok (st, fun r => ⟨problems r, []⟩) := by
  obtain ⟨plan, hok, -, hops, -, hs⟩ := splitProblems_plan hn sort hsort.perm problems parRun hpar
  have hl := gatherLoads_length problems
  have hne : gatherLoads problems ≠ [] := by
    intro h; rw [h] at hl; simp at hl; omega
  have hnil : ∀ me, plan.filter (involves me) = [] := by
    intro me
    have h1 := C17_equal_loads_no_traffic hsort (gatherLoads problems) hne c hc (by
      intro l hl
      obtain ⟨r, rfl⟩ := (List.mem_ofFn' _ _).1 hl
      simp only [computeLoad]
      rw [foldl_add_sum ChemistryProblem.cpuTime, zero_add, heq r]) me
    rw [hl, hops me n (by omega)] at h1
    exact Except.ok.inj h1
  have hplan : plan = [] := by
    cases plan with
    | nil => rfl
    | cons op plan =>
      have := hnil op.src
      simp [involves] at this
  subst hplan
  exact ⟨_, hs⟩

/-- C17, one rank only: no operation, in any arithmetic. -/
theorem C17_serial_no_traffic {S : Type} [Zero S] [Add S] [Sub S] [Mul S] [Div S] [Neg S]
    [NatCast S] [LT S] [DecidableLT S] [LE S] [DecidableLE S] [Consts S]
    (sort : List (ChemistryLoad S) → List (ChemistryLoad S)) (hsort : ∀ l, (sort l).Perm l)
    (l : ChemistryLoad S) (me : Nat) : getOperations sort 1 [l] me = .ok [] := by
  obtain ⟨ops, h1, h2⟩ := (C04_planning_terminates sort hsort [l] (by simp) me).1 1 (by simp)
  rw [h1]
  have : ops = [] := List.eq_nil_of_length_eq_zero (by simpa using h2)
  rw [this]

/-! ### C16 -/

/-- Total measured time of a list of problems. -/
def workOf (ps : List (ChemistryProblem K)) : K := (ps.map (·.cpuTime)).sum

theorem accTime_eq (ps : List (ChemistryProblem K)) : accTime ps = workOf ps := by
  unfold accTime workOf
  rw [foldl_add_sum ChemistryProblem.cpuTime, zero_add]

theorem block_le (t : K) (ht : 0 ≤ t) (ps : List (ChemistryProblem K)) :
    workOf (ps.take (fitCount t ps)) ≤ t := by
  by_cases h : ps.take (fitCount t ps) = []
  · rw [h]; simpa [workOf] using ht
  · have := (countWhile_time t ps 0).1 (ps.take (fitCount t ps)) (List.prefix_refl _) h
    rw [foldl_add_sum ChemistryProblem.cpuTime, zero_add] at this
    exact this

theorem blocks_le : ∀ (ts : List K), (∀ t ∈ ts, 0 ≤ t) → ∀ (ps : List (ChemistryProblem K)) (i : Nat)
    (hi : i < (blocks ts ps).length) (hi' : i < ts.length), workOf ((blocks ts ps)[i]) ≤ ts[i]
  | [], _, ps, i, hi, hi' => by simp at hi'
  | t :: ts, h, ps, i, hi, hi' => by
    cases i with
    | zero => exact block_le t (h t (by simp)) ps
    | succ i =>
      exact blocks_le ts (fun t ht => h t (by simp [ht])) _ i _ (by simpa using hi')

/-- C16.  With measured times that are not negative, the work a rank really does after balancing
(its remaining problems plus its guests) is at most the larger of its own load and the mean. -/
theorem C16_work_bounded {n : Nat} (hn : 0 < n)
    {sort : List (ChemistryLoad K) → List (ChemistryLoad K)} (hsort : Sorts sort)
    (problems : Fin n → List (ChemistryProblem K)) (parRun : Bool) (hpar : parRun = true ∨ n = 1)
    (hnn : ∀ r, ∀ p ∈ problems r, 0 ≤ p.cpuTime) :
    ∃ st split, splitProblems parRun sort problems = .ok (st, split) ∧ ∀ r,
      workOf ((split r).own ++ (split r).guests.flatten) ≤
        max (workOf (problems r)) ((∑ s, workOf (problems s)) / n) := by
  obtain ⟨plan, hok, hbig, hops, -, hs⟩ := splitProblems_plan hn sort hsort.perm problems parRun hpar
  refine ⟨_, _, hs, fun r => ?_⟩
  simp only
  have hl := gatherLoads_length problems
  have hr := gatherLoads_ranks problems
  have hval : ∀ r : Fin n, (computeLoad r.val (problems r)).value = workOf (problems r) := by
    intro r
    simp only [computeLoad, workOf]
    rw [foldl_add_sum ChemistryProblem.cpuTime, zero_add]
  have hmean : meanLoad (gatherLoads problems) = (∑ s, workOf (problems s)) / n := by
    unfold meanLoad
    rw [hl]
    unfold gatherLoads
    rw [List.map_ofFn, List.sum_ofFn]
    congr 1
    exact Finset.sum_congr rfl (fun r _ => hval r)
  have hloads : ∀ l ∈ gatherLoads problems, 0 ≤ l.value := by
    intro l hl
    obtain ⟨r, rfl⟩ := (List.mem_ofFn' _ _).1 hl
    rw [hval r]
    apply List.sum_nonneg
    intro x hx
    obtain ⟨p, hp, rfl⟩ := List.mem_map.1 hx
    exact hnn r p hp
  obtain ⟨ops, ho, -, -, -, hrecv, -, -⟩ := C15_never_past_the_mean hsort (gatherLoads problems)
    (by rw [hr]; exact List.nodup_range) hloads (computeLoad r.val (problems r))
    ((List.mem_ofFn' _ _).2 ⟨r, rfl⟩)
  rw [hval r, hmean, show (computeLoad r.val (problems r)).rank = r.val from rfl] at hrecv
  have hro : ops = plan.filter (involves r.val) := by
    rw [hl] at ho
    have h2 := hops r.val n (by omega)
    have : (computeLoad r.val (problems r)).rank = r.val := rfl
    rw [this, h2] at ho
    exact (Except.ok.inj ho).symm
  have hpos : ∀ op ∈ plan, 0 ≤ op.value := by
    intro op hop
    have h1 := hbig op hop
    rw [getMean_eq] at h1
    exact (lt_of_le_of_lt (filterFrac_nonneg hloads).2 h1).le
  have happ : ∀ a b : List (ChemistryProblem K), workOf (a ++ b) = workOf a + workOf b := by
    intro a b; simp [workOf]
  have hflat : ∀ bs : List (List (ChemistryProblem K)), workOf bs.flatten = (bs.map workOf).sum := by
    intro bs
    induction bs with
    | nil => simp [workOf]
    | cons b bs ih => rw [List.flatten_cons, happ, ih, List.map_cons, List.sum_cons]
  -- own
  have hown : workOf (restOf plan r.val (problems r)) ≤ workOf (problems r) := by
    have e := blocksOf_flatten plan r.val (problems r)
    have h2 := congrArg workOf e
    rw [happ] at h2
    have : 0 ≤ workOf (blocksOf plan r.val (problems r)).flatten := by
      apply List.sum_nonneg
      intro x hx
      obtain ⟨p, hp, rfl⟩ := List.mem_map.1 hx
      refine hnn r p ?_
      rw [← e]; exact List.mem_append_left _ hp
    linarith
  -- guests
  have hguest : workOf (guestsOf plan problems r.val).flatten ≤ receivedBy ops r.val := by
    rw [hflat]
    unfold guestsOf
    rw [List.map_map, List.map_map]
    have e : receivedBy ops r.val = ((recvs plan r.val).map (·.value)).sum := by
      rw [hro]
      unfold receivedBy recvs
      rw [List.filter_filter]
      congr 2
      apply List.filter_congr
      intro op _
      by_cases h : op.dst = r.val <;> simp [involves, h]
    rw [e]
    apply List.sum_le_sum
    intro op hop
    have hm := List.mem_filter.1 hop
    have hdst : op.dst = r.val := by simpa using hm.2
    simp only [Function.comp]
    have hmem : op ∈ sends plan op.src := List.mem_filter.2 ⟨hm.1, by simp⟩
    obtain ⟨j, hj, hje⟩ := List.mem_iff_getElem.1 hmem
    have hidx : ((sends plan op.src).map (·.dst)).idxOf r.val = j := by
      have := (hok.dst_nodup op.src).idxOf_getElem j (by simpa using hj)
      rw [List.getElem_map, hje, hdst] at this
      exact this
    rw [hidx]
    have hj' : j < (blocksOf plan op.src (extend problems op.src)).length := by
      rw [blocksOf_length]; exact hj
    rw [List.getD_eq_getElem?_getD, List.getElem?_eq_getElem hj', Option.getD_some]
    have hb := blocks_le ((sends plan op.src).map Operation.value) (by
      intro t ht
      obtain ⟨o, ho, rfl⟩ := List.mem_map.1 ht
      exact hpos o (List.mem_of_mem_filter ho)) (extend problems op.src) j hj' (by simpa using hj)
    rw [List.getElem_map, hje] at hb
    exact hb
  rw [happ]
  rcases le_total (workOf (problems r)) ((∑ s, workOf (problems s)) / n) with h | h
  · rw [max_eq_right h]
    rw [max_eq_left (by linarith)] at hrecv
    linarith
  · rw [max_eq_left h]
    rw [max_eq_right (by linarith)] at hrecv
    linarith

/-- C16, makespan: no rank does more work after balancing than some rank would have done
without. -/
theorem C16_makespan_never_grows {n : Nat} (hn : 0 < n)
    {sort : List (ChemistryLoad K) → List (ChemistryLoad K)} (hsort : Sorts sort)
    (problems : Fin n → List (ChemistryProblem K)) (parRun : Bool) (hpar : parRun = true ∨ n = 1)
    (hnn : ∀ r, ∀ p ∈ problems r, 0 ≤ p.cpuTime) :
    ∃ st split, splitProblems parRun sort problems = .ok (st, split) ∧ ∀ r, ∃ s,
      workOf ((split r).own ++ (split r).guests.flatten) ≤ workOf (problems s) := by
  obtain ⟨st, split, h1, h2⟩ := C16_work_bounded hn hsort problems parRun hpar hnn
  refine ⟨st, split, h1, fun r => ?_⟩
  rcases le_total (workOf (problems r)) ((∑ s, workOf (problems s)) / n) with h | h
  · have hr := h2 r
    rw [max_eq_right h] at hr
    by_contra hc
    push Not at hc
    have hlt : ∑ s, workOf (problems s) < ∑ _s : Fin n, (∑ s, workOf (problems s)) / n := by
      apply Finset.sum_lt_sum_of_nonempty ⟨⟨0, hn⟩, Finset.mem_univ _⟩
      intro s _
      exact lt_of_lt_of_le (hc s) hr
    have hnK : (n : K) ≠ 0 := by exact_mod_cast hn.ne'
    rw [Finset.sum_const, Finset.card_univ, Fintype.card_fin, nsmul_eq_mul,
      mul_div_cancel₀ _ hnK] at hlt
    exact lt_irrefl _ hlt
  · have hr := h2 r
    rw [max_eq_left h] at hr
    exact ⟨r, hr⟩

/-! ### C21 -/

/-- C21, `computeLoad`. -/
theorem C21_computeLoad (rank : Nat) (problems : List (ChemistryProblem K)) :
    computeLoad rank problems = ⟨rank, (problems.map (·.cpuTime)).sum⟩ := by
  simp only [computeLoad]
  rw [foldl_add_sum ChemistryProblem.cpuTime, zero_add]

theorem foldl_min_spec : ∀ (ls : List (ChemistryLoad K)) (l : ChemistryLoad K),
    let m := ls.foldl (fun best x => if x.value < best.value then x else best) l
    m ∈ l :: ls ∧ ∀ x ∈ l :: ls, m.value ≤ x.value
  | [], l => by simp
  | a :: ls, l => by
    obtain ⟨h1, h2⟩ := foldl_min_spec ls (if a.value < l.value then a else l)
    simp only [List.foldl_cons]
    refine ⟨?_, fun x hx => ?_⟩
    · rcases List.mem_cons.1 h1 with h | h
      · rw [h]; split <;> simp
      · simp [h]
    · have h3 := h2 _ (List.mem_cons_self ..)
      rcases List.mem_cons.1 hx with rfl | hx
      · refine h3.trans ?_
        split
        · next h => exact h.le
        · exact le_refl _
      · rcases List.mem_cons.1 hx with rfl | hx
        · refine h3.trans ?_
          split
          · exact le_refl _
          · next h => exact not_lt.1 h
        · exact h2 x (by simp [hx])

theorem foldl_max_spec : ∀ (ls : List (ChemistryLoad K)) (l : ChemistryLoad K),
    let m := ls.foldl (fun best x => if best.value < x.value then x else best) l
    m ∈ l :: ls ∧ ∀ x ∈ l :: ls, x.value ≤ m.value
  | [], l => by simp
  | a :: ls, l => by
    obtain ⟨h1, h2⟩ := foldl_max_spec ls (if l.value < a.value then a else l)
    simp only [List.foldl_cons]
    refine ⟨?_, fun x hx => ?_⟩
    · rcases List.mem_cons.1 h1 with h | h
      · rw [h]; split <;> simp
      · simp [h]
    · have h3 := h2 _ (List.mem_cons_self ..)
      rcases List.mem_cons.1 hx with rfl | hx
      · refine le_trans ?_ h3
        split
        · next h => exact h.le
        · exact le_refl _
      · rcases List.mem_cons.1 hx with rfl | hx
        · refine le_trans ?_ h3
          split
          · exact le_refl _
          · next h => exact not_lt.1 h
        · exact h2 x (by simp [hx])

/-- C21, `getMin`, `getMax`, `getMean`: the first two return an element bounding the others, the
mean lies between; for an empty list minimum and maximum are undefined. -/
theorem C21_min_mean_max (loads : List (ChemistryLoad K)) (hne : loads ≠ []) :
    ∃ lo ∈ loads, ∃ hi ∈ loads, getMin loads = .ok lo ∧ getMax loads = .ok hi ∧
      (∀ l ∈ loads, lo.value ≤ l.value ∧ l.value ≤ hi.value) ∧
      lo.value ≤ getMean loads ∧ getMean loads ≤ hi.value ∧
      getMean loads * loads.length = (loads.map (·.value)).sum := by
  cases loads with
  | nil => exact absurd rfl hne
  | cons l ls =>
    obtain ⟨a1, a2⟩ := foldl_min_spec ls l
    obtain ⟨b1, b2⟩ := foldl_max_spec ls l
    have hpos : (0 : K) < ((l :: ls).length : K) := by
      exact_mod_cast List.length_pos_of_ne_nil hne
    refine ⟨_, a1, _, b1, rfl, rfl, fun x hx => ⟨a2 x hx, b2 x hx⟩, ?_, ?_, ?_⟩
    · rw [getMean_eq]
      unfold meanLoad
      rw [le_div_iff₀ hpos]
      have := List.card_nsmul_le_sum ((l :: ls).map (·.value)) _ (by
        intro y hy
        obtain ⟨x, hx, rfl⟩ := List.mem_map.1 hy
        exact a2 x hx)
      rw [List.length_map, nsmul_eq_mul] at this
      linarith
    · rw [getMean_eq]
      unfold meanLoad
      rw [div_le_iff₀ hpos]
      have := List.sum_le_card_nsmul ((l :: ls).map (·.value)) _ (by
        intro y hy
        obtain ⟨x, hx, rfl⟩ := List.mem_map.1 hy
        exact b2 x hx)
      rw [List.length_map, nsmul_eq_mul] at this
      linarith
    · rw [getMean_eq]
      unfold meanLoad
      rw [div_mul_cancel₀ _ hpos.ne']

/-- C21, `rankToLoadIdx`: the result is the index of the first load of that rank; it throws
exactly if there is none. -/
theorem C21_rankToLoadIdx {S : Type} [Zero S] [Add S] (loads : List (ChemistryLoad S)) (rank : Nat) :
    (∀ i, rankToLoadIdx loads rank = .ok i ↔
      (loads[i]?).map (·.rank) = some rank ∧ ∀ j, j < i → (loads[j]?).map (·.rank) ≠ some rank) ∧
    (rankToLoadIdx loads rank = .error .thrown ↔ ∀ l ∈ loads, l.rank ≠ rank) := by
  have key : ∀ (ls : List (ChemistryLoad S)) (k : Nat),
      (∀ i, rankToLoadIdx.go rank k ls = .ok i ↔ k ≤ i ∧
        (ls[i - k]?).map (·.rank) = some rank ∧
        ∀ j, j < i - k → (ls[j]?).map (·.rank) ≠ some rank) ∧
      (rankToLoadIdx.go rank k ls = .error .thrown ↔ ∀ l ∈ ls, l.rank ≠ rank) := by
    intro ls
    induction ls with
    | nil => intro k; simp [rankToLoadIdx.go]
    | cons l ls ih =>
      intro k
      obtain ⟨ih1, ih2⟩ := ih (k + 1)
      unfold rankToLoadIdx.go
      by_cases h : l.rank = rank
      · rw [if_pos h]
        refine ⟨fun i => ?_, by simp [h]⟩
        constructor
        · intro he
          obtain rfl := Except.ok.inj he
          simp [h]
        · rintro ⟨h1, h2, h3⟩
          by_cases hi : i = k
          · rw [hi]
          · exfalso
            have := h3 0 (by omega)
            simp [h] at this
      · rw [if_neg h]
        refine ⟨fun i => ?_, ?_⟩
        · rw [ih1 i]
          constructor
          · rintro ⟨h1, h2, h3⟩
            refine ⟨by omega, ?_, ?_⟩
            · rw [show i - k = (i - (k + 1)) + 1 by omega, List.getElem?_cons_succ]; exact h2
            · intro j hj
              cases j with
              | zero => simpa using h
              | succ j => rw [List.getElem?_cons_succ]; exact h3 j (by omega)
          · rintro ⟨h1, h2, h3⟩
            by_cases hi : i = k
            · subst hi; simp [h] at h2
            · refine ⟨by omega, ?_, ?_⟩
              · rw [show i - k = (i - (k + 1)) + 1 by omega, List.getElem?_cons_succ] at h2; exact h2
              · intro j hj
                have := h3 (j + 1) (by omega)
                rwa [List.getElem?_cons_succ] at this
        · rw [ih2]; simp [h]
  obtain ⟨h1, h2⟩ := key loads 0
  refine ⟨fun i => ?_, h2⟩
  unfold rankToLoadIdx
  rw [h1 i]
  simp

end

/-! ### Examples -/

namespace Example

theorem sorts : Sorts Example.sort :=
  ⟨sort_perm, fun l => by
    have := List.pairwise_insertionSort (fun a b : ChemistryLoad ℚ => a.value ≤ b.value) l
    exact this⟩

/-- Five ranks; the mean is 4. -/
def five : List (ChemistryLoad ℚ) := [⟨0, 1⟩, ⟨1, 9⟩, ⟨2, 199 / 50⟩, ⟨3, 5⟩, ⟨4, 51 / 50⟩]

end Example

/-- C12, C13, C14, C15, C19 on five ranks: all planned operations level the loads; one of the
operations (2 per cent of a unit) is dropped. -/
example : meanLoad Example.five = 4 ∧
    (runPlan Example.sort 5 Example.five 2).toOption.map (·.operations) = some [⟨3, 2, 1 / 50⟩] ∧
    (getOperations Example.sort 5 Example.five 2).toOption = some [] ∧
    (getOperations Example.sort 5 Example.five 1).toOption = some [⟨1, 0, 3⟩, ⟨1, 4, 2⟩] ∧
    planned [⟨1, 0, 3⟩, ⟨1, 4, 2⟩] 1 (9 : ℚ) = 4 := by decide +kernel

/-- C16: work of the three ranks of the example after balancing (before: 7, 2, 0). -/
example : (splitProblems true Example.sort Example.problems).toOption.map
      (fun x => [0, 1, 2].map (fun r => workOf ((x.2 r).own ++ (x.2 r).guests.flatten))) =
    some [3, 3, 3] := by decide +kernel

/-- C17: three equal loads. -/
example : (getOperations Example.sort 3 [⟨0, 2⟩, ⟨1, 2⟩, ⟨2, (2 : ℚ)⟩] 1).toOption = some [] := by
  decide +kernel

/-- C21 -/
example : (getMin Example.five).toOption = some ⟨0, 1⟩ ∧ (getMax Example.five).toOption = some ⟨1, 9⟩ ∧
    getMean Example.five = 4 ∧ (rankToLoadIdx Example.five 3).toOption = some 3 ∧
    (rankToLoadIdx Example.five 7).toOption = none := by decide +kernel

end DLB
