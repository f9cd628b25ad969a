import Verif.Props.Levels

/-!
How even the work is after balancing (C113): the problems that really move, not only the planned times.
-/

set_option autoImplicit false
set_option linter.unusedSectionVars false

namespace DLB

open Finset

variable {K : Type} [Field K] [LinearOrder K] [IsStrictOrderedRing K]

theorem workOf_append (a b : List (ChemistryProblem K)) : workOf (a ++ b) = workOf a + workOf b := by
  simp [workOf]

theorem workOf_flatten (bs : List (List (ChemistryProblem K))) : workOf bs.flatten = (bs.map workOf).sum := by
  induction bs with
  | nil => simp [workOf]
  | cons b bs ih => rw [List.flatten_cons, workOf_append, ih, List.map_cons, List.sum_cons]

theorem workOf_nonneg {ps : List (ChemistryProblem K)} (h : ∀ p ∈ ps, 0 ≤ p.cpuTime) : 0 ≤ workOf ps := by
  apply List.sum_nonneg
  intro x hx
  obtain ⟨p, hp, rfl⟩ := List.mem_map.1 hx
  exact h p hp

/-- A block falls short of its time by at most the longest problem, if there is work enough for all blocks. -/
theorem blocks_ge {g : K} (hg : 0 ≤ g) : ∀ (ts : List K), (∀ t ∈ ts, 0 ≤ t) → ∀ ps : List (ChemistryProblem K),
    (∀ p ∈ ps, p.cpuTime ≤ g) → ts.sum ≤ workOf ps → ∀ (i : Nat) (hi : i < (blocks ts ps).length) (hi' : i < ts.length),
      ts[i] - g ≤ workOf ((blocks ts ps)[i])
  | [], _, ps, _, _, i, hi, hi' => by simp at hi'
  | t :: ts, ht, ps, hp, hs, i, hi, hi' => by
    have hts : 0 ≤ ts.sum := List.sum_nonneg fun x hx => ht x (by simp [hx])
    have e : workOf ps = workOf (ps.take (fitCount t ps)) + workOf (ps.drop (fitCount t ps)) := by
      rw [← workOf_append, List.take_append_drop]
    have hle := block_le t (ht t (by simp)) ps
    rw [List.sum_cons] at hs
    cases i with
    | zero =>
      show t - g ≤ workOf (ps.take (fitCount t ps))
      match hd : ps.drop (fitCount t ps) with
      | [] =>
        rw [hd] at e
        simp only [workOf, List.map_nil, List.sum_nil, add_zero] at e hs ⊢
        linarith
      | p :: tl =>
        have h1 := (countWhile_time t ps 0).2 p tl hd
        rw [foldl_add_sum ChemistryProblem.cpuTime, zero_add, List.map_append, List.sum_append] at h1
        have h2 := hp p (by
          have : p ∈ ps.drop (fitCount t ps) := by rw [hd]; simp
          exact List.mem_of_mem_drop this)
        simp only [List.map_cons, List.map_nil, List.sum_cons, List.sum_nil, add_zero, not_le] at h1
        unfold workOf
        have h1' : t < ((ps.take (fitCount t ps)).map ChemistryProblem.cpuTime).sum + p.cpuTime := h1
        linarith
    | succ i =>
      exact blocks_ge hg ts (fun t h => ht t (by simp [h])) _ (fun p h => hp p (List.mem_of_mem_drop h)) (by linarith) i _
        (by simpa using hi')

theorem sum_ge_of_forall {α : Type} (f h : α → K) (g : K) : ∀ (l : List α), (∀ x ∈ l, f x - g ≤ h x) →
    (l.map f).sum - (l.length : K) * g ≤ (l.map h).sum
  | [], _ => by simp
  | x :: l, hl => by
    have ih := sum_ge_of_forall f h g l fun y hy => hl y (by simp [hy])
    have := hl x (by simp)
    simp only [List.map_cons, List.sum_cons, List.length_cons, Nat.cast_add, Nat.cast_one, add_mul, one_mul]
    linarith

/-- C113. After balancing the work of every rank, remaining problems and guests, differs from the mean by at most `n - 1` times the
larger of one per cent of the mean and the longest problem (and `n` times `SMALL`). -/
theorem C113_work_near_the_mean {n : Nat} (hn : 0 < n) {sort : List (ChemistryLoad K) → List (ChemistryLoad K)} (hsort : Sorts sort)
    (problems : Fin n → List (ChemistryProblem K)) (parRun : Bool) (hpar : parRun = true ∨ n = 1) (g : K) (hg : 0 ≤ g)
    (hp : ∀ r, ∀ p ∈ problems r, 0 ≤ p.cpuTime ∧ p.cpuTime ≤ g) :
    ∃ st split, splitProblems parRun sort problems = .ok (st, split) ∧ ∀ r,
      |workOf ((split r).own ++ (split r).guests.flatten) - (∑ s, workOf (problems s)) / n| ≤
        ((n - 1 : Nat) : K) * max ((∑ s, workOf (problems s)) / n / 100) g + (n : K) / 10 ^ 15 := by
  obtain ⟨plan, hok, hbig, hops, -, hs⟩ := splitProblems_plan hn sort hsort.perm problems parRun hpar
  refine ⟨_, _, hs, fun r => ?_⟩
  simp only
  have hl := gatherLoads_length problems
  have hr := gatherLoads_ranks problems
  have hval : ∀ r : Fin n, (computeLoad r.val (problems r)).value = workOf (problems r) := by
    intro r
    simp only [computeLoad, workOf]
    rw [foldl_add_sum ChemistryProblem.cpuTime, zero_add]
  have hmean : meanLoad (gatherLoads problems) = (∑ s, workOf (problems s)) / n := by
    unfold meanLoad
    rw [hl]
    unfold gatherLoads
    rw [List.map_ofFn, List.sum_ofFn]
    congr 1
    exact Finset.sum_congr rfl (fun r _ => hval r)
  have hw0 : ∀ r, 0 ≤ workOf (problems r) := fun r => workOf_nonneg fun p h => (hp r p h).1
  have hloads : ∀ l ∈ gatherLoads problems, 0 ≤ l.value := by
    intro l hl
    obtain ⟨r, rfl⟩ := (List.mem_ofFn' _ _).1 hl
    rw [hval r]
    exact hw0 r
  have hm0 : 0 ≤ (∑ s, workOf (problems s)) / (n : K) := by
    rw [← hmean]; exact (filterFrac_nonneg hloads).1
  have hpos : ∀ op ∈ plan, 0 ≤ op.value := by
    intro op hop
    have h1 := hbig op hop
    rw [getMean_eq] at h1
    exact (lt_of_le_of_lt (filterFrac_nonneg hloads).2 h1).le
  have hopsOf : ∀ r : Fin n, ∀ ops, getOperations sort (gatherLoads problems).length (gatherLoads problems)
      (computeLoad r.val (problems r)).rank = .ok ops → ops = plan.filter (involves r.val) := by
    intro r ops ho
    rw [hl] at ho
    have h2 := hops r.val n (by omega)
    have : (computeLoad r.val (problems r)).rank = r.val := rfl
    rw [this, h2] at ho
    exact (Except.ok.inj ho).symm
  have hmem : ∀ r : Fin n, computeLoad r.val (problems r) ∈ gatherLoads problems := fun r => (List.mem_ofFn' _ _).2 ⟨r, rfl⟩
  have hsendEq : ∀ r : Fin n, sentBy (plan.filter (involves r.val)) r.val = ((sends plan r.val).map (·.value)).sum := by
    intro r
    unfold sentBy sends
    rw [List.filter_filter]
    congr 2
    apply List.filter_congr
    intro op _
    by_cases h : op.src = r.val <;> simp [involves, h]
  have hrecvEq : ∀ r : Fin n, receivedBy (plan.filter (involves r.val)) r.val = ((recvs plan r.val).map (·.value)).sum := by
    intro r
    unfold receivedBy recvs
    rw [List.filter_filter]
    congr 2
    apply List.filter_congr
    intro op _
    by_cases h : op.dst = r.val <;> simp [involves, h]
  -- no rank promises more than it has
  have henough : ∀ r : Fin n, ((sends plan r.val).map (·.value)).sum ≤ workOf (problems r) := by
    intro r
    obtain ⟨ops, ho, -, hsent, -⟩ := C15_never_past_the_mean hsort (gatherLoads problems)
      (by rw [hr]; exact List.nodup_range) hloads _ (hmem r)
    have := hopsOf r ops ho
    subst this
    rw [show (computeLoad r.val (problems r)).rank = r.val from rfl, hsendEq, hval, hmean] at hsent
    refine hsent.trans (max_le ?_ (hw0 r))
    linarith
  -- the size of a block
  have hblock : ∀ (s : Fin n) (op : Operation K) (hop : op ∈ sends plan s.val),
      op.value - g ≤ workOf ((blocksOf plan s.val (problems s)).getD (((sends plan s.val).map (·.dst)).idxOf op.dst) []) ∧
      workOf ((blocksOf plan s.val (problems s)).getD (((sends plan s.val).map (·.dst)).idxOf op.dst) []) ≤ op.value := by
    intro s op hop
    obtain ⟨j, hj, hje⟩ := List.mem_iff_getElem.1 hop
    have hidx : ((sends plan s.val).map (·.dst)).idxOf op.dst = j := by
      have := (hok.dst_nodup s.val).idxOf_getElem j (by simpa using hj)
      rw [List.getElem_map, hje] at this
      exact this
    rw [hidx]
    have hj' : j < (blocksOf plan s.val (problems s)).length := by
      rw [blocksOf_length]; exact hj
    rw [List.getD_eq_getElem?_getD, List.getElem?_eq_getElem hj', Option.getD_some]
    have hv : ∀ t ∈ (sends plan s.val).map Operation.value, 0 ≤ t := by
      intro t ht
      obtain ⟨o, ho, rfl⟩ := List.mem_map.1 ht
      exact hpos o (List.mem_of_mem_filter ho)
    have hb := blocks_le ((sends plan s.val).map Operation.value) hv (problems s) j hj' (by simpa using hj)
    have hb' := blocks_ge hg ((sends plan s.val).map Operation.value) hv (problems s) (fun p h => (hp s p h).2) (henough s)
      j hj' (by simpa using hj)
    rw [List.getElem_map, hje] at hb hb'
    exact ⟨hb', hb⟩
  -- own problems
  have hsplit := congrArg workOf (blocksOf_flatten plan r.val (problems r))
  rw [workOf_append, workOf_flatten] at hsplit
  have hownB : (((sends plan r.val).map (·.value)).sum - ((sends plan r.val).length : K) * g ≤
      ((blocksOf plan r.val (problems r)).map workOf).sum) ∧
      ((blocksOf plan r.val (problems r)).map workOf).sum ≤ ((sends plan r.val).map (·.value)).sum := by
    have e : (blocksOf plan r.val (problems r)).map workOf = (sends plan r.val).map fun op =>
        workOf ((blocksOf plan r.val (problems r)).getD (((sends plan r.val).map (·.dst)).idxOf op.dst) []) := by
      apply List.ext_getElem
      · simp [blocksOf_length]
      · intro j h1 h2
        simp only [List.getElem_map]
        have hj : j < (sends plan r.val).length := by simpa using h2
        have := (hok.dst_nodup r.val).idxOf_getElem j (by simpa using hj)
        rw [List.getElem_map] at this
        rw [this, List.getD_eq_getElem?_getD, List.getElem?_eq_getElem (by simpa using h1), Option.getD_some]
    rw [e]
    exact ⟨sum_ge_of_forall _ _ g _ fun op hop => (hblock r op hop).1,
      List.sum_le_sum fun op hop => (hblock r op hop).2⟩
  -- guests
  have hguest : ((recvs plan r.val).map (·.value)).sum - ((recvs plan r.val).length : K) * g ≤
      workOf (guestsOf plan problems r.val).flatten ∧
      workOf (guestsOf plan problems r.val).flatten ≤ ((recvs plan r.val).map (·.value)).sum := by
    rw [workOf_flatten]
    unfold guestsOf
    rw [List.map_map, List.map_map]
    have key : ∀ op ∈ recvs plan r.val, op.value - g ≤ ((workOf ∘ fun s => (blocksOf plan s (extend problems s)).getD
        (((sends plan s).map (·.dst)).idxOf r.val) []) ∘ fun x => x.src) op ∧ ((workOf ∘ fun s => (blocksOf plan s
        (extend problems s)).getD (((sends plan s).map (·.dst)).idxOf r.val) []) ∘ fun x => x.src) op ≤ op.value := by
      intro op hop
      have hm := List.mem_filter.1 hop
      have hdst : op.dst = r.val := by simpa using hm.2
      have hsrc : op.src < n := by
        have := hok.src_mem op hm.1
        simpa using this
      have := hblock ⟨op.src, hsrc⟩ op (List.mem_filter.2 ⟨hm.1, by simp⟩)
      simp only [Function.comp]
      have hex : extend problems op.src = problems ⟨op.src, hsrc⟩ := by simp [extend, hsrc]
      rw [hex, ← hdst]
      exact this
    exact ⟨sum_ge_of_forall _ _ g _ fun op hop => (key op hop).1, List.sum_le_sum fun op hop => (key op hop).2⟩
  obtain ⟨st, ops, -, ho, hup, hlo, hcnt⟩ := C19_remaining_imbalance hsort (gatherLoads problems)
    (by rw [hr]; exact List.nodup_range) hloads _ (hmem r)
  have := hopsOf r ops ho
  subst this
  unfold planned at hup hlo
  rw [show (computeLoad r.val (problems r)).rank = r.val from rfl, hsendEq, hrecvEq, hval, hmean] at hup hlo
  rw [hl] at hcnt hlo
  have hk : (sends plan r.val).length + (recvs plan r.val).length ≤ (plan.filter (involves r.val)).length := by
    rcases involves_cases hok r.val with ⟨h1, h2⟩ | ⟨h1, h2⟩ <;> rw [h1, h2] <;> simp
  generalize droppedCount st.operations (plan.filter (involves r.val)) = d at hup hlo hcnt
  generalize (plan.filter (involves r.val)).length = k at hcnt hk
  generalize (∑ s, workOf (problems s)) / (n : K) = μ at hup hlo hm0 ⊢
  have h1 : (d : K) * (μ / 100) + ((sends plan r.val).length : K) * g + ((recvs plan r.val).length : K) * g ≤
      ((n - 1 : Nat) : K) * max (μ / 100) g := by
    have e : ((d + ((sends plan r.val).length + (recvs plan r.val).length) : Nat) : K) ≤ ((n - 1 : Nat) : K) := by
      exact_mod_cast (by omega : d + ((sends plan r.val).length + (recvs plan r.val).length) ≤ n - 1)
    have hx : 0 ≤ max (μ / 100) g := hg.trans (le_max_right _ _)
    have a1 := mul_le_mul_of_nonneg_left (le_max_left (μ / 100) g) (Nat.cast_nonneg (α := K) d)
    have a2 := mul_le_mul_of_nonneg_left (le_max_right (μ / 100) g) (Nat.cast_nonneg (α := K) (sends plan r.val).length)
    have a3 := mul_le_mul_of_nonneg_left (le_max_right (μ / 100) g) (Nat.cast_nonneg (α := K) (recvs plan r.val).length)
    have a4 := mul_le_mul_of_nonneg_right e hx
    push_cast at a4
    linarith
  have hnK : (1 : K) ≤ n := by exact_mod_cast hn
  have hn1 : ((n - 1 : Nat) : K) * (1 / 10 ^ 15) ≤ (n : K) / 10 ^ 15 := by
    have : ((n - 1 : Nat) : K) ≤ n := by exact_mod_cast Nat.sub_le n 1
    rw [div_eq_mul_one_div (n : K)]
    exact mul_le_mul_of_nonneg_right this (by positivity)
  have hn2 : (1 : K) / 10 ^ 15 ≤ (n : K) / 10 ^ 15 := by gcongr
  have hs0 : 0 ≤ ((sends plan r.val).length : K) * g := mul_nonneg (Nat.cast_nonneg _) hg
  have hr0 : 0 ≤ ((recvs plan r.val).length : K) * g := mul_nonneg (Nat.cast_nonneg _) hg
  rw [workOf_append, abs_le]
  constructor
  · linarith [hownB.2, hguest.1]
  · linarith [hownB.1, hguest.2]

/-- Some rank has at least the mean, however the problems are distributed. -/
theorem mean_le_some {n : Nat} (hn : 0 < n) (w : Fin n → K) : ∃ s, (∑ s, w s) / n ≤ w s := by
  by_contra hc
  push Not at hc
  have hlt : ∑ s, w s < ∑ _s : Fin n, (∑ s, w s) / n :=
    Finset.sum_lt_sum_of_nonempty ⟨⟨0, hn⟩, Finset.mem_univ _⟩ (fun s _ => hc s)
  have hnK : (n : K) ≠ 0 := by exact_mod_cast hn.ne'
  rw [Finset.sum_const, Finset.card_univ, Fintype.card_fin, nsmul_eq_mul, mul_div_cancel₀ _ hnK] at hlt
  exact lt_irrefl _ hlt

/-- C113. However else the same problems are distributed over the ranks, some rank has at least the work of the busiest rank after
balancing minus `n - 1` times the larger of one per cent of the mean and the longest problem (and `n` times `SMALL`). -/
theorem C113_near_the_best_distribution {n : Nat} (hn : 0 < n) {sort : List (ChemistryLoad K) → List (ChemistryLoad K)}
    (hsort : Sorts sort) (problems : Fin n → List (ChemistryProblem K)) (parRun : Bool) (hpar : parRun = true ∨ n = 1) (g : K)
    (hg : 0 ≤ g) (hp : ∀ r, ∀ p ∈ problems r, 0 ≤ p.cpuTime ∧ p.cpuTime ≤ g) :
    ∃ st split, splitProblems parRun sort problems = .ok (st, split) ∧
      ∀ other : Fin n → List (ChemistryProblem K),
        (∑ s, (↑(other s) : Multiset (ChemistryProblem K))) = ∑ s, (↑(problems s) : Multiset (ChemistryProblem K)) →
        ∃ s, ∀ r, workOf ((split r).own ++ (split r).guests.flatten) ≤
          workOf (other s) + ((n - 1 : Nat) : K) * max (workOf (other s) / 100) g + (n : K) / 10 ^ 15 := by
  obtain ⟨st, split, h1, h2⟩ := C113_work_near_the_mean hn hsort problems parRun hpar g hg hp
  refine ⟨st, split, h1, fun other ho => ?_⟩
  have hw : ∑ s, workOf (other s) = ∑ s, workOf (problems s) := by
    have key : ∀ q : Fin n → List (ChemistryProblem K),
        ∑ s, workOf (q s) = ((∑ s, (↑(q s) : Multiset (ChemistryProblem K))).map (·.cpuTime)).sum := by
      intro q
      rw [← Multiset.coe_mapAddMonoidHom, ← Multiset.coe_sumAddMonoidHom, map_sum, map_sum]
      refine Finset.sum_congr rfl fun s _ => ?_
      simp [workOf]
    rw [key, key, ho]
  obtain ⟨s, hs⟩ := mean_le_some hn fun s => workOf (other s)
  refine ⟨s, fun r => ?_⟩
  have h3 := (abs_le.1 (h2 r)).2
  rw [← hw] at h3
  have h4 : max ((∑ s, workOf (other s)) / (n : K) / 100) g ≤ max (workOf (other s) / 100) g :=
    max_le_max (by linarith) le_rfl
  have h5 := mul_le_mul_of_nonneg_left h4 (Nat.cast_nonneg (α := K) (n - 1))
  linarith

/-- C113. The bound is attained with any number of ranks: the mean work is 100, every problem takes 1, the first rank has `100 + (n - 1)`
and keeps it all, because each of the `n - 1` transfers would be one per cent of the mean. -/
theorem C113_bound_is_attained {n : Nat} (hn : 0 < n) {sort : List (ChemistryLoad K) → List (ChemistryLoad K)} (hsort : Sorts sort)
    (p : ChemistryProblem K) (hp : p.cpuTime = 1) (problems : Fin n → List (ChemistryProblem K))
    (hq : ∀ r, problems r = List.replicate (if r.val = 0 then 100 + (n - 1) else 99) p) :
    (∑ s, workOf (problems s)) / n = 100 ∧ workOf (problems ⟨0, hn⟩) = 100 + ((n - 1 : Nat) : K) ∧
    ∃ st, splitProblems true sort problems = .ok (st, fun r => ⟨problems r, []⟩) := by
  have hw : ∀ r : Fin n, workOf (problems r) = if r.val = 0 then 100 + ((n - 1 : Nat) : K) else 99 := by
    intro r
    rw [hq r]
    unfold workOf
    rw [List.map_replicate, List.sum_replicate, hp, nsmul_eq_mul, mul_one]
    split <;> norm_num
  have hmean0 : (∑ s, workOf (problems s)) = (n : K) * 100 := by
    obtain ⟨m, rfl⟩ : ∃ m, n = m + 1 := ⟨n - 1, by omega⟩
    rw [Finset.sum_congr rfl fun r _ => hw r, Fin.sum_univ_succ]
    simp only [Fin.val_zero, if_true, Fin.val_succ, Nat.add_one_ne_zero, if_false, Finset.sum_const, Finset.card_univ, Fintype.card_fin,
      nsmul_eq_mul]
    push_cast [Nat.add_sub_cancel]
    ring
  have hnK : (n : K) ≠ 0 := by exact_mod_cast hn.ne'
  have hm : (∑ s, workOf (problems s)) / n = 100 := by rw [hmean0, mul_div_cancel_left₀ _ hnK]
  refine ⟨hm, by rw [hw]; simp, ?_⟩
  obtain ⟨plan, hok, hbig, hops, -, hs⟩ := splitProblems_plan hn sort hsort.perm problems true (.inl rfl)
  have hl := gatherLoads_length problems
  have hr := gatherLoads_ranks problems
  have hval : ∀ r : Fin n, (computeLoad r.val (problems r)).value = workOf (problems r) := by
    intro r
    simp only [computeLoad, workOf]
    rw [foldl_add_sum ChemistryProblem.cpuTime, zero_add]
  have hmean : meanLoad (gatherLoads problems) = 100 := by
    rw [← hm]
    unfold meanLoad
    rw [hl]
    unfold gatherLoads
    rw [List.map_ofFn, List.sum_ofFn]
    congr 1
    exact Finset.sum_congr rfl (fun r _ => hval r)
  have hloads : ∀ l ∈ gatherLoads problems, 0 ≤ l.value := by
    intro l hl
    obtain ⟨r, rfl⟩ := (List.mem_ofFn' _ _).1 hl
    rw [hval r]
    exact workOf_nonneg fun q h => by rw [hq r] at h; rw [List.eq_of_mem_replicate h, hp]; exact zero_le_one
  have hplan : plan = [] := by
    refine List.eq_nil_iff_forall_not_mem.2 fun op hop => ?_
    have hdst : op.dst < n := by simpa using hok.dst_mem op hop
    obtain ⟨ops, ho, -, -, -, hrecv, -⟩ := C15_never_past_the_mean hsort (gatherLoads problems)
      (by rw [hr]; exact List.nodup_range) hloads (computeLoad op.dst (problems ⟨op.dst, hdst⟩)) ((List.mem_ofFn' _ _).2 ⟨⟨op.dst, hdst⟩, rfl⟩)
    rw [hl, show (computeLoad op.dst (problems ⟨op.dst, hdst⟩)).rank = op.dst from rfl, hops op.dst n (by omega)] at ho
    obtain rfl := Except.ok.inj ho
    rw [show (computeLoad op.dst (problems ⟨op.dst, hdst⟩)).rank = op.dst from rfl, hval ⟨op.dst, hdst⟩, hmean, hw] at hrecv
    have h1 := hbig op hop
    rw [getMean_eq, hmean] at h1
    simp only [Consts.filterFrac] at h1
    have h2 : op.value ≤ receivedBy (plan.filter (involves op.dst)) op.dst := by
      unfold receivedBy
      refine List.single_le_sum ?_ _ (List.mem_map.2 ⟨op, ?_, rfl⟩)
      · intro x hx
        obtain ⟨o, ho, rfl⟩ := List.mem_map.1 hx
        have := hbig o (List.mem_of_mem_filter (List.mem_of_mem_filter ho))
        rw [getMean_eq] at this
        exact (lt_of_le_of_lt (filterFrac_nonneg hloads).2 this).le
      · simp [hop, involves]
    have h3 : (0 : K) ≤ ((n - 1 : Nat) : K) := Nat.cast_nonneg _
    have h4 : max (100 - if (⟨op.dst, hdst⟩ : Fin n).val = 0 then 100 + ((n - 1 : Nat) : K) else 99) 0 ≤ 1 := by
      refine max_le ?_ zero_le_one
      split <;> linarith
    linarith
  subst hplan
  exact ⟨_, hs⟩

/-- Rank 2 of three gets one problem of 3 in the example: work 7, 2, 0 becomes 3, 3, 3; the theorem allows `2 * 3`. -/
example : ∃ st split, splitProblems true Example.sort Example.problems = .ok (st, split) ∧ ∀ r,
    |workOf ((split r).own ++ (split r).guests.flatten) - (∑ s, workOf (Example.problems s)) / (3 : Nat)| ≤
      ((3 - 1 : Nat) : ℚ) * max ((∑ s, workOf (Example.problems s)) / (3 : Nat) / 100) 3 + ((3 : Nat) : ℚ) / 10 ^ 15 :=
  C113_work_near_the_mean (by norm_num) Example.sorts Example.problems true (.inl rfl) 3 (by norm_num) (by decide +kernel)

end DLB
