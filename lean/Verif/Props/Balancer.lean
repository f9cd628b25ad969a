import Verif.Lemmas.World
import Verif.Props.ExampleData
import Mathlib.Algebra.BigOperators.Fin
import Mathlib.Algebra.Order.BigOperators.Group.Multiset
/-
Structural properties of the load balancer: C01-C07, C11, C18.
All theorems hold for *any* arithmetic: `S` has operations but no laws.
`hsort` is all that is used of `std::sort` here: it permutes the list.
-/
set_option autoImplicit false
set_option linter.unusedSectionVars false

namespace DLB

variable {S : Type} [Zero S] [Add S] [Sub S] [Mul S] [Div S] [Neg S] [NatCast S]
variable [LT S] [DecidableLT S] [LE S] [DecidableLE S] [Consts S]

/-! ### C01 -/

/-- C01.  `updateState` succeeds on all ranks, and rank `s` names rank `r` as destination
exactly as often as `r` names `s` as source, which is at most once. -/
theorem C01_senders_and_receivers_agree {n : Nat} (hn : 0 < n)
    (sort : List (ChemistryLoad S) → List (ChemistryLoad S)) (hsort : ∀ l, (sort l).Perm l)
    (problems : Fin n → List (ChemistryProblem S)) :
    ∃ st, updateStates sort problems = .ok st ∧
      ∀ r s : Fin n, (st s).destinations.count r.val = (st r).sources.count s.val ∧
        (st s).destinations.count r.val ≤ 1 := by
  obtain ⟨plan, hok, -, -, hst⟩ := updateStates_plan hn sort hsort problems
  refine ⟨_, hst, fun r s => ?_⟩
  have h1 := hok.dst_nodup s.val
  have h2 := hok.src_nodup r.val
  have hm := hok.matching r.val s.val
  simp only [stateOf]
  by_cases h : r.val ∈ (sends plan s.val).map (·.dst)
  · rw [List.count_eq_one_of_mem h1 h, List.count_eq_one_of_mem h2 (hm.1 h)]
    simp
  · rw [List.count_eq_zero_of_not_mem h, List.count_eq_zero_of_not_mem (fun hc => h (hm.2 hc))]
    simp

/-- Three ranks with loads 7, 2, 0: rank 0 sends to ranks 2 and 1. -/
example : (updateStates Example.sort Example.problems).toOption.map List.ofFn =
    some [⟨[], [2, 1], [3, 1], 1⟩, ⟨[0], [], [], 1⟩, ⟨[0], [], [], 1⟩] := by decide +kernel

/-! ### C02 -/

/-- C02, first part.  No rank both sends and receives. -/
theorem C02_never_sender_and_receiver {n : Nat} (hn : 0 < n)
    (sort : List (ChemistryLoad S) → List (ChemistryLoad S)) (hsort : ∀ l, (sort l).Perm l)
    (problems : Fin n → List (ChemistryProblem S)) :
    ∃ st, updateStates sort problems = .ok st ∧
      ∀ r, (st r).sources = [] ∨ (st r).destinations = [] := by
  obtain ⟨plan, hok, -, -, hst⟩ := updateStates_plan hn sort hsort problems
  refine ⟨_, hst, fun r => ?_⟩
  simp only [stateOf]
  rcases involves_cases hok r.val with ⟨-, h⟩ | ⟨-, h⟩
  · left; simp [h]
  · right; simp [h]

/-- C02, second part.  The operations of a rank are all outgoing or all incoming, and the
classification by `isSender` is exact: a rank with operations is a sender iff one of its
operations starts there, iff all do. -/
theorem C02_classification {n : Nat} (hn : 0 < n)
    (sort : List (ChemistryLoad S) → List (ChemistryLoad S)) (hsort : ∀ l, (sort l).Perm l)
    (problems : Fin n → List (ChemistryProblem S)) (me : Nat) :
    ∃ ops, getOperations sort n (gatherLoads problems) me = .ok ops ∧
      ((∀ op ∈ ops, op.src = me ∧ op.dst ≠ me) ∨ (∀ op ∈ ops, op.dst = me ∧ op.src ≠ me)) ∧
      (isSender ops me = true ↔ ∃ op ∈ ops, op.src = me) := by
  obtain ⟨plan, hok, -, hops, -⟩ := updateStates_plan hn sort hsort problems
  refine ⟨_, hops me n (by omega), ?_, ?_⟩
  · rcases involves_cases hok me with ⟨h1, h2⟩ | ⟨h1, h2⟩
    · left
      rw [h1]
      intro op hop
      have h := List.mem_filter.1 hop
      refine ⟨by simpa using h.2, fun hd => ?_⟩
      have : op ∈ recvs plan me := List.mem_filter.2 ⟨h.1, by simp [hd]⟩
      simp [h2] at this
    · right
      rw [h1]
      intro op hop
      have h := List.mem_filter.1 hop
      refine ⟨by simpa using h.2, fun hd => ?_⟩
      have : op ∈ sends plan me := List.mem_filter.2 ⟨h.1, by simp [hd]⟩
      simp [h2] at this
  · rw [isSender_sends hok]
    constructor
    · intro h
      have hne : sends plan me ≠ [] := by
        intro he; simp [he] at h
      obtain ⟨op, hop⟩ := List.exists_mem_of_ne_nil _ hne
      have h := List.mem_filter.1 hop
      have hs : op.src = me := by simpa using h.2
      exact ⟨op, List.mem_filter.2 ⟨h.1, by simp [involves, hs]⟩, hs⟩
    · rintro ⟨op, hop, hs⟩
      have : op ∈ sends plan me := List.mem_filter.2 ⟨(List.mem_filter.1 hop).1, by simp [hs]⟩
      cases he : sends plan me with
      | nil => simp [he] at this
      | cons a l => simp

/-- C02, third part.  The debug assertion of LoadBalancer.C:153-156, evaluated on the
operations before filtering, never fires. -/
theorem C02_assertion_holds {n : Nat} (hn : 0 < n)
    (sort : List (ChemistryLoad S) → List (ChemistryLoad S)) (hsort : ∀ l, (sort l).Perm l)
    (problems : Fin n → List (ChemistryProblem S)) (me : Nat) :
    ∃ st, runPlan sort n (gatherLoads problems) me = .ok st ∧
      ¬ (isSender st.operations me = true ∧ isReceiver st.operations me = true) := by
  have hl := gatherLoads_length problems
  have hr := gatherLoads_ranks problems
  obtain ⟨rk, v, tr, v', loads', hh, -, hrun, hplan, -⟩ :=
    getOperations_run sort hsort (gatherLoads problems)
      (by intro h; rw [h] at hl; simp at hl; omega)
  obtain ⟨m, hm⟩ := hplan me n (by omega)
  refine ⟨_, hm, ?_⟩
  have hp : ((sort (gatherLoads problems)).map (·.rank)).Perm (List.range n) := by
    rw [← hr]; exact (hsort _).map _
  rw [hl] at hh hrun
  have hok := planOK_of_run hh (hp.nodup_iff.2 List.nodup_range) hn hrun
  rintro ⟨h1, h2⟩
  simp only at h1 h2
  unfold isSender at h1
  split at h1
  · simp at h1
  · next hne =>
    obtain ⟨op, hop⟩ : ∃ op, op ∈ (tr.map (toOp rk)).filter (involves me) := by
      cases he : (tr.map (toOp rk)).filter (involves me) with
      | nil => simp [he] at hne
      | cons a l => exact ⟨a, by simp⟩
    have a1 := List.all_eq_true.1 h1 op hop
    have a2 := List.all_eq_true.1 h2 op hop
    have hmem := (List.mem_filter.1 hop).1
    refine hok.roles op hmem op hmem ?_
    simp only [beq_iff_eq] at a1 a2
    rw [a1, a2]

/-- Rank 0 has two outgoing operations, rank 1 one incoming. -/
example : ((getOperations Example.sort 3 (gatherLoads Example.problems) 0).toOption =
      some [⟨0, 2, 3⟩, ⟨0, 1, 1⟩]) ∧
    ((getOperations Example.sort 3 (gatherLoads Example.problems) 1).toOption =
      some [⟨0, 1, 1⟩]) := by decide +kernel

/-! ### C03 -/

/-- C03.  Peers are pairwise distinct, existing ranks other than the rank itself. -/
theorem C03_peers_distinct_and_valid {n : Nat} (hn : 0 < n)
    (sort : List (ChemistryLoad S) → List (ChemistryLoad S)) (hsort : ∀ l, (sort l).Perm l)
    (problems : Fin n → List (ChemistryProblem S)) :
    ∃ st, updateStates sort problems = .ok st ∧ ∀ r : Fin n,
      (st r).destinations.Nodup ∧ (st r).sources.Nodup ∧
      (∀ d ∈ (st r).destinations, d < n ∧ d ≠ r.val) ∧
      (∀ s ∈ (st r).sources, s < n ∧ s ≠ r.val) := by
  obtain ⟨plan, hok, -, -, hst⟩ := updateStates_plan hn sort hsort problems
  refine ⟨_, hst, fun r => ⟨hok.dst_nodup r, hok.src_nodup r,
    fun d hd => ⟨hok.dst_lt r d hd, ?_⟩, fun d hd => ⟨hok.src_lt r d hd, ?_⟩⟩⟩
  · rintro rfl
    obtain ⟨op, hop, he⟩ := List.mem_map.1 hd
    have h := List.mem_filter.1 hop
    refine hok.roles op h.1 op h.1 ?_
    have : op.src = r.val := by simpa using h.2
    rw [this, he]
  · rintro rfl
    obtain ⟨op, hop, he⟩ := List.mem_map.1 hd
    have h := List.mem_filter.1 hop
    refine hok.roles op h.1 op h.1 ?_
    have : op.dst = r.val := by simpa using h.2
    rw [this, he]

/-- Rank 0 of the example has two distinct destinations. -/
example : (updateStates Example.sort Example.problems).toOption.map
    (fun st => (st 0).destinations) = some [2, 1] := by decide +kernel

/-! ### C04 -/

/-- C04, termination and memory safety: for `n ≥ 1` loads the loop finishes (no undefined
behaviour, no exhaustion of fuel) within `n - 1` iterations, and not earlier. -/
theorem C04_planning_terminates (sort : List (ChemistryLoad S) → List (ChemistryLoad S))
    (hsort : ∀ l, (sort l).Perm l) (loads : List (ChemistryLoad S)) (hne : loads ≠ [])
    (me : Nat) :
    (∀ fuel, loads.length - 1 ≤ fuel → ∃ ops, getOperations sort fuel loads me = .ok ops ∧
      ops.length ≤ loads.length - 1) ∧
    (∀ fuel, fuel < loads.length - 1 →
      getOperations sort fuel loads me = .error .outOfFuel) := by
  constructor
  · intro fuel hf
    obtain ⟨rk, v, tr, v', loads', hh, -, hrun, -, hops⟩ := getOperations_run sort hsort loads hne
    refine ⟨_, hops me fuel hf, ?_⟩
    have h1 := hrun.length
    refine Nat.le_trans List.filter_sublist.length_le
      (Nat.le_trans List.filter_sublist.length_le ?_)
    simp [h1]
  · intro fuel hf
    have hlen : (sort loads).length = loads.length := (hsort loads).length_eq
    unfold getOperations runPlan
    have : ¬ (sort loads).length = 0 := by omega
    simp only [this, if_false]
    rw [planLoop_short (getMean loads) me fuel _ _ _ _ _ _ _ (holds_of_list (sort loads))
      (by omega) (by omega) (by omega)]
    rfl

/-- C04, the excluded case: without any load the behaviour is undefined. -/
theorem C04_no_ranks_is_undefined (sort : List (ChemistryLoad S) → List (ChemistryLoad S))
    (hsort : ∀ l, (sort l).Perm l) (fuel me : Nat) :
    getOperations sort fuel [] me = .error .ub := by
  have : (sort []).length = 0 := (hsort []).length_eq
  simp [getOperations, runPlan, this, bind, Except.bind]

/-- C04, consequence: the state is valid in the sense of LoadBalancerBase.C:90-100. -/
theorem C04_state_valid {n : Nat} (hn : 0 < n)
    (sort : List (ChemistryLoad S) → List (ChemistryLoad S)) (hsort : ∀ l, (sort l).Perm l)
    (problems : Fin n → List (ChemistryProblem S)) :
    ∃ st, updateStates sort problems = .ok st ∧ ∀ r, validState n (st r) = true := by
  obtain ⟨plan, hok, -, -, hst⟩ := updateStates_plan hn sort hsort problems
  refine ⟨_, hst, fun r => ?_⟩
  have h0 := hok.length_le
  have h1 : (sends plan r.val).length ≤ plan.length := List.filter_sublist.length_le
  have h2 : (recvs plan r.val).length ≤ plan.length := List.filter_sublist.length_le
  simp only [List.length_range] at h0
  simp only [validState, stateOf, List.length_map]
  rw [if_neg (by omega), if_neg (by omega)]

/-- C04, the check of LoadBalancerBase.C:90-100 fails exactly if there are more sources or more
destinations than ranks. -/
theorem C04_validity_check (n : Nat) (st : BalancerState) :
    validState n st = false ↔ n < st.sources.length ∨ n < st.destinations.length := by
  unfold validState
  split
  · next h => simp [h]
  · next h => simp [h]

/-- Four loads need three iterations. -/
example : (getOperations Example.sort 3 [⟨0, 5⟩, ⟨1, 1⟩, ⟨2, 1⟩, ⟨3, (1 : ℚ)⟩] 0).toOption =
      some [⟨0, 1, 1⟩, ⟨0, 2, 1⟩, ⟨0, 3, 1⟩] ∧
    (getOperations Example.sort 2 [⟨0, 5⟩, ⟨1, 1⟩, ⟨2, 1⟩, ⟨3, (1 : ℚ)⟩] 0).toOption = none := by
  decide +kernel

/-! ### C05 -/

/-- `info` splits `problems` into the blocks `bs` for its destinations and the rest `own`. -/
structure SplitsAs {α : Type} (info : BalancerState) (problems : List α) (bs : List (List α))
    (own : List α) : Prop where
  /-- one count per destination, and it is the size of the block -/
  counts : info.nProblems = bs.map (fun b => (b.length : Int))
  one_each : bs.length = info.destinations.length
  /-- the blocks are what `send_buffer[i]` yields, without undefined behaviour -/
  block : ∀ i (h : i < bs.length), sendBufferAt problems info.nProblems i = .ok bs[i]
  /-- the rest is what `getRemaining` yields, without undefined behaviour -/
  remaining : getRemaining info problems = .ok own
  nRemaining : info.nRemaining = own.length
  /-- nothing lost, nothing duplicated, order kept -/
  partition : bs.flatten ++ own = problems

omit [Sub S] [Mul S] [Div S] [Neg S] [NatCast S] [LT S] [DecidableLT S] [Consts S] in
theorem splitsAs_operationsToInfo (ops : List (Operation S)) (me : Nat)
    (problems : List (ChemistryProblem S)) :
    ∃ bs own, SplitsAs (operationsToInfo ops problems me) problems bs own := by
  unfold operationsToInfo
  by_cases h : isSender ops me = true
  · rw [if_pos h]
    refine ⟨blocks (ops.map (·.value)) problems, rest (ops.map (·.value)) problems, ?_⟩
    have e := blocks_flatten (ops.map (·.value)) problems
    have hl : (problems.length : Int) - (blocks (ops.map (·.value)) problems).flatten.length =
        (rest (ops.map (·.value)) problems).length := by
      have := congrArg List.length e
      rw [List.length_append] at this
      omega
    refine ⟨counts_eq _ _, by simp [blocks_length], ?_, ?_, ?_, e⟩
    · intro i hi
      have := sendBufferAt_blocks _ (rest (ops.map (·.value)) problems) i hi
      rw [e] at this
      simp only [counts_eq]
      exact this
    · have := getRemaining_rest (blocks (ops.map (·.value)) problems)
        (rest (ops.map (·.value)) problems)
        { sources := [], destinations := ops.map (·.dst),
          nProblems := timesToProblemCounts (ops.map (·.value)) problems,
          nRemaining := problems.length -
            (timesToProblemCounts (ops.map (·.value)) problems).foldl (· + ·) 0 }
        (by simp only [counts_eq, sum_lengths]; rw [e])
      rwa [e] at this
    · simp only [counts_eq, sum_lengths]
      exact hl
  · rw [if_neg h]
    refine ⟨[], problems, ⟨rfl, rfl, by simp, ?_, rfl, rfl⟩⟩
    have := subList_ok problems problems.length 0 (by omega)
    simpa [getRemaining] using this

/-- C05.  For every list of operations and every list of problems (hence for every state
`updateState` can produce) the state splits the problems without loss or overlap, in order,
and no slice is out of bounds. -/
theorem C05_counts_partition_problems (ops : List (Operation S)) (me : Nat)
    (problems : List (ChemistryProblem S)) :
    ∃ bs own, SplitsAs (operationsToInfo ops problems me) problems bs own :=
  splitsAs_operationsToInfo ops me problems

/-- C05, for the states of all ranks after `updateState`. -/
theorem C05_states_partition_problems {n : Nat} (hn : 0 < n)
    (sort : List (ChemistryLoad S) → List (ChemistryLoad S)) (hsort : ∀ l, (sort l).Perm l)
    (problems : Fin n → List (ChemistryProblem S)) :
    ∃ st, updateStates sort problems = .ok st ∧
      ∀ r, ∃ bs own, SplitsAs (st r) (problems r) bs own := by
  obtain ⟨plan, hok, -, -, hst⟩ := updateStates_plan hn sort hsort problems
  refine ⟨_, hst, fun r => ?_⟩
  have := splitsAs_operationsToInfo (plan.filter (involves r.val)) r.val (problems r)
  rw [operationsToInfo_plan hok] at this
  exact this

/-- Rank 0 of the example: blocks of 3 and 1 problems, one problem kept. -/
example : (sendBufferAt (Example.problems 0) [3, 1] 0).toOption =
      some [Example.prob 1 0, Example.prob 1 1, Example.prob 1 2] ∧
    (sendBufferAt (Example.problems 0) [3, 1] 1).toOption = some [Example.prob 1 3] ∧
    (getRemaining ⟨[], [2, 1], [3, 1], 1⟩ (Example.problems 0)).toOption =
      some [Example.prob 3 4] := by decide +kernel

/-! ### C06 -/

omit [Zero S] [Add S] [Sub S] [Mul S] [Div S] [Neg S] [NatCast S] [LT S] [DecidableLT S]
  [LE S] [DecidableLE S] [Consts S] in
theorem sum_filter_ranks {n : Nat} {β : Type} (key : Operation S → Nat)
    (f : Operation S → Multiset β) : ∀ (plan : List (Operation S)),
    (∀ op ∈ plan, key op < n) →
    ∑ r : Fin n, ((plan.filter (fun op => key op == r.val)).map f).sum = (plan.map f).sum
  | [], _ => by simp
  | op :: plan, h => by
    have ih := sum_filter_ranks key f plan (fun o ho => h o (by simp [ho]))
    have hlt := h op (by simp)
    have : ∀ r : Fin n, (((op :: plan).filter (fun op => key op == r.val)).map f).sum =
        (if r = ⟨key op, hlt⟩ then f op else 0) +
          ((plan.filter (fun op => key op == r.val)).map f).sum := by
      intro r
      by_cases hr : key op = r.val
      · have : r = ⟨key op, hlt⟩ := Fin.ext hr.symm
        rw [List.filter_cons_of_pos (by simpa using hr), if_pos this]
        simp
      · have : ¬ r = ⟨key op, hlt⟩ := fun he => hr (by rw [he])
        rw [List.filter_cons_of_neg (by simpa using hr), if_neg this, zero_add]
    rw [Finset.sum_congr rfl (fun r _ => this r), Finset.sum_add_distrib, ih]
    simp

omit [Sub S] [Mul S] [Div S] [Neg S] [NatCast S] [LT S] [DecidableLT S] [Consts S] in
theorem sum_guests {n : Nat} {plan : List (Operation S)} (hok : PlanOK (List.range n) plan)
    (problems : Fin n → List (ChemistryProblem S)) :
    ∑ r : Fin n, (↑(guestsOf plan problems r.val).flatten : Multiset (ChemistryProblem S)) =
      ∑ r : Fin n, ↑(blocksOf plan r.val (problems r)).flatten := by
  let f : Operation S → Multiset (ChemistryProblem S) := fun op =>
    ↑((blocksOf plan op.src (extend problems op.src)).getD
      (((sends plan op.src).map (·.dst)).idxOf op.dst) [])
  have flat : ∀ bs : List (List (ChemistryProblem S)),
      (↑bs.flatten : Multiset (ChemistryProblem S)) = (bs.map Multiset.ofList).sum := by
    intro bs
    induction bs with
    | nil => simp
    | cons b bs ih => rw [List.flatten_cons, ← Multiset.coe_add, ih, List.map_cons, List.sum_cons]
  have h1 : ∀ r : Fin n, (↑(guestsOf plan problems r.val).flatten : Multiset _) =
      ((plan.filter (fun op => op.dst == r.val)).map f).sum := by
    intro r
    rw [flat]
    unfold guestsOf
    rw [List.map_map, List.map_map]
    congr 1
    apply List.map_congr_left
    intro op hop
    have : op.dst = r.val := by simpa using (List.mem_filter.1 hop).2
    simp [f, this]
  have h2 : ∀ r : Fin n, (↑(blocksOf plan r.val (problems r)).flatten : Multiset _) =
      ((plan.filter (fun op => op.src == r.val)).map f).sum := by
    intro r
    rw [flat]
    congr 1
    apply List.ext_getElem
    · simp [blocksOf_length, sends]
    · intro i hi1 hi2
      have hi : i < (sends plan r.val).length := by simpa [sends] using hi2
      have hsrc : ((sends plan r.val)[i]).src = r.val := by
        have := List.getElem_mem hi
        simpa using (List.mem_filter.1 this).2
      have hidx : ((sends plan r.val).map (·.dst)).idxOf ((sends plan r.val)[i]).dst = i := by
        have := (hok.dst_nodup r.val).idxOf_getElem i (by simpa using hi)
        simpa using this
      have hi' : i < (blocksOf plan r.val (problems r)).length := by
        rw [blocksOf_length]; exact hi
      simp only [List.getElem_map]
      show _ = f ((sends plan r.val)[i])
      simp only [f, hsrc, hidx, extend_val, List.getD_eq_getElem?_getD,
        List.getElem?_eq_getElem hi', Option.getD_some]
  rw [Finset.sum_congr rfl (fun r _ => h1 r), Finset.sum_congr rfl (fun r _ => h2 r)]
  rw [sum_filter_ranks (·.dst) f plan (fun op ho => List.mem_range.1 (hok.dst_mem op ho)),
    sum_filter_ranks (·.src) f plan (fun op ho => List.mem_range.1 (hok.src_mem op ho))]

/-- C06.  The problems the ranks solve (own ones plus guests), taken together, are the problems
the ranks submitted, taken together, with multiplicity. -/
theorem C06_every_problem_solved_exactly_once {n : Nat} (hn : 0 < n)
    (sort : List (ChemistryLoad S) → List (ChemistryLoad S)) (hsort : ∀ l, (sort l).Perm l)
    (problems : Fin n → List (ChemistryProblem S)) (parRun : Bool)
    (hpar : parRun = true ∨ n = 1) :
    ∃ st split, splitProblems parRun sort problems = .ok (st, split) ∧
      ∑ r, (↑((split r).own ++ (split r).guests.flatten) : Multiset (ChemistryProblem S)) =
        ∑ r, ↑(problems r) := by
  obtain ⟨plan, hok, -, -, -, hs⟩ := splitProblems_plan hn sort hsort problems parRun hpar
  refine ⟨_, _, hs, ?_⟩
  have hg := sum_guests hok problems
  calc ∑ r : Fin n, (↑(restOf plan r.val (problems r) ++
          (guestsOf plan problems r.val).flatten) : Multiset (ChemistryProblem S))
      = ∑ r : Fin n, (↑(restOf plan r.val (problems r)) : Multiset _) +
          ∑ r : Fin n, ↑(guestsOf plan problems r.val).flatten := by
        rw [← Finset.sum_add_distrib]; rfl
    _ = ∑ r : Fin n, (↑(restOf plan r.val (problems r)) +
          ↑(blocksOf plan r.val (problems r)).flatten) := by rw [hg, Finset.sum_add_distrib]
    _ = ∑ r : Fin n, ↑(problems r) := by
        refine Finset.sum_congr rfl (fun r _ => ?_)
        rw [Multiset.coe_add, Multiset.coe_eq_coe]
        refine List.perm_append_comm.trans ?_
        rw [blocksOf_flatten]

/-- In the example rank 2 solves its own problem and three guests. -/
example : (splitProblems true Example.sort Example.problems).toOption.map
      (fun x => ((x.2 2).own, (x.2 2).guests)) =
    some ([Example.prob 0 0], [[Example.prob 1 0, Example.prob 1 1, Example.prob 1 2]]) := by
  decide +kernel

/-! ### C07 -/

omit [Zero S] [Add S] [Neg S] [NatCast S] [LE S] [DecidableLE S] in
theorem Solves.cellid {M : ChemModel S} {p : ChemistryProblem S} {s : ChemistrySolution S}
    (h : Solves M p s) : s.cellid = p.cellid := by
  obtain ⟨t, h⟩ := h
  unfold solveSingle at h
  revert h
  cases subStepLoop M.integrate M.fuel p.pi p.Ti p.c p.deltaTChem p.deltaT with
  | error e => intro h; simp [bind, Except.bind] at h
  | ok x =>
    simp only [bind, Except.bind]
    split
    · intro h
      simp only [Except.ok.injEq] at h
      subst h
      rfl
    · intro h; simp at h

/-- C07.  In the balanced branch the incoming solutions of rank `r`, concatenated, are in
one-to-one correspondence, in order, with the problems of `r`: each is what `solveSingle`
computes for that problem (for some clock reading) and names that problem's cell.  The step
succeeds exactly if every problem of every rank can be solved. -/
theorem C07_solutions_come_home {n : Nat} (hn : 0 < n) (M : ChemModel S)
    (sort : List (ChemistryLoad S) → List (ChemistryLoad S)) (hsort : ∀ l, (sort l).Perm l)
    (problems : Fin n → List (ChemistryProblem S)) (parRun : Bool)
    (hpar : parRun = true ∨ n = 1) (clk : Fin n → Nat → S) :
    (∀ inc, solveBalanced M parRun sort clk problems = .ok inc → ∀ r,
      List.Forall₂ (fun p s => ∃ t, solveSingle M t p = .ok s) (problems r) (inc r).flatten ∧
      (inc r).flatten.map (·.cellid) = (problems r).map (·.cellid)) ∧
    ((∃ inc, solveBalanced M parRun sort clk problems = .ok inc) ↔
      ∀ r, ∀ p ∈ problems r, ∃ t s, solveSingle M t p = .ok s) := by
  obtain ⟨h1, h2⟩ := solveBalanced_spec hn M sort hsort problems parRun hpar clk
  refine ⟨fun inc h r => ⟨h1 inc h r, ?_⟩, ?_⟩
  · have := h1 inc h r
    generalize problems r = ps at this
    generalize (inc r).flatten = ss at this
    induction this with
    | nil => rfl
    | cons ha _ ih => simp [ha.cellid, ih]
  · rw [h2]
    refine forall_congr' fun r => forall_congr' fun p => forall_congr' fun _ => ?_
    exact exists_comm

/-- A model whose integrator adds the elapsed time to the first mass fraction. -/
def Example.model : ChemModel ℚ :=
  { chemistry := true, nSpecie := 2, deltaTChemMax := 1, fuel := 3, active := true,
    integrate := fun p T c dt sub =>
      .ok ⟨p, T, (match c with | [] => [] | x :: xs => (x + dt) :: xs), dt, sub⟩,
    mapper := ⟨false, 0, 0, ⟨[], 0, 0⟩⟩ }

/-- In the example the five solutions of rank 0 come back in order in three lists, with the
times measured on the ranks that solved them (`clk r k = 10*r + k`). -/
example : (solveBalanced Example.model true Example.sort (fun r k => 10 * (r.val : ℚ) + k)
      Example.problems).toOption.map (fun inc => (inc 0).map (·.map (fun s => (s.cellid, s.cpuTime)))) =
    some [[(0, 22), (1, 23), (2, 24)], [(3, 12)], [(4, 1)]] := by decide +kernel

/-! ### C11 -/

/-- CPU time of a list of problems, accumulated from the left as the code does. -/
def accTime (ps : List (ChemistryProblem S)) : S := ps.foldl (fun sum p => sum + p.cpuTime) 0

omit [Zero S] [Sub S] [Mul S] [Div S] [Neg S] [NatCast S] [LT S] [DecidableLT S] [Consts S] in
theorem countWhile_time (time : S) : ∀ (ps : List (ChemistryProblem S)) (acc : S),
    let cnt := countWhile (fun (sum : S) (p : ChemistryProblem S) =>
      (decide (sum + p.cpuTime ≤ time), sum + p.cpuTime)) acc ps
    (∀ pre, pre <+: ps.take cnt → pre ≠ [] →
      pre.foldl (fun sum p => sum + p.cpuTime) acc ≤ time) ∧
    (∀ p tl, ps.drop cnt = p :: tl →
      ¬ (ps.take cnt ++ [p]).foldl (fun sum p => sum + p.cpuTime) acc ≤ time)
  | [], acc => by simp [countWhile]
  | p :: ps, acc => by
    have ih := countWhile_time time ps (acc + p.cpuTime)
    simp only at ih ⊢
    unfold countWhile
    by_cases h : acc + p.cpuTime ≤ time
    · simp only [h, decide_true, List.take_succ_cons, List.drop_succ_cons]
      refine ⟨fun pre hpre hne => ?_, fun q tl hq => ?_⟩
      · cases pre with
        | nil => exact absurd rfl hne
        | cons a pre =>
          obtain ⟨rfl, hpre⟩ := List.cons_prefix_cons.1 hpre
          simp only [List.foldl_cons]
          by_cases hn : pre = []
          · subst hn; exact h
          · exact ih.1 pre hpre hn
      · simpa using ih.2 q tl hq
    · simp only [h, decide_false, List.take_zero, List.drop_zero, List.nil_append]
      refine ⟨fun pre hpre hne => absurd (List.prefix_nil.1 hpre) hne, fun q tl hq => ?_⟩
      simp only [List.cons.injEq] at hq
      obtain ⟨rfl, -⟩ := hq
      simpa using h

/-- C11.  For every list of times and problems there are blocks `bs` of the sizes computed by
`timesToProblemCounts`, consecutive from the start of the list, such that for each time
`times[i]`: every non-empty prefix of the `i`-th block accumulates to at most `times[i]`, and
if a problem follows the block then including it would exceed `times[i]`. -/
theorem C11_transfer_fits_and_is_maximal : ∀ (times : List S) (problems : List (ChemistryProblem S)),
    ∃ (bs : List (List (ChemistryProblem S))) (own : List (ChemistryProblem S)),
      timesToProblemCounts times problems = bs.map (fun b => (b.length : Int)) ∧
      bs.flatten ++ own = problems ∧
      List.Forall₂ (fun b t => ∀ pre, pre <+: b → pre ≠ [] → accTime pre ≤ t) bs times ∧
      ∀ i (hb : i < bs.length) (ht : i < times.length) p tl,
        (bs.drop (i + 1)).flatten ++ own = p :: tl → ¬ accTime (bs[i] ++ [p]) ≤ times[i]
  | [], problems => ⟨[], problems, rfl, rfl, List.Forall₂.nil, by simp⟩
  | t :: times, problems => by
    obtain ⟨bs, own, h1, h2, h3, h4⟩ :=
      C11_transfer_fits_and_is_maximal times (problems.drop (fitCount t problems))
    have hc := countWhile_time t problems 0
    refine ⟨problems.take (fitCount t problems) :: bs, own, ?_, ?_, ?_, ?_⟩
    · rw [timesToProblemCounts_cons, h1]
      simp [Nat.min_eq_left (fitCount_le t problems)]
    · rw [List.flatten_cons, List.append_assoc, h2, List.take_append_drop]
    · exact List.Forall₂.cons hc.1 h3
    · intro i hb ht p tl he
      cases i with
      | zero =>
        simp only [Nat.zero_add, List.drop_succ_cons, List.drop_zero] at he
        rw [h2] at he
        exact hc.2 p tl he
      | succ i =>
        simp only [List.getElem_cons_succ]
        exact h4 i (by simpa using hb) (by simpa using ht) p tl (by simpa using he)

/-- Times 3 and 2 on problems of 1, 1, 1, 1, 3: blocks of 3 and 1. -/
example : timesToProblemCounts [3, (2 : ℚ)] (Example.problems 0) = [3, 1] := by decide +kernel

/-! ### C18 -/

/-- C18.  There is one plan, depending on the gathered loads only, such that every rank's
operations are, in order, the operations of the plan that start or end at this rank. -/
theorem C18_one_global_plan (sort : List (ChemistryLoad S) → List (ChemistryLoad S))
    (hsort : ∀ l, (sort l).Perm l) (loads : List (ChemistryLoad S)) (hne : loads ≠ []) :
    ∃ plan : List (Operation S), ∀ me, getOperations sort loads.length loads me =
      .ok (plan.filter (fun op => op.src = me ∨ op.dst = me)) := by
  obtain ⟨rk, v, tr, v', loads', hh, -, hrun, -, hops⟩ := getOperations_run sort hsort loads hne
  exact ⟨_, fun me => hops me _ (by omega)⟩

/-- The plan of the example, seen from ranks 0, 1 and 2. -/
example : [0, 1, 2].map (fun me =>
      (getOperations Example.sort 3 (gatherLoads Example.problems) me).toOption) =
    [[⟨0, 2, 3⟩, ⟨0, 1, 1⟩], [⟨0, 1, 1⟩], [⟨0, 2, (3 : ℚ)⟩]].map some := by decide +kernel

end DLB
