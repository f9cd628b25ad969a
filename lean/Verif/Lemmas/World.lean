import Verif.Lemmas.Exchange
import Mathlib.Data.List.Forall2
/-
The balanced step on all ranks, for any arithmetic: every problem is solved and every
solution comes home in order.
-/
set_option autoImplicit false

namespace DLB

variable {S : Type}

section
variable [Zero S] [Add S]

theorem gatherLoads_length {n : Nat} (problems : Fin n → List (ChemistryProblem S)) :
    (gatherLoads problems).length = n := by simp [gatherLoads]

theorem gatherLoads_ranks {n : Nat} (problems : Fin n → List (ChemistryProblem S)) :
    (gatherLoads problems).map (·.rank) = List.range n := by
  unfold gatherLoads
  rw [List.map_ofFn]
  apply List.ext_getElem
  · simp
  · intro i h1 h2
    simp [computeLoad]

end

section
variable [Zero S] [Add S] [LE S] [DecidableLE S]

/-- The blocks rank `me` sends according to `plan`. -/
def blocksOf (plan : List (Operation S)) (me : Nat) (ps : List (ChemistryProblem S)) :
    List (List (ChemistryProblem S)) := blocks ((sends plan me).map (·.value)) ps

/-- What rank `me` keeps according to `plan`. -/
def restOf (plan : List (Operation S)) (me : Nat) (ps : List (ChemistryProblem S)) :
    List (ChemistryProblem S) := rest ((sends plan me).map (·.value)) ps

/-- The balancer state of rank `me` according to `plan`. -/
def stateOf (plan : List (Operation S)) (me : Nat) (ps : List (ChemistryProblem S)) :
    BalancerState :=
  { sources := (recvs plan me).map (·.src)
    destinations := (sends plan me).map (·.dst)
    nProblems := (blocksOf plan me ps).map (fun b => (b.length : Int))
    nRemaining := (ps.length : Int) - (blocksOf plan me ps).flatten.length }

theorem blocksOf_flatten (plan : List (Operation S)) (me : Nat) (ps : List (ChemistryProblem S)) :
    (blocksOf plan me ps).flatten ++ restOf plan me ps = ps := blocks_flatten _ _

theorem blocksOf_length (plan : List (Operation S)) (me : Nat) (ps : List (ChemistryProblem S)) :
    (blocksOf plan me ps).length = (sends plan me).length := by
  simp [blocksOf, blocks_length]

omit [Zero S] [Add S] [LE S] [DecidableLE S]

theorem PlanOK.matching {ranks : List Nat} {plan : List (Operation S)} (_h : PlanOK ranks plan)
    (r s : Nat) : r ∈ (sends plan s).map (·.dst) ↔ s ∈ (recvs plan r).map (·.src) := by
  constructor
  · intro hr
    obtain ⟨op, hop, rfl⟩ := List.mem_map.1 hr
    have := List.mem_filter.1 hop
    have hs : op.src = s := by simpa using this.2
    exact List.mem_map.2 ⟨op, List.mem_filter.2 ⟨this.1, by simp⟩, hs⟩
  · intro hs
    obtain ⟨op, hop, rfl⟩ := List.mem_map.1 hs
    have := List.mem_filter.1 hop
    have hr : op.dst = r := by simpa using this.2
    exact List.mem_map.2 ⟨op, List.mem_filter.2 ⟨this.1, by simp⟩, hr⟩

theorem PlanOK.dst_nodup {ranks : List Nat} {plan : List (Operation S)} (h : PlanOK ranks plan)
    (r : Nat) : ((sends plan r).map (·.dst)).Nodup := by
  have h1 : ((sends plan r).map (fun op => (op.src, op.dst))).Nodup :=
    h.nodup.sublist (List.filter_sublist.map _)
  have h2 : (sends plan r).map (fun op => (op.src, op.dst)) =
      ((sends plan r).map (·.dst)).map (fun d => (r, d)) := by
    rw [List.map_map]
    apply List.map_congr_left
    intro op hop
    have : op.src = r := by simpa using (List.mem_filter.1 hop).2
    simp [this]
  rw [h2] at h1
  exact List.Nodup.of_map _ h1

theorem PlanOK.src_nodup {ranks : List Nat} {plan : List (Operation S)} (h : PlanOK ranks plan)
    (r : Nat) : ((recvs plan r).map (·.src)).Nodup := by
  have h1 : ((recvs plan r).map (fun op => (op.src, op.dst))).Nodup :=
    h.nodup.sublist (List.filter_sublist.map _)
  have h2 : (recvs plan r).map (fun op => (op.src, op.dst)) =
      ((recvs plan r).map (·.src)).map (fun s => (s, r)) := by
    rw [List.map_map]
    apply List.map_congr_left
    intro op hop
    have : op.dst = r := by simpa using (List.mem_filter.1 hop).2
    simp [this]
  rw [h2] at h1
  exact List.Nodup.of_map _ h1

theorem PlanOK.dst_lt {n : Nat} {plan : List (Operation S)} (h : PlanOK (List.range n) plan)
    (r : Nat) : ∀ d ∈ (sends plan r).map (·.dst), d < n := by
  intro d hd
  obtain ⟨op, hop, rfl⟩ := List.mem_map.1 hd
  exact List.mem_range.1 (h.dst_mem op (List.mem_filter.1 hop).1)

theorem PlanOK.src_lt {n : Nat} {plan : List (Operation S)} (h : PlanOK (List.range n) plan)
    (r : Nat) : ∀ d ∈ (recvs plan r).map (·.src), d < n := by
  intro d hd
  obtain ⟨op, hop, rfl⟩ := List.mem_map.1 hd
  exact List.mem_range.1 (h.src_mem op (List.mem_filter.1 hop).1)

end

section
variable [Zero S] [Add S] [Sub S] [Mul S] [Div S] [Neg S] [NatCast S]
variable [LT S] [DecidableLT S] [LE S] [DecidableLE S] [Consts S]

/-- All ranks' states come from one plan. -/
theorem updateStates_plan {n : Nat} (hn : 0 < n)
    (sort : List (ChemistryLoad S) → List (ChemistryLoad S))
    (hsort : ∀ l, (sort l).Perm l) (problems : Fin n → List (ChemistryProblem S)) :
    ∃ plan : List (Operation S), PlanOK (List.range n) plan ∧
      (∀ op ∈ plan, Consts.filterFrac * getMean (gatherLoads problems) < op.value) ∧
      (∀ me fuel, n - 1 ≤ fuel → getOperations sort fuel (gatherLoads problems) me =
        .ok (plan.filter (involves me))) ∧
      updateStates sort problems = .ok (fun r => stateOf plan r.val (problems r)) := by
  have hl := gatherLoads_length problems
  have hr := gatherLoads_ranks problems
  obtain ⟨plan, hok, hlarge, hops⟩ := getOperations_plan sort hsort (gatherLoads problems)
    (by intro h; rw [h] at hl; simp at hl; omega) (by rw [hr]; exact List.nodup_range)
  rw [hr] at hok
  refine ⟨plan, hok, hlarge, fun me fuel hf => hops me fuel (by omega), ?_⟩
  unfold updateStates
  rw [allRanks_ok_iff]
  intro r
  unfold updateState
  rw [hops r.val _ (by omega)]
  simp only [bind, Except.bind]
  rw [operationsToInfo_plan hok]
  rfl

/-- Extension of a per-rank list to all numbers. -/
def extend {n : Nat} {α : Type} (f : Fin n → List α) (s : Nat) : List α :=
  if h : s < n then f ⟨s, h⟩ else []

theorem extend_val {n : Nat} {α : Type} (f : Fin n → List α) (r : Fin n) :
    extend f r.val = f r := by simp [extend]

/-- The guests of rank `r` according to `plan`. -/
def guestsOf {n : Nat} (plan : List (Operation S)) (problems : Fin n → List (ChemistryProblem S))
    (r : Nat) : List (List (ChemistryProblem S)) :=
  ((recvs plan r).map (·.src)).map (fun s =>
    (blocksOf plan s (extend problems s)).getD (((sends plan s).map (·.dst)).idxOf r) [])

omit [Sub S] [Mul S] [Div S] [Neg S] [NatCast S] [LT S] [DecidableLT S] [Consts S] in
theorem balance_plan {n : Nat} {plan : List (Operation S)} (hok : PlanOK (List.range n) plan)
    (problems : Fin n → List (ChemistryProblem S)) (parRun : Bool)
    (hpar : parRun = true ∨ n = 1) :
    balance parRun (fun r => stateOf plan r.val (problems r)) problems =
      .ok (fun r => guestsOf plan problems r.val) := by
  cases parRun with
  | false =>
    have hn : n = 1 := by simpa using hpar
    subst hn
    have := hok.length_le
    have hp : plan = [] := List.eq_nil_of_length_eq_zero (by simpa using this)
    subst hp
    simp [balance, sendRecv, guestsOf, recvs]
  | true =>
    unfold balance
    refine (sendRecv_ok _ (fun s i => (blocksOf plan s (extend problems s)).getD i [])
      (fun r => (recvs plan r).map (·.src)) (fun r => (sends plan r).map (·.dst))
      (fun r => hok.dst_lt r) (fun r => hok.dst_nodup r) (fun r => hok.src_lt r)
      (fun r => hok.src_nodup r) (fun r s => hok.matching r s) ?_)
    intro r i hi
    have hi' : i < (blocksOf plan r.val (problems r)).length := by
      rw [blocksOf_length]; simpa using hi
    rw [extend_val]
    have := sendBufferAt_blocks (blocksOf plan r.val (problems r)) (restOf plan r.val (problems r))
      i hi'
    rw [blocksOf_flatten] at this
    simp only [stateOf, this, List.getD_eq_getElem?_getD, List.getElem?_eq_getElem hi',
      Option.getD_some]

theorem splitProblems_plan {n : Nat} (hn : 0 < n)
    (sort : List (ChemistryLoad S) → List (ChemistryLoad S))
    (hsort : ∀ l, (sort l).Perm l) (problems : Fin n → List (ChemistryProblem S)) (parRun : Bool)
    (hpar : parRun = true ∨ n = 1) :
    ∃ plan : List (Operation S), PlanOK (List.range n) plan ∧
      (∀ op ∈ plan, Consts.filterFrac * getMean (gatherLoads problems) < op.value) ∧
      (∀ me fuel, n - 1 ≤ fuel → getOperations sort fuel (gatherLoads problems) me =
        .ok (plan.filter (involves me))) ∧
      updateStates sort problems = .ok (fun r => stateOf plan r.val (problems r)) ∧
      splitProblems parRun sort problems = .ok (fun r => stateOf plan r.val (problems r),
        fun r => ⟨restOf plan r.val (problems r), guestsOf plan problems r.val⟩) := by
  obtain ⟨plan, hok, hlarge, hops, hst⟩ := updateStates_plan hn sort hsort problems
  refine ⟨plan, hok, hlarge, hops, hst, ?_⟩
  unfold splitProblems
  have hown : allRanks (fun r : Fin n =>
      getRemaining (stateOf plan r.val (problems r)) (problems r)) =
      .ok (fun r => restOf plan r.val (problems r)) := by
    rw [allRanks_ok_iff]
    intro r
    have := getRemaining_rest (blocksOf plan r.val (problems r)) (restOf plan r.val (problems r))
      (stateOf plan r.val (problems r)) (by rw [blocksOf_flatten]; rfl)
    rwa [blocksOf_flatten] at this
  simp only [hst, bind, Except.bind]
  rw [balance_plan hok problems parRun hpar]
  simp only [hown]

/-! ### Solving -/

/-- `s` is a solution of problem `p` (for some clock reading). -/
def Solves (M : ChemModel S) (p : ChemistryProblem S) (s : ChemistrySolution S) : Prop :=
  ∃ t, solveSingle M t p = .ok s

omit [Zero S] [Add S] [Neg S] [NatCast S] [LE S] [DecidableLE S]

theorem solveSingle_time (M : ChemModel S) {t : S} {p : ChemistryProblem S}
    {s : ChemistrySolution S} (h : solveSingle M t p = .ok s) (t' : S) :
    solveSingle M t' p = .ok { s with cpuTime := t' } := by
  unfold solveSingle at h ⊢
  revert h
  cases subStepLoop M.integrate M.fuel p.pi p.Ti p.c p.deltaTChem p.deltaT with
  | error e => intro h; simp [bind, Except.bind] at h
  | ok x =>
    simp only [bind, Except.bind]
    split
    · intro h
      simp only [Except.ok.injEq] at h
      subst h
      rfl
    · intro h; simp at h

theorem solveSingle_cpuTime (M : ChemModel S) {t : S} {p : ChemistryProblem S}
    {s : ChemistrySolution S} (h : solveSingle M t p = .ok s) : s.cpuTime = t := by
  have := solveSingle_time M h t
  rw [h] at this
  have h2 := congrArg ChemistrySolution.cpuTime (Except.ok.inj this)
  simpa using h2

theorem solveList_forall (M : ChemModel S) (clk : Nat → S) :
    ∀ (ps : List (ChemistryProblem S)) (k : Nat) (ss : List (ChemistrySolution S)),
    solveList M clk k ps = .ok ss → List.Forall₂ (Solves M) ps ss
  | [], k, ss, h => by
    simp only [solveList, Except.ok.injEq] at h
    subst h; exact List.Forall₂.nil
  | p :: ps, k, ss, h => by
    simp only [solveList, bind, Except.bind] at h
    cases h1 : solveSingle M (clk k) p with
    | error e => simp [h1] at h
    | ok s =>
      cases h2 : solveList M clk (k + 1) ps with
      | error e => simp [h1, h2] at h
      | ok ss' =>
        simp only [h1, h2, Except.ok.injEq] at h
        subst h
        exact List.Forall₂.cons ⟨_, h1⟩ (solveList_forall M clk ps (k + 1) ss' h2)

theorem solveList_exists (M : ChemModel S) (clk : Nat → S) :
    ∀ (ps : List (ChemistryProblem S)) (k : Nat), (∀ p ∈ ps, ∃ s, Solves M p s) →
    ∃ ss, solveList M clk k ps = .ok ss
  | [], k, _ => ⟨[], rfl⟩
  | p :: ps, k, h => by
    obtain ⟨s, t, hs⟩ := h p (by simp)
    obtain ⟨ss, hss⟩ := solveList_exists M clk ps (k + 1) (fun p hp => h p (by simp [hp]))
    refine ⟨{ s with cpuTime := clk k } :: ss, ?_⟩
    simp only [solveList, bind, Except.bind, solveSingle_time M hs (clk k), hss]

theorem solveBuffer_forall (M : ChemModel S) (clk : Nat → S) :
    ∀ (bs : List (List (ChemistryProblem S))) (k : Nat) (ss : List (List (ChemistrySolution S))),
    solveBuffer M clk k bs = .ok ss → List.Forall₂ (List.Forall₂ (Solves M)) bs ss
  | [], k, ss, h => by
    simp only [solveBuffer, Except.ok.injEq] at h
    subst h; exact List.Forall₂.nil
  | p :: ps, k, ss, h => by
    simp only [solveBuffer, bind, Except.bind] at h
    cases h1 : solveList M clk k p with
    | error e => simp [h1] at h
    | ok s =>
      cases h2 : solveBuffer M clk (k + p.length) ps with
      | error e => simp [h1, h2] at h
      | ok ss' =>
        simp only [h1, h2, Except.ok.injEq] at h
        subst h
        exact List.Forall₂.cons (solveList_forall M clk _ _ _ h1)
          (solveBuffer_forall M clk ps _ ss' h2)

theorem solveBuffer_exists (M : ChemModel S) (clk : Nat → S) :
    ∀ (bs : List (List (ChemistryProblem S))) (k : Nat),
    (∀ b ∈ bs, ∀ p ∈ b, ∃ s, Solves M p s) → ∃ ss, solveBuffer M clk k bs = .ok ss
  | [], k, _ => ⟨[], rfl⟩
  | p :: ps, k, h => by
    obtain ⟨s, hs⟩ := solveList_exists M clk p k (h p (by simp))
    obtain ⟨ss, hss⟩ := solveBuffer_exists M clk ps (k + p.length) (fun p hp => h p (by simp [hp]))
    refine ⟨s :: ss, ?_⟩
    simp only [solveBuffer, bind, Except.bind, hs, hss]

end

/-- Look-up of an aligned pair. -/
theorem forall₂_getD {α β : Type} {R : α → β → Prop} {l₁ : List α} {l₂ : List β}
    (h : List.Forall₂ R l₁ l₂) {i : Nat} (hi : i < l₁.length) (a : α) (b : β) :
    R (l₁.getD i a) (l₂.getD i b) := by
  have hl := h.length_eq
  have hi2 : i < l₂.length := by omega
  have := (List.forall₂_iff_get.1 h).2 i hi hi2
  simpa [List.getD_eq_getElem?_getD, List.getElem?_eq_getElem hi,
    List.getElem?_eq_getElem hi2] using this

section
variable [Zero S] [Add S] [Sub S] [Mul S] [Div S] [Neg S] [NatCast S]
variable [LT S] [DecidableLT S] [LE S] [DecidableLE S] [Consts S]

omit [Sub S] [Mul S] [Div S] [Neg S] [NatCast S] [LT S] [DecidableLT S] [Consts S] in
theorem guestsOf_getD {n : Nat} {plan : List (Operation S)} (hok : PlanOK (List.range n) plan)
    (problems : Fin n → List (ChemistryProblem S)) (s d : Nat)
    (hd : d ∈ (sends plan s).map (·.dst)) :
    (guestsOf plan problems d).getD (((recvs plan d).map (·.src)).idxOf s) [] =
      (blocksOf plan s (extend problems s)).getD (((sends plan s).map (·.dst)).idxOf d) [] := by
  have hs := (hok.matching d s).1 hd
  unfold guestsOf
  rw [List.getD_eq_getElem?_getD, List.getElem?_map, List.getElem?_idxOf hs]
  rfl

omit [Sub S] [Mul S] [Div S] [Neg S] [NatCast S] [LT S] [DecidableLT S] [Consts S] in
/-- Sending solutions of the guests back gives every rank the solutions of its blocks. -/
theorem unbalance_plan {n : Nat} {plan : List (Operation S)} (hok : PlanOK (List.range n) plan)
    (problems : Fin n → List (ChemistryProblem S)) (parRun : Bool)
    (hpar : parRun = true ∨ n = 1) {β : Type} (R : ChemistryProblem S → β → Prop)
    (sol : Fin n → List (List β))
    (hsol : ∀ r : Fin n, List.Forall₂ (List.Forall₂ R) (guestsOf plan problems r.val) (sol r)) :
    ∃ inc, unbalance parRun (fun r => stateOf plan r.val (problems r)) sol = .ok inc ∧
      ∀ r : Fin n, List.Forall₂ (List.Forall₂ R) (blocksOf plan r.val (problems r)) (inc r) := by
  cases parRun with
  | false =>
    have hn : n = 1 := by simpa using hpar
    subst hn
    have := hok.length_le
    have hp : plan = [] := List.eq_nil_of_length_eq_zero (by simpa using this)
    subst hp
    refine ⟨fun _ => [], by simp [unbalance, sendRecv], fun r => ?_⟩
    simp [blocksOf, sends, blocks]
  | true =>
    have hx := sendRecv_ok (n := n) (fun r i => getAt (sol r) i)
      (fun s i => (extend sol s).getD i [])
      (fun r => (sends plan r).map (fun op => op.dst))
      (fun r => (recvs plan r).map (fun op => op.src))
      (fun r => hok.src_lt r) (fun r => hok.src_nodup r) (fun r => hok.dst_lt r)
      (fun r => hok.dst_nodup r) (fun r s => (hok.matching s r).symm) ?_
    refine ⟨_, hx, ?_⟩
    rotate_left
    · intro r i hi
      have hl := (hsol r).length_eq
      have hi' : i < (sol r).length := by
        rw [← hl]; simpa [guestsOf] using hi
      rw [extend_val]
      simp [getAt, List.getElem?_eq_getElem hi', List.getD_eq_getElem?_getD]
    · intro r
      rw [List.forall₂_iff_get]
      refine ⟨by simp [blocksOf_length], fun j h1 h2 => ?_⟩
      have hj : j < ((sends plan r.val).map (·.dst)).length := by simpa using h2
      set d := ((sends plan r.val).map (·.dst))[j] with hd
      have hdm : d ∈ (sends plan r.val).map (·.dst) := List.getElem_mem hj
      have hdn : d < n := hok.dst_lt r.val d hdm
      have hidx : ((sends plan r.val).map (·.dst)).idxOf d = j :=
        (hok.dst_nodup r.val).idxOf_getElem j hj
      have hrm := (hok.matching d r.val).1 hdm
      have hi : ((recvs plan d).map (·.src)).idxOf r.val < (guestsOf plan problems d).length := by
        have := List.idxOf_lt_length_of_mem hrm
        simpa [guestsOf] using this
      have hg := forall₂_getD (hsol ⟨d, hdn⟩) hi [] []
      simp only at hg
      rw [guestsOf_getD hok problems r.val d hdm, hidx, extend_val] at hg
      have h1' : j < (blocksOf plan r.val (problems r)).length := h1
      rw [List.getD_eq_getElem?_getD, List.getElem?_eq_getElem h1', Option.getD_some] at hg
      have e2 : ((List.map (fun s => (extend sol s).getD
          (((recvs plan s).map (·.src)).idxOf r.val) [])
          ((sends plan r.val).map (·.dst))).get ⟨j, h2⟩) =
          (sol ⟨d, hdn⟩).getD (((recvs plan d).map (·.src)).idxOf r.val) [] := by
        simp only [List.get_eq_getElem, List.getElem_map]
        have hd' : ((sends plan r.val)[j]'(by simpa using hj)).dst = d := by simp [hd]
        rw [hd']
        rw [show extend sol d = sol ⟨d, hdn⟩ by simp [extend, hdn]]
      rw [e2]
      exact hg

omit [Sub S] [Mul S] [Div S] [Neg S] [NatCast S] [LT S] [DecidableLT S] [Consts S] in
theorem mem_guestsOf {n : Nat} {plan : List (Operation S)} (hok : PlanOK (List.range n) plan)
    (problems : Fin n → List (ChemistryProblem S)) (r : Nat) (b : List (ChemistryProblem S))
    (hb : b ∈ guestsOf plan problems r) (p : ChemistryProblem S) (hp : p ∈ b) :
    ∃ s : Fin n, p ∈ problems s := by
  unfold guestsOf at hb
  obtain ⟨s, hs, rfl⟩ := List.mem_map.1 hb
  have hlt := hok.src_lt r s hs
  refine ⟨⟨s, hlt⟩, ?_⟩
  have he : extend problems s = problems ⟨s, hlt⟩ := by simp [extend, hlt]
  rw [he] at hp
  rw [List.getD_eq_getElem?_getD] at hp
  cases hx : (blocksOf plan s (problems ⟨s, hlt⟩))[((sends plan s).map (·.dst)).idxOf r]? with
  | none => simp [hx] at hp
  | some x =>
    rw [hx] at hp
    simp only [Option.getD_some] at hp
    have : x ∈ blocksOf plan s (problems ⟨s, hlt⟩) := List.mem_of_getElem? hx
    have h2 : p ∈ (blocksOf plan s (problems ⟨s, hlt⟩)).flatten := List.mem_flatten.2 ⟨x, this, hp⟩
    rw [← blocksOf_flatten plan s (problems ⟨s, hlt⟩)]
    exact List.mem_append_left _ h2

/-- The active branch: it succeeds exactly if all problems of all ranks can be solved, and
then every rank gets the solutions of its own problems in order. -/
theorem solveBalanced_spec {n : Nat} (hn : 0 < n) (M : ChemModel S)
    (sort : List (ChemistryLoad S) → List (ChemistryLoad S))
    (hsort : ∀ l, (sort l).Perm l) (problems : Fin n → List (ChemistryProblem S)) (parRun : Bool)
    (hpar : parRun = true ∨ n = 1) (clk : Fin n → Nat → S) :
    (∀ inc, solveBalanced M parRun sort clk problems = .ok inc →
      ∀ r, List.Forall₂ (Solves M) (problems r) (inc r).flatten) ∧
    ((∃ inc, solveBalanced M parRun sort clk problems = .ok inc) ↔
      ∀ r, ∀ p ∈ problems r, ∃ s, Solves M p s) := by
  obtain ⟨plan, hok, -, -, -, hsplit⟩ := splitProblems_plan hn sort hsort problems parRun hpar
  have key : ∀ inc, solveBalanced M parRun sort clk problems = .ok inc →
      ∀ r, List.Forall₂ (Solves M) (problems r) (inc r).flatten := by
    intro inc h r
    unfold solveBalanced at h
    simp only [hsplit, bind, Except.bind] at h
    cases h1 : allRanks (fun r => solveList M (clk r) 1 (restOf plan r.val (problems r))) with
    | error e => simp [h1] at h
    | ok own =>
      cases h2 : allRanks (fun r => solveBuffer M (clk r)
          (1 + (restOf plan r.val (problems r)).length) (guestsOf plan problems r.val)) with
      | error e => simp [h1, h2] at h
      | ok gs =>
        have h1' := (allRanks_ok_iff _ _).1 h1
        have h2' := (allRanks_ok_iff _ _).1 h2
        obtain ⟨inc', hu, hf⟩ := unbalance_plan hok problems parRun hpar (Solves M) gs
          (fun r => solveBuffer_forall M _ _ _ _ (h2' r))
        simp only [h1, h2, hu, Except.ok.injEq] at h
        subst h
        simp only [List.flatten_append]
        have e := blocksOf_flatten plan r.val (problems r)
        have hown : List.Forall₂ (Solves M) (restOf plan r.val (problems r)) ([own r].flatten) := by
          simpa using solveList_forall M _ _ _ _ (h1' r)
        have := List.rel_append (List.rel_flatten (hf r)) hown
        simp only at this
        rwa [e] at this
  refine ⟨key, ?_, ?_⟩
  · rintro ⟨inc, h⟩ r p hp
    have hf := key inc h r
    obtain ⟨i, hi, rfl⟩ := List.mem_iff_getElem.1 hp
    have hl := hf.length_eq
    exact ⟨_, (List.forall₂_iff_get.1 hf).2 i hi (by omega)⟩
  · intro hall
    have h1 : ∃ own, allRanks (fun r => solveList M (clk r) 1
        (restOf plan r.val (problems r))) = .ok own := by
      rw [allRanks_exists_iff]
      intro r
      refine solveList_exists M _ _ _ (fun p hp => hall r p ?_)
      rw [← blocksOf_flatten plan r.val (problems r)]
      exact List.mem_append_right _ hp
    have h2 : ∃ gs, allRanks (fun r : Fin n => solveBuffer M (clk r)
          (1 + (restOf plan r.val (problems r)).length) (guestsOf plan problems r.val)) = .ok gs := by
      rw [allRanks_exists_iff]
      intro r
      refine solveBuffer_exists M _ _ _ (fun b hb p hp => ?_)
      obtain ⟨s, hs⟩ := mem_guestsOf hok problems r.val b hb p hp
      exact hall s p hs
    obtain ⟨own, h1⟩ := h1
    obtain ⟨gs, h2⟩ := h2
    have h2' := (allRanks_ok_iff _ _).1 h2
    obtain ⟨inc', hu, -⟩ := unbalance_plan hok problems parRun hpar (Solves M) gs
          (fun r => solveBuffer_forall M _ _ _ _ (h2' r))
    refine ⟨fun r => inc' r ++ [own r], ?_⟩
    unfold solveBalanced
    simp only [hsplit, bind, Except.bind, h1, h2, hu]

omit [Zero S] [Add S] [Neg S] [NatCast S] [LE S] [DecidableLE S] in
/-- The inactive branch. -/
theorem solveUnbalanced_spec {n : Nat} (M : ChemModel S)
    (problems : Fin n → List (ChemistryProblem S)) (clk : Fin n → Nat → S) :
    (∀ inc, solveUnbalanced M clk problems = .ok inc →
      ∀ r, List.Forall₂ (Solves M) (problems r) (inc r).flatten) ∧
    ((∃ inc, solveUnbalanced M clk problems = .ok inc) ↔
      ∀ r, ∀ p ∈ problems r, ∃ s, Solves M p s) := by
  have key : ∀ inc, solveUnbalanced M clk problems = .ok inc →
      ∀ r, List.Forall₂ (Solves M) (problems r) (inc r).flatten := by
    intro inc h r
    unfold solveUnbalanced at h
    simp only [bind, Except.bind] at h
    cases h1 : allRanks (fun r => solveList M (clk r) 1 (problems r)) with
    | error e => simp [h1] at h
    | ok sol =>
      simp only [h1, Except.ok.injEq] at h
      subst h
      simpa using solveList_forall M _ _ _ _ ((allRanks_ok_iff _ _).1 h1 r)
  refine ⟨key, ?_, ?_⟩
  · rintro ⟨inc, h⟩ r p hp
    have hf := key inc h r
    obtain ⟨i, hi, rfl⟩ := List.mem_iff_getElem.1 hp
    have hl := hf.length_eq
    exact ⟨_, (List.forall₂_iff_get.1 hf).2 i hi (by omega)⟩
  · intro hall
    have h1 : ∃ own, allRanks (fun r => solveList M (clk r) 1 (problems r)) = .ok own := by
      rw [allRanks_exists_iff]
      intro r
      exact solveList_exists M _ _ _ (fun p hp => hall r p hp)
    obtain ⟨own, h1⟩ := h1
    refine ⟨fun r => [own r], ?_⟩
    unfold solveUnbalanced
    simp only [bind, Except.bind, h1]

end

end DLB
