import Verif.Lemmas.Plan
/-
Problem counts, slices, and the balancer state of a rank in terms of the plan.
Any arithmetic.
-/
set_option autoImplicit false

namespace DLB

variable {S : Type}

theorem countWhile_le {α σ : Type} (pred : σ → α → Bool × σ) : ∀ (st : σ) (xs : List α),
    countWhile pred st xs ≤ xs.length
  | _, [] => by simp [countWhile]
  | st, x :: xs => by
    unfold countWhile
    split
    · simp
    · next st' _ => simpa using countWhile_le pred st' xs

theorem subList_ok {α : Type} (xs : List α) (size start : Nat) (h : start + size ≤ xs.length) :
    subList xs (size : Int) (start : Int) = .ok ((xs.drop start).take size) := by
  unfold subList
  rw [if_pos (by omega)]
  simp

theorem foldl_add_int (xs : List Int) : ∀ a : Int, xs.foldl (· + ·) a = a + xs.foldl (· + ·) 0 := by
  induction xs with
  | nil => simp
  | cons x xs ih =>
    intro a
    simp only [List.foldl_cons]
    rw [ih (a + x), ih (0 + x)]
    omega

section
variable [Zero S] [Add S] [LE S] [DecidableLE S]

/-- The number of problems that fit into `time`. -/
def fitCount (time : S) (problems : List (ChemistryProblem S)) : Nat :=
  countWhile (fun (sum : S) (p : ChemistryProblem S) =>
    (decide (sum + p.cpuTime ≤ time), sum + p.cpuTime)) 0 problems

/-- The blocks for the successive times. -/
def blocks : List S → List (ChemistryProblem S) → List (List (ChemistryProblem S))
  | [], _ => []
  | t :: ts, ps => ps.take (fitCount t ps) :: blocks ts (ps.drop (fitCount t ps))

/-- What is left after taking the blocks. -/
def rest : List S → List (ChemistryProblem S) → List (ChemistryProblem S)
  | [], ps => ps
  | t :: ts, ps => rest ts (ps.drop (fitCount t ps))

theorem fitCount_le (t : S) (ps : List (ChemistryProblem S)) : fitCount t ps ≤ ps.length :=
  countWhile_le _ _ _

theorem timesToProblemCounts_cons (t : S) (ts : List S) (ps : List (ChemistryProblem S)) :
    timesToProblemCounts (t :: ts) ps =
      (fitCount t ps : Int) :: timesToProblemCounts ts (ps.drop (fitCount t ps)) := rfl

theorem blocks_flatten : ∀ (ts : List S) (ps : List (ChemistryProblem S)),
    (blocks ts ps).flatten ++ rest ts ps = ps
  | [], ps => by simp [blocks, rest]
  | t :: ts, ps => by
    simp only [blocks, rest, List.flatten_cons, List.append_assoc, blocks_flatten ts]
    simp

theorem counts_eq : ∀ (ts : List S) (ps : List (ChemistryProblem S)),
    timesToProblemCounts ts ps = (blocks ts ps).map (fun b => (b.length : Int))
  | [], ps => by simp [blocks, timesToProblemCounts]
  | t :: ts, ps => by
    have := fitCount_le t ps
    rw [timesToProblemCounts_cons, blocks, counts_eq ts]
    simp [Nat.min_eq_left this]

theorem blocks_length : ∀ (ts : List S) (ps : List (ChemistryProblem S)),
    (blocks ts ps).length = ts.length
  | [], ps => by simp [blocks]
  | t :: ts, ps => by simp [blocks, blocks_length ts]

end

theorem sum_lengths {α : Type} (bs : List (List α)) :
    (bs.map (fun b => (b.length : Int))).foldl (· + ·) 0 = (bs.flatten.length : Int) := by
  induction bs with
  | nil => simp
  | cons b bs ih =>
    simp only [List.map_cons, List.foldl_cons]
    rw [foldl_add_int, ih]
    simp

/-- A send buffer whose counts are the lengths of blocks yields these blocks. -/
theorem sendBufferAt_blocks {α : Type} (bs : List (List α)) (tl : List α) (i : Nat)
    (hi : i < bs.length) :
    sendBufferAt (bs.flatten ++ tl) (bs.map (fun b => (b.length : Int))) i = .ok bs[i] := by
  unfold sendBufferAt
  rw [if_pos (by simp; omega)]
  have h1 : getAt (bs.map (fun b => (b.length : Int))) i = .ok (bs[i].length : Int) := by
    simp [getAt, List.getElem?_eq_getElem hi]
  simp only [h1, bind, Except.bind]
  rw [← List.map_take, sum_lengths]
  have h2 : bs = bs.take i ++ bs[i] :: bs.drop (i + 1) := by simp
  have h3 : bs.flatten ++ tl =
      (bs.take i).flatten ++ (bs[i] ++ ((bs.drop (i + 1)).flatten ++ tl)) := by
    have h4 := congrArg List.flatten h2
    rw [List.flatten_append, List.flatten_cons] at h4
    rw [h4, List.append_assoc, List.append_assoc]
  rw [h3, subList_ok]
  · simp
  · simp

theorem getRemaining_rest {α : Type} (bs : List (List α)) (tl : List α) (st : BalancerState)
    (h : st.nRemaining = ((bs.flatten ++ tl).length : Int) - bs.flatten.length) :
    getRemaining st (bs.flatten ++ tl) = .ok tl := by
  unfold getRemaining
  rw [h]
  have : ((bs.flatten ++ tl).length : Int) - bs.flatten.length = (tl.length : Int) := by
    rw [List.length_append]; omega
  rw [this]
  have h2 : ((bs.flatten ++ tl).length : Int) - (tl.length : Int) = (bs.flatten.length : Int) := by
    simp
  rw [h2, subList_ok]
  · simp
  · simp

/-! ### The balancer state of a rank -/

/-- The operations `me` sends in. -/
def sends (plan : List (Operation S)) (me : Nat) : List (Operation S) :=
  plan.filter (fun op => op.src == me)

/-- The operations `me` receives in. -/
def recvs (plan : List (Operation S)) (me : Nat) : List (Operation S) :=
  plan.filter (fun op => op.dst == me)

theorem involves_cases {ranks : List Nat} {plan : List (Operation S)} (h : PlanOK ranks plan)
    (me : Nat) :
    (plan.filter (involves me) = sends plan me ∧ recvs plan me = []) ∨
    (plan.filter (involves me) = recvs plan me ∧ sends plan me = []) := by
  by_cases hr : recvs plan me = []
  · left
    refine ⟨?_, hr⟩
    apply List.filter_congr
    intro op hop
    have : ¬ op.dst = me := by
      intro hd
      have : op ∈ recvs plan me := List.mem_filter.2 ⟨hop, by simp [hd]⟩
      simp [hr] at this
    simp only [involves, this, or_false]
    by_cases h : op.src = me <;> simp [h]
  · right
    obtain ⟨b, hb⟩ := List.exists_mem_of_ne_nil _ hr
    have hb' := List.mem_filter.1 hb
    have hd : b.dst = me := by simpa using hb'.2
    have hs : ∀ op ∈ plan, ¬ op.src = me := by
      intro op hop he
      exact h.roles op hop b hb'.1 (by rw [he, hd])
    refine ⟨?_, ?_⟩
    · apply List.filter_congr
      intro op hop
      simp only [involves, hs op hop, false_or]
      by_cases h : op.dst = me <;> simp [h]
    · refine List.filter_eq_nil_iff.2 fun op hop => ?_
      simp [hs op hop]

theorem isSender_sends {ranks : List Nat} {plan : List (Operation S)} (h : PlanOK ranks plan)
    (me : Nat) : isSender (plan.filter (involves me)) me = !(sends plan me).isEmpty := by
  rcases involves_cases h me with ⟨h1, h2⟩ | ⟨h1, h2⟩
  · rw [h1]
    unfold isSender
    cases hs : sends plan me with
    | nil => simp
    | cons a l =>
      have : ∀ op ∈ a :: l, op.src == me := by
        intro op hop
        rw [← hs] at hop
        exact (List.mem_filter.1 hop).2
      simp only [List.length_cons, List.isEmpty_cons, Bool.not_false]
      rw [if_neg (by omega)]
      exact List.all_eq_true.2 this
  · rw [h1, h2]
    unfold isSender
    cases hs : recvs plan me with
    | nil => simp
    | cons a l =>
      have ha : a ∈ recvs plan me := by simp [hs]
      have ha' := List.mem_filter.1 ha
      have : ¬ a.src = me := by
        intro he
        have : a ∈ sends plan me := List.mem_filter.2 ⟨ha'.1, by simp [he]⟩
        simp [h2] at this
      simp [this]

variable [Zero S] [Add S] [LE S] [DecidableLE S]

/-- The balancer state of rank `me` in terms of the plan, in one formula for senders,
receivers and bystanders. -/
theorem operationsToInfo_plan {ranks : List Nat} {plan : List (Operation S)}
    (h : PlanOK ranks plan) (me : Nat) (ps : List (ChemistryProblem S)) :
    operationsToInfo (plan.filter (involves me)) ps me =
      { sources := (recvs plan me).map (·.src)
        destinations := (sends plan me).map (·.dst)
        nProblems := (blocks ((sends plan me).map (·.value)) ps).map (fun b => (b.length : Int))
        nRemaining := (ps.length : Int) -
          (blocks ((sends plan me).map (·.value)) ps).flatten.length } := by
  unfold operationsToInfo
  rw [isSender_sends h]
  rcases involves_cases h me with ⟨h1, h2⟩ | ⟨h1, h2⟩
  · rw [h1, h2]
    cases hs : sends plan me with
    | nil => simp [blocks]
    | cons a l =>
      rw [← hs]
      have : (sends plan me).isEmpty = false := by simp [hs]
      simp only [this, Bool.not_false, if_true]
      rw [counts_eq, sum_lengths]
      rfl
  · rw [h1, h2]
    simp [blocks]

end DLB
