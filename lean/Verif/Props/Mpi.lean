import Verif.Lemmas.Mpi
import Verif.Props.Step
/-
C10: schedule independence and freedom from deadlock, for every interleaving of the ranks and
for any number of time steps; C29: no communication with chemistry switched off.
-/
set_option autoImplicit false
set_option linter.unusedSectionVars false

namespace DLB

variable {S R : Type} {n : Nat}
variable [Zero S] [Add S] [Sub S] [Mul S] [Div S] [Neg S] [NatCast S]
variable [LT S] [DecidableLT S] [LE S] [DecidableLE S] [Consts S]

/-- The functional semantics of a sequence of time steps: phase by phase, all ranks together. -/
def history (parRun : Bool) (sort : List (ChemistryLoad S) → List (ChemistryLoad S)) :
    List (StepInput S n) → (Fin n → RankFields S) →
    Except Fault (List (Fin n → RankFields S × S))
  | [], _ => .ok []
  | i :: is, F => do
    let res ← solveWorld i.model parRun sort i.clk i.flow F
    let rest ← history parRun sort is (fun r => (res r).1)
    .ok (res :: rest)

theorem balancedProg_run (M : ChemModel S) (parRun : Bool)
    (sort : List (ChemistryLoad S) → List (ChemistryLoad S)) (clk : Fin n → Nat → S)
    (problems : Fin n → List (ChemistryProblem S))
    (k : Fin n → List (List (ChemistrySolution S)) → Prog S R)
    (incoming : Fin n → List (List (ChemistrySolution S)))
    (h : solveBalanced M parRun sort clk problems = .ok incoming)
    (p : Fin n → List (Post S)) (e : Nat) (hp : ∀ i, (p i).length = e) :
    ∃ (p' : Fin n → List (Post S)) (e' : Nat), (∀ i, (p' i).length = e') ∧
      (parRun = true → e' = e + 3) ∧
      Reach Step (fun i => quiet (balancedProg M parRun sort (clk i) i.val (problems i) (k i))
        (p i)) (fun i => quiet (k i (incoming i)) (p' i)) := by
  unfold solveBalanced splitProblems at h
  simp only [bind, Except.bind] at h
  cases hst : updateStates sort problems with
  | error er => simp [hst] at h
  | ok st =>
  simp only [hst] at h
  cases hg : balance parRun st problems with
  | error er => simp [hg] at h
  | ok guests =>
  simp only [hg] at h
  cases hown : allRanks (fun r => getRemaining (st r) (problems r)) with
  | error er => simp [hown] at h
  | ok own =>
  simp only [hown] at h
  cases hos : allRanks (fun r => solveList M (clk r) 1 (own r)) with
  | error er => simp [hos] at h
  | ok ownSol =>
  simp only [hos] at h
  cases hgs : allRanks (fun r => solveBuffer M (clk r) (1 + (own r).length) (guests r)) with
  | error er => simp [hgs] at h
  | ok guestSol =>
  simp only [hgs] at h
  cases hu : unbalance parRun st guestSol with
  | error er => simp [hu] at h
  | ok inc =>
  simp only [hu, Except.ok.injEq] at h
  subst h
  unfold updateStates at hst
  rw [allRanks_ok_iff] at hst hown hos hgs
  -- gather
  have h1 := Reach.gather (S := S) (R := R) (x := fun i : Fin n => computeLoad i.val (problems i))
    (k := fun i loads =>
      localCompute (updateState sort loads i.val (problems i)) fun st =>
      sendRecvProg parRun (putList putProblem) (getList getProblem)
        (fun j => sendBufferAt (problems i) st.nProblems j) st.sources st.destinations
        fun guests =>
      localCompute (getRemaining st (problems i)) fun own =>
      localCompute (solveList M (clk i) 1 own) fun ownSol =>
      localCompute (solveBuffer M (clk i) (1 + own.length) guests) fun guestSol =>
      sendRecvProg parRun (putList putSolution) (getList getSolution)
        (fun j => getAt guestSol j) st.destinations st.sources fun incoming =>
      k i (incoming ++ [ownSol]))
    (o := fun _ => []) (inb := fun _ _ => []) (p := p) hp
  -- first exchange
  obtain ⟨p2, e2, hp2, he2, h2⟩ := sendRecv_run (S := S) (R := R)
    (C20_list_round_trips C20_problem_round_trips) parRun
    (fun i j => sendBufferAt (problems i) (st i).nProblems j) (fun i => (st i).sources)
    (fun i => (st i).destinations)
    (fun i guests =>
      localCompute (getRemaining (st i) (problems i)) fun own =>
      localCompute (solveList M (clk i) 1 own) fun ownSol =>
      localCompute (solveBuffer M (clk i) (1 + own.length) guests) fun guestSol =>
      sendRecvProg parRun (putList putSolution) (getList getSolution)
        (fun j => getAt guestSol j) (st i).destinations (st i).sources fun incoming =>
      k i (incoming ++ [ownSol]))
    guests hg (fun i => p i ++ [.load (computeLoad i.val (problems i))]) (e + 1)
    (fun i => by simp [hp i])
  -- second exchange
  obtain ⟨p3, e3, hp3, he3, h3⟩ := sendRecv_run (S := S) (R := R)
    (C20_list_round_trips C20_solution_round_trips) parRun
    (fun i j => getAt (guestSol i) j) (fun i => (st i).destinations) (fun i => (st i).sources)
    (fun i incoming => k i (incoming ++ [ownSol i])) inc hu p2 e2 hp2
  refine ⟨p3, e3, hp3, fun h => by rw [he3 h, he2 h], Reach.trans h1 (Reach.trans ?_ h3)⟩
  have e1 : ∀ i : Fin n, updateState sort
      (List.ofFn (fun i : Fin n => computeLoad i.val (problems i))) i.val (problems i) =
      .ok (st i) := hst
  simp only [localCompute, e1, hown, hos]
  simp only [localCompute, hown, hos, hgs] at h2
  exact h2

theorem stepProg_run (M : ChemModel S) (parRun : Bool)
    (sort : List (ChemistryLoad S) → List (ChemistryLoad S)) (clk : Fin n → Nat → S)
    (flow : Fin n → Flow S) (F : Fin n → RankFields S) (k : Fin n → RankFields S × S → Prog S R)
    (res : Fin n → RankFields S × S) (h : solveWorld M parRun sort clk flow F = .ok res)
    (p : Fin n → List (Post S)) (e : Nat) (hp : ∀ i, (p i).length = e) :
    ∃ (p' : Fin n → List (Post S)) (e' : Nat), (∀ i, (p' i).length = e') ∧
      (M.chemistry = true → M.active = true → parRun = true → e' = e + 3) ∧
      Reach Step (fun i => quiet (stepProg M parRun sort (clk i) (flow i) i.val (F i) (k i))
        (p i)) (fun i => quiet (k i (res i)) (p' i)) := by
  unfold solveWorld at h
  by_cases hchem : M.chemistry = true
  · rw [if_pos hchem] at h
    simp only [bind, Except.bind] at h
    cases hpr : allRanks (fun r => getProblems M (flow r) (clk r) (F r)) with
    | error er => simp [hpr] at h
    | ok pr =>
      simp only [hpr] at h
      by_cases hact : M.active = true
      · simp only [if_pos hact] at h
        cases hb : solveBalanced M parRun sort clk (fun r => (pr r).2) with
        | error er => simp [hb] at h
        | ok incoming =>
          simp only [hb] at h
          rw [allRanks_ok_iff] at h hpr
          obtain ⟨p', e', hp', he', hr⟩ := balancedProg_run M parRun sort clk (fun r => (pr r).2)
            (fun i incoming => localCompute
              (updateReactionRates M (flow i).nCells (pr i).1 incoming) (k i))
            incoming hb p e hp
          refine ⟨p', e', hp', fun _ _ h => he' h, ?_⟩
          simp only [stepProg, if_pos hchem, if_pos hact, hpr]
          simp only [localCompute, h] at hr ⊢
          exact hr
      · simp only [if_neg hact, solveUnbalanced, bind, Except.bind] at h
        cases hs : allRanks (fun r => solveList M (clk r) 1 (pr r).2) with
        | error er => simp [hs] at h
        | ok sol =>
          simp only [hs] at h
          rw [allRanks_ok_iff] at h hpr hs
          refine ⟨p, e, hp, fun _ h => absurd h hact, ?_⟩
          simp only [stepProg, if_pos hchem, if_neg hact, hpr, hs, h, localCompute]
          exact .refl _
  · rw [if_neg hchem, Except.ok.injEq] at h
    subst h
    refine ⟨p, e, hp, fun h => absurd h hchem, ?_⟩
    simp only [stepProg, if_neg hchem]
    exact .refl _

theorem historyProg_run (parRun : Bool)
    (sort : List (ChemistryLoad S) → List (ChemistryLoad S)) :
    ∀ (is : List (StepInput S n)) (F : Fin n → RankFields S)
    (acc : Fin n → List (RankFields S × S)) (res : List (Fin n → RankFields S × S))
    (_ : history parRun sort is F = .ok res)
    (p : Fin n → List (Post S)) (e : Nat) (_ : ∀ i, (p i).length = e),
    ∃ (p' : Fin n → List (Post S)),
      Reach Step (fun i => quiet (historyProg parRun sort i is (F i) (acc i)) (p i))
        (fun i => quiet (.done (acc i ++ res.map (fun r => r i))) (p' i))
  | [], F, acc, res, h, p, e, hp => by
    simp only [history, Except.ok.injEq] at h
    subst h
    refine ⟨p, ?_⟩
    simp only [historyProg, List.map_nil, List.append_nil]
    exact .refl _
  | i :: is, F, acc, res, h, p, e, hp => by
    simp only [history, bind, Except.bind] at h
    cases h1 : solveWorld i.model parRun sort i.clk i.flow F with
    | error er => simp [h1] at h
    | ok res1 =>
      simp only [h1] at h
      cases h2 : history parRun sort is (fun r => (res1 r).1) with
      | error er => simp [h2] at h
      | ok rest =>
        simp only [h2, Except.ok.injEq] at h
        subst h
        obtain ⟨p', e', hp', -, hr⟩ := stepProg_run i.model parRun sort i.clk i.flow F
          (fun r res => historyProg parRun sort r is res.1 (acc r ++ [res])) res1 h1 p e hp
        obtain ⟨p'', hr'⟩ := historyProg_run parRun sort is (fun r => (res1 r).1)
          (fun r => acc r ++ [res1 r]) rest h2 p' e' hp'
        refine ⟨p'', hr.trans ?_⟩
        simpa only [List.map_cons, List.append_assoc, List.singleton_append] using hr'

/-- C10.  Consider any number of time steps on `n` ranks that succeed when executed phase by
phase.  There is a number `N` such that under every schedule:
no run takes more than `N` steps; as long as fewer than `N` steps were taken some rank can take
another one (no deadlock); no rank ever fails (in particular none receives from a rank that has
not sent, and none leaves a message unread); after `N` steps all ranks are done, nothing is left
in any send or receive buffer, and the results are those of the phase by phase execution. -/
theorem C10_every_schedule (parRun : Bool)
    (sort : List (ChemistryLoad S) → List (ChemistryLoad S)) (inputs : List (StepInput S n))
    (F : Fin n → RankFields S) (res : List (Fin n → RankFields S × S))
    (h : history parRun sort inputs F = .ok res) :
    ∃ N : Nat, ∀ (m : Nat) (c : Config S (List (RankFields S × S)) n),
      Steps Step m (startConfig parRun sort inputs F) c →
      m ≤ N ∧
      (m < N → ∃ c', Step c c') ∧
      (∀ r, (c r).prog ≠ .fail) ∧
      (m = N → ∀ r, (c r).prog = .done (res.map (fun x => x r)) ∧ (c r).outbox = [] ∧
        ∀ s, (c r).inbox s = []) := by
  obtain ⟨p', N, hN⟩ := historyProg_run parRun sort inputs F (fun _ => []) res h (fun _ => []) 0
    (fun _ => rfl)
  refine ⟨N, fun m c hc => ?_⟩
  obtain ⟨h1, h2⟩ := Steps.all_runs step_diamond
    (done_no_step (fun r => ⟨_, rfl⟩)) m N _ c hN hc
  refine ⟨h1, ?_, ?_, ?_⟩
  · intro hlt
    cases hk : N - m with
    | zero => omega
    | succ k =>
      rw [hk] at h2
      cases h2 with
      | head hs _ => exact ⟨_, hs⟩
  · intro r hr
    have := fail_persists h2 r hr
    simp [quiet] at this
  · rintro rfl r
    rw [Nat.sub_self] at h2
    cases h2
    exact ⟨by simp [quiet], rfl, fun _ => rfl⟩

/-- C10, corollary: a schedule that cannot be continued has taken all steps; so any two complete
schedules end with the same results after the same number of steps. -/
theorem C10_complete_schedules_agree (parRun : Bool)
    (sort : List (ChemistryLoad S) → List (ChemistryLoad S)) (inputs : List (StepInput S n))
    (F : Fin n → RankFields S) (res : List (Fin n → RankFields S × S))
    (h : history parRun sort inputs F = .ok res)
    (m m' : Nat) (c c' : Config S (List (RankFields S × S)) n)
    (hc : Steps Step m (startConfig parRun sort inputs F) c) (hstop : ¬ ∃ d, Step c d)
    (hc' : Steps Step m' (startConfig parRun sort inputs F) c') (hstop' : ¬ ∃ d, Step c' d) :
    m = m' ∧ (∀ r, (c r).prog = .done (res.map (fun x => x r))) ∧
      (∀ r, (c' r).prog = .done (res.map (fun x => x r))) := by
  obtain ⟨N, hN⟩ := C10_every_schedule parRun sort inputs F res h
  obtain ⟨h1, h2, -, h3⟩ := hN m c hc
  obtain ⟨h1', h2', -, h3'⟩ := hN m' c' hc'
  have hm : m = N := by
    by_contra hne; exact hstop (h2 (by omega))
  have hm' : m' = N := by
    by_contra hne; exact hstop' (h2' (by omega))
  exact ⟨hm.trans hm'.symm, fun r => (h3 hm r).1, fun r => (h3' hm' r).1⟩

/-- C10, one step from the inputs alone: if the cells themselves can be dealt with (mixture
fractions can be evaluated, the cells that are to be solved can be integrated), then under every
schedule the balanced step ends, on all ranks, with the same results. -/
theorem C10_step_ends_if_cells_can_be_solved (hn : 0 < n) (i : StepInput S n)
    (hchem : i.model.chemistry = true) (parRun : Bool) (hpar : parRun = true ∨ n = 1)
    (sort : List (ChemistryLoad S) → List (ChemistryLoad S)) (hsort : ∀ l, (sort l).Perm l)
    (F : Fin n → RankFields S)
    (hcells : ∀ r : Fin n,
      (i.model.mapper.active = true → ∀ j, j < (i.flow r).nCells → ∃ Z,
        massFractionToMixtureFraction i.model.mapper.mixFrac
          (composition i.model (i.flow r) j) = .ok Z) ∧
      ∀ j, j < (i.flow r).nCells →
        (¬ Mapped i.model (i.flow r) j ∨ IsReference i.model (i.flow r) j) →
        ∃ t s, solveSingle i.model t (cellProblem i.model (i.flow r) (F r) j) = .ok s) :
    ∃ (res : Fin n → RankFields S × S) (N : Nat),
      ∀ (m : Nat) (c : Config S (List (RankFields S × S)) n),
      Steps Step m (startConfig parRun sort [i] F) c →
      m ≤ N ∧ (m < N → ∃ c', Step c c') ∧ (∀ r, (c r).prog ≠ .fail) ∧
      (m = N → ∀ r, (c r).prog = .done [res r]) := by
  obtain ⟨res, hres⟩ := (C27_step_succeeds_iff hn i.model hchem parRun hpar sort hsort i.clk
    i.flow F).2 hcells
  have hh : history parRun sort [i] F = .ok [res] := by
    simp only [history, bind, Except.bind, hres]
  obtain ⟨N, hN⟩ := C10_every_schedule parRun sort [i] F [res] hh
  refine ⟨res, N, fun m c hc => ?_⟩
  obtain ⟨h1, h2, h3, h4⟩ := hN m c hc
  exact ⟨h1, h2, h3, fun hm r => (h4 hm r).1⟩

/-- C29, communication: with chemistry switched off in all steps, no rank sends anything or takes
part in a collective operation: all ranks are done before the first communication step. -/
theorem C29_chemistry_off_no_communication (parRun : Bool)
    (sort : List (ChemistryLoad S) → List (ChemistryLoad S)) (inputs : List (StepInput S n))
    (hoff : ∀ i ∈ inputs, i.model.chemistry = false) (F : Fin n → RankFields S) :
    ∀ r, (startConfig parRun sort inputs F r).prog =
      .done (inputs.map (fun _ => (F r, Consts.great))) := by
  intro r
  have key : ∀ (is : List (StepInput S n)), (∀ i ∈ is, i.model.chemistry = false) →
      ∀ (G : RankFields S) acc, historyProg parRun sort r is G acc =
      .done (acc ++ is.map (fun _ => (G, Consts.great))) := by
    intro is
    induction is with
    | nil => intro _ G acc; simp [historyProg]
    | cons i is ih =>
      intro hi G acc
      have h1 := hi i List.mem_cons_self
      simp only [historyProg, stepProg, h1, Bool.false_eq_true, if_false]
      rw [ih (fun j hj => hi j (List.mem_cons_of_mem _ hj))]
      simp
  simpa [startConfig] using key inputs hoff (F r) []

/-- C10: two steps of the two-rank example meet the hypothesis, the first balanced, the second
not. -/
example : ((history (S := ℚ) (n := 2) true Example.sort
    [⟨Example.mapModel, Example.mapClk, Example.mapFlow⟩,
     ⟨{ Example.mapModel with active := false }, Example.mapClk, Example.mapFlow⟩]
    Example.mapFields).toOption.map (fun l => l.map (fun res => ((res 0).2, (res 1).2)))) =
    some [(1 / 5, 1 / 2), (1 / 5, 1 / 2)] := by decide +kernel

end DLB
