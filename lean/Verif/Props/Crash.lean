import Verif.Lemmas.MpiCrash
/-
C108: crashes and failures of ranks, at any point of any schedule.
-/
set_option autoImplicit false
set_option linter.unusedSectionVars false

namespace DLB

variable {S : Type} {n : Nat}
variable [Zero S] [Add S] [Sub S] [Mul S] [Div S] [Neg S] [NatCast S]
variable [LT S] [DecidableLT S] [LE S] [DecidableLE S] [Consts S]

theorem done_frozen {R : Type} {c c' : Config S R n} {k : Nat} (h : Steps Step k c c') (r : Fin n) {x : R}
    (hr : (c r).prog = .done x) : c' r = c r := by
  induction h with
  | refl => rfl
  | head hs _ ih =>
    obtain ⟨me, b, hb, rfl⟩ := hs
    by_cases h : r = me
    · subst h
      exfalso
      unfold rankStep localStep waiting at hb
      simp [hr] at hb
    · rw [ih (by rwa [Function.update_of_ne h]), Function.update_of_ne h]

theorem start_counts (sort : List (ChemistryLoad S) → List (ChemistryLoad S))
    (inputs : List (StepInput S n))
    (hb : ∀ i ∈ inputs, i.model.chemistry = true ∧ i.model.active = true) (F : Fin n → RankFields S) :
    (∀ j, Counts (3 * inputs.length) (startConfig true sort inputs F j)) ∧
      Passed (startConfig true sort inputs F) := by
  refine ⟨fun j => ⟨.inr ⟨_, posts_historyProg sort j inputs hb (F j) [], ?_⟩, ?_, ?_⟩, fun i j => ?_⟩ <;>
    simp [startConfig]

/-- A run with crashes, seen as one without in which the crashed ranks just stop. -/
theorem crash_free_run {R : Type} {m : Nat} {a c : Config S R n} (h : Steps StepOrCrash m a c) :
    ∃ c', Reach Step a c' ∧ (∀ j, (c j).posts = (c' j).posts) ∧
      ∀ r x, (c r).prog = .done x → (c' r).prog = .done x := by
  obtain ⟨c', hc', hs⟩ := crash_sim h (a' := a) (fun j => ⟨rfl, .inl rfl⟩)
  refine ⟨c', hc', fun j => (hs j).1, fun r x hx => ?_⟩
  rcases (hs r).2 with h | h
  · rw [← h]; exact hx
  · rw [h] at hx; simp at hx

/-- C108, survivors.  Take any number of time steps that succeed when no rank crashes.  In every schedule in
which any ranks crash at any points, a rank that finishes these steps has the results of the run
without crashes. -/
theorem C108_survivors_have_the_right_results (parRun : Bool)
    (sort : List (ChemistryLoad S) → List (ChemistryLoad S)) (inputs : List (StepInput S n))
    (F : Fin n → RankFields S) (res : List (Fin n → RankFields S × S))
    (h : history parRun sort inputs F = .ok res) (m : Nat)
    (c : Config S (List (RankFields S × S)) n)
    (hc : Steps StepOrCrash m (startConfig parRun sort inputs F) c) (r : Fin n)
    (x : List (RankFields S × S)) (hx : (c r).prog = .done x) : x = res.map (fun y => y r) := by
  obtain ⟨c', ⟨k, hk⟩, -, hdone⟩ := crash_free_run hc
  obtain ⟨p', N, hN⟩ := historyProg_run parRun sort inputs F (fun _ => []) res h (fun _ => []) 0
    (fun _ => rfl)
  obtain ⟨-, h2⟩ := Steps.all_runs step_diamond (done_no_step (fun r => ⟨_, rfl⟩)) k N _ c' hN hk
  have h3 := congrArg RankState.prog (done_frozen h2 r (hdone r x hx))
  rw [hdone r x hx] at h3
  simpa [quiet] using h3.symm

/-- C108, nobody goes ahead.  With load balancing, in every schedule and whatever crashes or fails: if a rank
has finished a number of time steps, every rank has taken part in all collective operations of these
steps, the last of which is sending the solutions of the last step.  So a rank that crashes earlier
keeps all others from finishing that step: there is never a rank with the results of a step of which others
did not finish their part. -/
theorem C108_no_rank_finishes_alone (sort : List (ChemistryLoad S) → List (ChemistryLoad S))
    (inputs : List (StepInput S n))
    (hb : ∀ i ∈ inputs, i.model.chemistry = true ∧ i.model.active = true) (F : Fin n → RankFields S)
    (m : Nat) (c : Config S (List (RankFields S × S)) n)
    (hc : Steps StepOrCrash m (startConfig true sort inputs F) c) (r : Fin n)
    (x : List (RankFields S × S)) (hx : (c r).prog = .done x) (j : Fin n) :
    (c j).posts.length = 3 * inputs.length := by
  obtain ⟨c', ⟨k, hk⟩, hp, hdone⟩ := crash_free_run hc
  obtain ⟨h1, h2⟩ := start_counts sort inputs hb F
  obtain ⟨h3, h4⟩ := counts_steps hk h1 h2
  have hr := hdone r x hx
  have hpo : (c' r).posted = false := by
    cases hpo : (c' r).posted with
    | false => rfl
    | true =>
      rcases (h3 r).posted hpo with h | h <;> rw [hr] at h <;> simp [atCollective] at h
  have hlen : (c' r).posts.length = 3 * inputs.length := by
    rcases (h3 r).left with h | ⟨t, ht, h⟩
    · rw [hr] at h; simp at h
    · rw [hr] at ht
      rw [hpo, show t = 0 from ht] at h
      simpa using h
  have hge := h4 j r
  rw [hpo, hlen] at hge
  rw [hp j]
  have := (h3 j).le
  simp at hge
  omega

/-- C108, all or nothing.  With load balancing: if a sequence of time steps fails (a mixture fraction cannot be
evaluated or a cell cannot be integrated, on any rank), then in no schedule any rank finishes the
sequence. -/
theorem C108_failed_step_is_finished_nowhere (hn : 0 < n)
    (sort : List (ChemistryLoad S) → List (ChemistryLoad S)) (hsort : ∀ l, (sort l).Perm l)
    (inputs : List (StepInput S n))
    (hb : ∀ i ∈ inputs, i.model.chemistry = true ∧ i.model.active = true) (F : Fin n → RankFields S)
    (er : Fault) (h : history true sort inputs F = .error er)
    (m : Nat) (c : Config S (List (RankFields S × S)) n)
    (hc : Steps StepOrCrash m (startConfig true sort inputs F) c) (r : Fin n)
    (x : List (RankFields S × S)) : (c r).prog ≠ .done x := by
  intro hx
  obtain ⟨d, j, ⟨kd, hd⟩, hf, hl⟩ := historyProg_fails hn sort hsort inputs hb F (fun _ => []) er h
    (fun _ => []) 0 (fun _ => rfl)
  obtain ⟨c', ⟨k, hk⟩, hp, -⟩ := crash_free_run hc
  obtain ⟨y, ⟨k1, h1⟩, k2, h2⟩ := Steps.confluent step_diamond hd hk
  have e1 := congrArg RankState.posts (fail_frozen h1 j hf)
  have e2 := (posts_mono h2 j).length_le
  have e3 := C108_no_rank_finishes_alone sort inputs hb F m c hc r x hx j
  rw [hp j] at e3
  rw [e1] at e2
  omega

/-! ### Cases -/

namespace Example

/-- The integrator refuses temperatures of 1000 and more: the cell of rank 1. -/
def coldModel : ChemModel ℚ :=
  { mapModel with integrate := fun p T c dt sub =>
      if T < 1000 then mapModel.integrate p T c dt sub else .error .fatal }

/-- Whether a program is finished, and whether it has failed. -/
def ended {R : Type} : Prog ℚ R → Bool × Bool
  | .done _ => (true, false)
  | .fail => (false, true)
  | _ => (false, false)

end Example

/-- Steps that meet the hypotheses of C108: two balanced steps that succeed (the first two theorems), and two of
which the second fails because rank 1 cannot integrate its cell (the third). -/
example : ((history (S := ℚ) (n := 2) true Example.sort
      [⟨Example.mapModel, Example.mapClk, Example.mapFlow⟩,
       ⟨Example.mapModel, Example.mapClk, Example.mapFlow⟩]
      Example.mapFields).toOption.map (fun l => l.map (fun res => ((res 0).2, (res 1).2)))) =
      some [(1 / 5, 1 / 2), (1 / 5, 1 / 2)] ∧
    (history (S := ℚ) (n := 2) true Example.sort
      [⟨Example.mapModel, Example.mapClk, Example.mapFlow⟩,
       ⟨Example.coldModel, Example.mapClk, Example.mapFlow⟩]
      Example.mapFields).toOption.isNone = true := by
  constructor <;> decide +kernel

/-- **Without load balancing a failed step is finished by other ranks.**  The step of the example above, with the
balancer switched off: rank 1 fails and rank 0 is done. -/
theorem C108_without_balancing_others_finish :
    Example.ended (startConfig (S := ℚ) (n := 2) true Example.sort
      [⟨{ Example.coldModel with active := false }, Example.mapClk, Example.mapFlow⟩]
      Example.mapFields 0).prog = (true, false) ∧
    Example.ended (startConfig (S := ℚ) (n := 2) true Example.sort
      [⟨{ Example.coldModel with active := false }, Example.mapClk, Example.mapFlow⟩]
      Example.mapFields 1).prog = (false, true) := by
  constructor <;> decide +kernel

end DLB
