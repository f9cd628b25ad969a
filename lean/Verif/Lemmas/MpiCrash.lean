import Verif.Spec.Crash
import Verif.Props.Mpi
/-
Runs with crashes (C108): they look like runs without for those that survive; how many collective
operations a rank takes part in; runs of steps that fail.
-/
set_option autoImplicit false
set_option linter.unusedSectionVars false

namespace DLB

section Abstract
variable {α : Type} {rel : α → α → Prop}

theorem Steps.strip (hd : Diamond rel) {m : Nat} {a c : α} (h : Steps rel m a c) :
    ∀ {b : α}, rel a b → ∃ d, Reach rel b d ∧ (c = d ∨ rel c d) := by
  induction h with
  | refl a => intro b hab; exact ⟨b, .refl b, .inr hab⟩
  | @head k a a' c haa hac ih =>
    intro b hab
    rcases hd a a' b haa hab with rfl | ⟨d, h1, h2⟩
    · exact ⟨c, ⟨k, hac⟩, .inl rfl⟩
    · obtain ⟨x, hx, hx'⟩ := ih h1
      exact ⟨x, (Reach.one h2).trans hx, hx'⟩

theorem Steps.confluent (hd : Diamond rel) {k m : Nat} {a b c : α} (h : Steps rel k a b)
    (h' : Steps rel m a c) : ∃ d, Reach rel b d ∧ Reach rel c d := by
  induction h generalizing m c with
  | refl a => exact ⟨c, ⟨m, h'⟩, .refl c⟩
  | head hab _ ih =>
    obtain ⟨d, ⟨_, h1⟩, h2⟩ := Steps.strip hd h' hab
    obtain ⟨x, hx, hx'⟩ := ih h1
    refine ⟨x, hx, ?_⟩
    rcases h2 with rfl | h2
    · exact hx'
    · exact (Reach.one h2).trans hx'

end Abstract

section
variable {S R : Type} {n : Nat}

theorem fail_frozen {c c' : Config S R n} {k : Nat} (h : Steps Step k c c') (r : Fin n)
    (hr : (c r).prog = .fail) : c' r = c r := by
  induction h with
  | refl => rfl
  | head hs _ ih =>
    obtain ⟨me, b, hb, rfl⟩ := hs
    by_cases h : r = me
    · subst h
      exfalso
      unfold rankStep localStep waiting at hb
      simp [hr] at hb
    · rw [ih (by rwa [Function.update_of_ne h]), Function.update_of_ne h]

theorem posts_mono {c c' : Config S R n} {k : Nat} (h : Steps Step k c c') (r : Fin n) :
    (c r).posts <+: (c' r).posts := by
  induction h with
  | refl => exact List.prefix_rfl
  | head hs _ ih =>
    obtain ⟨me, b, hb, rfl⟩ := hs
    refine List.IsPrefix.trans ?_ ih
    by_cases h : r = me
    · subst h
      rw [Function.update_self]
      exact rankStep_posts hb
    · rw [Function.update_of_ne h]

/-! ### Runs with crashes -/

/-- `c` is `d` but for ranks that have crashed. -/
def CrashedFrom (c d : Config S R n) : Prop :=
  ∀ j, (c j).posts = (d j).posts ∧ (c j = d j ∨ (c j).prog = .fail)

theorem collect_crashed {c d : Config S R n} (h : CrashedFrom c d) (e : Nat) :
    collect c e = collect d e := by
  unfold collect
  have hp : ∀ j, (c j).posts = (d j).posts := fun j => (h j).1
  by_cases ha : ∀ j, e < (c j).posts.length
  · have hb : ∀ j, e < (d j).posts.length := fun j => by rw [← hp j]; exact ha j
    rw [dif_pos ha, dif_pos hb]
    congr 1
    funext j
    simp only [hp j]
  · have hb : ¬ ∀ j, e < (d j).posts.length := fun hb => ha fun j => by rw [hp j]; exact hb j
    rw [dif_neg ha, dif_neg hb]

theorem crash_sim {m : Nat} {a c : Config S R n} (h : Steps StepOrCrash m a c) :
    ∀ {a' : Config S R n}, CrashedFrom a a' → ∃ c', Reach Step a' c' ∧ CrashedFrom c c' := by
  induction h with
  | refl a => intro a' ha; exact ⟨a', .refl _, ha⟩
  | @head k a b c hab _ ih =>
    intro a' ha
    rcases hab with ⟨me, x, hx, rfl⟩ | ⟨r, rfl⟩
    · have hme : a me = a' me := by
        rcases (ha me).2 with h | h
        · exact h
        · exfalso
          unfold rankStep localStep waiting at hx
          simp [h] at hx
      have hx' : rankStep me a' = some x := by
        unfold rankStep at hx ⊢
        rw [← hme, ← collect_crashed ha]
        exact hx
      obtain ⟨c', hc', hs⟩ := ih (a' := Function.update a' me x) (by
        intro j
        by_cases hj : j = me
        · subst hj; simp
        · simp only [Function.update_of_ne hj]; exact ha j)
      exact ⟨c', (Reach.one ⟨me, x, hx', rfl⟩).trans hc', hs⟩
    · exact ih (by
        intro j
        by_cases hj : j = r
        · subst hj
          rw [Function.update_self]
          exact ⟨(ha j).1, .inr rfl⟩
        · simp only [Function.update_of_ne hj]; exact ha j)

/-! ### Counting collective operations -/

/-- Whatever it receives, the program takes part in exactly `t` further collective operations, unless it
fails. -/
def Posts : Prog S R → Nat → Prop
  | .done _, t => t = 0
  | .fail, _ => True
  | .send _ _ k, t => Posts k t
  | .exchange k, t => ∃ t', t = t' + 1 ∧ Posts k t'
  | .recv _ k, t => ∀ m, Posts (k m) t
  | .endRead k, t => Posts k t
  | .gather _ k, t => ∃ t', t = t' + 1 ∧ ∀ l, Posts (k l) t'

/-- At a collective operation. -/
def atCollective : Prog S R → Bool
  | .gather _ _ => true
  | .exchange _ => true
  | _ => false

/-- Invariant of a rank: counts of contributions made and to come. -/
structure Counts (total : Nat) (a : RankState S R) : Prop where
  left : a.prog = .fail ∨ ∃ t, Posts a.prog t ∧ a.posts.length + t = total + a.posted.toNat
  posted : a.posted = true → a.prog = .fail ∨ atCollective a.prog = true
  le : a.posts.length ≤ total

/-- Invariant of the run: a rank that is not at a collective operation has passed only those to which all
have contributed. -/
def Passed (c : Config S R n) : Prop :=
  ∀ i j, (c j).posts.length ≤ (c i).posts.length + (c j).posted.toNat

theorem counts_local {total : Nat} {a b : RankState S R} (h : Counts total a)
    (hb : localStep n a = some b) :
    Counts total b ∧ (b.posts.length = a.posts.length ∧ b.posted = a.posted ∨
      b.posts.length = a.posts.length + 1 ∧ a.posted = false ∧ b.posted = true) := by
  obtain ⟨p, o, inb, po, ps⟩ := a
  obtain ⟨h1, h2, h3⟩ := h
  simp only at h1 h2 h3
  unfold localStep at hb
  cases p with
  | done r => simp at hb
  | fail => simp at hb
  | send d m k =>
    simp only [Option.some.injEq] at hb
    subst hb
    have hpo : po = false := by cases po <;> simp [atCollective] at h2 ⊢
    subst hpo
    refine ⟨⟨?_, by simp, h3⟩, .inl ⟨rfl, rfl⟩⟩
    simp only
    split
    · rcases h1 with h1 | ⟨t, h1, h4⟩
      · simp at h1
      · exact .inr ⟨t, h1, h4⟩
    · exact .inl rfl
  | recv s k =>
    have hpo : po = false := by cases po <;> simp [atCollective] at h2 ⊢
    subst hpo
    simp only at hb
    split at hb
    · simp only [Option.some.injEq] at hb
      subst hb
      exact ⟨⟨.inl rfl, by simp, h3⟩, .inl ⟨rfl, rfl⟩⟩
    · next m ms _ =>
      simp only [Option.some.injEq] at hb
      subst hb
      refine ⟨⟨?_, by simp, h3⟩, .inl ⟨rfl, rfl⟩⟩
      rcases h1 with h1 | ⟨t, h1, h4⟩
      · simp at h1
      · exact .inr ⟨t, h1 m, h4⟩
  | endRead k =>
    have hpo : po = false := by cases po <;> simp [atCollective] at h2 ⊢
    subst hpo
    simp only at hb
    split at hb
    · simp only [Option.some.injEq] at hb
      subst hb
      refine ⟨⟨?_, by simp, h3⟩, .inl ⟨rfl, rfl⟩⟩
      rcases h1 with h1 | ⟨t, h1, h4⟩
      · simp at h1
      · exact .inr ⟨t, h1, h4⟩
    · simp only [Option.some.injEq] at hb
      subst hb
      exact ⟨⟨.inl rfl, by simp, h3⟩, .inl ⟨rfl, rfl⟩⟩
  | gather x k =>
    cases po with
    | true => simp at hb
    | false =>
      simp only [Bool.false_eq_true, if_false, Option.some.injEq] at hb
      subst hb
      rcases h1 with h1 | ⟨t, ⟨t', rfl, h1⟩, h4⟩
      · simp at h1
      · simp only [Bool.toNat_false] at h4
        refine ⟨⟨.inr ⟨t' + 1, ⟨t', rfl, h1⟩, ?_⟩, fun _ => .inr rfl, ?_⟩, .inr ⟨?_, rfl, rfl⟩⟩ <;>
          simp <;> omega
  | exchange k =>
    cases po with
    | true => simp at hb
    | false =>
      simp only [Bool.false_eq_true, if_false, Option.some.injEq] at hb
      subst hb
      rcases h1 with h1 | ⟨t, ⟨t', rfl, h1⟩, h4⟩
      · simp at h1
      · simp only [Bool.toNat_false] at h4
        refine ⟨⟨.inr ⟨t' + 1, ⟨t', rfl, h1⟩, ?_⟩, fun _ => .inr rfl, ?_⟩, .inr ⟨?_, rfl, rfl⟩⟩ <;>
          simp <;> omega

theorem counts_complete {total : Nat} (me : Fin n) {a : RankState S R} (h : Counts total a)
    (hw : waiting a = true) (f : Fin n → Post S) : Counts total (complete me a f) := by
  obtain ⟨p, o, inb, po, ps⟩ := a
  obtain ⟨h1, h2, h3⟩ := h
  simp only at h1 h2 h3
  cases p with
  | gather x k =>
    obtain rfl : po = true := by simpa [waiting] using hw
    unfold complete
    simp only
    split
    · refine ⟨.inr ?_, by simp, h3⟩
      rcases h1 with h1 | ⟨t, ⟨t', rfl, h1⟩, h4⟩
      · simp at h1
      · exact ⟨t', h1 _, by simp at h4 ⊢; omega⟩
    · exact ⟨.inl rfl, fun _ => .inl rfl, h3⟩
  | exchange k =>
    obtain rfl : po = true := by simpa [waiting] using hw
    unfold complete
    simp only
    split
    · refine ⟨.inr ?_, by simp, h3⟩
      rcases h1 with h1 | ⟨t, ⟨t', rfl, h1⟩, h4⟩
      · simp at h1
      · exact ⟨t', h1, by simp at h4 ⊢; omega⟩
    · exact ⟨.inl rfl, fun _ => .inl rfl, h3⟩
  | _ => simp [waiting] at hw

theorem counts_steps {total m : Nat} {a c : Config S R n} (h : Steps Step m a c)
    (ha : ∀ j, Counts total (a j)) (hp : Passed a) : (∀ j, Counts total (c j)) ∧ Passed c := by
  induction h with
  | refl => exact ⟨ha, hp⟩
  | @head k a b c hab _ ih =>
    obtain ⟨me, x, hx, rfl⟩ := hab
    have hmono := rankStep_posts hx
    have key : Counts total x ∧ ∀ i, x.posts.length ≤ (a i).posts.length + x.posted.toNat := by
      unfold rankStep at hx
      split at hx
      · next b' hb =>
        simp only [Option.some.injEq] at hx
        subst hx
        obtain ⟨k1, k2⟩ := counts_local (ha me) hb
        refine ⟨k1, fun i => ?_⟩
        have := hp i me
        rcases k2 with ⟨e1, e2⟩ | ⟨e1, e2, e3⟩
        · rw [e1, e2]; exact this
        · rw [e1, e3]; rw [e2] at this; simp at this ⊢; omega
      · split at hx
        · next hw =>
          rw [Option.map_eq_some_iff] at hx
          obtain ⟨f, hf, rfl⟩ := hx
          refine ⟨counts_complete me (ha me) hw f, fun i => ?_⟩
          rw [complete_posts]
          unfold collect at hf
          split at hf
          · next hall => have := hall i; omega
          · simp at hf
        · simp at hx
    apply ih
    · intro j
      by_cases hj : j = me
      · subst hj; rw [Function.update_self]; exact key.1
      · rw [Function.update_of_ne hj]; exact ha j
    · intro i j
      have hi : (a i).posts.length ≤ (Function.update a me x i).posts.length := by
        by_cases hi : i = me
        · subst hi; rw [Function.update_self]; exact hmono.length_le
        · rw [Function.update_of_ne hi]
      by_cases hj : j = me
      · subst hj
        rw [Function.update_self]
        exact (key.2 i).trans (Nat.add_le_add_right hi _)
      · rw [Function.update_of_ne hj]
        exact (hp i j).trans (Nat.add_le_add_right hi _)

/-! ### The programs -/

theorem posts_sendLoop {t : Nat} (buf : Nat → Except Fault (List (Tok S))) (k : Prog S R) (hk : Posts k t) :
    ∀ (ds : List Nat) (i : Nat), Posts (sendLoop buf i ds k) t
  | [], _ => hk
  | d :: ds, i => by
    unfold sendLoop
    split
    · trivial
    · exact posts_sendLoop buf k hk ds (i + 1)

theorem posts_recvLoop {α : Type} {t : Nat} (get : Reader S α) :
    ∀ (ss : List Nat) (k : List α → Prog S R), (∀ xs, Posts (k xs) t) → Posts (recvLoop get ss k) t
  | [], k, hk => hk []
  | s :: ss, k, hk => by
    intro m
    simp only
    split
    · exact posts_recvLoop get ss _ (fun xs => hk _)
    · trivial

theorem posts_sendRecv {α : Type} {t : Nat} (put : α → List (Tok S)) (get : Reader S α)
    (buf : Nat → Except Fault α) (sources destinations : List Nat) (k : List α → Prog S R)
    (hk : ∀ xs, Posts (k xs) t) :
    Posts (sendRecvProg true put get buf sources destinations k) (t + 1) := by
  unfold sendRecvProg
  rw [if_pos rfl]
  refine posts_sendLoop _ _ ?_ _ _
  exact ⟨t, rfl, posts_recvLoop _ _ _ hk⟩

theorem posts_localCompute {α : Type} {t : Nat} (x : Except Fault α) (k : α → Prog S R)
    (hk : ∀ a, Posts (k a) t) : Posts (localCompute x k) t := by
  unfold localCompute
  split
  · exact hk _
  · trivial

end

section
variable {S R : Type} {n : Nat}
variable [Zero S] [Add S] [Sub S] [Mul S] [Div S] [Neg S] [NatCast S]
variable [LT S] [DecidableLT S] [LE S] [DecidableLE S] [Consts S]

theorem posts_stepProg {t : Nat} (M : ChemModel S) (hchem : M.chemistry = true) (hact : M.active = true)
    (sort : List (ChemistryLoad S) → List (ChemistryLoad S)) (clk : Nat → S) (flow : Flow S)
    (me : Nat) (F : RankFields S) (k : RankFields S × S → Prog S R) (hk : ∀ x, Posts (k x) t) :
    Posts (stepProg M true sort clk flow me F k) (t + 3) := by
  unfold stepProg
  rw [if_pos hchem]
  refine posts_localCompute _ _ fun pr => ?_
  rw [if_pos hact]
  refine ⟨t + 2, rfl, fun loads => ?_⟩
  refine posts_localCompute _ _ fun st => posts_sendRecv _ _ _ _ _ _ fun guests => ?_
  refine posts_localCompute _ _ fun own => posts_localCompute _ _ fun ownSol =>
    posts_localCompute _ _ fun guestSol => posts_sendRecv _ _ _ _ _ _ fun inc => ?_
  exact posts_localCompute _ _ hk

theorem posts_historyProg (sort : List (ChemistryLoad S) → List (ChemistryLoad S)) (me : Fin n) :
    ∀ (is : List (StepInput S n)), (∀ i ∈ is, i.model.chemistry = true ∧ i.model.active = true) →
    ∀ (F : RankFields S) acc, Posts (historyProg true sort me is F acc) (3 * is.length)
  | [], _, _, _ => rfl
  | i :: is, h, F, acc => by
    have hi := h i List.mem_cons_self
    exact posts_stepProg i.model hi.1 hi.2 sort _ _ _ _ _
      (fun x => posts_historyProg sort me is (fun j hj => h j (List.mem_cons_of_mem _ hj)) _ _)

/-! ### Steps that fail -/

/-- A balanced step that fails phase by phase: some rank fails before it contributes its solutions. -/
theorem stepProg_fails (hn : 0 < n) (M : ChemModel S) (hchem : M.chemistry = true)
    (hact : M.active = true)
    (sort : List (ChemistryLoad S) → List (ChemistryLoad S)) (hsort : ∀ l, (sort l).Perm l)
    (clk : Fin n → Nat → S) (flow : Fin n → Flow S) (F : Fin n → RankFields S)
    (k : Fin n → RankFields S × S → Prog S R) (er : Fault)
    (h : solveWorld M true sort clk flow F = .error er)
    (p : Fin n → List (Post S)) (e : Nat) (hp : ∀ i, (p i).length = e) :
    ∃ (d : Config S R n) (j : Fin n),
      Reach Step (fun i => quiet (stepProg M true sort (clk i) (flow i) i.val (F i) (k i)) (p i)) d ∧
      (d j).prog = .fail ∧ (d j).posts.length < e + 3 := by
  by_cases hpr : ∀ r, ∃ x, getProblems M (flow r) (clk r) (F r) = .ok x
  swap
  · push Not at hpr
    obtain ⟨r, hr⟩ := hpr
    refine ⟨_, r, .refl _, ?_, ?_⟩
    · simp only [quiet, stepProg, if_pos hchem]
      cases hg : getProblems M (flow r) (clk r) (F r) with
      | ok x => exact absurd hg (hr x)
      | error e => rfl
    · simp [quiet, hp r]
  choose pr hpr using hpr
  obtain ⟨plan, hok, -, -, hst, hsplit⟩ := splitProblems_plan hn sort hsort (fun r => (pr r).2) true
    (.inl rfl)
  have hbal := balance_plan hok (fun r => (pr r).2) true (.inl rfl)
  have hrest : ∀ r : Fin n, getRemaining (stateOf plan r.val (pr r).2) (pr r).2 =
      .ok (restOf plan r.val (pr r).2) := by
    intro r
    have := getRemaining_rest (blocksOf plan r.val (pr r).2) (restOf plan r.val (pr r).2)
      (stateOf plan r.val (pr r).2) (by rw [blocksOf_flatten]; rfl)
    rwa [blocksOf_flatten] at this
  -- some rank cannot solve what it has to
  have hbad : ∃ r : Fin n, ∀ a b, solveList M (clk r) 1 (restOf plan r.val (pr r).2) = .ok a →
      solveBuffer M (clk r) (1 + (restOf plan r.val (pr r).2).length)
        (guestsOf plan (fun r => (pr r).2) r.val) = .ok b → False := by
    by_contra hcon
    push Not at hcon
    choose a b ha hb _ using hcon
    obtain ⟨inc, hinc, -⟩ := unbalance_plan hok (fun r => (pr r).2) true (.inl rfl) (Solves M) b
      (fun r => solveBuffer_forall M (clk r) _ _ _ (hb r))
    have hphase : solvePhase M true sort clk (fun r => (pr r).2) = .ok (fun r => inc r ++ [a r]) := by
      unfold solvePhase solveBalanced
      rw [if_pos hact, hsplit]
      simp only [bind, Except.bind]
      rw [(allRanks_ok_iff _ _).2 ha]
      simp only
      rw [(allRanks_ok_iff _ _).2 hb]
      simp only
      rw [hinc]
    have hspec := (solvePhase_spec hn M sort hsort (fun r => (pr r).2) true (.inl rfl) clk).1 _ hphase
    have := (solveWorld_closed hn M hchem true (.inl rfl) sort hsort clk flow F _).2
      ⟨fun r => (pr r).1, fun r => (pr r).2, _, hpr, hphase, hspec, fun r => rfl⟩
    rw [h] at this
    simp at this
  obtain ⟨r, hr⟩ := hbad
  unfold updateStates at hst
  rw [allRanks_ok_iff] at hst
  let K : Fin n → BalancerState → List (List (ChemistryProblem S)) → Prog S R := fun i st guests =>
    localCompute (getRemaining st (pr i).2) fun own =>
    localCompute (solveList M (clk i) 1 own) fun ownSol =>
    localCompute (solveBuffer M (clk i) (1 + own.length) guests) fun guestSol =>
    sendRecvProg true (putList putSolution) (getList getSolution)
      (fun j => getAt guestSol j) st.destinations st.sources fun incoming =>
    localCompute (updateReactionRates M (flow i).nCells (pr i).1 (incoming ++ [ownSol])) (k i)
  have h1 := Reach.gather (S := S) (R := R) (x := fun i : Fin n => computeLoad i.val (pr i).2)
    (k := fun i loads =>
      localCompute (updateState sort loads i.val (pr i).2) fun st =>
      sendRecvProg true (putList putProblem) (getList getProblem)
        (fun j => sendBufferAt (pr i).2 st.nProblems j) st.sources st.destinations (K i st))
    (o := fun _ => []) (inb := fun _ _ => []) (p := p) hp
  obtain ⟨p2, e2, hp2, he2, h2⟩ := sendRecv_run (S := S) (R := R)
    (C20_list_round_trips C20_problem_round_trips) true
    (fun (i : Fin n) j => sendBufferAt (pr i).2 (stateOf plan i.val (pr i).2).nProblems j)
    (fun i => (stateOf plan i.val (pr i).2).sources)
    (fun i => (stateOf plan i.val (pr i).2).destinations)
    (fun i => K i (stateOf plan i.val (pr i).2))
    _ hbal (fun i => p i ++ [.load (computeLoad i.val (pr i).2)]) (e + 1) (fun i => by simp [hp i])
  refine ⟨_, r, Reach.trans ?_ h2, ?_, ?_⟩
  · have e1 : ∀ i : Fin n, updateState sort (List.ofFn (fun i : Fin n => computeLoad i.val (pr i).2)) i.val
        (pr i).2 = .ok (stateOf plan i.val (pr i).2) := hst
    simp only [localCompute, e1] at h1
    have e0 : (fun i => quiet (stepProg M true sort (clk i) (flow i) i.val (F i) (k i)) (p i)) =
        (fun i => (⟨.gather (computeLoad i.val (pr i).2) fun loads =>
          localCompute (updateState sort loads i.val (pr i).2) fun st =>
          sendRecvProg true (putList putProblem) (getList getProblem)
            (fun j => sendBufferAt (pr i).2 st.nProblems j) st.sources st.destinations (K i st),
          [], fun _ => [], false, p i⟩ : RankState S R)) := by
      funext i
      simp only [stepProg, if_pos hchem, if_pos hact, hpr, localCompute, balancedProg, quiet, K]
    rw [e0]
    exact h1
  · simp only [quiet, K, localCompute, hrest]
    cases ho : solveList M (clk r) 1 (restOf plan r.val (pr r).2) with
    | error e => rfl
    | ok a =>
      simp only
      cases hg : solveBuffer M (clk r) (1 + (restOf plan r.val (pr r).2).length)
        (guestsOf plan (fun r => (pr r).2) r.val) with
      | error e => rfl
      | ok b => exact (hr a b ho hg).elim
  · simp only [quiet, hp2 r, he2 rfl]
    omega

theorem historyProg_fails (hn : 0 < n) (sort : List (ChemistryLoad S) → List (ChemistryLoad S))
    (hsort : ∀ l, (sort l).Perm l) :
    ∀ (is : List (StepInput S n)), (∀ i ∈ is, i.model.chemistry = true ∧ i.model.active = true) →
    ∀ (F : Fin n → RankFields S) (acc : Fin n → List (RankFields S × S)) (er : Fault),
    history true sort is F = .error er →
    ∀ (p : Fin n → List (Post S)) (e : Nat), (∀ i, (p i).length = e) →
    ∃ (d : Config S (List (RankFields S × S)) n) (j : Fin n),
      Reach Step (fun i => quiet (historyProg true sort i is (F i) (acc i)) (p i)) d ∧
      (d j).prog = .fail ∧ (d j).posts.length < e + 3 * is.length
  | [], _, F, acc, er, h, p, e, hp => by simp [history] at h
  | i :: is, hb, F, acc, er, h, p, e, hp => by
    have hi := hb i List.mem_cons_self
    simp only [history, bind, Except.bind] at h
    cases h1 : solveWorld i.model true sort i.clk i.flow F with
    | error er' =>
      obtain ⟨d, j, hd, hf, hl⟩ := stepProg_fails hn i.model hi.1 hi.2 sort hsort i.clk i.flow F
        (fun r res => historyProg true sort r is res.1 (acc r ++ [res])) er' h1 p e hp
      exact ⟨d, j, hd, hf, by rw [List.length_cons]; omega⟩
    | ok res =>
      simp only [h1] at h
      cases h2 : history true sort is (fun r => (res r).1) with
      | ok rest => simp [h2] at h
      | error er' =>
        obtain ⟨p', e', hp', he', hr⟩ := stepProg_run i.model true sort i.clk i.flow F
          (fun r res => historyProg true sort r is res.1 (acc r ++ [res])) res h1 p e hp
        obtain ⟨d, j, hd, hf, hl⟩ := historyProg_fails hn sort hsort is
          (fun j hj => hb j (List.mem_cons_of_mem _ hj)) (fun r => (res r).1)
          (fun r => acc r ++ [res r]) er' h2 p' e' hp'
        refine ⟨d, j, hr.trans hd, hf, ?_⟩
        have := he' hi.1 hi.2 rfl
        rw [List.length_cons]
        omega

end
end DLB
