import Verif.Lemmas.Step
/-
The whole time step on all ranks, for any arithmetic.
-/
set_option autoImplicit false
set_option linter.unusedSectionVars false

namespace DLB

variable {S : Type}
variable [Zero S] [Add S] [Sub S] [Mul S] [Div S] [Neg S] [NatCast S]
variable [LT S] [DecidableLT S] [LE S] [DecidableLE S] [Consts S]

/-- Problems equal except for the measured time. -/
def SameProblem (p p' : ChemistryProblem S) : Prop := p' = { p with cpuTime := p'.cpuTime }

/-- Solutions equal except for the measured time. -/
def SameSolution (s s' : ChemistrySolution S) : Prop := s' = { s with cpuTime := s'.cpuTime }

theorem getProblems_shouldMap {M : ChemModel S} {fl : Flow S} {clk : Nat → S} {F : RankFields S} {x}
    (h : getProblems M fl clk F = .ok x) :
    ∃ e : Nat → Bool, ∀ i, i < fl.nCells → shouldMap M.mapper (cellProblem M fl F i).c = .ok (e i) := by
  unfold getProblems at h
  simp only [bind, Except.bind] at h
  cases hc : classifyCells M fl F 0 fl.nCells F.refMap [] [] with
  | error er => simp [hc] at h
  | ok y =>
    have := classifyCells_shouldMap M fl F fl.nCells 0 _ _ _ y hc
    classical
    refine ⟨fun i => if h : i < fl.nCells then (this i (Nat.zero_le _) (by omega)).choose else false,
      fun i hi => ?_⟩
    simp only [hi, dif_pos]
    exact (this i (Nat.zero_le _) (by omega)).choose_spec

/-- Every problem is the problem of a cell of this rank. -/
theorem getProblems_problems {M : ChemModel S} {fl : Flow S} {clk : Nat → S} {F G : RankFields S}
    {ps : List (ChemistryProblem S)} (h : getProblems M fl clk F = .ok (G, ps)) :
    ∀ p ∈ ps, ∃ i, i < fl.nCells ∧ p = cellProblem M fl F i := by
  obtain ⟨e, he⟩ := getProblems_shouldMap h
  have hc := getProblems_closed M fl clk F e he
  rw [h] at hc
  intro p hp
  cases hc with
  | unmapped h0 =>
    obtain ⟨i, hi, rfl⟩ := List.mem_map.1 hp
    exact ⟨i, by simpa using hi, rfl⟩
  | mapped r0 h0 h1 h2 s hs hit hh =>
    obtain ⟨i, hi, rfl⟩ := List.mem_map.1 hp
    refine ⟨i, ?_, rfl⟩
    rcases List.mem_append.1 hi with hi | hi
    · simpa using (List.mem_filter.1 hi).1
    · simpa using (List.mem_filter.1 hi).1

theorem cellProblem_same {M : ChemModel S} {fl : Flow S} {F F' : RankFields S}
    (h : SameButTime F F') (b : Bool) (i : Nat) :
    SameProblem (cellProblem M fl F i) (cellProblem { M with active := b } fl F' i) := by
  simp only [SameProblem, cellProblem, h.2.1]

theorem solveSingle_same {M : ChemModel S} {p p' : ChemistryProblem S} (h : SameProblem p p')
    {t : S} {s : ChemistrySolution S} (hs : solveSingle M t p = .ok s) (t' : S) (b : Bool) :
    solveSingle { M with active := b } t' p' = .ok { s with cpuTime := t' } := by
  have := solveSingle_time M hs t'
  rw [h]
  exact this

theorem forall₂_map_same {α β γ : Type} {R : β → γ → Prop} (f : α → β) (g : α → γ)
    (h : ∀ a, R (f a) (g a)) : ∀ l : List α, List.Forall₂ R (l.map f) (l.map g)
  | [] => List.Forall₂.nil
  | a :: l => List.Forall₂.cons (h a) (forall₂_map_same f g h l)

theorem SameButTime.applyRef {M : ChemModel S} {F F' : RankFields S} (h : SameButTime F F') (b : Bool)
    {s : ChemistrySolution S} (t : S) (hit : Nat → Bool) (rm : Nat → Nat) :
    SameButTime (applyRef M F s hit rm)
      (DLB.applyRef { M with active := b } F' { s with cpuTime := t } hit rm) := by
  obtain ⟨h1, h2, h3⟩ := h
  refine ⟨?_, ?_, rfl⟩
  · simp only [DLB.applyRef, h1]
  · simp only [DLB.applyRef, h2]

/-- Measured times and the balancer switch do not influence `getProblems`. -/
theorem getProblems_same {M : ChemModel S} {fl : Flow S} {clk : Nat → S} {F F' G : RankFields S}
    (hF : SameButTime F F') {ps : List (ChemistryProblem S)} (h : getProblems M fl clk F = .ok (G, ps))
    (b : Bool) (clk' : Nat → S) :
    ∃ G' ps', getProblems { M with active := b } fl clk' F' = .ok (G', ps') ∧ SameButTime G G' ∧
      List.Forall₂ SameProblem ps ps' := by
  obtain ⟨e, he⟩ := getProblems_shouldMap h
  have hc := getProblems_closed M fl clk F e he
  have hc' := getProblems_closed { M with active := b } fl clk' F' e (fun i hi => he i hi)
  rw [h] at hc
  generalize hx : getProblems { M with active := b } fl clk' F' = x at hc'
  cases hc with
  | unmapped h0 =>
    cases hc' with
    | unmapped h0' =>
      exact ⟨_, _, rfl, ⟨hF.1, hF.2.1, by simp [hF.2.2]⟩,
        forall₂_map_same _ _ (cellProblem_same hF b) _⟩
    | failed r0 h0' h1' _ _ _ => simp [h0 r0 h0'] at h1'
    | mapped r0 h0' h1' _ _ _ _ _ => simp [h0 r0 h0'] at h1'
  | mapped r0 h0 h1 h2 s hs hit hh =>
    have hs' := solveSingle_same (cellProblem_same hF b r0) hs (clk' 0) b
    have uniq : ∀ r1, e r1 = true → (∀ i, i < r1 → e i = false) → r1 = r0 := by
      intro r1 k1 k2
      rcases Nat.lt_trichotomy r1 r0 with hlt | rfl | hlt
      · have := h2 r1 hlt; simp [k1] at this
      · rfl
      · have := k2 r0 hlt; simp [h1] at this
    cases hc' with
    | unmapped h0' => have := h0' r0 h0; simp [h1] at this
    | failed r1 h0' h1' h2' er hs1 =>
      obtain rfl := uniq r1 h1' h2'
      rw [hs'] at hs1
      simp at hs1
    | mapped r1 h0' h1' h2' s1 hs1 hit' hh' =>
      obtain rfl := uniq r1 h1' h2'
      have hhit : hit' = hit := by funext i; rw [hh, hh']
      subst hhit
      rw [hs', Except.ok.injEq] at hs1
      subst hs1
      refine ⟨_, _, rfl, ?_, forall₂_map_same _ _ (cellProblem_same hF b) _⟩
      rw [← hF.2.2]
      exact hF.applyRef b _ _ _

theorem solves_same {M : ChemModel S} {ps ps' : List (ChemistryProblem S)}
    (hp : List.Forall₂ SameProblem ps ps') (b : Bool) : ∀ {ss ss' : List (ChemistrySolution S)},
    List.Forall₂ (Solves M) ps ss → List.Forall₂ (Solves { M with active := b }) ps' ss' →
    List.Forall₂ SameSolution ss ss' := by
  induction hp with
  | nil =>
    intro ss ss' h1 h2
    cases h1; cases h2; exact List.Forall₂.nil
  | cons ha _ ih =>
    intro ss ss' h1 h2
    cases h1 with
    | cons a1 a2 =>
      cases h2 with
      | cons b1 b2 =>
        refine List.Forall₂.cons ?_ (ih a2 b2)
        obtain ⟨t, ht⟩ := a1
        obtain ⟨t', ht'⟩ := b1
        have := solveSingle_same ha ht t' b
        rw [ht', Except.ok.injEq] at this
        rw [this]; rfl

theorem exists_solves_same {M : ChemModel S} {ps ps' : List (ChemistryProblem S)}
    (hp : List.Forall₂ SameProblem ps ps') (b : Bool) (h : ∀ p ∈ ps, ∃ s, Solves M p s) :
    ∀ p ∈ ps', ∃ s, Solves { M with active := b } p s := by
  induction hp with
  | nil => simp
  | @cons a a' l l' ha _ ih =>
    intro p hp
    rcases List.mem_cons.1 hp with rfl | hp
    · obtain ⟨s, t, hs⟩ := h a (by simp)
      exact ⟨_, t, solveSingle_same ha hs t b⟩
    · exact ih (fun p hp => h p (by simp [hp])) p hp

/-- The exchange and solution phase, active or not. -/
def solvePhase {n : Nat} (M : ChemModel S) (parRun : Bool)
    (sort : List (ChemistryLoad S) → List (ChemistryLoad S)) (clk : Fin n → Nat → S)
    (problems : Fin n → List (ChemistryProblem S)) :
    Except Fault (Fin n → List (List (ChemistrySolution S))) :=
  if M.active then solveBalanced M parRun sort clk problems else solveUnbalanced M clk problems

theorem solvePhase_spec {n : Nat} (hn : 0 < n) (M : ChemModel S)
    (sort : List (ChemistryLoad S) → List (ChemistryLoad S))
    (hsort : ∀ l, (sort l).Perm l) (problems : Fin n → List (ChemistryProblem S)) (parRun : Bool)
    (hpar : parRun = true ∨ n = 1) (clk : Fin n → Nat → S) :
    (∀ inc, solvePhase M parRun sort clk problems = .ok inc →
      ∀ r, List.Forall₂ (Solves M) (problems r) (inc r).flatten) ∧
    ((∃ inc, solvePhase M parRun sort clk problems = .ok inc) ↔
      ∀ r, ∀ p ∈ problems r, ∃ s, Solves M p s) := by
  unfold solvePhase
  split
  · exact solveBalanced_spec hn M sort hsort problems parRun hpar clk
  · exact solveUnbalanced_spec M problems clk

theorem solves_fits {M : ChemModel S} {fl : Flow S} {clk : Nat → S} {F G : RankFields S}
    {ps : List (ChemistryProblem S)} (h : getProblems M fl clk F = .ok (G, ps))
    {ss : List (ChemistrySolution S)} (hf : List.Forall₂ (Solves M) ps ss) :
    ∀ s ∈ ss, FitsMesh M fl.nCells s := by
  have hp := getProblems_problems h
  clear h
  induction hf with
  | nil => simp
  | @cons p s ps ss ha _ ih =>
    intro t ht
    rcases List.mem_cons.1 ht with rfl | ht
    · obtain ⟨i, hi, rfl⟩ := hp p (by simp)
      have := Solves.fields ha
      refine ⟨by rw [this.1]; exact hi, ?_⟩
      rw [this.2.2]; simp [cellProblem]
    · exact ih (fun p hp' => hp p (by simp [hp'])) t ht

theorem solveWorld_phase {n : Nat} (M : ChemModel S) (hchem : M.chemistry = true) (parRun : Bool)
    (sort : List (ChemistryLoad S) → List (ChemistryLoad S)) (clk : Fin n → Nat → S)
    (flow : Fin n → Flow S) (F : Fin n → RankFields S) :
    solveWorld M parRun sort clk flow F =
      match allRanks (fun r => getProblems M (flow r) (clk r) (F r)) with
      | .error er => .error er
      | .ok pr => match solvePhase M parRun sort clk (fun r => (pr r).2) with
        | .error er => .error er
        | .ok v => allRanks (fun r => updateReactionRates M (flow r).nCells (pr r).1 (v r)) := by
  unfold solveWorld solvePhase
  simp only [hchem, if_true, bind, Except.bind]
  cases allRanks (fun r => getProblems M (flow r) (clk r) (F r)) with
  | error er => rfl
  | ok pr =>
    cases hx : M.active
    · simp only [Bool.false_eq_true, if_false]
      cases solveUnbalanced M clk fun r => (pr r).snd <;> rfl
    · simp only [if_true]
      cases solveBalanced M parRun sort clk fun r => (pr r).snd <;> rfl

/-- The step with chemistry on in closed form. -/
theorem solveWorld_closed {n : Nat} (hn : 0 < n) (M : ChemModel S) (hchem : M.chemistry = true)
    (parRun : Bool) (hpar : parRun = true ∨ n = 1)
    (sort : List (ChemistryLoad S) → List (ChemistryLoad S)) (hsort : ∀ l, (sort l).Perm l)
    (clk : Fin n → Nat → S) (flow : Fin n → Flow S) (F : Fin n → RankFields S)
    (res : Fin n → RankFields S × S) :
    solveWorld M parRun sort clk flow F = .ok res ↔
    ∃ (G : Fin n → RankFields S) (ps : Fin n → List (ChemistryProblem S))
      (inc : Fin n → List (List (ChemistrySolution S))),
      (∀ r, getProblems M (flow r) (clk r) (F r) = .ok (G r, ps r)) ∧
      solvePhase M parRun sort clk ps = .ok inc ∧
      (∀ r, List.Forall₂ (Solves M) (ps r) (inc r).flatten) ∧
      ∀ r, res r = (applySols M (G r) (inc r).flatten, minDt Consts.great (inc r).flatten) := by
  rw [solveWorld_phase M hchem]
  constructor
  · intro h
    cases h1 : allRanks (fun r => getProblems M (flow r) (clk r) (F r)) with
    | error er => simp [h1] at h
    | ok pr =>
      simp only [h1] at h
      have h1' := (allRanks_ok_iff _ _).1 h1
      cases h2 : solvePhase M parRun sort clk (fun r => (pr r).2) with
      | error er => simp [h2] at h
      | ok inc =>
        simp only [h2] at h
        have hspec := (solvePhase_spec hn M sort hsort _ parRun hpar clk).1 inc h2
        refine ⟨fun r => (pr r).1, fun r => (pr r).2, inc, h1', h2, hspec, fun r => ?_⟩
        have h3 := (allRanks_ok_iff _ _).1 h r
        unfold updateReactionRates at h3
        rw [updateBuffer_ok M _ _ _ _ (solves_fits (h1' r) (hspec r)), Except.ok.injEq] at h3
        exact h3.symm
  · rintro ⟨G, ps, inc, h1, h2, h3, h4⟩
    have h1' : allRanks (fun r => getProblems M (flow r) (clk r) (F r)) =
      .ok (fun r => (G r, ps r)) := (allRanks_ok_iff _ _).2 h1
    simp only [h1']
    simp only [h2]
    rw [allRanks_ok_iff]
    intro r
    unfold updateReactionRates
    rw [updateBuffer_ok M _ _ _ _ (solves_fits (h1 r) (h3 r)), h4]

/-- Timings, sort, balancer switch: none influences the result. -/
theorem solveWorld_same {n : Nat} (hn : 0 < n) (M : ChemModel S)
    (parRun : Bool) (hpar : parRun = true ∨ n = 1)
    (sort sort' : List (ChemistryLoad S) → List (ChemistryLoad S)) (hsort : ∀ l, (sort l).Perm l)
    (hsort' : ∀ l, (sort' l).Perm l) (clk clk' : Fin n → Nat → S) (flow : Fin n → Flow S)
    (F F' : Fin n → RankFields S) (hF : ∀ r, SameButTime (F r) (F' r)) (b : Bool)
    (res : Fin n → RankFields S × S) (h : solveWorld M parRun sort clk flow F = .ok res) :
    ∃ res', solveWorld { M with active := b } parRun sort' clk' flow F' = .ok res' ∧
      ∀ r, SameButTime (res r).1 (res' r).1 ∧ (res r).2 = (res' r).2 := by
  by_cases hchem : M.chemistry = true
  swap
  · simp only [solveWorld, hchem, Bool.false_eq_true, if_false, Except.ok.injEq] at h ⊢
    subst h
    exact ⟨_, rfl, fun r => ⟨hF r, rfl⟩⟩
  · obtain ⟨G, ps, inc, h1, h2, h3, h4⟩ :=
      (solveWorld_closed hn M hchem parRun hpar sort hsort clk flow F res).1 h
    have hx := fun r => getProblems_same (hF r) (h1 r) b (clk' r)
    choose G' ps' k1 k2 k3 using hx
    have hall := (solvePhase_spec hn M sort hsort ps parRun hpar clk).2.1 ⟨inc, h2⟩
    obtain ⟨inc', hinc'⟩ := (solvePhase_spec hn { M with active := b } sort' hsort' ps' parRun hpar
      clk').2.2 (fun r => exists_solves_same (k3 r) b (hall r))
    have hspec' := (solvePhase_spec hn { M with active := b } sort' hsort' ps' parRun hpar clk').1
      inc' hinc'
    refine ⟨_, (solveWorld_closed hn { M with active := b } hchem parRun hpar sort' hsort' clk' flow
      F' _).2 ⟨G', ps', inc', k1, hinc', hspec', fun r => rfl⟩, fun r => ?_⟩
    have hss := solves_same (k3 r) b (h3 r) (hspec' r)
    rw [h4 r]
    refine ⟨SameButTime.applySols rfl rfl hss (k2 r), minDt_congr hss _⟩

end DLB
