import Verif.Model.Stateful
/-
If the result of an integration does not depend on the work arrays it starts with, the step with
solver objects that keep their work arrays computes what the step without memory computes.
-/
set_option autoImplicit false
set_option linter.unusedSectionVars false

namespace DLB

variable {S Scr : Type}

/-- The outcome of every integration is independent of the work arrays it starts with. -/
def HistoryFree (M : StatefulModel S Scr) : Prop :=
  ∀ (w w' : Scr) (p T : S) (c : List S) (dt sub : S),
    (M.integrate w p T c dt sub).map Prod.snd = (M.integrate w' p T c dt sub).map Prod.snd

theorem map_eq_ok {ε α β : Type} {f : α → β} {x : Except ε α} {b : β} (h : x.map f = .ok b) :
    ∃ a, x = .ok a ∧ f a = b := by
  cases x with
  | error e => simp [Except.map] at h
  | ok a => exact ⟨a, rfl, by simpa [Except.map] using h⟩

theorem map_eq_error {ε α β : Type} {f : α → β} {x : Except ε α} {e : ε} (h : x.map f = .error e) :
    x = .error e := by
  cases x with
  | error e' => simpa [Except.map] using h
  | ok a => simp [Except.map] at h

/-- One phase on all ranks, forgetting something on every rank. -/
theorem allRanks_map {α β : Type} (g : α → β) : ∀ {n : Nat} (f : Fin n → Except Fault α),
    allRanks (fun r => (f r).map g) = (allRanks f).map (fun a r => g (a r))
  | 0, f => by
    simp only [allRanks, Except.map]
    congr 1
    funext r
    exact r.elim0
  | n + 1, f => by
    simp only [allRanks]
    rw [allRanks_map g (fun i : Fin n => f i.succ)]
    cases f 0 with
    | error e => rfl
    | ok a =>
      cases h : allRanks (fun i : Fin n => f i.succ) with
      | error e => rfl
      | ok b =>
        simp only [Except.map, bind, Except.bind]
        congr 1
        funext r
        refine Fin.cases ?_ (fun i => ?_) r <;> rfl

section
variable [Zero S] [Add S] [Sub S] [Mul S] [Div S] [Neg S] [NatCast S]
variable [LT S] [DecidableLT S] [LE S] [DecidableLE S] [Consts S]
variable {M : StatefulModel S Scr} (hM : HistoryFree M) (w₀ : Scr)
include hM

theorem subStepLoopW_eq : ∀ (fuel : Nat) (w : Scr) (p T : S) (c : List S) (dtChem timeLeft : S),
    (subStepLoopW M.integrate fuel w p T c dtChem timeLeft).map Prod.snd
      = subStepLoop (M.forgetful w₀).integrate fuel p T c dtChem timeLeft
  | 0, w, p, T, c, d, t => by
    unfold subStepLoopW subStepLoop
    split <;> rfl
  | fuel + 1, w, p, T, c, d, t => by
    unfold subStepLoopW subStepLoop
    split
    · have h := hM w w₀ p T c t d
      have h' : (M.forgetful w₀).integrate p T c t d = (M.integrate w p T c t d).map Prod.snd := h.symm
      simp only [h']
      cases M.integrate w p T c t d with
      | error e => rfl
      | ok r =>
        simp only [Except.map, bind, Except.bind]
        exact subStepLoopW_eq fuel r.1 r.2.p r.2.T r.2.c r.2.subDeltaT (t - r.2.deltaT)
    · rfl

theorem solveSingleW_eq (w : Scr) (time : S) (q : ChemistryProblem S) :
    (solveSingleW M w time q).map Prod.snd = solveSingle (M.forgetful w₀) time q := by
  unfold solveSingleW solveSingle
  have h := subStepLoopW_eq hM w₀ M.base.fuel w q.pi q.Ti q.c q.deltaTChem q.deltaT
  have h' : subStepLoop (M.forgetful w₀).integrate (M.forgetful w₀).fuel q.pi q.Ti q.c q.deltaTChem
    q.deltaT = _ := h.symm
  rw [h']
  cases subStepLoopW M.integrate M.base.fuel w q.pi q.Ti q.c q.deltaTChem q.deltaT with
  | error e => rfl
  | ok r =>
    simp only [Except.map, bind, Except.bind]
    by_cases hc : r.2.1.length = q.c.length
    · simp only [hc, if_true]; rfl
    · simp only [hc, if_false]

theorem solveListW_eq (clk : Nat → S) : ∀ (ps : List (ChemistryProblem S)) (k : Nat) (w : Scr),
    (solveListW M clk k w ps).map Prod.snd = solveList (M.forgetful w₀) clk k ps
  | [], _, _ => rfl
  | q :: qs, k, w => by
    unfold solveListW solveList
    rw [← solveSingleW_eq hM w₀ w (clk k) q]
    cases solveSingleW M w (clk k) q with
    | error e => rfl
    | ok r =>
      simp only [Except.map, bind, Except.bind]
      rw [← solveListW_eq clk qs (k + 1) r.1]
      cases solveListW M clk (k + 1) r.1 qs <;> rfl

theorem solveBufferW_eq (clk : Nat → S) : ∀ (ps : List (List (ChemistryProblem S))) (k : Nat) (w : Scr),
    (solveBufferW M clk k w ps).map Prod.snd = solveBuffer (M.forgetful w₀) clk k ps
  | [], _, _ => rfl
  | q :: qs, k, w => by
    unfold solveBufferW solveBuffer
    rw [← solveListW_eq hM w₀ clk q k w]
    cases solveListW M clk k w q with
    | error e => rfl
    | ok r =>
      simp only [Except.map, bind, Except.bind]
      rw [← solveBufferW_eq clk qs (k + q.length) r.1]
      cases solveBufferW M clk (k + q.length) r.1 qs <;> rfl

/-- The functions that do not integrate ignore the field `integrate`. -/
theorem mapLoop_forgetful (nCells : Nat) (refT : S) (s : ChemistrySolution S) :
    ∀ (ps : List (ChemistryProblem S)) (F : RankFields S) (acc : List (ChemistryProblem S)),
    mapLoop (M.forgetful w₀) nCells refT s ps F acc = mapLoop M.base nCells refT s ps F acc
  | [], _, _ => rfl
  | q :: qs, F, acc => by
    unfold mapLoop
    have hu : updateReactionRate (M.forgetful w₀) nCells F s q.cellid
      = updateReactionRate M.base nCells F s q.cellid := rfl
    have ht : temperatureWithinRange (M.forgetful w₀).mapper q.Ti refT
      = temperatureWithinRange M.base.mapper q.Ti refT := rfl
    rw [hu, ht]
    simp only [mapLoop_forgetful nCells refT s qs]

theorem classifyCells_forgetful (fl : Flow S) (F : RankFields S) :
    ∀ (m celli : Nat) (refMap : Nat → Nat) (a b : List (ChemistryProblem S)),
    classifyCells (M.forgetful w₀) fl F celli m refMap a b
      = classifyCells M.base fl F celli m refMap a b
  | 0, _, _, _, _ => rfl
  | m + 1, celli, refMap, a, b => by
    unfold classifyCells
    have hp : cellProblem (M.forgetful w₀) fl F celli = cellProblem M.base fl F celli := rfl
    have hs : (M.forgetful w₀).mapper = M.base.mapper := rfl
    rw [hp, hs]
    simp only [classifyCells_forgetful fl F m]

theorem updateList_forgetful (nCells : Nat) :
    ∀ (ss : List (ChemistrySolution S)) (F : RankFields S) (d : S),
    updateList (M.forgetful w₀) nCells F d ss = updateList M.base nCells F d ss
  | [], _, _ => rfl
  | s :: ss, F, d => by
    unfold updateList
    have hu : updateReactionRate (M.forgetful w₀) nCells F s s.cellid
      = updateReactionRate M.base nCells F s s.cellid := rfl
    rw [hu]
    simp only [updateList_forgetful nCells ss]

theorem updateBuffer_forgetful (nCells : Nat) :
    ∀ (ss : List (List (ChemistrySolution S))) (F : RankFields S) (d : S),
    updateBuffer (M.forgetful w₀) nCells F d ss = updateBuffer M.base nCells F d ss
  | [], _, _ => rfl
  | s :: ss, F, d => by
    unfold updateBuffer
    rw [updateList_forgetful hM]
    simp only [updateBuffer_forgetful nCells ss]

theorem mapProblemsW_eq (nCells : Nat) (clk : Nat → S) (w : Scr) (F : RankFields S)
    (mapped solved : List (ChemistryProblem S)) :
    (mapProblemsW M nCells clk w F mapped solved).map Prod.snd
      = mapProblems (M.forgetful w₀) nCells clk F mapped solved := by
  unfold mapProblemsW mapProblems
  cases mapped with
  | nil => rfl
  | cons q qs =>
    simp only [mapLoop_forgetful hM, ← solveSingleW_eq hM w₀ w (clk 0) q]
    cases solveSingleW M w (clk 0) q with
    | error e => rfl
    | ok r =>
      simp only [Except.map, bind, Except.bind]
      cases writeAt nCells F.refMap q.cellid 0 with
      | error e => rfl
      | ok rm =>
        dsimp only
        cases mapLoop M.base nCells q.Ti r.2 (q :: qs) { F with refMap := rm } solved <;> rfl

theorem getProblemsW_eq (fl : Flow S) (clk : Nat → S) (w : Scr) (F : RankFields S) :
    (getProblemsW M fl clk w F).map Prod.snd = getProblems (M.forgetful w₀) fl clk F := by
  unfold getProblemsW getProblems
  rw [classifyCells_forgetful hM]
  cases classifyCells M.base fl F 0 fl.nCells F.refMap [] [] with
  | error e => rfl
  | ok r => exact mapProblemsW_eq hM w₀ fl.nCells clk w _ _ _

theorem solveBalancedW_eq {n : Nat} (parRun : Bool)
    (sort : List (ChemistryLoad S) → List (ChemistryLoad S)) (clk : Fin n → Nat → S)
    (w : Fin n → Scr) (problems : Fin n → List (ChemistryProblem S)) :
    (solveBalancedW M parRun sort clk w problems).map Prod.snd
      = solveBalanced (M.forgetful w₀) parRun sort clk problems := by
  unfold solveBalancedW solveBalanced
  cases splitProblems parRun sort problems with
  | error e => rfl
  | ok r =>
    obtain ⟨st, split⟩ := r
    simp only [bind, Except.bind]
    have h1 := allRanks_map Prod.snd (fun r => solveListW M (clk r) 1 (w r) (split r).own)
    simp only [solveListW_eq hM w₀] at h1
    rw [h1]
    cases allRanks (fun r => solveListW M (clk r) 1 (w r) (split r).own) with
    | error e => rfl
    | ok own =>
      simp only [Except.map]
      have h2 := allRanks_map Prod.snd (fun r =>
        solveBufferW M (clk r) (1 + (split r).own.length) (own r).1 (split r).guests)
      simp only [solveBufferW_eq hM w₀] at h2
      rw [h2]
      cases allRanks (fun r =>
        solveBufferW M (clk r) (1 + (split r).own.length) (own r).1 (split r).guests) with
      | error e => rfl
      | ok guest =>
        simp only [Except.map]
        cases unbalance parRun st (fun r => (guest r).2) <;> rfl

theorem solveUnbalancedW_eq {n : Nat} (clk : Fin n → Nat → S)
    (w : Fin n → Scr) (problems : Fin n → List (ChemistryProblem S)) :
    (solveUnbalancedW M clk w problems).map Prod.snd
      = solveUnbalanced (M.forgetful w₀) clk problems := by
  unfold solveUnbalancedW solveUnbalanced
  have h1 := allRanks_map Prod.snd (fun r => solveListW M (clk r) 1 (w r) (problems r))
  simp only [solveListW_eq hM w₀] at h1
  rw [h1]
  cases allRanks (fun r => solveListW M (clk r) 1 (w r) (problems r)) <;> rfl

/-- The step with memory computes what the step without memory computes, including failures. -/
theorem solveWorldW_eq {n : Nat} (parRun : Bool)
    (sort : List (ChemistryLoad S) → List (ChemistryLoad S)) (clk : Fin n → Nat → S)
    (flow : Fin n → Flow S) (w : Fin n → Scr) (F : Fin n → RankFields S) :
    (solveWorldW M parRun sort clk flow w F).map Prod.snd
      = solveWorld (M.forgetful w₀) parRun sort clk flow F := by
  unfold solveWorldW solveWorld
  have hc : (M.forgetful w₀).chemistry = M.base.chemistry := rfl
  have ha : (M.forgetful w₀).active = M.base.active := rfl
  rw [hc, ha]
  split
  · have h1 := allRanks_map Prod.snd (fun r => getProblemsW M (flow r) (clk r) (w r) (F r))
    simp only [getProblemsW_eq hM w₀] at h1
    rw [h1]
    cases allRanks (fun r => getProblemsW M (flow r) (clk r) (w r) (F r)) with
    | error e => rfl
    | ok pr =>
      simp only [Except.map, bind, Except.bind]
      have hu : ∀ incoming : Fin n → List (List (ChemistrySolution S)),
          allRanks (fun r => updateReactionRates (M.forgetful w₀) (flow r).nCells (pr r).2.1 (incoming r))
          = allRanks (fun r => updateReactionRates M.base (flow r).nCells (pr r).2.1 (incoming r)) := by
        intro incoming
        congr 1
        funext r
        exact updateBuffer_forgetful hM w₀ _ _ _ _
      simp only [hu]
      by_cases hact : M.base.active = true
      · simp only [hact, if_true]
        rw [← solveBalancedW_eq hM w₀ parRun sort clk (fun r => (pr r).1)]
        cases solveBalancedW M parRun sort clk (fun r => (pr r).1) (fun r => (pr r).2.2) with
        | error e => rfl
        | ok x =>
          simp only [Except.map]
          cases allRanks (fun r => updateReactionRates M.base (flow r).nCells (pr r).2.1 (x.2 r)) <;> rfl
      · simp only [hact]
        rw [← solveUnbalancedW_eq hM w₀ clk (fun r => (pr r).1)]
        cases solveUnbalancedW M clk (fun r => (pr r).1) (fun r => (pr r).2.2) with
        | error e => rfl
        | ok x =>
          simp only [Except.map]
          cases allRanks (fun r => updateReactionRates M.base (flow r).nCells (pr r).2.1 (x.2 r)) <;> rfl
  · rfl

end
end DLB
