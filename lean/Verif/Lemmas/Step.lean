import Verif.Lemmas.World
/-
What a rank does before and after the exchange: `getProblems` and `updateReactionRates` in
closed form, for any arithmetic.
-/
set_option autoImplicit false

namespace DLB

variable {S : Type}

/-! ### Writing solutions back -/

/-- Fields after `updateReactionRate(s, i)`. -/
def applyAt [LT S] [DecidableLT S] (M : ChemModel S) (F : RankFields S) (s : ChemistrySolution S)
    (i : Nat) : RankFields S :=
  { F with
    RR := fun j i' => if i' = i ∧ j < M.nSpecie then (s.rr[j]?).getD (F.RR j i') else F.RR j i'
    deltaTChem := fun i' =>
      if i' = i then foamMin s.deltaTChem M.deltaTChemMax else F.deltaTChem i' }

/-- Fields after one solution was written back at cell `i`. -/
def applySol [LT S] [DecidableLT S] (M : ChemModel S) (F : RankFields S) (s : ChemistrySolution S)
    (i : Nat) : RankFields S :=
  { applyAt M F s i with cpuTimes := fun i' => if i' = i then s.cpuTime else F.cpuTimes i' }

theorem writeRR_ok (nCells : Nat) (rr : List S) (i : Nat) (hi : i < nCells) :
    ∀ (m j : Nat) (RR : Nat → Nat → S), j + m ≤ rr.length →
    writeRR nCells rr i j m RR = .ok (fun j' i' =>
      if i' = i ∧ j ≤ j' ∧ j' < j + m then (rr[j']?).getD (RR j' i') else RR j' i')
  | 0, j, RR, _ => by
    simp only [writeRR]
    congr 1
    funext j' i'
    rw [if_neg (by omega)]
  | m + 1, j, RR, h => by
    have hj : j < rr.length := by omega
    simp only [writeRR, getAt, List.getElem?_eq_getElem hj, bind, Except.bind, writeAt, hi, if_true]
    rw [writeRR_ok nCells rr i hi m (j + 1) _ (by omega)]
    congr 1
    funext j' i'
    by_cases h1 : i' = i
    · by_cases h2 : j' = j
      · subst h2
        have a1 : ¬ (i' = i ∧ j' + 1 ≤ j' ∧ j' < j' + 1 + m) := by omega
        have a2 : i' = i ∧ j' ≤ j' ∧ j' < j' + (m + 1) := ⟨h1, by omega, by omega⟩
        rw [if_neg a1, if_pos a2, if_pos rfl, if_pos h1]
        simp [List.getElem?_eq_getElem hj]
      · rw [if_neg h2]
        by_cases h3 : j + 1 ≤ j' ∧ j' < j + 1 + m
        · have a1 : i' = i ∧ j ≤ j' ∧ j' < j + (m + 1) := ⟨h1, by omega, by omega⟩
          rw [if_pos ⟨h1, h3⟩, if_pos a1]
        · have a1 : ¬ (i' = i ∧ j ≤ j' ∧ j' < j + (m + 1)) := by omega
          rw [if_neg (fun hc => h3 hc.2), if_neg a1]
    · have a1 : ∀ P : Prop, ¬ (i' = i ∧ P) := fun P hc => h1 hc.1
      rw [if_neg (a1 _), if_neg (a1 _)]
      by_cases h2 : j' = j
      · subst h2; simp [h1]
      · rw [if_neg h2]

section
variable [LT S] [DecidableLT S]

theorem updateReactionRate_ok (M : ChemModel S) (nCells : Nat) (F : RankFields S)
    (s : ChemistrySolution S) (i : Nat) (hi : i < nCells) (hl : M.nSpecie ≤ s.rr.length) :
    updateReactionRate M nCells F s i = .ok (applyAt M F s i) := by
  unfold updateReactionRate
  rw [writeRR_ok nCells s.rr i hi M.nSpecie 0 F.RR (by omega)]
  simp only [bind, Except.bind, writeAt, hi, if_true, applyAt]
  congr 2
  funext j i'
  by_cases h : i' = i ∧ j < M.nSpecie
  · rw [if_pos h, if_pos ⟨h.1, by omega, by omega⟩]
  · rw [if_neg h, if_neg (by omega)]

/-- Fields after a list of solutions was written back. -/
def applySols (M : ChemModel S) (F : RankFields S) (ss : List (ChemistrySolution S)) :
    RankFields S := ss.foldl (fun F s => applySol M F s s.cellid) F

/-- Running minimum of the chemical time steps. -/
def minDt (d : S) (ss : List (ChemistrySolution S)) : S :=
  ss.foldl (fun d s => foamMin s.deltaTChem d) d

/-- A solution that fits the mesh and the mechanism. -/
def FitsMesh (M : ChemModel S) (nCells : Nat) (s : ChemistrySolution S) : Prop :=
  s.cellid < nCells ∧ M.nSpecie ≤ s.rr.length

theorem updateList_ok (M : ChemModel S) (nCells : Nat) :
    ∀ (ss : List (ChemistrySolution S)) (F : RankFields S) (d : S),
    (∀ s ∈ ss, FitsMesh M nCells s) →
    updateList M nCells F d ss = .ok (applySols M F ss, minDt d ss)
  | [], F, d, _ => rfl
  | s :: ss, F, d, h => by
    have hs := h s (by simp)
    simp only [updateList, updateReactionRate_ok M nCells F s s.cellid hs.1 hs.2, bind, Except.bind,
      writeAt, hs.1, if_true]
    rw [updateList_ok M nCells ss _ _ (fun s hs => h s (by simp [hs]))]
    rfl

theorem updateBuffer_ok (M : ChemModel S) (nCells : Nat) :
    ∀ (as : List (List (ChemistrySolution S))) (F : RankFields S) (d : S),
    (∀ s ∈ as.flatten, FitsMesh M nCells s) →
    updateBuffer M nCells F d as = .ok (applySols M F as.flatten, minDt d as.flatten)
  | [], F, d, _ => rfl
  | a :: as, F, d, h => by
    simp only [updateBuffer, bind, Except.bind]
    rw [updateList_ok M nCells a F d (fun s hs => h s (by simp [hs]))]
    simp only
    rw [updateBuffer_ok M nCells as _ _ (fun s hs => h s (by
      rw [List.flatten_cons]; exact List.mem_append_right _ hs))]
    simp [applySols, minDt, List.foldl_append]

/-- Cells not named keep their values. -/
theorem applySols_other (M : ChemModel S) : ∀ (ss : List (ChemistrySolution S)) (F : RankFields S)
    (i : Nat), (∀ s ∈ ss, s.cellid ≠ i) →
    (∀ j, (applySols M F ss).RR j i = F.RR j i) ∧ (applySols M F ss).deltaTChem i = F.deltaTChem i ∧
      (applySols M F ss).cpuTimes i = F.cpuTimes i
  | [], F, i, _ => ⟨fun _ => rfl, rfl, rfl⟩
  | s :: ss, F, i, h => by
    have hi : ¬ i = s.cellid := fun he => h s (by simp) he.symm
    obtain ⟨h1, h2, h3⟩ := applySols_other M ss (applySol M F s s.cellid) i
      (fun s hs => h s (by simp [hs]))
    have e : applySols M F (s :: ss) = applySols M (applySol M F s s.cellid) ss := rfl
    rw [e]
    refine ⟨fun j => ?_, ?_, ?_⟩
    · rw [h1]; simp [applySol, applyAt, hi]
    · rw [h2]; simp [applySol, applyAt, hi]
    · rw [h3]; simp [applySol, hi]

/-- Named cells get the values of the solution. -/
theorem applySols_named (M : ChemModel S) : ∀ (ss : List (ChemistrySolution S)) (F : RankFields S)
    (s : ChemistrySolution S), (ss.map (·.cellid)).Nodup → s ∈ ss →
    (∀ j, j < M.nSpecie → ∀ hj : j < s.rr.length, (applySols M F ss).RR j s.cellid = s.rr[j]) ∧
      (∀ j, M.nSpecie ≤ j → (applySols M F ss).RR j s.cellid = F.RR j s.cellid) ∧
      (applySols M F ss).deltaTChem s.cellid = foamMin s.deltaTChem M.deltaTChemMax ∧
      (applySols M F ss).cpuTimes s.cellid = s.cpuTime
  | [], F, s, _, h => by simp at h
  | a :: ss, F, s, hnd, h => by
    simp only [List.map_cons, List.nodup_cons] at hnd
    have e : applySols M F (a :: ss) = applySols M (applySol M F a a.cellid) ss := rfl
    rw [e]
    rcases List.mem_cons.1 h with rfl | hs
    · obtain ⟨h1, h2, h3⟩ := applySols_other M ss (applySol M F s s.cellid) s.cellid
        (fun t ht he => hnd.1 (List.mem_map.2 ⟨t, ht, he⟩))
      refine ⟨fun j hj hj2 => ?_, fun j hj => ?_, ?_, ?_⟩
      · rw [h1]; simp [applySol, applyAt, hj, List.getElem?_eq_getElem hj2]
      · have : ¬ j < M.nSpecie := by omega
        rw [h1]; simp [applySol, applyAt, this]
      · rw [h2]; simp [applySol, applyAt]
      · rw [h3]; simp [applySol]
    · obtain ⟨h1, h2, h3, h4⟩ := applySols_named M ss (applySol M F a a.cellid) s hnd.2 hs
      have hne : ¬ s.cellid = a.cellid := fun he => hnd.1 (he ▸ List.mem_map.2 ⟨s, hs, rfl⟩)
      refine ⟨h1, fun j hj => ?_, h3, h4⟩
      rw [h2 j hj]; simp [applySol, applyAt, hne]

theorem applySols_refMap (M : ChemModel S) : ∀ (ss : List (ChemistrySolution S)) (F : RankFields S),
    (applySols M F ss).refMap = F.refMap
  | [], _ => rfl
  | s :: ss, F => by
    have e : applySols M F (s :: ss) = applySols M (applySol M F s s.cellid) ss := rfl
    rw [e, applySols_refMap M ss]; rfl

/-- Fields equal except for the measured times. -/
def SameButTime (F F' : RankFields S) : Prop :=
  F.RR = F'.RR ∧ F.deltaTChem = F'.deltaTChem ∧ F.refMap = F'.refMap

omit [LT S] [DecidableLT S] in
theorem SameButTime.symm {F F' : RankFields S} (h : SameButTime F F') : SameButTime F' F :=
  ⟨h.1.symm, h.2.1.symm, h.2.2.symm⟩

theorem SameButTime.applyAt {M M' : ChemModel S} {F F' : RankFields S} (h : SameButTime F F')
    (hM : M.nSpecie = M'.nSpecie) (hd : M.deltaTChemMax = M'.deltaTChemMax)
    {s s' : ChemistrySolution S} (hs : s' = { s with cpuTime := s'.cpuTime }) (i : Nat) :
    SameButTime (applyAt M F s i) (DLB.applyAt M' F' s' i) := by
  obtain ⟨h1, h2, h3⟩ := h
  rw [hs]
  refine ⟨?_, ?_, h3⟩
  · simp only [DLB.applyAt, h1, hM]
  · simp only [DLB.applyAt, h2, hd]

theorem SameButTime.applySols {M M' : ChemModel S} (hM : M.nSpecie = M'.nSpecie)
    (hd : M.deltaTChemMax = M'.deltaTChemMax) {ss ss' : List (ChemistrySolution S)}
    (hs : List.Forall₂ (fun s s' => s' = { s with cpuTime := s'.cpuTime }) ss ss') :
    ∀ {F F' : RankFields S}, SameButTime F F' →
    SameButTime (applySols M F ss) (DLB.applySols M' F' ss') := by
  induction hs with
  | nil => exact fun h => h
  | @cons s s' ss ss' ha _ ih =>
    intro F F' h
    have := h.applyAt hM hd ha s.cellid
    have hc : s'.cellid = s.cellid := by rw [ha]
    refine ih (F := applySol M F s s.cellid) (F' := applySol M' F' s' s'.cellid) ?_
    rw [hc]
    exact this

theorem minDt_congr {ss ss' : List (ChemistrySolution S)}
    (hs : List.Forall₂ (fun s s' => s' = { s with cpuTime := s'.cpuTime }) ss ss') :
    ∀ d : S, minDt d ss = minDt d ss' := by
  induction hs with
  | nil => exact fun _ => rfl
  | @cons s s' ss ss' ha _ ih =>
    intro d
    have : s'.deltaTChem = s.deltaTChem := by rw [ha]
    show minDt (foamMin s.deltaTChem d) ss = minDt (foamMin s'.deltaTChem d) ss'
    rw [this]
    exact ih _

end

/-! ### The problems of a rank -/

section
variable [Zero S] [Add S] [Sub S] [Mul S] [Div S] [Neg S] [NatCast S]
variable [LT S] [DecidableLT S] [LE S] [DecidableLE S] [Consts S]

omit [LE S] [DecidableLE S] [NatCast S] [Neg S] [Consts S] in
theorem classifyCells_ok (M : ChemModel S) (fl : Flow S) (F : RankFields S) (e : Nat → Bool)
    (he : ∀ i, i < fl.nCells → shouldMap M.mapper (cellProblem M fl F i).c = .ok (e i)) :
    ∀ (m celli : Nat) (refMap : Nat → Nat) (solved mapped : List (ChemistryProblem S)),
    celli + m ≤ fl.nCells →
    classifyCells M fl F celli m refMap solved mapped =
      .ok (fun i => if celli ≤ i ∧ i < celli + m then (if e i then 1 else 2) else refMap i,
        solved ++ ((List.range' celli m).filter (fun i => !e i)).map (cellProblem M fl F),
        mapped ++ ((List.range' celli m).filter e).map (cellProblem M fl F))
  | 0, celli, refMap, solved, mapped, _ => by
    simp only [classifyCells, List.range'_zero, List.filter_nil, List.map_nil, List.append_nil]
    congr 2
    funext i
    rw [if_neg (by omega)]
  | m + 1, celli, refMap, solved, mapped, h => by
    have hlt : celli < fl.nCells := by omega
    simp only [classifyCells, he celli hlt, bind, Except.bind, writeAt, hlt, if_true]
    have aux : ∀ (b : Nat) (hb : b = if e celli then 1 else 2),
        (fun i => if celli + 1 ≤ i ∧ i < celli + 1 + m then (if e i then 1 else 2)
          else if i = celli then b else refMap i) =
        fun i => if celli ≤ i ∧ i < celli + (m + 1) then (if e i then 1 else 2) else refMap i := by
      intro b hb
      funext i
      by_cases h1 : i = celli
      · subst h1
        rw [if_neg (by omega), if_pos rfl, if_pos (by omega), hb]
      · by_cases h2 : celli + 1 ≤ i ∧ i < celli + 1 + m
        · have a1 : celli ≤ i ∧ i < celli + (m + 1) := by omega
          rw [if_pos h2, if_pos a1]
        · have a1 : ¬ (celli ≤ i ∧ i < celli + (m + 1)) := by omega
          rw [if_neg h2, if_neg a1, if_neg h1]
    cases hc : e celli with
    | true =>
      simp only [if_true]
      rw [classifyCells_ok M fl F e he m (celli + 1) _ _ _ (by omega)]
      simp [List.range'_succ, hc, aux 1 (by simp [hc])]
    | false =>
      simp only [Bool.false_eq_true, if_false]
      rw [classifyCells_ok M fl F e he m (celli + 1) _ _ _ (by omega)]
      simp [List.range'_succ, hc, aux 2 (by simp [hc])]

omit [LE S] [DecidableLE S] [NatCast S] [Neg S] [Consts S] in
theorem classifyCells_shouldMap (M : ChemModel S) (fl : Flow S) (F : RankFields S) :
    ∀ (m celli : Nat) (refMap : Nat → Nat) (solved mapped : List (ChemistryProblem S)) (x),
    classifyCells M fl F celli m refMap solved mapped = .ok x →
    ∀ i, celli ≤ i → i < celli + m → ∃ b, shouldMap M.mapper (cellProblem M fl F i).c = .ok b
  | 0, celli, _, _, _, _, _, i, h1, h2 => by omega
  | m + 1, celli, refMap, solved, mapped, x, h, i, h1, h2 => by
    simp only [classifyCells, bind, Except.bind] at h
    cases hb : shouldMap M.mapper (cellProblem M fl F celli).c with
    | error er => simp [hb] at h
    | ok b =>
      simp only [hb, writeAt] at h
      by_cases hi : i = celli
      · subst hi; exact ⟨b, hb⟩
      · by_cases hlt : celli < fl.nCells
        · cases b with
          | true =>
            simp only [hlt, if_true] at h
            exact classifyCells_shouldMap M fl F m (celli + 1) _ _ _ x h i (by omega) (by omega)
          | false =>
            simp only [hlt, if_true, Bool.false_eq_true, if_false] at h
            exact classifyCells_shouldMap M fl F m (celli + 1) _ _ _ x h i (by omega) (by omega)
        · cases b <;> simp [hlt] at h

/-- Fields after the reference solution was given to the cells selected by `hit`, with
reference map `refMap`. -/
def applyRef (M : ChemModel S) (F : RankFields S) (s : ChemistrySolution S) (hit : Nat → Bool)
    (refMap : Nat → Nat) : RankFields S :=
  { RR := fun j i => if hit i ∧ j < M.nSpecie then (s.rr[j]?).getD (F.RR j i) else F.RR j i
    deltaTChem := fun i => if hit i then foamMin s.deltaTChem M.deltaTChemMax else F.deltaTChem i
    cpuTimes := fun i => if hit i then s.cpuTime else F.cpuTimes i
    refMap := refMap }

omit [Add S] [Mul S] [Div S] [NatCast S] [LE S] [DecidableLE S] [Consts S] in
theorem mapLoop_ok (M : ChemModel S) (nCells : Nat) (refT : S) (refSol : ChemistrySolution S)
    (hl : M.nSpecie ≤ refSol.rr.length) :
    ∀ (qs : List (ChemistryProblem S)) (F : RankFields S) (solved : List (ChemistryProblem S)),
    (∀ q ∈ qs, q.cellid < nCells) →
    mapLoop M nCells refT refSol qs F solved =
      .ok (applyRef M F refSol
          (fun i => qs.any (fun q => q.cellid == i && temperatureWithinRange M.mapper q.Ti refT))
          (fun i => if qs.any (fun q => q.cellid == i &&
            !temperatureWithinRange M.mapper q.Ti refT) then 2 else F.refMap i),
        solved ++ qs.filter (fun q => !temperatureWithinRange M.mapper q.Ti refT))
  | [], F, solved, _ => by simp [mapLoop, applyRef]
  | q :: qs, F, solved, h => by
    have hq := h q (by simp)
    have hqs : ∀ q ∈ qs, q.cellid < nCells := fun q hq => h q (by simp [hq])
    unfold mapLoop
    cases ht : temperatureWithinRange M.mapper q.Ti refT with
    | true =>
      simp only [if_true, updateReactionRate_ok M nCells F refSol q.cellid hq hl, bind, Except.bind,
        writeAt, hq]
      rw [mapLoop_ok M nCells refT refSol hl qs _ _ hqs]
      congr 2
      · simp only [applyRef, applyAt, List.any_cons, ht, Bool.and_true, Bool.not_true,
          Bool.and_false, Bool.false_or, Bool.or_eq_true, beq_iff_eq]
        congr 1
        · funext j i
          by_cases h1 : i = q.cellid
          · subst h1
            by_cases h2 : j < M.nSpecie
            · simp only [h2, and_true, true_or, if_true]
              split <;> simp [List.getElem?_eq_getElem (show j < refSol.rr.length by omega)]
            · simp [h2]
          · simp [h1, Ne.symm h1]
        · funext i
          by_cases h1 : i = q.cellid
          · subst h1; simp
          · simp [h1, Ne.symm h1]
        · funext i
          by_cases h1 : i = q.cellid
          · subst h1; simp
          · simp [h1, Ne.symm h1]
      · simp [ht]
    | false =>
      simp only [Bool.false_eq_true, if_false, bind, Except.bind, writeAt, hq, if_true]
      rw [mapLoop_ok M nCells refT refSol hl qs _ _ hqs]
      congr 2
      · simp only [applyRef, List.any_cons, ht, Bool.and_false, Bool.false_or, Bool.not_false,
          Bool.and_true, Bool.or_eq_true, beq_iff_eq]
        congr 1
        funext i
        by_cases h1 : i = q.cellid
        · subst h1; simp
        · simp [h1, Ne.symm h1]
      · simp [ht]

omit [Zero S] [Add S] [Neg S] [NatCast S] [LE S] [DecidableLE S] in
theorem Solves.fields {M : ChemModel S} {p : ChemistryProblem S} {s : ChemistrySolution S}
    (h : Solves M p s) : s.cellid = p.cellid ∧ s.rhoi = p.rhoi ∧ s.rr.length = p.c.length := by
  obtain ⟨t, h⟩ := h
  unfold solveSingle at h
  revert h
  cases subStepLoop M.integrate M.fuel p.pi p.Ti p.c p.deltaTChem p.deltaT with
  | error e => intro h; simp [bind, Except.bind] at h
  | ok x =>
    simp only [bind, Except.bind]
    split
    · next hl =>
      intro h
      simp only [Except.ok.injEq] at h
      subst h
      simp [hl]
    · intro h; simp at h

/-- `getProblems` in closed form.  `e` is the outcome of `shouldMap` per cell. -/
inductive GetProblemsResult (M : ChemModel S) (fl : Flow S) (clk : Nat → S) (F : RankFields S)
    (e : Nat → Bool) : Except Fault (RankFields S × List (ChemistryProblem S)) → Prop
  | unmapped (h : ∀ i, i < fl.nCells → e i = false) :
      GetProblemsResult M fl clk F e
        (.ok ({ F with refMap := fun i => if i < fl.nCells then 2 else F.refMap i },
          (List.range fl.nCells).map (cellProblem M fl F)))
  | failed (r0 : Nat) (h0 : r0 < fl.nCells) (h1 : e r0 = true) (h2 : ∀ i, i < r0 → e i = false)
      (er : Fault) (hs : solveSingle M (clk 0) (cellProblem M fl F r0) = .error er) :
      GetProblemsResult M fl clk F e (.error er)
  | mapped (r0 : Nat) (h0 : r0 < fl.nCells) (h1 : e r0 = true) (h2 : ∀ i, i < r0 → e i = false)
      (s : ChemistrySolution S) (hs : solveSingle M (clk 0) (cellProblem M fl F r0) = .ok s)
      (hit : Nat → Bool)
      (hh : ∀ i, hit i = (decide (i < fl.nCells) && e i &&
        temperatureWithinRange M.mapper (fl.T i) (fl.T r0))) :
      GetProblemsResult M fl clk F e
        (.ok (applyRef M F s hit (fun i => if i < fl.nCells then
            (if hit i then (if i = r0 then 0 else 1) else 2) else F.refMap i),
          ((List.range fl.nCells).filter (fun i => !e i) ++
            (List.range fl.nCells).filter (fun i => e i && !hit i)).map (cellProblem M fl F)))

omit [LE S] [DecidableLE S] [NatCast S] in
theorem getProblems_closed (M : ChemModel S) (fl : Flow S) (clk : Nat → S) (F : RankFields S)
    (e : Nat → Bool)
    (he : ∀ i, i < fl.nCells → shouldMap M.mapper (cellProblem M fl F i).c = .ok (e i)) :
    GetProblemsResult M fl clk F e (getProblems M fl clk F) := by
  unfold getProblems
  rw [classifyCells_ok M fl F e he fl.nCells 0 _ _ _ (by omega)]
  simp only [bind, Except.bind, List.nil_append, ← List.range_eq_range', Nat.zero_add, Nat.zero_le,
    true_and]
  cases hm : (List.range fl.nCells).filter e with
  | nil =>
    have hnone : ∀ i, i < fl.nCells → e i = false := by
      intro i hi
      have := List.filter_eq_nil_iff.1 hm i (by simpa using hi)
      simpa using this
    have h1 : (List.range fl.nCells).filter (fun i => !e i) = List.range fl.nCells := by
      rw [List.filter_eq_self]
      intro i hi
      simp [hnone i (by simpa using hi)]
    have h2 : (fun i => if i < fl.nCells then (if e i = true then 1 else 2) else F.refMap i) =
        fun i => if i < fl.nCells then 2 else F.refMap i := by
      funext i
      by_cases hi : i < fl.nCells
      · simp [hi, hnone i hi]
      · simp [hi]
    simp only [mapProblems, List.map_nil]
    rw [h1, h2]
    exact GetProblemsResult.unmapped hnone
  | cons r0 rest =>
    have hr0 : r0 ∈ (List.range fl.nCells).filter e := by rw [hm]; simp
    have hr0' := List.mem_filter.1 hr0
    have hlt : r0 < fl.nCells := by simpa using hr0'.1
    have hfirst : ∀ i, i < r0 → e i = false := by
      intro i hi
      by_contra hne
      have hi' : i ∈ (List.range fl.nCells).filter e :=
        List.mem_filter.2 ⟨by simp; omega, by simpa using hne⟩
      have hsorted : ((List.range fl.nCells).filter e).Pairwise (· < ·) :=
        List.pairwise_lt_range.filter _
      rw [hm] at hi' hsorted
      rcases List.mem_cons.1 hi' with rfl | h
      · omega
      · have := (List.pairwise_cons.1 hsorted).1 i h
        omega
    simp only [mapProblems, List.map_cons, bind, Except.bind]
    cases hs : solveSingle M (clk 0) (cellProblem M fl F r0) with
    | error er => exact GetProblemsResult.failed r0 hlt hr0'.2 hfirst er hs
    | ok s =>
      have hf := Solves.fields ⟨_, hs⟩
      have hcl : (cellProblem M fl F r0).c.length = M.nSpecie := by simp [cellProblem]
      have hcid : (cellProblem M fl F r0).cellid = r0 := rfl
      simp only [hcid, writeAt, hlt, if_true]
      rw [← List.map_cons, ← hm]
      rw [mapLoop_ok M fl.nCells _ s (by omega) _ _ _ (by
        intro q hq
        obtain ⟨i, hi, rfl⟩ := List.mem_map.1 hq
        have := (List.mem_filter.1 hi).1
        simpa [cellProblem] using this)]
      set hit : Nat → Bool := fun i => (decide (i < fl.nCells) && e i &&
        temperatureWithinRange M.mapper (fl.T i) (fl.T r0)) with hhit
      have anyEq : ∀ (P : S → Bool) (i : Nat),
          (((List.range fl.nCells).filter e).map (cellProblem M fl F)).any
            (fun q => q.cellid == i && P q.Ti) = (decide (i < fl.nCells) && e i && P (fl.T i)) := by
        intro P i
        rw [Bool.eq_iff_iff]
        simp only [List.any_map, List.any_eq_true, List.mem_filter, List.mem_range, Bool.and_eq_true,
          decide_eq_true_eq, cellProblem, Function.comp_apply, beq_iff_eq]
        constructor
        · rintro ⟨x, ⟨hx, hex⟩, rfl, hp⟩
          exact ⟨⟨hx, hex⟩, hp⟩
        · rintro ⟨⟨hx, hex⟩, hp⟩
          exact ⟨i, ⟨hx, hex⟩, rfl, hp⟩
      have e1 := anyEq (fun T => temperatureWithinRange M.mapper T (fl.T r0))
      have e2 := anyEq (fun T => !temperatureWithinRange M.mapper T (fl.T r0))
      have hT : (cellProblem M fl F r0).Ti = fl.T r0 := rfl
      rw [hT]
      simp only [e1, e2]
      have key := GetProblemsResult.mapped (clk := clk) (F := F) r0 hlt hr0'.2 hfirst s hs hit
        (fun i => rfl)
      convert key using 3
      · simp only [applyRef]
        congr 1
        funext i
        by_cases hi : i < fl.nCells
        · by_cases hei : e i
          · cases ht : temperatureWithinRange M.mapper (fl.T i) (fl.T r0)
            · simp [hi, hei, ht, hhit]
            · simp [hi, hei, ht, hhit]
          · have : ¬ i = r0 := fun h => hei (h ▸ hr0'.2)
            simp [hi, hei, hhit, this]
        · have : ¬ i = r0 := fun h => hi (h ▸ hlt)
          simp [hi, this]
      · rw [List.map_append]
        congr 1
        rw [List.filter_map, List.filter_filter]
        congr 1
        apply List.filter_congr
        intro i hi
        have hi' : i < fl.nCells := by simpa using hi
        cases hei : e i <;>
          cases ht : temperatureWithinRange M.mapper (fl.T i) (fl.T r0) <;>
          simp [hhit, hi', hei, ht, cellProblem]

end
end DLB
