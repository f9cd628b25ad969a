import Verif.Lemmas.StepWorld
import Verif.Lemmas.Levels
import Verif.Props.ExampleData
import Mathlib.Algebra.Order.Field.Basic
import Mathlib.Algebra.Order.Archimedean.Basic
import Mathlib.Algebra.BigOperators.Group.List.Basic
import Mathlib.Tactic.FieldSimp
import Mathlib.Tactic.Ring
import Mathlib.Tactic.Linarith
/-
Properties of the time step: C08, C09, C22-C31.
-/
set_option autoImplicit false
set_option linter.unusedSectionVars false

namespace DLB

section AnyArithmetic

variable {S : Type} [Zero S] [Add S] [Sub S] [Mul S] [Div S] [Neg S] [NatCast S]
variable [LT S] [DecidableLT S] [LE S] [DecidableLE S] [Consts S]

/-! ### C08 -/

/-- What the flow solver sees of a rank after a chemistry step. -/
structure Visible (S : Type) where
  RR : Nat → Nat → S
  deltaTChem : Nat → S
  refMap : Nat → Nat
  returned : S

/-- The visible part of the result of a step. -/
def visible {n : Nat} (res : Fin n → RankFields S × S) : Fin n → Visible S :=
  fun r => ⟨(res r).1.RR, (res r).1.deltaTChem, (res r).1.refMap, (res r).2⟩

/-- C08.  Two steps that agree in the thermodynamic state and the fields, but not necessarily in
the balancer switch, previous CPU times, clocks and the order of equal loads: if one succeeds so
does the other, with the same visible result on every rank. -/
theorem C08_balancing_does_not_change_answer {n : Nat} (hn : 0 < n) (M : ChemModel S)
    (parRun : Bool) (hpar : parRun = true ∨ n = 1)
    (sort sort' : List (ChemistryLoad S) → List (ChemistryLoad S)) (hsort : ∀ l, (sort l).Perm l)
    (hsort' : ∀ l, (sort' l).Perm l) (flow : Fin n → Flow S) (F F' : Fin n → RankFields S)
    (hF : ∀ r, (F r).RR = (F' r).RR ∧ (F r).deltaTChem = (F' r).deltaTChem ∧
      (F r).refMap = (F' r).refMap)
    (clk clk' : Fin n → Nat → S) (b b' : Bool) (v : Fin n → Visible S) :
    (∃ res, solveWorld { M with active := b } parRun sort clk flow F = .ok res ∧ visible res = v) ↔
    (∃ res, solveWorld { M with active := b' } parRun sort' clk' flow F' = .ok res ∧
      visible res = v) := by
  constructor
  · rintro ⟨res, h, rfl⟩
    obtain ⟨res', h', hs⟩ := solveWorld_same hn { M with active := b } parRun hpar sort sort' hsort
      hsort' clk clk' flow F F' hF b' res h
    refine ⟨res', h', ?_⟩
    funext r
    obtain ⟨⟨h1, h2, h3⟩, h4⟩ := hs r
    simp only [visible, h1, h2, h3, h4]
  · rintro ⟨res, h, rfl⟩
    obtain ⟨res', h', hs⟩ := solveWorld_same hn { M with active := b' } parRun hpar sort' sort hsort'
      hsort clk' clk flow F' F (fun r => SameButTime.symm (hF r)) b res h
    refine ⟨res', h', ?_⟩
    funext r
    obtain ⟨⟨h1, h2, h3⟩, h4⟩ := hs r
    simp only [visible, h1, h2, h3, h4]

/-! ### C09 -/

/-- A run of `k` time steps of a flow solver with state `Ω` coupled to the chemistry: in every
step the chemistry sees the flow `flowOf ω`, and the flow solver advances using the visible
result.  `clk i`, `active i` are clocks and balancer switch `i` steps before the end.  The
result is the list of what was visible after each step. -/
def runSteps {Ω : Type} {n : Nat} (M : ChemModel S) (parRun : Bool)
    (sort : List (ChemistryLoad S) → List (ChemistryLoad S))
    (flowOf : Ω → Fin n → Flow S) (advance : Ω → (Fin n → Visible S) → Ω)
    (clk : Nat → Fin n → Nat → S) (active : Nat → Bool) :
    Nat → Ω → (Fin n → RankFields S) → Except Fault (List (Fin n → Visible S))
  | 0, _, _ => .ok []
  | k + 1, ω, F => do
    let res ← solveWorld { M with active := active k } parRun sort (clk k) (flowOf ω) F
    let rest ← runSteps M parRun sort flowOf advance clk active k (advance ω (visible res))
      (fun r => (res r).1)
    .ok (visible res :: rest)

/-- C09.  Two runs of any length that start from the same fields up to CPU times give the same
sequence of visible results, whatever the clocks, the balancer switch in each step and the order
of equal loads. -/
theorem C09_histories_agree {Ω : Type} {n : Nat} (hn : 0 < n) (M : ChemModel S)
    (parRun : Bool) (hpar : parRun = true ∨ n = 1)
    (sort sort' : List (ChemistryLoad S) → List (ChemistryLoad S)) (hsort : ∀ l, (sort l).Perm l)
    (hsort' : ∀ l, (sort' l).Perm l)
    (flowOf : Ω → Fin n → Flow S) (advance : Ω → (Fin n → Visible S) → Ω)
    (clk clk' : Nat → Fin n → Nat → S) (active active' : Nat → Bool) (trace) :
    ∀ (k : Nat) (ω : Ω) (F F' : Fin n → RankFields S),
    (∀ r, (F r).RR = (F' r).RR ∧ (F r).deltaTChem = (F' r).deltaTChem ∧
      (F r).refMap = (F' r).refMap) →
    (runSteps M parRun sort flowOf advance clk active k ω F = .ok trace ↔
      runSteps M parRun sort' flowOf advance clk' active' k ω F' = .ok trace) := by
  -- one direction, for all data
  have key : ∀ (sort sort' : List (ChemistryLoad S) → List (ChemistryLoad S)),
      (∀ l, (sort l).Perm l) → (∀ l, (sort' l).Perm l) →
      ∀ (clk clk' : Nat → Fin n → Nat → S) (active active' : Nat → Bool) (k : Nat) (trace) (ω : Ω)
      (F F' : Fin n → RankFields S), (∀ r, SameButTime (F r) (F' r)) →
      runSteps M parRun sort flowOf advance clk active k ω F = .ok trace →
      runSteps M parRun sort' flowOf advance clk' active' k ω F' = .ok trace := by
    intro sort sort' hsort hsort' clk clk' active active' k
    induction k with
    | zero => intro trace ω F F' _ h; exact h
    | succ k ih =>
      intro trace ω F F' hF h
      simp only [runSteps, bind, Except.bind] at h ⊢
      cases h1 : solveWorld { M with active := active k } parRun sort (clk k) (flowOf ω) F with
      | error er => simp [h1] at h
      | ok res =>
        obtain ⟨res', h', hs⟩ := solveWorld_same hn { M with active := active k } parRun hpar sort
          sort' hsort hsort' (clk k) (clk' k) (flowOf ω) F F' hF (active' k) res h1
        have hv : visible res' = visible res := by
          funext r
          obtain ⟨⟨h1, h2, h3⟩, h4⟩ := hs r
          simp only [visible, h1, h2, h3, h4]
        simp only [h1] at h
        cases h2 : runSteps M parRun sort flowOf advance clk active k (advance ω (visible res))
            (fun r => (res r).1) with
        | error er => simp [h2] at h
        | ok rest =>
          have := ih rest _ _ (fun r => (res' r).1) (fun r => (hs r).1) h2
          simp only [h2, Except.ok.injEq] at h
          simp only [h', hv, this, h]
  intro k ω F F' hF
  exact ⟨key sort sort' hsort hsort' clk clk' active active' k trace ω F F' hF,
    key sort' sort hsort' hsort clk' clk active' active k trace ω F' F
      (fun r => SameButTime.symm (hF r))⟩

/-! ### Vocabulary for the mapping properties -/

/-- Composition of cell `i` as the chemistry sees it. -/
def composition (M : ChemModel S) (fl : Flow S) (i : Nat) : List S :=
  (List.range M.nSpecie).map (fun j => fl.Y j i)

/-- Mapping is active and the mixture fraction of cell `i` is below the tolerance. -/
def Candidate (M : ChemModel S) (fl : Flow S) (i : Nat) : Prop :=
  M.mapper.active = true ∧ ∃ Z, massFractionToMixtureFraction M.mapper.mixFrac
    (composition M fl i) = .ok Z ∧ Z < M.mapper.Ztolerance

/-- `r0` is the first candidate cell. -/
def IsReference (M : ChemModel S) (fl : Flow S) (r0 : Nat) : Prop :=
  r0 < fl.nCells ∧ Candidate M fl r0 ∧ ∀ i, i < r0 → ¬ Candidate M fl i

/-- Cell `i` is a candidate with a temperature close to that of the reference cell. -/
def Mapped (M : ChemModel S) (fl : Flow S) (i : Nat) : Prop :=
  i < fl.nCells ∧ Candidate M fl i ∧
    ∃ r0, IsReference M fl r0 ∧ absS (fl.T i - fl.T r0) < M.mapper.Ttolerance

/-- The cell `i` carries exactly the values of solution `s`. -/
def CarriesSolution (M : ChemModel S) (G : RankFields S) (i : Nat) (s : ChemistrySolution S) : Prop :=
  (∀ j, j < M.nSpecie → s.rr[j]? = some (G.RR j i)) ∧
  G.deltaTChem i = foamMin s.deltaTChem M.deltaTChemMax ∧ G.cpuTimes i = s.cpuTime

/-- The cell `i` carries the same values in `F` and `G`. -/
def Unchanged (F G : RankFields S) (i : Nat) : Prop :=
  (∀ j, G.RR j i = F.RR j i) ∧ G.deltaTChem i = F.deltaTChem i ∧ G.cpuTimes i = F.cpuTimes i

theorem candidate_iff {M : ChemModel S} {fl : Flow S} {F : RankFields S} {i : Nat} {b : Bool}
    (h : shouldMap M.mapper (cellProblem M fl F i).c = .ok b) : b = true ↔ Candidate M fl i := by
  unfold shouldMap at h
  unfold Candidate
  have hc : (cellProblem M fl F i).c = composition M fl i := rfl
  rw [hc] at h
  by_cases ha : M.mapper.active = true
  · simp only [ha, if_true, bind, Except.bind] at h
    cases hz : massFractionToMixtureFraction M.mapper.mixFrac (composition M fl i) with
    | error er => simp [hz] at h
    | ok Z =>
      simp only [hz, Except.ok.injEq] at h
      subst h
      simp [ha]
  · simp only [ha, Bool.false_eq_true, if_false, Except.ok.injEq] at h
    subst h
    simp [ha]

/-- Everything `getProblems` does, in terms of the vocabulary above. -/
theorem getProblems_spec {M : ChemModel S} {fl : Flow S} {clk : Nat → S} {F G : RankFields S}
    {ps : List (ChemistryProblem S)} (h : getProblems M fl clk F = .ok (G, ps)) :
    (ps.map (·.cellid)).Nodup ∧
    (∀ i, i ∈ ps.map (·.cellid) ↔ i < fl.nCells ∧ ¬ Mapped M fl i) ∧
    (∀ p ∈ ps, p = cellProblem M fl F p.cellid) ∧
    (∀ r0, IsReference M fl r0 → ∃ s, solveSingle M (clk 0) (cellProblem M fl F r0) = .ok s ∧
      ∀ i, Mapped M fl i → CarriesSolution M G i s) ∧
    (∀ i, ¬ Mapped M fl i → Unchanged F G i) ∧
    (∀ i, i < fl.nCells → (G.refMap i = 0 ∧ Mapped M fl i ∧ IsReference M fl i) ∨
      (G.refMap i = 1 ∧ Mapped M fl i ∧ ¬ IsReference M fl i) ∨
      (G.refMap i = 2 ∧ ¬ Mapped M fl i)) := by
  obtain ⟨e, he⟩ := getProblems_shouldMap h
  have hcand : ∀ i, i < fl.nCells → (e i = true ↔ Candidate M fl i) :=
    fun i hi => candidate_iff (he i hi)
  have hcl := getProblems_closed M fl clk F e he
  rw [h] at hcl
  cases hcl with
  | unmapped h0 =>
    have hno : ∀ i, i < fl.nCells → ¬ Candidate M fl i := by
      intro i hi hc
      have := h0 i hi
      simp [(hcand i hi).2 hc] at this
    have hnm : ∀ i, ¬ Mapped M fl i := fun i hm => hno i hm.1 hm.2.1
    have hid : ((List.range fl.nCells).map (cellProblem M fl F)).map (·.cellid) =
        List.range fl.nCells := by
      rw [List.map_map]
      conv_rhs => rw [← List.map_id (List.range fl.nCells)]
      rfl
    refine ⟨?_, ?_, ?_, ?_, ?_, ?_⟩
    · rw [hid]; exact List.nodup_range
    · intro i; rw [hid]; simp [hnm i]
    · intro p hp
      obtain ⟨i, hi, rfl⟩ := List.mem_map.1 hp
      rfl
    · intro r0 hr; exact absurd hr.2.1 (hno r0 hr.1)
    · intro i _; exact ⟨fun j => rfl, rfl, rfl⟩
    · intro i hi; right; right; exact ⟨by simp [hi], hnm i⟩
  | mapped r0 h0 h1 h2 s hs hit hh =>
    have href : IsReference M fl r0 := by
      refine ⟨h0, (hcand r0 h0).1 h1, fun i hi hc => ?_⟩
      have := h2 i hi
      simp [(hcand i (by omega)).2 hc] at this
    have huniq : ∀ r1, IsReference M fl r1 → r1 = r0 := by
      intro r1 hr
      rcases Nat.lt_trichotomy r1 r0 with hlt | rfl | hlt
      · exact absurd hr.2.1 (href.2.2 r1 hlt)
      · rfl
      · exact absurd href.2.1 (hr.2.2 r0 hlt)
    have hhit : ∀ i, hit i = true ↔ Mapped M fl i := by
      intro i
      rw [hh]
      simp only [Bool.and_eq_true, decide_eq_true_eq, temperatureWithinRange]
      constructor
      · rintro ⟨⟨a, b⟩, c⟩
        exact ⟨a, (hcand i a).1 b, r0, href, c⟩
      · rintro ⟨a, b, r1, hr, c⟩
        rw [huniq r1 hr] at c
        exact ⟨⟨a, (hcand i a).2 b⟩, c⟩
    have hid : (((List.range fl.nCells).filter (fun i => !e i) ++
        (List.range fl.nCells).filter (fun i => e i && !hit i)).map (cellProblem M fl F)).map
          (·.cellid) = (List.range fl.nCells).filter (fun i => !e i) ++
        (List.range fl.nCells).filter (fun i => e i && !hit i) := by
      rw [List.map_map]
      conv_rhs => rw [← List.map_id ((List.range fl.nCells).filter (fun i => !e i) ++
        (List.range fl.nCells).filter (fun i => e i && !hit i))]
      rfl
    have hlen : M.nSpecie ≤ s.rr.length := by
      have := (Solves.fields ⟨_, hs⟩).2.2
      rw [this]; simp [cellProblem]
    refine ⟨?_, ?_, ?_, ?_, ?_, ?_⟩
    · rw [hid]
      refine List.Nodup.append (List.nodup_range.filter _) (List.nodup_range.filter _) ?_
      intro i hi1 hi2
      have a1 := (List.mem_filter.1 hi1).2
      have a2 := (List.mem_filter.1 hi2).2
      simp only [Bool.and_eq_true] at a2
      simp [a2.1] at a1
    · intro i
      rw [hid]
      simp only [List.mem_append, List.mem_filter, List.mem_range, ← hhit i, Bool.and_eq_true,
        Bool.not_eq_true', ← Bool.not_eq_true]
      by_cases hi : i < fl.nCells
      · by_cases hei : e i = true
        · simp [hi, hei]
        · have : hit i = false := by rw [hh]; simp [hei]
          simp [hi, hei, this]
      · simp [hi]
    · intro p hp
      obtain ⟨i, hi, rfl⟩ := List.mem_map.1 hp
      rfl
    · intro r1 hr
      obtain rfl := huniq r1 hr
      refine ⟨s, hs, fun i hm => ?_⟩
      have hi := (hhit i).2 hm
      refine ⟨fun j hj => ?_, ?_, ?_⟩
      · have hj2 : j < s.rr.length := by omega
        simp [applyRef, hi, hj, List.getElem?_eq_getElem hj2]
      · simp [applyRef, hi]
      · simp [applyRef, hi]
    · intro i hm
      have hi : hit i = false := by
        rw [← Bool.not_eq_true]; exact fun hc => hm ((hhit i).1 hc)
      refine ⟨fun j => ?_, ?_, ?_⟩ <;> simp [applyRef, hi]
    · intro i hi
      by_cases hm : hit i = true
      · by_cases hr : i = r0
        · left
          refine ⟨?_, (hhit i).1 hm, hr ▸ href⟩
          subst hr; simp [applyRef, hi, hm]
        · right; left
          refine ⟨?_, (hhit i).1 hm, fun hc => hr (huniq i hc)⟩
          simp [applyRef, hi, hm, hr]
      · right; right
        refine ⟨?_, fun hc => hm ((hhit i).2 hc)⟩
        simp [applyRef, hi, hm]

/-! ### C22 -/

/-- C22.  Each cell of the rank either occurs exactly once in the problem list and keeps its
values, or does not occur and carries the reference solution; no other cell id occurs. -/
theorem C22_solved_or_mapped {M : ChemModel S} {fl : Flow S} {clk : Nat → S} {F G : RankFields S}
    {ps : List (ChemistryProblem S)} (h : getProblems M fl clk F = .ok (G, ps)) :
    (∀ p ∈ ps, p.cellid < fl.nCells) ∧
    ∀ i, i < fl.nCells →
      ((ps.map (·.cellid)).count i = 1 ∧ Unchanged F G i) ∨
      ((ps.map (·.cellid)).count i = 0 ∧ ∃ r0 s, IsReference M fl r0 ∧
        solveSingle M (clk 0) (cellProblem M fl F r0) = .ok s ∧ CarriesSolution M G i s) := by
  obtain ⟨h1, h2, h3, h4, h5, h6⟩ := getProblems_spec h
  refine ⟨fun p hp => ((h2 p.cellid).1 (List.mem_map.2 ⟨p, hp, rfl⟩)).1, fun i hi => ?_⟩
  by_cases hm : Mapped M fl i
  · right
    refine ⟨List.count_eq_zero_of_not_mem (fun hc => ((h2 i).1 hc).2 hm), ?_⟩
    obtain ⟨-, -, r0, hr, -⟩ := id hm
    obtain ⟨s, hs, hc⟩ := h4 r0 hr
    exact ⟨r0, s, hr, hs, hc i hm⟩
  · left
    exact ⟨List.count_eq_one_of_mem h1 ((h2 i).2 ⟨hi, hm⟩), h5 i hm⟩

/-! ### C23 -/

/-- C23.  The problem list names exactly the cells that are not mapped: a mapped cell (mapping
active, mixture fraction below the tolerance, temperature close to that of the first candidate)
is not solved again and carries the solution of the reference cell's problem; any other cell is
solved. -/
theorem C23_only_eligible_mapped {M : ChemModel S} {fl : Flow S} {clk : Nat → S}
    {F G : RankFields S} {ps : List (ChemistryProblem S)}
    (h : getProblems M fl clk F = .ok (G, ps)) :
    (∀ i, Mapped M fl i → i ∉ ps.map (·.cellid) ∧ ∃ r0 s, IsReference M fl r0 ∧
        solveSingle M (clk 0) (cellProblem M fl F r0) = .ok s ∧ CarriesSolution M G i s) ∧
    (∀ i, i < fl.nCells → ¬ Mapped M fl i → i ∈ ps.map (·.cellid) ∧ Unchanged F G i) := by
  obtain ⟨h1, h2, h3, h4, h5, h6⟩ := getProblems_spec h
  refine ⟨fun i hm => ⟨fun hc => ((h2 i).1 hc).2 hm, ?_⟩, fun i hi hm => ⟨(h2 i).2 ⟨hi, hm⟩, h5 i hm⟩⟩
  obtain ⟨-, -, r0, hr, -⟩ := id hm
  obtain ⟨s, hs, hc⟩ := h4 r0 hr
  exact ⟨r0, s, hr, hs, hc i hm⟩

/-! ### C24 -/

/-- C24.  After a step, on every rank and for every cell: 0 marks the reference cell if it was
mapped, 1 the other mapped cells, 2 the cells solved individually. -/
theorem C24_refMap_tells_truth {n : Nat} (hn : 0 < n) (M : ChemModel S) (hchem : M.chemistry = true)
    (parRun : Bool) (hpar : parRun = true ∨ n = 1)
    (sort : List (ChemistryLoad S) → List (ChemistryLoad S)) (hsort : ∀ l, (sort l).Perm l)
    (clk : Fin n → Nat → S) (flow : Fin n → Flow S) (F : Fin n → RankFields S)
    (res : Fin n → RankFields S × S) (h : solveWorld M parRun sort clk flow F = .ok res)
    (r : Fin n) (i : Nat) (hi : i < (flow r).nCells) :
    ((res r).1.refMap i = 0 ↔ Mapped M (flow r) i ∧ IsReference M (flow r) i) ∧
    ((res r).1.refMap i = 1 ↔ Mapped M (flow r) i ∧ ¬ IsReference M (flow r) i) ∧
    ((res r).1.refMap i = 2 ↔ ¬ Mapped M (flow r) i) := by
  obtain ⟨G, ps, inc, h1, h2, h3, h4⟩ :=
    (solveWorld_closed hn M hchem parRun hpar sort hsort clk flow F res).1 h
  rw [h4 r]
  simp only [applySols_refMap]
  obtain ⟨-, -, -, -, -, h6⟩ := getProblems_spec (h1 r)
  rcases h6 i hi with ⟨a, b, c⟩ | ⟨a, b, c⟩ | ⟨a, b⟩
  · simp [a, b, c]
  · simp [a, b, c]
  · simp [a, b]

/-! ### C25 -/

/-- C25.  With mapping inactive the problems are those of the cells 0, 1, 2, ... in order, each
with the data of its cell, and nothing is written but the reference map. -/
theorem C25_mapping_off {M : ChemModel S} (hoff : M.mapper.active = false) (fl : Flow S)
    (clk : Nat → S) (F : RankFields S) :
    ∃ G ps, getProblems M fl clk F = .ok (G, ps) ∧
      ps = (List.range fl.nCells).map (fun i =>
        { c := (List.range M.nSpecie).map (fun j => fl.Y j i), Ti := fl.T i, pi := fl.p i,
          rhoi := fl.rho i, deltaTChem := F.deltaTChem i, deltaT := fl.deltaT i,
          cpuTime := F.cpuTimes i, cellid := i }) ∧
      G.RR = F.RR ∧ G.deltaTChem = F.deltaTChem ∧ G.cpuTimes = F.cpuTimes := by
  have he : ∀ i, i < fl.nCells → shouldMap M.mapper (cellProblem M fl F i).c = .ok false := by
    intro i _; simp [shouldMap, hoff]
  have hcl := getProblems_closed M fl clk F (fun _ => false) he
  generalize hx : getProblems M fl clk F = x at hcl
  cases hcl with
  | unmapped h0 => exact ⟨_, _, rfl, rfl, rfl, rfl, rfl⟩
  | failed r0 _ h1 _ _ _ => simp at h1
  | mapped r0 _ h1 _ _ _ _ _ => simp at h1

/-! ### C26 -/

/-- C26.  Writing back solutions with distinct valid cell ids succeeds; named cells get exactly
the solution's values (time step capped by the maximum), all others keep theirs, and the
reference map is untouched. -/
theorem C26_update_frame (M : ChemModel S) (nCells : Nat) (F : RankFields S)
    (solutions : List (List (ChemistrySolution S)))
    (hdistinct : (solutions.flatten.map (·.cellid)).Nodup)
    (hvalid : ∀ s ∈ solutions.flatten, s.cellid < nCells ∧ s.rr.length = M.nSpecie) :
    ∃ G d, updateReactionRates M nCells F solutions = .ok (G, d) ∧ G.refMap = F.refMap ∧
      (∀ s ∈ solutions.flatten, CarriesSolution M G s.cellid s) ∧
      (∀ i, i ∉ solutions.flatten.map (·.cellid) → Unchanged F G i) := by
  refine ⟨_, _, updateBuffer_ok M nCells solutions F Consts.great (fun s hs =>
    ⟨(hvalid s hs).1, (hvalid s hs).2.ge⟩), applySols_refMap _ _ _, ?_, ?_⟩
  · intro s hs
    obtain ⟨h1, -, h3, h4⟩ := applySols_named M solutions.flatten F s hdistinct hs
    refine ⟨fun j hj => ?_, h3, h4⟩
    have hj2 : j < s.rr.length := by rw [(hvalid s hs).2]; exact hj
    rw [h1 j hj hj2, List.getElem?_eq_getElem hj2]
  · intro i hi
    exact applySols_other M solutions.flatten F i
      (fun s hs he => hi (List.mem_map.2 ⟨s, hs, he⟩))

/-! ### C27 -/

theorem forall₂_mem_left {α β : Type} {R : α → β → Prop} {l : List α} {l' : List β}
    (h : List.Forall₂ R l l') : ∀ a ∈ l, ∃ b ∈ l', R a b := by
  induction h with
  | nil => simp
  | cons ha _ ih =>
    intro a hm
    rcases List.mem_cons.1 hm with rfl | hm
    · exact ⟨_, by simp, ha⟩
    · obtain ⟨b, hb, hr⟩ := ih a hm; exact ⟨b, by simp [hb], hr⟩

theorem forall₂_mem_right {α β : Type} {R : α → β → Prop} {l : List α} {l' : List β}
    (h : List.Forall₂ R l l') : ∀ b ∈ l', ∃ a ∈ l, R a b := by
  induction h with
  | nil => simp
  | cons ha _ ih =>
    intro b hm
    rcases List.mem_cons.1 hm with rfl | hm
    · exact ⟨_, by simp, ha⟩
    · obtain ⟨a, hb, hr⟩ := ih b hm; exact ⟨a, by simp [hb], hr⟩

theorem forall₂_cellid {M : ChemModel S} {ps : List (ChemistryProblem S)}
    {ss : List (ChemistrySolution S)} (h : List.Forall₂ (Solves M) ps ss) :
    ss.map (·.cellid) = ps.map (·.cellid) := by
  induction h with
  | nil => rfl
  | cons ha _ ih => simp [(Solves.fields ha).1, ih]

/-- C27.  After a step every cell of every rank carries the solution of this step's problem of
the cell itself, or of the reference cell if it was mapped. -/
theorem C27_every_cell_carries_rate_of_this_step {n : Nat} (hn : 0 < n) (M : ChemModel S)
    (hchem : M.chemistry = true) (parRun : Bool) (hpar : parRun = true ∨ n = 1)
    (sort : List (ChemistryLoad S) → List (ChemistryLoad S)) (hsort : ∀ l, (sort l).Perm l)
    (clk : Fin n → Nat → S) (flow : Fin n → Flow S) (F : Fin n → RankFields S)
    (res : Fin n → RankFields S × S) (h : solveWorld M parRun sort clk flow F = .ok res)
    (r : Fin n) (i : Nat) (hi : i < (flow r).nCells) :
    (¬ Mapped M (flow r) i ∧ ∃ t s, solveSingle M t (cellProblem M (flow r) (F r) i) = .ok s ∧
      CarriesSolution M (res r).1 i s) ∨
    (Mapped M (flow r) i ∧ ∃ r0 t s, IsReference M (flow r) r0 ∧
      solveSingle M t (cellProblem M (flow r) (F r) r0) = .ok s ∧
      CarriesSolution M (res r).1 i s) := by
  obtain ⟨G, ps, inc, h1, h2, h3, h4⟩ :=
    (solveWorld_closed hn M hchem parRun hpar sort hsort clk flow F res).1 h
  obtain ⟨g1, g2, g3, g4, g5, g6⟩ := getProblems_spec (h1 r)
  have hid := forall₂_cellid (h3 r)
  rw [h4 r]
  by_cases hm : Mapped M (flow r) i
  · right
    refine ⟨hm, ?_⟩
    obtain ⟨-, -, r0, hr, -⟩ := id hm
    obtain ⟨s, hs, hc⟩ := g4 r0 hr
    refine ⟨r0, _, s, hr, hs, ?_⟩
    have hnot : ∀ s ∈ (inc r).flatten, s.cellid ≠ i := by
      intro s hs he
      have : i ∈ (ps r).map (·.cellid) := by
        rw [← hid]; exact List.mem_map.2 ⟨s, hs, he⟩
      exact ((g2 i).1 this).2 hm
    obtain ⟨a1, a2, a3⟩ := applySols_other M _ (G r) i hnot
    obtain ⟨b1, b2, b3⟩ := hc i hm
    refine ⟨fun j hj => ?_, ?_, ?_⟩
    · simp only [a1]; exact b1 j hj
    · simp only [a2]; exact b2
    · simp only [a3]; exact b3
  · left
    refine ⟨hm, ?_⟩
    have hmem := (g2 i).2 ⟨hi, hm⟩
    obtain ⟨p, hp, hpi⟩ := List.mem_map.1 hmem
    obtain ⟨s, hs, t, hsol⟩ := forall₂_mem_left (h3 r) p hp
    have hpc := g3 p hp
    rw [hpi] at hpc
    rw [hpc] at hsol
    have hfld := Solves.fields ⟨t, hsol⟩
    have hsc : s.cellid = i := hfld.1
    refine ⟨t, s, hsol, ?_⟩
    obtain ⟨a1, -, a3, a4⟩ := applySols_named M (inc r).flatten (G r) s
      (by rw [hid]; exact g1) hs
    rw [hsc] at a1 a3 a4
    refine ⟨fun j hj => ?_, a3, a4⟩
    have hj2 : j < s.rr.length := by rw [hfld.2.2]; simpa [cellProblem] using hj
    rw [List.getElem?_eq_getElem hj2, a1 j hj hj2]

/-- C27, success: the step succeeds exactly if the mixture fraction of every cell can be
evaluated (when mapping is active), and the problem of every reference cell and of every cell that
is not mapped can be integrated. -/
theorem C27_step_succeeds_iff {n : Nat} (hn : 0 < n) (M : ChemModel S)
    (hchem : M.chemistry = true) (parRun : Bool) (hpar : parRun = true ∨ n = 1)
    (sort : List (ChemistryLoad S) → List (ChemistryLoad S)) (hsort : ∀ l, (sort l).Perm l)
    (clk : Fin n → Nat → S) (flow : Fin n → Flow S) (F : Fin n → RankFields S) :
    (∃ res, solveWorld M parRun sort clk flow F = .ok res) ↔
    ∀ r : Fin n,
      (M.mapper.active = true → ∀ i, i < (flow r).nCells → ∃ Z,
        massFractionToMixtureFraction M.mapper.mixFrac (composition M (flow r) i) = .ok Z) ∧
      ∀ i, i < (flow r).nCells → (¬ Mapped M (flow r) i ∨ IsReference M (flow r) i) →
        ∃ t s, solveSingle M t (cellProblem M (flow r) (F r) i) = .ok s := by
  constructor
  · rintro ⟨res, h⟩ r
    obtain ⟨G, ps, inc, h1, h2, h3, h4⟩ :=
      (solveWorld_closed hn M hchem parRun hpar sort hsort clk flow F res).1 h
    obtain ⟨g1, g2, g3, g4, g5, g6⟩ := getProblems_spec (h1 r)
    refine ⟨fun ha i hi => ?_, fun i hi hor => ?_⟩
    · obtain ⟨e, he⟩ := getProblems_shouldMap (h1 r)
      have hb := he i hi
      simp only [shouldMap, ha, if_true, bind, Except.bind] at hb
      cases hz : massFractionToMixtureFraction M.mapper.mixFrac (composition M (flow r) i) with
      | error er =>
        rw [show (cellProblem M (flow r) (F r) i).c = composition M (flow r) i from rfl, hz] at hb
        simp at hb
      | ok Z => exact ⟨Z, rfl⟩
    · rcases hor with hm | hr
      · obtain ⟨p, hp, hpi⟩ := List.mem_map.1 ((g2 i).2 ⟨hi, hm⟩)
        obtain ⟨s, hs, t, hsol⟩ := forall₂_mem_left (h3 r) p hp
        have hpc := g3 p hp
        rw [hpi] at hpc
        rw [hpc] at hsol
        exact ⟨t, s, hsol⟩
      · obtain ⟨s, hs, -⟩ := g4 i hr
        exact ⟨_, s, hs⟩
  · intro hall
    have hget : ∀ r, ∃ G ps, getProblems M (flow r) (clk r) (F r) = .ok (G, ps) := by
      intro r
      obtain ⟨hz, hsolv⟩ := hall r
      have : ∃ e : Nat → Bool, ∀ i, i < (flow r).nCells →
          shouldMap M.mapper (cellProblem M (flow r) (F r) i).c = .ok (e i) := by
        by_cases ha : M.mapper.active = true
        · refine ⟨fun i => match massFractionToMixtureFraction M.mapper.mixFrac
            (composition M (flow r) i) with
              | .ok Z => decide (Z < M.mapper.Ztolerance)
              | .error _ => false, fun i hi => ?_⟩
          obtain ⟨Z, hZ⟩ := hz ha i hi
          simp only [shouldMap, ha, if_true, bind, Except.bind, hZ,
            show (cellProblem M (flow r) (F r) i).c = composition M (flow r) i from rfl]
        · exact ⟨fun _ => false, fun i _ => by simp [shouldMap, ha]⟩
      obtain ⟨e, he⟩ := this
      have hcl := getProblems_closed M (flow r) (clk r) (F r) e he
      generalize hx : getProblems M (flow r) (clk r) (F r) = x at hcl
      cases hcl with
      | unmapped h0 => exact ⟨_, _, rfl⟩
      | mapped r0 h0 h1 h2 s hs hit hh => exact ⟨_, _, rfl⟩
      | failed r0 h0 h1 h2 er hs =>
        have href : IsReference M (flow r) r0 := by
          refine ⟨h0, (candidate_iff (he r0 h0)).1 h1, fun i hi hc => ?_⟩
          have := h2 i hi
          simp [(candidate_iff (he i (by omega))).2 hc] at this
        obtain ⟨t, s, hs'⟩ := hsolv r0 h0 (Or.inr href)
        rw [solveSingle_time M hs' (clk r 0)] at hs
        simp at hs
    choose G ps hG using hget
    obtain ⟨inc, hinc⟩ := (solvePhase_spec hn M sort hsort ps parRun hpar clk).2.2 (by
      intro r p hp
      obtain ⟨g1, g2, g3, -⟩ := getProblems_spec (hG r)
      have hpc := g3 p hp
      have hmem := (g2 p.cellid).1 (List.mem_map.2 ⟨p, hp, rfl⟩)
      obtain ⟨t, s, hs⟩ := (hall r).2 p.cellid hmem.1 (Or.inl hmem.2)
      rw [← hpc] at hs
      exact ⟨s, t, hs⟩)
    have hspec := (solvePhase_spec hn M sort hsort ps parRun hpar clk).1 inc hinc
    exact ⟨_, (solveWorld_closed hn M hchem parRun hpar sort hsort clk flow F _).2
      ⟨G, ps, inc, hG, hinc, hspec, fun r => rfl⟩⟩

/-! ### C29 -/

/-- C29.  With chemistry switched off nothing changes and `great` is returned; with a uniform
time step the smaller of `great` and twice the time step. -/
theorem C29_chemistry_off_inert {n : Nat} (M : ChemModel S) (hoff : M.chemistry = false)
    (parRun : Bool) (sort : List (ChemistryLoad S) → List (ChemistryLoad S))
    (clk : Fin n → Nat → S) (flow : Fin n → Flow S) (F : Fin n → RankFields S) (deltaT : S) :
    solveWorld M parRun sort clk flow F = .ok (fun r => (F r, Consts.great)) ∧
    solveWorldUniform M parRun sort clk flow deltaT F =
      .ok (fun r => (F r, if Consts.great < Consts.two * deltaT then Consts.great
        else Consts.two * deltaT)) := by
  constructor
  · simp [solveWorld, hoff]
  · simp [solveWorldUniform, solveWorld, hoff, bind, Except.bind, foamMin]

end AnyArithmetic

/-! ### Examples: two ranks, one with mapping candidates -/

namespace Example

/-- Mixture fraction is the first mass fraction; tolerance 1/10, temperature tolerance 2. -/
def mapModel : ChemModel ℚ :=
  { chemistry := true, nSpecie := 2, deltaTChemMax := 1, fuel := 3, active := true,
    integrate := fun p T c dt sub =>
      .ok ⟨p, T, (match c with | [] => [] | x :: xs => (x + dt) :: xs), dt, sub⟩,
    mapper := ⟨true, 1 / 10, 2, ⟨[1, 0], 0, 1⟩⟩ }

/-- Rank 0: four cells, cells 0, 2, 3 candidates, cell 3 too hot.  Rank 1: one burning cell. -/
def mapFlow : Fin 2 → Flow ℚ
  | 0 => { nCells := 4, Y := fun j i => if i = 1 then 1 / 2 else (j : ℚ), T := fun i =>
             if i = 0 then 300 else if i = 2 then 301 else 500, p := fun _ => 100000,
           rho := fun i => 1 + i, deltaT := fun _ => 1 / 100 }
  | 1 => { nCells := 1, Y := fun _ _ => 1 / 2, T := fun _ => 1000, p := fun _ => 100000,
           rho := fun _ => 1, deltaT := fun _ => 1 / 100 }

/-- Initial fields with some previous CPU times. -/
def mapFields : Fin 2 → RankFields ℚ := fun r =>
  { RR := fun _ _ => 7, deltaTChem := fun i => 1 / (2 + i), cpuTimes := fun i =>
      if r = 0 then 3 + i else 0, refMap := fun _ => 9 }

/-- Clocks. -/
def mapClk : Fin 2 → Nat → ℚ := fun r k => 100 * r.val + k

/-- What a run shows for rank `r`: rate of species 0, time steps, reference map in the cells
0..3, and the returned value. -/
def look (r : Fin 2) (x : Except Fault (Fin 2 → RankFields ℚ × ℚ)) :
    Option (List ℚ × List ℚ × List Nat × ℚ) :=
  x.toOption.map (fun res => ([0, 1, 2, 3].map ((res r).1.RR 0), [0, 1, 2, 3].map (res r).1.deltaTChem,
    [0, 1, 2, 3].map (res r).1.refMap, (res r).2))

end Example

/-- C08/C23/C24/C27: rank 0 with balancing on and off; cells 0 and 2 are mapped (the rates of
cell 2 are those of cell 0, not scaled with its density 3), cells 1 and 3 are solved. -/
example : Example.look 0 (solveWorld Example.mapModel true Example.sort Example.mapClk
      Example.mapFlow Example.mapFields) =
    some ([1, 2, 1, 4], [1 / 2, 1 / 3, 1 / 2, 1 / 5], [0, 2, 1, 2], 1 / 5) ∧
  Example.look 0 (solveWorld { Example.mapModel with active := false } true Example.sort
      (fun _ k => 5 * (k : ℚ)) Example.mapFlow Example.mapFields) =
    some ([1, 2, 1, 4], [1 / 2, 1 / 3, 1 / 2, 1 / 5], [0, 2, 1, 2], 1 / 5) := by decide +kernel

/-- C09: two steps, second starting from the fields of the first. -/
example : ((runSteps Example.mapModel true Example.sort (fun (_ : Unit) => Example.mapFlow)
      (fun ω _ => ω) (fun _ => Example.mapClk) (fun _ => true) 2 () Example.mapFields).toOption.map
      (fun tr => tr.map (fun v => ((v 0).returned, (v 1).returned)))) =
    some [(1 / 5, 1 / 2), (1 / 5, 1 / 2)] := by decide +kernel

/-- C22/C26: the problem list of rank 0 names cells 1 and 3. -/
example : (getProblems Example.mapModel (Example.mapFlow 0) (Example.mapClk 0)
      (Example.mapFields 0)).toOption.map (fun x => x.2.map (·.cellid)) = some [1, 3] := by
  decide +kernel

/-- C25: with mapping off it names all cells. -/
example : (getProblems { Example.mapModel with mapper := ⟨false, 1 / 10, 2, ⟨[1, 0], 0, 1⟩⟩ }
      (Example.mapFlow 0) (Example.mapClk 0) (Example.mapFields 0)).toOption.map
      (fun x => x.2.map (·.cellid)) = some [0, 1, 2, 3] := by decide +kernel

/-- C29 -/
example : Example.look 0 (solveWorldUniform { Example.mapModel with chemistry := false } true
      Example.sort Example.mapClk Example.mapFlow 3 Example.mapFields) =
    some ([7, 7, 7, 7], [1 / 2, 1 / 3, 1 / 4, 1 / 5], [9, 9, 9, 9], 6) := by decide +kernel

section Ordered

variable {K : Type} [Field K] [LinearOrder K] [IsStrictOrderedRing K]

/-! ### C24, exact arithmetic -/

/-- C24.  With a positive temperature tolerance the reference cell is always mapped, hence 0
marks exactly the reference cell. -/
theorem C24_positive_tolerance {n : Nat} (hn : 0 < n) (M : ChemModel K) (hchem : M.chemistry = true)
    (htol : 0 < M.mapper.Ttolerance) (parRun : Bool) (hpar : parRun = true ∨ n = 1)
    (sort : List (ChemistryLoad K) → List (ChemistryLoad K)) (hsort : ∀ l, (sort l).Perm l)
    (clk : Fin n → Nat → K) (flow : Fin n → Flow K) (F : Fin n → RankFields K)
    (res : Fin n → RankFields K × K) (h : solveWorld M parRun sort clk flow F = .ok res)
    (r : Fin n) (i : Nat) (hi : i < (flow r).nCells) :
    ((res r).1.refMap i = 0 ↔ IsReference M (flow r) i) ∧
    ((res r).1.refMap i = 1 ↔ Mapped M (flow r) i ∧ ¬ IsReference M (flow r) i) ∧
    ((res r).1.refMap i = 2 ↔ ¬ Mapped M (flow r) i) := by
  obtain ⟨h0, h1, h2⟩ := C24_refMap_tells_truth hn M hchem parRun hpar sort hsort clk flow F res h r
    i hi
  refine ⟨h0.trans ⟨fun x => x.2, fun x => ⟨⟨hi, x.2.1, i, x, ?_⟩, x⟩⟩, h1, h2⟩
  rw [sub_self, absS_eq_abs, abs_zero]
  exact htol

/-- C24, the exception.  With a temperature tolerance that is zero or negative no cell is mapped,
although the reference problem is solved: every cell is marked 2, the reference cell too. -/
theorem C24_nonpositive_tolerance {n : Nat} (hn : 0 < n) (M : ChemModel K)
    (hchem : M.chemistry = true)
    (htol : M.mapper.Ttolerance ≤ 0) (parRun : Bool) (hpar : parRun = true ∨ n = 1)
    (sort : List (ChemistryLoad K) → List (ChemistryLoad K)) (hsort : ∀ l, (sort l).Perm l)
    (clk : Fin n → Nat → K) (flow : Fin n → Flow K) (F : Fin n → RankFields K)
    (res : Fin n → RankFields K × K) (h : solveWorld M parRun sort clk flow F = .ok res)
    (r : Fin n) (i : Nat) (hi : i < (flow r).nCells) : (res r).1.refMap i = 2 := by
  obtain ⟨-, -, h2⟩ := C24_refMap_tells_truth hn M hchem parRun hpar sort hsort clk flow F res h r
    i hi
  refine h2.2 ?_
  rintro ⟨-, -, r0, -, hlt⟩
  rw [absS_eq_abs] at hlt
  have := abs_nonneg ((flow r).T i - (flow r).T r0)
  linarith

/-- C24: with tolerance 0 the reference cell 0 is marked 2. -/
example : Example.look 0 (solveWorld { Example.mapModel with
      mapper := ⟨true, 1 / 10, 0, ⟨[1, 0], 0, 1⟩⟩ } true Example.sort Example.mapClk
      Example.mapFlow Example.mapFields) =
    some ([1, 2, 3, 4], [1 / 2, 1 / 3, 1 / 4, 1 / 5], [2, 2, 2, 2], 1 / 5) := by decide +kernel

/-! ### C28 -/

theorem foamMin_eq_min (a b : K) : foamMin a b = min a b := by
  unfold foamMin
  split
  · next h => rw [min_eq_left h.le]
  · next h => rw [min_eq_right (not_lt.1 h)]

theorem minDt_le (d : K) (ss : List (ChemistrySolution K)) :
    minDt d ss ≤ d ∧ ∀ s ∈ ss, minDt d ss ≤ s.deltaTChem := by
  induction ss generalizing d with
  | nil => simp [minDt]
  | cons a ss ih =>
    have e : minDt d (a :: ss) = minDt (foamMin a.deltaTChem d) ss := rfl
    obtain ⟨h1, h2⟩ := ih (foamMin a.deltaTChem d)
    rw [e]
    rw [foamMin_eq_min] at *
    refine ⟨h1.trans (min_le_right _ _), fun s hs => ?_⟩
    rcases List.mem_cons.1 hs with rfl | hs
    · exact h1.trans (min_le_left _ _)
    · exact h2 s hs

theorem minDt_attained (d : K) (ss : List (ChemistrySolution K)) :
    minDt d ss = d ∨ ∃ s ∈ ss, minDt d ss = s.deltaTChem := by
  induction ss generalizing d with
  | nil => simp [minDt]
  | cons a ss ih =>
    have e : minDt d (a :: ss) = minDt (foamMin a.deltaTChem d) ss := rfl
    rw [e]
    rcases ih (foamMin a.deltaTChem d) with h | ⟨s, hs, h⟩
    · rw [foamMin_eq_min] at *
      rcases min_choice a.deltaTChem d with hc | hc
      · right; exact ⟨a, by simp, by rw [h, hc]⟩
      · left; rw [h, hc]
    · right; exact ⟨s, by simp [hs], h⟩

theorem solves_capped {M : ChemModel K} {p : ChemistryProblem K} {s : ChemistrySolution K}
    (h : Solves M p s) : s.deltaTChem ≤ M.deltaTChemMax := by
  obtain ⟨t, h⟩ := h
  unfold solveSingle at h
  revert h
  cases subStepLoop M.integrate M.fuel p.pi p.Ti p.c p.deltaTChem p.deltaT with
  | error e => intro h; simp [bind, Except.bind] at h
  | ok x =>
    simp only [bind, Except.bind]
    split
    · intro h
      simp only [Except.ok.injEq] at h
      subst h
      simp only [foamMin_eq_min]
      exact min_le_right _ _
    · intro h; simp at h

/-- C28.  The value returned by `solve` on a rank is at most `great` and at most the new chemical
time step of every cell of that rank that was solved individually, and it is one of these
values. -/
theorem C28_returned_step_is_minimum {n : Nat} (hn : 0 < n) (M : ChemModel K)
    (hchem : M.chemistry = true) (parRun : Bool) (hpar : parRun = true ∨ n = 1)
    (sort : List (ChemistryLoad K) → List (ChemistryLoad K)) (hsort : ∀ l, (sort l).Perm l)
    (clk : Fin n → Nat → K) (flow : Fin n → Flow K) (F : Fin n → RankFields K)
    (res : Fin n → RankFields K × K) (h : solveWorld M parRun sort clk flow F = .ok res)
    (r : Fin n) :
    (res r).2 ≤ Consts.great ∧
    (∀ i, i < (flow r).nCells → ¬ Mapped M (flow r) i → (res r).2 ≤ (res r).1.deltaTChem i) ∧
    ((res r).2 = Consts.great ∨ ∃ i, i < (flow r).nCells ∧ ¬ Mapped M (flow r) i ∧
      (res r).2 = (res r).1.deltaTChem i) := by
  obtain ⟨G, ps, inc, h1, h2, h3, h4⟩ :=
    (solveWorld_closed hn M hchem parRun hpar sort hsort clk flow F res).1 h
  obtain ⟨g1, g2, g3, g4, g5, g6⟩ := getProblems_spec (h1 r)
  have hid := forall₂_cellid (h3 r)
  rw [h4 r]
  simp only
  have hval : ∀ s ∈ (inc r).flatten, (applySols M (G r) (inc r).flatten).deltaTChem s.cellid =
      s.deltaTChem := by
    intro s hs
    obtain ⟨p, hp, hps⟩ := forall₂_mem_right (h3 r) s hs
    have := (applySols_named M (inc r).flatten (G r) s (by rw [hid]; exact g1) hs).2.2.1
    rw [this, foamMin_eq_min, min_eq_left (solves_capped hps)]
  obtain ⟨m1, m2⟩ := minDt_le (Consts.great : K) (inc r).flatten
  refine ⟨m1, fun i hi hm => ?_, ?_⟩
  · have : i ∈ (inc r).flatten.map (·.cellid) := by rw [hid]; exact (g2 i).2 ⟨hi, hm⟩
    obtain ⟨s, hs, rfl⟩ := List.mem_map.1 this
    rw [hval s hs]
    exact m2 s hs
  · rcases minDt_attained (Consts.great : K) (inc r).flatten with hg | ⟨s, hs, hg⟩
    · left; exact hg
    · right
      have : s.cellid ∈ (ps r).map (·.cellid) := by
        rw [← hid]; exact List.mem_map.2 ⟨s, hs, rfl⟩
      have := (g2 s.cellid).1 this
      exact ⟨s.cellid, this.1, this.2, by rw [hval s hs, hg]⟩

/-- C28, uniform time step: the value returned is moreover at most twice the time step; it is
the smaller of that and the minimum of `solve`. -/
theorem C28_uniform_at_most_twice {n : Nat} (M : ChemModel K) (parRun : Bool)
    (sort : List (ChemistryLoad K) → List (ChemistryLoad K)) (clk : Fin n → Nat → K)
    (flow : Fin n → Flow K) (F : Fin n → RankFields K) (deltaT : K)
    (res : Fin n → RankFields K × K)
    (h : solveWorldUniform M parRun sort clk flow deltaT F = .ok res) :
    ∃ res', solveWorld M parRun sort clk (fun r => { flow r with deltaT := fun _ => deltaT }) F =
        .ok res' ∧ ∀ r, (res r).1 = (res' r).1 ∧ (res r).2 = min (res' r).2 (2 * deltaT) ∧
        (res r).2 ≤ 2 * deltaT := by
  unfold solveWorldUniform at h
  simp only [bind, Except.bind] at h
  cases h1 : solveWorld M parRun sort clk (fun r => { flow r with deltaT := fun _ => deltaT }) F with
  | error er => simp [h1] at h
  | ok res' =>
    simp only [h1, Except.ok.injEq] at h
    refine ⟨res', rfl, fun r => ?_⟩
    rw [← h]
    simp only [foamMin_eq_min, Consts.two]
    exact ⟨trivial, trivial, min_le_right _ _⟩

/-- C28, the exception: it is not a lower bound for mapped cells.  There are two ranks, fields
and a step in which rank 0 returns a value above the chemical time step of its mapped cell 0. -/
theorem C28_not_a_bound_for_mapped_cells :
    ∃ (M : ChemModel ℚ) (flow : Fin 2 → Flow ℚ) (F : Fin 2 → RankFields ℚ)
      (res : Fin 2 → RankFields ℚ × ℚ),
      solveWorld M true Example.sort Example.mapClk flow F = .ok res ∧
      (res 0).1.refMap 0 = 0 ∧ (res 0).1.deltaTChem 0 < (res 0).2 := by
  have hx : ∃ res, solveWorld Example.mapModel true Example.sort Example.mapClk Example.mapFlow
      (fun r => { Example.mapFields r with deltaTChem := fun i => if i = 0 then 1 / 10 else 1 / 2 })
      = .ok res ∧ (res 0).1.refMap 0 = 0 ∧ (res 0).1.deltaTChem 0 < (res 0).2 := by
    have hd : (match solveWorld Example.mapModel true Example.sort Example.mapClk Example.mapFlow
      (fun r => { Example.mapFields r with deltaTChem := fun i => if i = 0 then 1 / 10 else 1 / 2 })
      with
      | .error _ => false
      | .ok res => decide ((res 0).1.refMap 0 = 0 ∧ (res 0).1.deltaTChem 0 < (res 0).2)) = true := by
      decide +kernel
    split at hd
    · simp at hd
    · next res hr => exact ⟨res, hr, by simpa using hd⟩
  obtain ⟨res, h⟩ := hx
  exact ⟨_, _, _, res, h⟩

/-! ### C30 -/

/-- The integrator, called repeatedly with the time left, goes from state `(p, T, c)` with
`deltaTChem = sub` to composition `c'` and `deltaTChem = sub'`, using the steps `steps`. -/
inductive Integrates (integrate : K → K → List K → K → K → Except Fault (IntegrateResult K)) :
    K → K → List K → K → K → List K → List K → K → Prop
  | stop (p T : K) (c : List K) (sub left : K) : Integrates integrate p T c sub left [] c sub
  | step {p T : K} {c : List K} {sub left : K} {x : IntegrateResult K} {steps c' : List K} {sub' : K}
      (hx : integrate p T c left sub = .ok x)
      (hr : Integrates integrate x.p x.T x.c x.subDeltaT (left - x.deltaT) steps c' sub') :
      Integrates integrate p T c sub left (x.deltaT :: steps) c' sub'

theorem subStepLoop_integrates
    (integrate : K → K → List K → K → K → Except Fault (IntegrateResult K)) :
    ∀ (fuel : Nat) (p T : K) (c : List K) (sub left : K) (x : List K × K),
    subStepLoop integrate fuel p T c sub left = .ok x →
    ∃ steps, Integrates integrate p T c sub left steps x.1 x.2 ∧ left - steps.sum ≤ Consts.SMALL ∧
      ∀ k, k < steps.length → Consts.SMALL < left - (steps.take k).sum := by
  intro fuel
  induction fuel with
  | zero =>
    intro p T c sub left x h
    unfold subStepLoop at h
    split at h
    · simp at h
    · next hl =>
      simp only [Except.ok.injEq] at h
      subst h
      exact ⟨[], Integrates.stop _ _ _ _ _, by simpa using hl, by simp⟩
  | succ fuel ih =>
    intro p T c sub left x h
    unfold subStepLoop at h
    split at h
    · next hl =>
      simp only [bind, Except.bind] at h
      cases hi : integrate p T c left sub with
      | error er => simp [hi] at h
      | ok y =>
        simp only [hi] at h
        obtain ⟨steps, h1, h2, h3⟩ := ih _ _ _ _ _ _ h
        refine ⟨y.deltaT :: steps, Integrates.step hi h1, ?_, ?_⟩
        · rw [List.sum_cons]; linarith
        · intro k hk
          cases k with
          | zero => simpa using hl
          | succ k =>
            have := h3 k (by simpa using hk)
            rw [List.take_succ_cons, List.sum_cons]
            linarith
    · next hl =>
      simp only [Except.ok.injEq] at h
      subst h
      exact ⟨[], Integrates.stop _ _ _ _ _, by simpa using hl, by simp⟩

/-- C30.  A solution carries the problem's cell and density and a capped chemical time step; the
integrator was called with sub-steps that cover the time step up to the tolerance, stopping as
soon as they do; and the reached composition `c'` is the initial one plus rate times time step
over density. -/
theorem C30_rate_is_mean_rate (M : ChemModel K) (t : K) (p : ChemistryProblem K)
    (s : ChemistrySolution K) (h : solveSingle M t p = .ok s) :
    s.cellid = p.cellid ∧ s.rhoi = p.rhoi ∧ s.cpuTime = t ∧ s.deltaTChem ≤ M.deltaTChemMax ∧
    ∃ steps c' sub', Integrates M.integrate p.pi p.Ti p.c p.deltaTChem p.deltaT steps c' sub' ∧
      s.deltaTChem = min sub' M.deltaTChemMax ∧
      p.deltaT - steps.sum ≤ 1 / 10 ^ 15 ∧
      (∀ k, k < steps.length → 1 / 10 ^ 15 < p.deltaT - (steps.take k).sum) ∧
      c'.length = p.c.length ∧ s.rr.length = p.c.length ∧
      (∀ j (h1 : j < s.rr.length) (h2 : j < c'.length) (h3 : j < p.c.length),
        s.rr[j] = (c'[j] - p.c[j]) * p.rhoi / p.deltaT ∧
        (p.rhoi ≠ 0 → p.deltaT ≠ 0 → p.c[j] + s.rr[j] * p.deltaT / p.rhoi = c'[j])) := by
  have hf := Solves.fields ⟨t, h⟩
  refine ⟨hf.1, hf.2.1, solveSingle_cpuTime M h, solves_capped ⟨t, h⟩, ?_⟩
  unfold solveSingle at h
  revert h
  cases hl : subStepLoop M.integrate M.fuel p.pi p.Ti p.c p.deltaTChem p.deltaT with
  | error e => intro h; simp [bind, Except.bind] at h
  | ok x =>
    obtain ⟨steps, h1, h2, h3⟩ := subStepLoop_integrates _ _ _ _ _ _ _ _ hl
    simp only [bind, Except.bind]
    split
    · next hlen =>
      intro h
      simp only [Except.ok.injEq] at h
      subst h
      refine ⟨steps, x.1, x.2, h1, foamMin_eq_min _ _, h2, h3, hlen, by simp [hlen], ?_⟩
      intro j k1 k2 k3
      simp only [List.getElem_zipWith]
      refine ⟨trivial, fun hr hd => ?_⟩
      field_simp
      ring
    · intro h; simp at h

/-- C30, sub-steps do not overshoot if the integrator never takes more than the time left: then
they add up to the time step within the tolerance from below. -/
theorem C30_steps_cover_time_step (M : ChemModel K)
    (hno : ∀ p T c left sub x, M.integrate p T c left sub = .ok x → x.deltaT ≤ left)
    (p T : K) (c : List K) (sub left : K) (steps c' : List K) (sub' : K) (hleft : 0 ≤ left)
    (h : Integrates M.integrate p T c sub left steps c' sub') : 0 ≤ left - steps.sum := by
  induction h with
  | stop => simpa using hleft
  | step hx _ ih =>
    rw [List.sum_cons]
    have := ih (by have := hno _ _ _ _ _ _ hx; linarith)
    linarith

/-- C30, termination: an integrator that does not fail and advances by at least `δ > 0` in each
call brings the loop to an end, whatever the bound on the number of iterations, if it is large
enough. -/
theorem C30_terminates_with_progress [Archimedean K]
    (integrate : K → K → List K → K → K → Except Fault (IntegrateResult K)) (δ : K) (hδ : 0 < δ)
    (hprog : ∀ p T c left sub, ∃ x, integrate p T c left sub = .ok x ∧ δ ≤ x.deltaT) (left : K) :
    ∃ N, ∀ fuel, N ≤ fuel → ∀ p T c sub, ∃ y, subStepLoop integrate fuel p T c sub left = .ok y := by
  obtain ⟨N, hN⟩ := Archimedean.arch left hδ
  refine ⟨N, ?_⟩
  induction N generalizing left with
  | zero =>
    intro fuel _ p T c sub
    unfold subStepLoop
    have hs : (0 : K) < Consts.SMALL := by simp only [Consts.SMALL]; positivity
    have : ¬ Consts.SMALL < left := by
      rw [zero_nsmul] at hN
      exact not_lt.2 (hN.trans hs.le)
    simp [this]
  | succ N ih =>
    intro fuel hf p T c sub
    obtain ⟨fuel, rfl⟩ : ∃ f, fuel = f + 1 := ⟨fuel - 1, by omega⟩
    unfold subStepLoop
    split
    · obtain ⟨x, hx, hd⟩ := hprog p T c left sub
      simp only [hx, bind, Except.bind]
      refine ih (left - x.deltaT) ?_ fuel (by omega) _ _ _ _
      rw [succ_nsmul] at hN
      linarith
    · exact ⟨_, rfl⟩

/-- An integrator that takes sub-steps of at most 1/2. -/
def Example.subStepping (p T : ℚ) (c : List ℚ) (left sub : ℚ) : Except Fault (IntegrateResult ℚ) :=
  .ok ⟨p, T, c.map (· + 1), if left ≤ 1 / 2 then left else 1 / 2, sub⟩

/-- Two sub-steps: rate of a cell with density 2. -/
example : (solveSingle { Example.mapModel with integrate := Example.subStepping } (5 : ℚ)
      ⟨[1 / 4, 3 / 4], 300, 1, 2, 9, 1, 4, 17⟩).toOption.map
      (fun s => (s.rr, s.deltaTChem, s.cpuTime, s.cellid)) =
    some ([4, 4], 1, 5, 17) := by decide +kernel

/-! ### C31 -/

/-- C31, inert mixture: if the integrator leaves the composition unchanged all rates are zero. -/
theorem C31_inert_zero_rate (M : ChemModel K)
    (hinert : ∀ p T c left sub x, M.integrate p T c left sub = .ok x → x.c = c)
    (t : K) (p : ChemistryProblem K) (s : ChemistrySolution K) (h : solveSingle M t p = .ok s) :
    ∀ x ∈ s.rr, x = 0 := by
  obtain ⟨-, -, -, -, steps, c', sub', hi, -, -, -, h1, h2, h3⟩ := C30_rate_is_mean_rate M t p s h
  have hc : c' = p.c := by
    clear h1 h2 h3
    generalize p.c = a0 at hi
    generalize p.pi = a1 at hi
    generalize p.Ti = a2 at hi
    generalize p.deltaT = a3 at hi
    generalize p.deltaTChem = a4 at hi
    induction hi with
    | stop => rfl
    | step hx _ ih => rw [ih, hinert _ _ _ _ _ _ hx]
  intro x hx
  obtain ⟨j, hj, rfl⟩ := List.mem_iff_getElem.1 hx
  have h4 : j < p.c.length := by omega
  rw [(h3 j hj (by omega) h4).1]
  subst hc
  simp

theorem zipWith_rate_sum (rho dt : K) : ∀ (c c0 : List K), c.length = c0.length →
    (List.zipWith (fun x x0 => (x - x0) * rho / dt) c c0).sum = (c.sum - c0.sum) * rho / dt
  | [], [], _ => by simp
  | a :: c, b :: c0, h => by
    have ih := zipWith_rate_sum rho dt c c0 (by simpa using h)
    simp only [List.zipWith_cons_cons, List.sum_cons, ih]
    ring
  | [], _ :: _, h => by simp at h
  | _ :: _, [], h => by simp at h

/-- C31, mass: if the integrator preserves the sum of the mass fractions, the rates of all species
sum to zero. -/
theorem C31_mass_conserved (M : ChemModel K)
    (hmass : ∀ p T c left sub x, M.integrate p T c left sub = .ok x → x.c.sum = c.sum)
    (t : K) (p : ChemistryProblem K) (s : ChemistrySolution K) (h : solveSingle M t p = .ok s) :
    s.rr.sum = 0 := by
  obtain ⟨-, -, -, -, steps, c', sub', hi, -, -, -, h1, h2, h3⟩ := C30_rate_is_mean_rate M t p s h
  have hc : c'.sum = p.c.sum := by
    clear h1 h2 h3
    generalize p.c = a0 at hi
    generalize p.pi = a1 at hi
    generalize p.Ti = a2 at hi
    generalize p.deltaT = a3 at hi
    generalize p.deltaTChem = a4 at hi
    induction hi with
    | stop => rfl
    | step hx _ ih => rw [ih, hmass _ _ _ _ _ _ hx]
  have hrr : s.rr = List.zipWith (fun x x0 => (x - x0) * p.rhoi / p.deltaT) c' p.c := by
    apply List.ext_getElem
    · simp [h1, h2]
    · intro j a b
      rw [List.getElem_zipWith]
      exact (h3 j a (by omega) (by omega)).1
  rw [hrr, zipWith_rate_sum _ _ _ _ h1, hc]
  simp

/-- An integrator that moves mass from species 0 to species 1. -/
def Example.exchange (p T : ℚ) (c : List ℚ) (left sub : ℚ) : Except Fault (IntegrateResult ℚ) :=
  .ok ⟨p, T, (match c with | [a, b] => [a - left, b + left] | c => c), left, sub⟩

example : (solveSingle { Example.mapModel with integrate := Example.exchange } (5 : ℚ)
      ⟨[1 / 4, 3 / 4], 300, 1, 2, 9, 1 / 8, 4, 17⟩).toOption.map (fun s => (s.rr, s.rr.sum)) =
    some ([-2, 2], 0) := by decide +kernel

end Ordered

end DLB
