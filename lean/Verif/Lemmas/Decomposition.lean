import Verif.Spec.Decomposition
import Verif.Props.FullStack
/-
Steps and runs on a distributed mesh: of the old fields only the chemical time steps matter (C106, C107).
-/
set_option autoImplicit false
set_option linter.unusedSectionVars false

namespace DLB

section AnyArithmetic
variable {S : Type} [Zero S] [Add S] [Sub S] [Mul S] [Div S] [Neg S] [NatCast S]
variable [LT S] [DecidableLT S] [LE S] [DecidableLE S] [Consts S]
variable {N n n' : Nat}

/-- Two problems that differ at most in CPU time and cell id. -/
def SameData (p p' : ChemistryProblem S) : Prop :=
  p'.c = p.c ∧ p'.Ti = p.Ti ∧ p'.pi = p.pi ∧ p'.rhoi = p.rhoi ∧ p'.deltaTChem = p.deltaTChem ∧
    p'.deltaT = p.deltaT

theorem solveSingle_data {M : ChemModel S} {p p' : ChemistryProblem S} (h : SameData p p') {t : S}
    {s : ChemistrySolution S} (hs : solveSingle M t p = .ok s) (b : Bool) (t' : S) :
    solveSingle { M with active := b } t' p' =
      .ok { s with cpuTime := t', cellid := p'.cellid } := by
  obtain ⟨h1, h2, h3, h4, h5, h6⟩ := h
  unfold solveSingle at hs ⊢
  rw [h1, h2, h3, h4, h5, h6]
  simp only [bind, Except.bind] at hs ⊢
  cases hx : subStepLoop M.integrate M.fuel p.pi p.Ti p.c p.deltaTChem p.deltaT with
  | error e => rw [hx] at hs; simp at hs
  | ok x =>
    rw [hx] at hs
    simp only at hs ⊢
    split at hs
    · next hc =>
      rw [Except.ok.injEq] at hs
      rw [if_pos hc, ← hs]
    · simp at hs

/-- Cells that carry solutions of problems with the same data have the same rates and time steps. -/
theorem carries_same {M : ChemModel S} {p p' : ChemistryProblem S} (h : SameData p p') {t t' : S}
    {s s' : ChemistrySolution S} {b b' : Bool}
    (hs : solveSingle { M with active := b } t p = .ok s)
    (hs' : solveSingle { M with active := b' } t' p' = .ok s') {G G' : RankFields S} {i i' : Nat}
    (hG : CarriesSolution M G i s) (hG' : CarriesSolution M G' i' s') :
    (∀ j, j < M.nSpecie → G.RR j i = G'.RR j i') ∧ G.deltaTChem i = G'.deltaTChem i' := by
  have hd := solveSingle_data (M := { M with active := b }) h hs b' t'
  have e : solveSingle { M with active := b' } t' p' = .ok { s with cpuTime := t', cellid := p'.cellid } := hd
  rw [hs', Except.ok.injEq] at e
  subst e
  obtain ⟨a1, a2, -⟩ := hG
  obtain ⟨b1, b2, -⟩ := hG'
  refine ⟨fun j hj => ?_, by rw [a2, b2]⟩
  have h1 := a1 j hj
  have h2 := b1 j hj
  simp only at h2
  rw [h1] at h2
  exact Option.some.inj h2

/-- The chemical time steps of the mesh agree. -/
def SameSteps (D : Decomposition N n) (D' : Decomposition N n') (F : Fin n → RankFields S)
    (F' : Fin n' → RankFields S) : Prop :=
  ∀ c, c < N → (F (D.rankOf c)).deltaTChem (D.localOf c) =
    (F' (D'.rankOf c)).deltaTChem (D'.localOf c)

theorem SameSteps.symm {D : Decomposition N n} {D' : Decomposition N n'} {F : Fin n → RankFields S}
    {F' : Fin n' → RankFields S} (h : SameSteps D D' F F') : SameSteps D' D F' F :=
  fun c hc => (h c hc).symm

theorem sameData_cell {M : ChemModel S} {D : Decomposition N n} {D' : Decomposition N n'}
    {F : Fin n → RankFields S} {F' : Fin n' → RankFields S} (hF : SameSteps D D' F F') (g : Flow S)
    {c : Nat} (hc : c < N) :
    SameData (cellProblem M (D.flow g (D.rankOf c)) (F (D.rankOf c)) (D.localOf c))
      (cellProblem M (D'.flow g (D'.rankOf c)) (F' (D'.rankOf c)) (D'.localOf c)) := by
  simp only [SameData, cellProblem, Decomposition.flow, D.global_local c hc, D'.global_local c hc,
    hF c hc, and_self]

theorem not_mapped_of_off {M : ChemModel S} (hoff : M.mapper.active = false) (fl : Flow S) (i : Nat) :
    ¬ Mapped M fl i := by
  rintro ⟨-, ⟨ha, -⟩, -⟩
  rw [hoff] at ha
  exact absurd ha (by decide)

theorem gather_ext {nSpecie : Nat} {D : Decomposition N n} {D' : Decomposition N n'}
    {F : Fin n → RankFields S} {F' : Fin n' → RankFields S}
    (h : ∀ c, c < N → (∀ j, j < nSpecie → (F (D.rankOf c)).RR j (D.localOf c) =
        (F' (D'.rankOf c)).RR j (D'.localOf c)) ∧
      (F (D.rankOf c)).deltaTChem (D.localOf c) = (F' (D'.rankOf c)).deltaTChem (D'.localOf c) ∧
      (F (D.rankOf c)).refMap (D.localOf c) = (F' (D'.rankOf c)).refMap (D'.localOf c)) :
    D.gather nSpecie F = D'.gather nSpecie F' := by
  unfold Decomposition.gather
  congr 1
  · funext j c
    by_cases hc : c < N ∧ j < nSpecie
    · rw [if_pos hc, if_pos hc]; exact (h c hc.1).1 j hc.2
    · rw [if_neg hc, if_neg hc]
  · funext c
    by_cases hc : c < N
    · rw [if_pos hc, if_pos hc]; exact (h c hc).2.1
    · rw [if_neg hc, if_neg hc]
  · funext c
    by_cases hc : c < N
    · rw [if_pos hc, if_pos hc]; exact (h c hc).2.2
    · rw [if_neg hc, if_neg hc]

/-- The step on other ranks, mapping off. -/
theorem step_off (hn : 0 < n) (hn' : 0 < n') {M : ChemModel S} (hchem : M.chemistry = true)
    (hoff : M.mapper.active = false) {parRun parRun' : Bool} (hpar : parRun = true ∨ n = 1)
    (hpar' : parRun' = true ∨ n' = 1)
    {sort sort' : List (ChemistryLoad S) → List (ChemistryLoad S)} (hsort : ∀ l, (sort l).Perm l)
    (hsort' : ∀ l, (sort' l).Perm l) (D : Decomposition N n) (D' : Decomposition N n')
    (b b' : Bool) (clk : Fin n → Nat → S) (clk' : Fin n' → Nat → S) (g : Flow S)
    {F : Fin n → RankFields S} {F' : Fin n' → RankFields S} (hF : SameSteps D D' F F')
    {res : Fin n → RankFields S × S}
    (h : solveWorld { M with active := b } parRun sort clk (D.flow g) F = .ok res) :
    ∃ res', solveWorld { M with active := b' } parRun' sort' clk' (D'.flow g) F' = .ok res' ∧
      D.gather M.nSpecie (fun r => (res r).1) = D'.gather M.nSpecie (fun r => (res' r).1) := by
  have hsuc := (C27_step_succeeds_iff hn { M with active := b } hchem parRun hpar sort hsort clk
    (D.flow g) F).1 ⟨res, h⟩
  obtain ⟨res', h'⟩ := (C27_step_succeeds_iff hn' { M with active := b' } hchem parRun' hpar' sort'
    hsort' clk' (D'.flow g) F').2 (by
      intro r
      refine ⟨fun ha => absurd (hoff.symm.trans ha) (by decide), fun i hi _ => ?_⟩
      have hi' : i < D'.nCells r := hi
      obtain ⟨e1, e2⟩ := D'.local_global r i hi'
      have hc := D'.global_lt r i hi'
      obtain ⟨t, s, hs⟩ := (hsuc (D.rankOf (D'.globalOf r i))).2 _ (D.local_lt _ hc)
        (.inl (not_mapped_of_off hoff _ _))
      have hd := sameData_cell (M := M) hF g hc
      rw [e1, e2] at hd
      exact ⟨t, _, solveSingle_data (M := { M with active := b }) hd hs b' t⟩)
  refine ⟨res', h', gather_ext fun c hc => ?_⟩
  have off := fun fl i => not_mapped_of_off (M := { M with active := b }) hoff fl i
  have off' := fun fl i => not_mapped_of_off (M := { M with active := b' }) hoff fl i
  obtain ⟨t, s, hs, hcar⟩ := ((C27_every_cell_carries_rate_of_this_step hn { M with active := b } hchem
    parRun hpar sort hsort clk (D.flow g) F res h _ _ (D.local_lt c hc)).resolve_right
    (fun hx => off _ _ hx.1)).2
  obtain ⟨t', s', hs', hcar'⟩ := ((C27_every_cell_carries_rate_of_this_step hn' { M with active := b' }
    hchem parRun' hpar' sort' hsort' clk' (D'.flow g) F' res' h' _ _ (D'.local_lt c hc)).resolve_right
    (fun hx => off' _ _ hx.1)).2
  obtain ⟨q1, q2⟩ := carries_same (M := M) (sameData_cell (M := M) hF g hc) hs hs' hcar hcar'
  refine ⟨q1, q2, ?_⟩
  rw [((C24_refMap_tells_truth hn { M with active := b } hchem parRun hpar sort hsort clk (D.flow g) F res h
    _ _ (D.local_lt c hc)).2.2).2 (off _ _),
    ((C24_refMap_tells_truth hn' { M with active := b' } hchem parRun' hpar' sort' hsort' clk' (D'.flow g)
    F' res' h' _ _ (D'.local_lt c hc)).2.2).2 (off' _ _)]

theorem IsReference.unique {M : ChemModel S} {fl : Flow S} {a b : Nat} (ha : IsReference M fl a)
    (hb : IsReference M fl b) : a = b := by
  rcases Nat.lt_trichotomy a b with h | h | h
  · exact absurd ha.2.1 (hb.2.2 a h)
  · exact h
  · exact absurd hb.2.1 (ha.2.2 b h)

/-- The step on the same ranks, with or without mapping: of the old fields only the chemical time steps
matter. -/
theorem step_same (hn : 0 < n) {M : ChemModel S} (hchem : M.chemistry = true)
    {parRun parRun' : Bool} (hpar : parRun = true ∨ n = 1) (hpar' : parRun' = true ∨ n = 1)
    {sort sort' : List (ChemistryLoad S) → List (ChemistryLoad S)} (hsort : ∀ l, (sort l).Perm l)
    (hsort' : ∀ l, (sort' l).Perm l) (D : Decomposition N n)
    (b b' : Bool) (clk clk' : Fin n → Nat → S) (g : Flow S)
    {F F' : Fin n → RankFields S} (hF : SameSteps D D F F') {res : Fin n → RankFields S × S}
    (h : solveWorld { M with active := b } parRun sort clk (D.flow g) F = .ok res) :
    ∃ res', solveWorld { M with active := b' } parRun' sort' clk' (D.flow g) F' = .ok res' ∧
      D.gather M.nSpecie (fun r => (res r).1) = D.gather M.nSpecie (fun r => (res' r).1) := by
  have hcell : ∀ r i, i < D.nCells r → SameData (cellProblem M (D.flow g r) (F r) i)
      (cellProblem M (D.flow g r) (F' r) i) := by
    intro r i hi
    have hd := sameData_cell (M := M) hF g (D.global_lt r i hi)
    rwa [(D.local_global r i hi).1, (D.local_global r i hi).2] at hd
  have hsuc := (C27_step_succeeds_iff hn { M with active := b } hchem parRun hpar sort hsort clk
    (D.flow g) F).1 ⟨res, h⟩
  obtain ⟨res', h'⟩ := (C27_step_succeeds_iff hn { M with active := b' } hchem parRun' hpar' sort'
    hsort' clk' (D.flow g) F').2 (by
      intro r
      refine ⟨(hsuc r).1, fun i hi ho => ?_⟩
      obtain ⟨t, s, hs⟩ := (hsuc r).2 i hi ho
      exact ⟨t, _, solveSingle_data (M := { M with active := b }) (hcell r i hi) hs b' t⟩)
  refine ⟨res', h', gather_ext fun c hc => ?_⟩
  have hi := D.local_lt c hc
  have hl := C27_every_cell_carries_rate_of_this_step hn { M with active := b } hchem
    parRun hpar sort hsort clk (D.flow g) F res h _ _ hi
  have hr := C27_every_cell_carries_rate_of_this_step hn { M with active := b' }
    hchem parRun' hpar' sort' hsort' clk' (D.flow g) F' res' h' _ _ hi
  obtain ⟨m0, m1, m2⟩ := C24_refMap_tells_truth hn { M with active := b } hchem parRun hpar sort hsort clk
    (D.flow g) F res h _ _ hi
  obtain ⟨k0, k1, k2⟩ := C24_refMap_tells_truth hn { M with active := b' } hchem parRun' hpar' sort' hsort'
    clk' (D.flow g) F' res' h' _ _ hi
  have hm : ∀ i, Mapped { M with active := b } (D.flow g (D.rankOf c)) i ↔
    Mapped { M with active := b' } (D.flow g (D.rankOf c)) i := fun i => Iff.rfl
  have hre : ∀ i, IsReference { M with active := b } (D.flow g (D.rankOf c)) i ↔
    IsReference { M with active := b' } (D.flow g (D.rankOf c)) i := fun i => Iff.rfl
  rcases hl with ⟨a, t, s, hs, hcar⟩ | ⟨a, r0, t, s, hr0, hs, hcar⟩
  · rcases hr with ⟨a', t', s', hs', hcar'⟩ | ⟨a', -⟩
    · obtain ⟨q1, q2⟩ := carries_same (M := M) (hcell _ _ hi) hs hs' hcar hcar'
      exact ⟨q1, q2, (m2.2 a).trans (k2.2 a').symm⟩
    · exact absurd a' a
  · rcases hr with ⟨a', -⟩ | ⟨a', r0', t', s', hr0', hs', hcar'⟩
    · exact absurd a a'
    · obtain rfl := IsReference.unique (M := M) hr0 hr0'
      obtain ⟨q1, q2⟩ := carries_same (M := M) (hcell _ _ hr0.1) hs hs' hcar hcar'
      refine ⟨q1, q2, ?_⟩
      by_cases hri : IsReference M (D.flow g (D.rankOf c)) (D.localOf c)
      · rw [m0.2 ⟨a, hri⟩, k0.2 ⟨a', hri⟩]
      · rw [m1.2 ⟨a, hri⟩, k1.2 ⟨a', hri⟩]

theorem agree_of_gather {nSpecie : Nat} {D : Decomposition N n} {D' : Decomposition N n'}
    {F : Fin n → RankFields S} {F' : Fin n' → RankFields S}
    (h : D.gather nSpecie F = D'.gather nSpecie F') : SameSteps D D' F F' := by
  intro c hc
  have := congrFun (congrArg Gathered.deltaTChem h) c
  simpa [Decomposition.gather, hc] using this

/-- From steps to runs. -/
theorem runOn_agree {Ω : Type} {M : ChemModel S} {parRun parRun' : Bool}
    {sort sort' : List (ChemistryLoad S) → List (ChemistryLoad S)} {D : Decomposition N n}
    {D' : Decomposition N n'}
    (hstep : ∀ (b b' : Bool) (clk : Fin n → Nat → S) (clk' : Fin n' → Nat → S) (g : Flow S)
      (F : Fin n → RankFields S) (F' : Fin n' → RankFields S), SameSteps D D' F F' →
      ∀ res, solveWorld { M with active := b } parRun sort clk (D.flow g) F = .ok res →
      ∃ res', solveWorld { M with active := b' } parRun' sort' clk' (D'.flow g) F' = .ok res' ∧
        D.gather M.nSpecie (fun r => (res r).1) = D'.gather M.nSpecie (fun r => (res' r).1))
    (flowOf : Ω → Flow S) (advance : Ω → Gathered S → Ω) (clk : Nat → Fin n → Nat → S)
    (clk' : Nat → Fin n' → Nat → S) (active active' : Nat → Bool) :
    ∀ (k : Nat) (ω : Ω) (F : Fin n → RankFields S) (F' : Fin n' → RankFields S) (trace),
      SameSteps D D' F F' → runOn M parRun sort D flowOf advance clk active k ω F = .ok trace →
      runOn M parRun' sort' D' flowOf advance clk' active' k ω F' = .ok trace
  | 0, _, _, _, _, _, h => h
  | k + 1, ω, F, F', trace, hF, h => by
    unfold runOn at h ⊢
    simp only [bind, Except.bind] at h ⊢
    cases h1 : solveWorld { M with active := active k } parRun sort (clk k) (D.flow (flowOf ω)) F with
    | error e => rw [h1] at h; simp at h
    | ok res =>
      rw [h1] at h
      obtain ⟨res', h1', hg⟩ := hstep (active k) (active' k) (clk k) (clk' k) (flowOf ω) F F' hF res h1
      rw [h1']
      simp only at h ⊢
      rw [← hg]
      cases h2 : runOn M parRun sort D flowOf advance clk active k
          (advance ω (D.gather M.nSpecie (fun r => (res r).1))) (fun r => (res r).1) with
      | error e => rw [h2] at h; simp at h
      | ok rest =>
        rw [h2] at h
        rw [runOn_agree hstep flowOf advance clk clk' active active' k _ _ (fun r => (res' r).1) rest
          (agree_of_gather hg) h2]
        exact h

theorem runOn_succ {Ω : Type} (M : ChemModel S) (parRun : Bool)
    (sort : List (ChemistryLoad S) → List (ChemistryLoad S)) (D : Decomposition N n)
    (flowOf : Ω → Flow S) (advance : Ω → Gathered S → Ω) (clk : Nat → Fin n → Nat → S)
    (active : Nat → Bool) (k : Nat) (ω : Ω) (F : Fin n → RankFields S) :
    runOn M parRun sort D flowOf advance clk active (k + 1) ω F =
      match solveWorld { M with active := active k } parRun sort (clk k) (D.flow (flowOf ω)) F with
      | .error e => .error e
      | .ok res =>
        match runOn M parRun sort D flowOf advance clk active k
          (advance ω (D.gather M.nSpecie (fun r => (res r).1))) (fun r => (res r).1) with
        | .error e => .error e
        | .ok rest => .ok (D.gather M.nSpecie (fun r => (res r).1) :: rest) := by
  rw [runOn]
  simp only [bind, Except.bind]
  cases solveWorld { M with active := active k } parRun sort (clk k) (D.flow (flowOf ω)) F with
  | error e => rfl
  | ok res =>
    simp only
    cases runOn M parRun sort D flowOf advance clk active k
      (advance ω (D.gather M.nSpecie (fun r => (res r).1))) (fun r => (res r).1) <;> rfl

/-- A run of `k₁ + k₂` steps fails if its first `k₁` steps do, and otherwise continues from fields with
the last chemical time steps. -/
theorem runOn_split {Ω : Type} {M : ChemModel S} {parRun : Bool}
    {sort : List (ChemistryLoad S) → List (ChemistryLoad S)} {D : Decomposition N n}
    (flowOf : Ω → Flow S) (advance : Ω → Gathered S → Ω) (clk : Nat → Fin n → Nat → S)
    (active : Nat → Bool) (k₂ : Nat) :
    ∀ (k₁ : Nat) (ω : Ω) (F : Fin n → RankFields S),
      (∃ e, runOn M parRun sort D flowOf advance (fun i => clk (i + k₂)) (fun i => active (i + k₂)) k₁
          ω F = .error e ∧
        runOn M parRun sort D flowOf advance clk active (k₁ + k₂) ω F = .error e) ∨
      ∃ t₁ F₁, runOn M parRun sort D flowOf advance (fun i => clk (i + k₂))
          (fun i => active (i + k₂)) k₁ ω F = .ok t₁ ∧
        (∀ c, c < N → (F₁ (D.rankOf c)).deltaTChem (D.localOf c) = lastDeltaT D F t₁ c) ∧
        runOn M parRun sort D flowOf advance clk active (k₁ + k₂) ω F =
          (runOn M parRun sort D flowOf advance clk active k₂ (t₁.foldl advance ω) F₁).map (t₁ ++ ·)
  | 0, ω, F => by
    refine .inr ⟨[], F, rfl, fun c _ => rfl, ?_⟩
    rw [Nat.zero_add]
    simp only [List.foldl_nil, List.nil_append]
    cases runOn M parRun sort D flowOf advance clk active k₂ ω F <;> rfl
  | k₁ + 1, ω, F => by
    rw [Nat.add_right_comm]
    simp only [runOn_succ]
    cases h1 : solveWorld { M with active := active (k₁ + k₂) } parRun sort (clk (k₁ + k₂))
        (D.flow (flowOf ω)) F with
    | error e => exact .inl ⟨e, rfl, rfl⟩
    | ok res =>
      simp only
      rcases runOn_split (M := M) (parRun := parRun) (sort := sort) (D := D) flowOf advance clk active k₂
        k₁ (advance ω (D.gather M.nSpecie (fun r => (res r).1))) (fun r => (res r).1) with
        ⟨e, a, b⟩ | ⟨t₁, F₁, a, b, c⟩
      · rw [a, b]
        exact .inl ⟨e, rfl, rfl⟩
      · rw [a]
        refine .inr ⟨D.gather M.nSpecie (fun r => (res r).1) :: t₁, F₁, rfl, ?_, ?_⟩
        · intro x hx
          rw [b x hx]
          unfold lastDeltaT
          cases t₁ with
          | nil => simp [Decomposition.gather, hx]
          | cons v t => simp [List.getLast?_cons]
        · rw [c, List.foldl_cons]
          cases runOn M parRun sort D flowOf advance clk active k₂ _ F₁ <;> rfl

/-- Stopping after `k₁` steps and continuing on the ranks of `D'`. -/
theorem runOn_restart {Ω : Type} {M : ChemModel S} {parRun parRun' : Bool}
    {sort sort' : List (ChemistryLoad S) → List (ChemistryLoad S)} {D : Decomposition N n}
    {D' : Decomposition N n'} (flowOf : Ω → Flow S) (advance : Ω → Gathered S → Ω)
    (clk clk₁ : Nat → Fin n → Nat → S) (clk₂ : Nat → Fin n' → Nat → S)
    (active active₁ active₂ : Nat → Bool) (k₁ k₂ : Nat)
    (hsame : ∀ ω (F F' : Fin n → RankFields S) clk clk' active active' k trace, SameSteps D D F F' →
      runOn M parRun sort D flowOf advance clk active k ω F = .ok trace →
      runOn M parRun sort D flowOf advance clk' active' k ω F' = .ok trace)
    (hto : ∀ ω (F : Fin n → RankFields S) (F' : Fin n' → RankFields S) clk clk' active active' k trace,
      SameSteps D D' F F' → (runOn M parRun sort D flowOf advance clk active k ω F = .ok trace ↔
      runOn M parRun' sort' D' flowOf advance clk' active' k ω F' = .ok trace))
    (ω : Ω) (F : Fin n → RankFields S) (trace : List (Gathered S)) :
    runOn M parRun sort D flowOf advance clk active (k₁ + k₂) ω F = .ok trace ↔
    ∃ t₁ t₂, trace = t₁ ++ t₂ ∧ runOn M parRun sort D flowOf advance clk₁ active₁ k₁ ω F = .ok t₁ ∧
      ∀ F' : Fin n' → RankFields S,
        (∀ c, c < N → (F' (D'.rankOf c)).deltaTChem (D'.localOf c) = lastDeltaT D F t₁ c) →
        runOn M parRun' sort' D' flowOf advance clk₂ active₂ k₂ (t₁.foldl advance ω) F' = .ok t₂ := by
  have hrefl : SameSteps D D F F := fun _ _ => rfl
  constructor
  · intro h
    rcases runOn_split (M := M) (parRun := parRun) (sort := sort) (D := D) flowOf advance clk active k₂ k₁
      ω F with ⟨e, -, b⟩ | ⟨t₁, F₁, a, b, c⟩
    · rw [b] at h; simp at h
    · rw [c] at h
      cases h2 : runOn M parRun sort D flowOf advance clk active k₂ (t₁.foldl advance ω) F₁ with
      | error e => rw [h2] at h; simp [Except.map] at h
      | ok t₂ =>
        rw [h2] at h
        refine ⟨t₁, t₂, (Except.ok.inj h).symm, hsame _ _ _ _ _ _ _ _ _ hrefl a, fun F' hF' => ?_⟩
        exact (hto _ F₁ F' _ _ _ _ _ _ (fun x hx => (b x hx).trans (hF' x hx).symm)).1 h2
  · rintro ⟨t₁, t₂, rfl, h1, h2⟩
    have h1' := hsame ω F F clk₁ (fun i => clk (i + k₂)) active₁ (fun i => active (i + k₂)) k₁ t₁ hrefl h1
    rcases runOn_split (M := M) (parRun := parRun) (sort := sort) (D := D) flowOf advance clk active k₂ k₁
      ω F with ⟨e, a, -⟩ | ⟨t, F₁, a, b, c⟩
    · rw [a] at h1'; simp at h1'
    · obtain rfl : t = t₁ := Except.ok.inj (a.symm.trans h1')
      let F' : Fin n' → RankFields S := fun r =>
        ⟨fun _ _ => 0, fun i => lastDeltaT D F t (D'.globalOf r i), fun _ => 0, fun _ => 0⟩
      have hF' : ∀ x, x < N → (F' (D'.rankOf x)).deltaTChem (D'.localOf x) = lastDeltaT D F t x := by
        intro x hx
        simp only [F', D'.global_local x hx]
      have h3 := (hto (t.foldl advance ω) F₁ F' clk clk₂ active active₂ k₂ t₂
        (fun x hx => (b x hx).trans (hF' x hx).symm)).2 (h2 F' hF')
      rw [c, h3]
      rfl

theorem runOnW_eq {Ω Scr : Type} {M : StatefulModel S Scr} (hM : HistoryFree M) (w₀ : Scr)
    (parRun : Bool) (sort : List (ChemistryLoad S) → List (ChemistryLoad S)) (D : Decomposition N n)
    (flowOf : Ω → Flow S) (advance : Ω → Gathered S → Ω)
    (clk : Nat → Fin n → Nat → S) (active : Nat → Bool) :
    ∀ (k : Nat) (ω : Ω) (w : Fin n → Scr) (F : Fin n → RankFields S),
    runOnW M parRun sort D flowOf advance clk active k ω w F
      = runOn (M.forgetful w₀) parRun sort D flowOf advance clk active k ω F
  | 0, _, _, _ => rfl
  | k + 1, ω, w, F => by
    unfold runOnW runOn
    have hM' : HistoryFree { M with base := { M.base with active := active k } } := hM
    have h := solveWorldW_eq hM' w₀ parRun sort (clk k) (D.flow (flowOf ω)) w F
    have h' : solveWorld { M.forgetful w₀ with active := active k } parRun sort (clk k)
      (D.flow (flowOf ω)) F = _ := h.symm
    rw [h']
    cases solveWorldW { M with base := { M.base with active := active k } } parRun sort (clk k)
        (D.flow (flowOf ω)) w F with
    | error e => rfl
    | ok r =>
      simp only [Except.map, bind, Except.bind]
      rw [runOnW_eq hM w₀ parRun sort D flowOf advance clk active k _ r.1]
      rfl

end AnyArithmetic
end DLB
