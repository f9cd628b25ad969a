import Verif.Model.Seulex
/-
The extrapolation stepper, for any arithmetic: every access is in range, the target order stays in
1..11, and the result does not depend on entries of the work arrays that were not written by the
current call.  Both are proved together, as a simulation between two runs.
-/
set_option autoImplicit false
set_option linter.unusedSectionVars false

namespace DLB

variable {S : Type} {n : Nat}
variable [Zero S] [Add S] [Sub S] [Mul S] [Div S] [Neg S] [NatCast S] [OfScientific S]
variable [LT S] [DecidableLT S] [LE S] [DecidableLE S] [BEq S] [Consts S] [MathOps S]

theorem readAt_ok {α : Type} {N i : Nat} (h : i < N) (f : Nat → α) : readAt N f i = .ok (f i) := by
  simp [readAt, h]

theorem writeAt_ok {α : Type} {N i : Nat} (h : i < N) (f : Nat → α) (v : α) :
    writeAt N f i v = .ok (fun k => if k = i then v else f k) := by
  simp [writeAt, h]

theorem coeff_ok {k l : Nat} (hk : k < iMaxx) (hl : l < k) :
    (coeff k l : Except Fault S)
      = .ok (((1 : Nat) : S) / (((nSeq k : Nat) : S) / ((nSeq l : Nat) : S) - ((1 : Nat) : S))) := by
  simp [coeff, hk, hl]

/-- Two states that agree on everything written since the start of the attempt, up to column
`j` (exclusive). -/
structure Agree (j : Nat) (s t : Inner S n) : Prop where
  y : s.y = t.y
  theta : s.theta = t.theta
  kTarg : s.kTarg = t.kTarg
  errOld : s.errOld = t.errOld
  table : ∀ i, i + 1 < j → s.table i = t.table i
  dxOpt : ∀ i, i < max 1 j → s.dxOpt i = t.dxOpt i
  temp : ∀ i, i < max 1 j → s.temp i = t.temp i

theorem Agree.mono {i j : Nat} (h : i ≤ j) {s t : Inner S n} (hs : Agree j s t) : Agree i s t :=
  ⟨hs.y, hs.theta, hs.kTarg, hs.errOld, fun l hl => hs.table l (by omega),
    fun l hl => hs.dxOpt l (by omega), fun l hl => hs.temp l (by omega)⟩

theorem extrapolateRows_agree {k : Nat} (hk : k < iMaxx) : ∀ (j : Nat) (t u : Nat → Vec S (n + 1)),
    j < k → (∀ i, i < k → t i = u i) → ∃ t' u', extrapolateRows k j t = .ok t' ∧
      extrapolateRows k j u = .ok u' ∧ ∀ i, i < k → t' i = u' i
  | 0, t, u, _, h => ⟨t, u, rfl, rfl, h⟩
  | j + 1, t, u, hj, h => by
    have hk' : k < 13 := hk
    have h1 : j + 1 < kMaxx := by show j + 1 < 12; omega
    have h0 : j < kMaxx := by show j < 12; omega
    simp only [extrapolateRows, coeff_ok (S := S) hk hj, readAt_ok h1, readAt_ok h0, writeAt_ok h0, bind,
      Except.bind]
    apply extrapolateRows_agree hk j _ _ (by omega)
    intro i hi
    simp only [h (j + 1) hj, h j (by omega), h i hi]

theorem extrapolate_agree {k : Nat} (hk1 : 1 ≤ k) (hk : k < iMaxx) (t u : Nat → Vec S (n + 1))
    (y : Vec S (n + 1)) (h : ∀ i, i < k → t i = u i) : ∃ t' u' y', extrapolate k t y = .ok (t', y') ∧
      extrapolate k u y = .ok (u', y') ∧ ∀ i, i < k → t' i = u' i := by
  obtain ⟨t', u', ht, hu, htu⟩ := extrapolateRows_agree hk (k - 1) t u (by omega) h
  have h0 : 0 < kMaxx := by decide
  simp only [extrapolate, ht, hu, coeff_ok (S := S) hk (show 0 < k by omega), readAt_ok h0, bind,
    Except.bind, htu 0 (by omega)]
  exact ⟨t', u', _, rfl, rfl, htu⟩

theorem rejectWithOrder_agree {s t : Inner S n} {j k : Nat} (h : Agree j s t) (hk1 : 1 ≤ k)
    (hk : k < iMaxx) (hj : k < j) (hs1 : 1 ≤ s.kTarg) (hs : s.kTarg ≤ k) :
    ∃ s' t' d, rejectWithOrder s k = .ok (s', .reject d) ∧ rejectWithOrder t k = .ok (t', .reject d) ∧
      Agree j s' t' ∧ 1 ≤ s'.kTarg ∧ s'.kTarg ≤ s.kTarg := by
  have hk' : k < 13 := hk
  have hkm : k - 1 < iMaxx := by show k - 1 < 13; omega
  have e1 := h.temp k (by omega)
  have e2 := h.temp (k - 1) (by omega)
  simp only [rejectWithOrder, readAt_ok hk, readAt_ok hkm, ← h.kTarg, ← e1, ← e2, bind, Except.bind]
  by_cases hc : 1 < s.kTarg
  · simp only [hc, if_true, true_and]
    by_cases hd : s.temp (k - 1) < (0.7 : S) * s.temp k
    · have hb : s.kTarg - 1 < iMaxx := by show s.kTarg - 1 < 13; omega
      simp only [hd, if_true, readAt_ok hb, ← h.dxOpt (s.kTarg - 1) (by omega)]
      refine ⟨_, _, s.dxOpt (s.kTarg - 1), rfl, rfl, ?_, ?_, ?_⟩
      · exact ⟨h.y, h.theta, rfl, h.errOld, h.table, h.dxOpt, h.temp⟩
      · show 1 ≤ s.kTarg - 1; omega
      · show s.kTarg - 1 ≤ s.kTarg; omega
    · have hb : s.kTarg < iMaxx := by show s.kTarg < 13; omega
      simp only [hd, if_false, ← h.kTarg, readAt_ok hb, ← h.dxOpt s.kTarg (by omega)]
      exact ⟨_, _, s.dxOpt s.kTarg, rfl, rfl, h, hs1, Nat.le_refl _⟩
  · have hb : s.kTarg < iMaxx := by show s.kTarg < 13; omega
    simp only [hc, if_false, false_and, ← h.kTarg, readAt_ok hb,
      ← h.dxOpt s.kTarg (by omega)]
    exact ⟨_, _, s.dxOpt s.kTarg, rfl, rfl, h, hs1, Nat.le_refl _⟩

/-- What one iteration of the loop over the columns guarantees, for two agreeing runs: `a` and `b`
are their results, `kT` is the target before. -/
structure ColumnSpec (k kT : Nat) (a b : Except Fault (Inner S n × Outcome S)) : Prop where
  ex : ∃ s t o, a = .ok (s, o) ∧ b = .ok (t, o) ∧ Agree 0 s t ∧ 1 ≤ s.kTarg ∧ s.kTarg ≤ 11 ∧
    (o = .next → Agree (k + 1) s t ∧ s.kTarg = kT ∧ k ≤ kT) ∧
    (o = .accept → Agree (k + 1) s t ∧ s.kTarg = kT ∧ 1 ≤ k)

theorem decideOrder_agree (first last prevReject : Bool) (err : S) {k : Nat} {s t : Inner S n}
    (h : Agree (k + 1) s t) (hk1 : 1 ≤ k) (hT1 : 1 ≤ s.kTarg) (hT : s.kTarg ≤ 11)
    (hk : k ≤ s.kTarg + 1) :
    ColumnSpec k s.kTarg (decideOrder first last prevReject err k s)
      (decideOrder first last prevReject err k t) := by
  have hki : k < iMaxx := by show k < 13; omega
  have hTi : s.kTarg + 1 < iMaxx := by show s.kTarg + 1 < 13; omega
  have acc : ColumnSpec k s.kTarg (.ok (s, .accept)) (.ok (t, .accept)) :=
    ⟨s, t, .accept, rfl, rfl, h.mono (by omega), hT1, hT, by simp, fun _ => ⟨h, rfl, hk1⟩⟩
  have rej : ∀ (s₁ t₁ : Inner S n) (l : Nat), Agree (k + 1) s₁ t₁ → 1 ≤ l → l ≤ k →
      1 ≤ s₁.kTarg → s₁.kTarg ≤ l → s₁.kTarg ≤ 11 →
      ColumnSpec k s.kTarg (rejectWithOrder s₁ l) (rejectWithOrder t₁ l) := by
    intro s₁ t₁ l h₁ hl1 hl a1 a2 a3
    obtain ⟨s', t', d, e1, e2, ha, b1, b2⟩ :=
      rejectWithOrder_agree h₁ hl1 (by show l < 13; have : k < 13 := hki; omega) (by omega) a1 a2
    exact ⟨s', t', .reject d, e1, e2, ha.mono (by omega), b1, by omega, by simp, by simp⟩
  unfold decideOrder
  rw [← h.kTarg]
  split
  · exact acc
  split
  · exact acc
  split
  · rename_i hc; exact absurd hTi hc.2.2
  split
  · rename_i hc
    exact rej _ _ k ⟨h.y, h.theta, rfl, h.errOld, h.table, h.dxOpt, h.temp⟩ hk1 (Nat.le_refl _) hk1
      (Nat.le_refl _) (by show k ≤ 11; omega)
  split
  · exact acc
  split
  · rename_i hc; exact absurd (by rw [hc.1]; exact hTi) hc.2
  split
  · rename_i hc
    exact rej _ _ k h hk1 (Nat.le_refl _) hT1 (by omega) hT
  split
  · split
    · exact rej _ _ s.kTarg h hT1 (by omega) hT1 (Nat.le_refl _) hT
    · exact acc
  · exact ⟨s, t, .next, rfl, rfl, h.mono (by omega), hT1, hT, fun _ => ⟨h, rfl, by omega⟩, by simp⟩

theorem optimalStep_agree (dx err : S) {k : Nat} {s t : Inner S n} (hk : k < iMaxx)
    (hs : ∀ i, i < k → s.table i = t.table i) (h : Agree k s t) :
    ∃ s' t', optimalStep dx err k s = .ok s' ∧ optimalStep dx err k t = .ok t' ∧
      Agree (k + 1) s' t' ∧ s'.kTarg = s.kTarg := by
  simp only [optimalStep, writeAt_ok hk, bind, Except.bind]
  refine ⟨_, _, rfl, rfl, ⟨h.y, h.theta, h.kTarg, rfl, fun i hi => hs i (by omega), ?_, ?_⟩, rfl⟩
  · intro i hi
    dsimp only
    split
    · rfl
    · exact h.dxOpt i (by omega)
  · intro i hi
    dsimp only
    split
    · rfl
    · exact h.temp i (by omega)

theorem column_agree (E : SeulexEnv S n) (first last prevReject : Bool) (dfdy : Mat S (n + 1))
    (x dx : S) (y0 scale : Vec S (n + 1)) {k : Nat} {s t : Inner S n} (h : Agree k s t)
    (hT1 : 1 ≤ s.kTarg) (hT : s.kTarg ≤ 11) (hk : k ≤ s.kTarg + 1) :
    ColumnSpec k s.kTarg (column E first last prevReject dfdy x dx y0 scale k s)
      (column E first last prevReject dfdy x dx y0 scale k t) := by
  have hki : k < iMaxx := by show k < 13; omega
  unfold column
  rw [← h.theta]
  obtain ⟨r, hr⟩ : ∃ r, seul E dfdy s.theta x y0 dx k scale = .ok r := by
    simp [seul, hki]
  simp only [hr, bind, Except.bind]
  split
  · exact ⟨_, _, _, rfl, rfl, ⟨h.y, rfl, h.kTarg, h.errOld, by simp, fun i hi => h.dxOpt i (by omega),
      fun i hi => h.temp i (by omega)⟩, hT1, hT, by simp, by simp⟩
  split
  · rename_i hk0
    subst hk0
    exact ⟨_, _, _, rfl, rfl, ⟨rfl, rfl, h.kTarg, h.errOld, by simp, h.dxOpt, h.temp⟩, hT1, hT,
      fun _ => ⟨⟨rfl, rfl, h.kTarg, h.errOld, fun i hi => by omega, h.dxOpt, h.temp⟩, rfl, by omega⟩,
      by simp⟩
  rename_i hk0
  have hkm : k - 1 < kMaxx := by show k - 1 < 12; have : k < 13 := hki; omega
  have h0 : 0 < kMaxx := by decide
  simp only [writeAt_ok hkm]
  obtain ⟨t', u', y', e1, e2, htu⟩ := extrapolate_agree (by omega) hki
    (fun i => if i = k - 1 then r.y else s.table i) (fun i => if i = k - 1 then r.y else t.table i)
    s.y (by
      intro i hi
      split
      · rfl
      · exact h.table i (by omega))
  rw [← h.y]
  simp only [e1, e2, readAt_ok h0, htu 0 (by omega), ← h.errOld]
  split
  · exact ⟨_, _, _, rfl, rfl, ⟨rfl, rfl, h.kTarg, rfl, by simp, fun i hi => h.dxOpt i (by omega),
      fun i hi => h.temp i (by omega)⟩, hT1, hT, by simp, by simp⟩
  · obtain ⟨s₂, t₂, o1, o2, ha, hkT⟩ := optimalStep_agree dx (errorEstimate scale y' (u' 0)) hki
      (s := { s with theta := r.theta, table := t', y := y' })
      (t := { t with theta := r.theta, table := u', y := y', errOld := s.errOld }) htu
      ⟨rfl, rfl, h.kTarg, rfl, fun i hi => htu i (by omega), h.dxOpt, h.temp⟩
    simp only [o1, o2]
    have hkT' : s₂.kTarg = s.kTarg := hkT
    rw [← hkT']
    exact decideOrder_agree first last prevReject _ ha (by omega) (by omega) (by omega) (by omega)

/-- What the loop over the columns guarantees, for two agreeing runs. -/
theorem columnLoop_agree (E : SeulexEnv S n) (first last prevReject : Bool) (dfdy : Mat S (n + 1))
    (x dx : S) (y0 scale : Vec S (n + 1)) : ∀ (left k : Nat) (s t : Inner S n), Agree k s t →
    1 ≤ s.kTarg → s.kTarg ≤ 11 → k ≤ s.kTarg + 1 → s.kTarg + 2 ≤ left + k →
    ∃ a b, columnLoop E first last prevReject dfdy x dx y0 scale left k s = .ok a ∧
      columnLoop E first last prevReject dfdy x dx y0 scale left k t = .ok b ∧
      a.k = b.k ∧ a.reject = b.reject ∧ Agree 0 a.st b.st ∧ 1 ≤ a.st.kTarg ∧ a.st.kTarg ≤ 11 ∧
      (a.reject = none → Agree (a.k + 1) a.st b.st ∧ 1 ≤ a.k ∧ a.k ≤ a.st.kTarg + 1)
  | 0, k, s, t, _, _, _, hk, hl => by omega
  | left + 1, k, s, t, h, hT1, hT, hk, hl => by
    obtain ⟨s', t', o, e1, e2, ha, b1, b2, hn, hacc⟩ :=
      (column_agree E first last prevReject dfdy x dx y0 scale h hT1 hT hk).ex
    have hk' : k ≤ t.kTarg + 1 := by rw [← h.kTarg]; exact hk
    unfold columnLoop
    simp only [hk, hk', if_true, e1, e2, bind, Except.bind]
    cases o with
    | next =>
      obtain ⟨g1, g2, g3⟩ := hn rfl
      exact columnLoop_agree E first last prevReject dfdy x dx y0 scale left (k + 1) s' t' g1 b1 b2
        (by omega) (by omega)
    | accept =>
      obtain ⟨g1, g2, g3⟩ := hacc rfl
      exact ⟨_, _, rfl, rfl, rfl, rfl, ha, b1, b2, fun _ => ⟨g1, g3, by show k ≤ s'.kTarg + 1; omega⟩⟩
    | reject d => exact ⟨_, _, rfl, rfl, rfl, rfl, ha, b1, b2, by simp⟩

/-- The results of all attempts of a step, for two agreeing runs. -/
inductive AttemptsSpec : Except Fault (StepResult S n) → Except Fault (StepResult S n) → Prop
  | outOfFuel : AttemptsSpec (.error .outOfFuel) (.error .outOfFuel)
  | ok (k : Nat) (s t : Inner S n) (dfdy : Mat S (n + 1)) (dx : S) (prevReject : Bool)
      (h : Agree (k + 1) s t) (h1 : 1 ≤ s.kTarg) (h2 : s.kTarg ≤ 11) (h3 : 1 ≤ k)
      (h4 : k ≤ s.kTarg + 1) :
      AttemptsSpec (.ok ⟨k, s, dfdy, dx, prevReject⟩) (.ok ⟨k, t, dfdy, dx, prevReject⟩)

theorem attempts_agree (E : SeulexEnv S n) (forward first last : Bool) (x : S)
    (y0 scale : Vec S (n + 1)) : ∀ (fuel : Nat) (prevReject jacUpdated : Bool) (dfdy : Mat S (n + 1))
    (dxNew : S) (s t : Inner S n), Agree 0 s t → 1 ≤ s.kTarg → s.kTarg ≤ 11 →
    AttemptsSpec (attempts E forward first last x y0 scale fuel prevReject jacUpdated dfdy dxNew s)
      (attempts E forward first last x y0 scale fuel prevReject jacUpdated dfdy dxNew t)
  | 0, _, _, _, _, _, _, _, _, _ => .outOfFuel
  | fuel + 1, prevReject, jacUpdated, dfdy, dxNew, s, t, h, hT1, hT => by
    obtain ⟨a, b, e1, e2, hk, hr, ha, b1, b2, hacc⟩ :=
      columnLoop_agree E first last prevReject dfdy x (if forward then dxNew else -dxNew) y0 scale
        (s.kTarg + 2) 0 { s with errOld := 0 } { t with errOld := 0 }
        ⟨h.y, h.theta, h.kTarg, rfl, h.table, h.dxOpt, h.temp⟩ hT1 hT (by omega)
        (by show s.kTarg + 2 ≤ _; omega)
    unfold attempts
    rw [← h.kTarg]
    rw [← h.kTarg] at e2
    simp only [e1, e2, bind, Except.bind]
    obtain ⟨ak, as, ar⟩ := a
    obtain ⟨bk, bs, br⟩ := b
    simp only at hk hr ha b1 b2 hacc
    subst hk hr
    cases ar with
    | none =>
      obtain ⟨g1, g2, g3⟩ := hacc rfl
      exact .ok ak as bs _ _ _ g1 b1 b2 g2 g3
    | some d =>
      simp only [← ha.theta, ← ha.y]
      exact attempts_agree E forward first last x y0 scale fuel _ _ _ _ _ _
        ⟨rfl, rfl, ha.kTarg, ha.errOld, ha.table, ha.dxOpt, ha.temp⟩ b1 b2

theorem optimalOrder_agree {k kT : Nat} {f g : Nat → S} (hk : 1 ≤ k) (hkT : kT ≤ 11)
    (hkk : k ≤ kT + 1) (h : ∀ i, i < k + 1 → f i = g i) :
    ∃ o, optimalOrder k kT f = .ok o ∧ optimalOrder k kT g = .ok o ∧ 1 ≤ o ∧ o ≤ 11 ∧ o ≤ k + 1 := by
  have b0 : k < iMaxx := by show k < 13; omega
  have b1 : k - 1 < iMaxx := by show k - 1 < 13; omega
  have b2 : k - 2 < iMaxx := by show k - 2 < 13; omega
  have hmx : kMaxx - 1 = 11 := rfl
  unfold optimalOrder
  by_cases c1 : k = 1
  · exact ⟨2, by simp [c1], by simp [c1], by omega, by omega, by omega⟩
  simp only [c1, if_false, readAt_ok b0, readAt_ok b1, readAt_ok b2, bind, Except.bind,
    ← h k (by omega), ← h (k - 1) (by omega), ← h (k - 2) (by omega), hmx]
  by_cases c2 : k ≤ kT
  · simp only [c2, if_true]
    split
    · exact ⟨_, rfl, rfl, by omega, by omega, by omega⟩
    split
    · exact ⟨_, rfl, rfl, by omega, by omega, by omega⟩
    · exact ⟨_, rfl, rfl, by omega, by omega, by omega⟩
  · simp only [c2, if_false]
    have key : ∀ o, 1 ≤ o → o ≤ 11 → o ≤ k → ∃ o',
        (do let topt ← readAt iMaxx f o
            if f k < (0.9 : S) * topt then Except.ok (min k 11) else .ok o) = .ok o' ∧
        (do let topt ← readAt iMaxx g o
            if f k < (0.9 : S) * topt then Except.ok (min k 11) else .ok o) = .ok o' ∧
        1 ≤ o' ∧ o' ≤ 11 ∧ o' ≤ k + 1 := by
      intro o h1 h2 h3
      have b3 : o < iMaxx := by show o < 13; omega
      simp only [readAt_ok b3, bind, Except.bind, ← h o (by omega)]
      split
      · exact ⟨_, rfl, rfl, by omega, by omega, by omega⟩
      · exact ⟨_, rfl, rfl, by omega, by omega, by omega⟩
    by_cases c3 : 2 < k
    · simp only [c3, if_true, true_and]
      by_cases c4 : f (k - 2) < (0.7 : S) * f (k - 1)
      · simp only [c4, if_true]; exact key _ (by omega) (by omega) (by omega)
      · simp only [c4, if_false]; exact key _ (by omega) (by omega) (by omega)
    · simp only [c3, if_false, false_and]; exact key _ (by omega) (by omega) (by omega)

theorem nextStep_agree (prevReject : Bool) {k kopt : Nat} (dx : S) {s t : Inner S n} (hk : 1 ≤ k)
    (hk' : k ≤ 12) (h1 : 1 ≤ kopt) (h2 : kopt ≤ 11) (h : Agree (k + 1) s t) :
    ∃ o d, nextStep prevReject k kopt dx s = .ok (o, d) ∧ nextStep prevReject k kopt dx t = .ok (o, d) ∧
      1 ≤ o ∧ o ≤ 11 := by
  have b0 : k < iMaxx := by show k < 13; omega
  have b1 : k - 1 < iMaxx := by show k - 1 < 13; omega
  have bo : kopt < iMaxx := by show kopt < 13; omega
  have bm : min kopt k < iMaxx := by show min kopt k < 13; omega
  unfold nextStep
  cases prevReject with
  | true =>
    simp only [if_true, readAt_ok bm, bind, Except.bind, ← h.dxOpt (min kopt k) (by omega)]
    exact ⟨_, _, rfl, rfl, by omega, by omega⟩
  | false =>
    simp only [Bool.false_eq_true, if_false, readAt_ok b0, readAt_ok b1, readAt_ok bo, bind,
      Except.bind, ← h.kTarg, ← h.dxOpt k (by omega), ← h.temp k (by omega),
      ← h.temp (k - 1) (by omega)]
    by_cases c1 : kopt ≤ k
    · simp only [c1, if_true, ← h.dxOpt kopt (by omega)]
      exact ⟨_, _, rfl, rfl, h1, h2⟩
    · simp only [c1, if_false]
      have bp : kopt + 1 < iMaxx := by show kopt + 1 < 13; omega
      by_cases c2 : k < s.kTarg
      · simp only [c2, if_true, true_and]
        by_cases c3 : s.temp k < (0.9 : S) * s.temp (k - 1)
        · simp only [c3, bp, if_true]; exact ⟨_, _, rfl, rfl, h1, h2⟩
        · simp only [c3, bo, if_true, if_false]; exact ⟨_, _, rfl, rfl, h1, h2⟩
      · simp only [c2, if_false, false_and, bo, if_true]
        exact ⟨_, _, rfl, rfl, h1, h2⟩

theorem initialOrder_range (E : SeulexEnv S n) : 1 ≤ initialOrder E ∧ initialOrder E ≤ 11 := by
  unfold initialOrder
  have : ((kMaxx : Int) - 1) = 11 := rfl
  rw [this]
  dsimp only
  omega

/-- Scratch data that agree on what is used by a step after the first. -/
structure ScratchAgree (a b : Scratch S n) : Prop where
  theta : a.theta = b.theta
  kTarg : a.kTarg = b.kTarg
  dfdy : a.dfdy = b.dfdy

/-- Results of two calls of the stepper that agree in all outputs and leave agreeing scratch data
with a target order in range; or both ran out of attempts. -/
inductive StepSpec {α : Type} :
    Except Fault (Scratch S n × α) → Except Fault (Scratch S n × α) → Prop
  | outOfFuel : StepSpec (.error .outOfFuel) (.error .outOfFuel)
  | ok (a b : Scratch S n) (v : α) (h : ScratchAgree a b) (h1 : 1 ≤ a.kTarg) (h2 : a.kTarg ≤ 11) :
      StepSpec (.ok (a, v)) (.ok (b, v))

/-- The condition on the scratch data of two runs under which their next step agrees: it is the first
step and the Jacobian is evaluated in it, or the data agree and the order is in range. -/
def Ready (E : SeulexEnv S n) (first : Bool) (a b : Scratch S n) : Prop :=
  (first = true ∧ E.jacRedo < ((2 : Nat) : S) * E.jacRedo) ∨
    (ScratchAgree a b ∧ (first = true ∨ (1 ≤ a.kTarg ∧ a.kTarg ≤ 11)))

theorem seulexSolve_agree (E : SeulexEnv S n) (a b : Scratch S n) (x : S) (y : Vec S (n + 1))
    (step : StepState S) (h : Ready E step.first a b) :
    StepSpec (seulexSolve E a x y step) (seulexSolve E b x y step) := by
  have h0 : 0 < iMaxx := by decide
  unfold seulexSolve
  simp only [writeAt_ok h0, bind, Except.bind]
  have hkT : ∀ c : Scratch S n, (step.first = true ∨ (1 ≤ c.kTarg ∧ c.kTarg ≤ 11)) →
      1 ≤ (if step.first then initialOrder E else c.kTarg) ∧
      (if step.first then initialOrder E else c.kTarg) ≤ 11 := by
    intro c hc
    cases hf : step.first with
    | true => simpa using initialOrder_range E
    | false =>
      rcases hc with hc | hc
      · rw [hf] at hc; cases hc
      · simpa using hc
  have hfirst : step.first = true ∨ (1 ≤ a.kTarg ∧ a.kTarg ≤ 11) := by
    rcases h with ⟨hf, _⟩ | ⟨_, hf⟩
    · exact Or.inl hf
    · exact hf
  obtain ⟨hk1, hk2⟩ := hkT a hfirst
  have eT : (if step.first then initialOrder E else a.kTarg)
      = (if step.first then initialOrder E else b.kTarg) := by
    rcases h with ⟨hf, _⟩ | ⟨hs, _⟩
    · simp [hf]
    · rw [hs.kTarg]
  have eTh : (if step.first || step.prevReject then ((2 : Nat) : S) * E.jacRedo else a.theta)
      = (if step.first || step.prevReject then ((2 : Nat) : S) * E.jacRedo else b.theta) := by
    rcases h with ⟨hf, _⟩ | ⟨hs, _⟩
    · simp [hf]
    · rw [hs.theta]
  have eJ : ∀ th : S, th = (if step.first || step.prevReject then ((2 : Nat) : S) * E.jacRedo
      else a.theta) → (if decide (E.jacRedo < th) = true then E.jacobian x y else a.dfdy)
      = (if decide (E.jacRedo < th) = true then E.jacobian x y else b.dfdy) := by
    intro th hth
    rcases h with ⟨hf, hj⟩ | ⟨hs, _⟩
    · rw [hf] at hth
      simp only [Bool.true_or, if_true] at hth
      simp [hth, hj]
    · rw [hs.dfdy]
  rw [← eTh, ← eT, ← eJ _ rfl]
  generalize (if step.first || step.prevReject then ((2 : Nat) : S) * E.jacRedo else a.theta) = th
  generalize hkt : (if step.first then initialOrder E else a.kTarg) = kT at hk1 hk2
  generalize (if decide (E.jacRedo < th) = true then E.jacobian x y else a.dfdy) = J
  have hA := attempts_agree E step.forward step.first step.last x y
    (fun i => E.absTol i + E.relTol i * absS (y i)) E.fuel step.prevReject (decide (E.jacRedo < th)) J
    (absS step.dxTry)
    ⟨y, th, kT, a.table, fun k => if k = 0 then absS ((0.1 : S) * step.dxTry) else a.dxOpt k,
      fun k => if k = 0 then Consts.great else a.temp k, 0⟩
    ⟨y, th, kT, b.table, fun k => if k = 0 then absS ((0.1 : S) * step.dxTry) else b.dxOpt k,
      fun k => if k = 0 then Consts.great else b.temp k, 0⟩
    ⟨rfl, rfl, rfl, rfl, by simp, fun i hi => by simp [show i = 0 by omega],
      fun i hi => by simp [show i = 0 by omega]⟩ hk1 hk2
  generalize attempts E step.forward step.first step.last x y
    (fun i => E.absTol i + E.relTol i * absS (y i)) E.fuel step.prevReject (decide (E.jacRedo < th)) J
    (absS step.dxTry)
    ⟨y, th, kT, a.table, fun k => if k = 0 then absS ((0.1 : S) * step.dxTry) else a.dxOpt k,
      fun k => if k = 0 then Consts.great else a.temp k, 0⟩ = ra at hA
  generalize attempts E step.forward step.first step.last x y
    (fun i => E.absTol i + E.relTol i * absS (y i)) E.fuel step.prevReject (decide (E.jacRedo < th)) J
    (absS step.dxTry)
    ⟨y, th, kT, b.table, fun k => if k = 0 then absS ((0.1 : S) * step.dxTry) else b.dxOpt k,
      fun k => if k = 0 then Consts.great else b.temp k, 0⟩ = rb at hA
  cases hA with
  | outOfFuel => exact .outOfFuel
  | ok k s t dfdy dx pr hs h1 h2 h3 h4 =>
    obtain ⟨o, o1, o2, p1, p2, _⟩ := optimalOrder_agree h3 h2 h4 (fun i hi => hs.temp i (by omega))
    obtain ⟨o', d, q1, q2, r1, r2⟩ := nextStep_agree pr dx h3 (by omega) p1 p2 hs
    simp only [← hs.kTarg, o1, o2, q1, q2, ← hs.y]
    exact .ok _ _ _ ⟨hs.theta, rfl, rfl⟩ r1 r2

theorem ScratchAgree.refl (a : Scratch S n) : ScratchAgree a a := ⟨rfl, rfl, rfl⟩

/-- Results of two runs of the driver. -/
inductive DriverSpec : Except Fault (DriverResult S (n + 1) (Scratch S n)) →
    Except Fault (DriverResult S (n + 1) (Scratch S n)) → Prop
  | error (e : Fault) (h : e = .outOfFuel ∨ e = .fatal) : DriverSpec (.error e) (.error e)
  | ok (a b : Scratch S n) (y : Vec S (n + 1)) (dxTry x : S) (steps : Nat) (h : ScratchAgree a b)
      (h1 : 1 ≤ a.kTarg) (h2 : a.kTarg ≤ 11) :
      DriverSpec (.ok ⟨a, y, dxTry, x, steps⟩) (.ok ⟨b, y, dxTry, x, steps⟩)

theorem driverPrepare_first (xStart xEnd x : S) (step : StepState S) :
    (driverPrepare xStart xEnd x step).first = step.first := by
  unfold driverPrepare
  dsimp only
  split <;> rfl

theorem driverLoop_agree (E : SeulexEnv S n) (xStart xEnd : S) : ∀ (left nStep : Nat)
    (a b : Scratch S n) (x : S) (y : Vec S (n + 1)) (step : StepState S), Ready E step.first a b →
    DriverSpec (driverLoop (seulexSolve E) xStart xEnd left nStep a x y step)
      (driverLoop (seulexSolve E) xStart xEnd left nStep b x y step)
  | 0, _, _, _, _, _, _, _ => .error _ (Or.inr rfl)
  | left + 1, nStep, a, b, x, y, step, h => by
    have hs := seulexSolve_agree E a b x y (driverPrepare xStart xEnd x step)
      (by rw [driverPrepare_first]; exact h)
    unfold driverLoop
    generalize seulexSolve E a x y (driverPrepare xStart xEnd x step) = ra at hs
    generalize seulexSolve E b x y (driverPrepare xStart xEnd x step) = rb at hs
    cases hs with
    | outOfFuel => exact .error _ (Or.inl rfl)
    | ok a' b' v h' h1 h2 =>
      obtain ⟨x', y', step'⟩ := v
      simp only [bind, Except.bind]
      split
      · exact .ok _ _ _ _ _ _ h' h1 h2
      · exact driverLoop_agree E xStart xEnd left (nStep + 1) a' b' x' y' _
          (Or.inr ⟨h', Or.inr ⟨h1, h2⟩⟩)

end DLB
