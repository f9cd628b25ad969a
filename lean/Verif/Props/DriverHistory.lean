import Verif.Props.SeulexIntegration
/-
C42: the history of an integration.  What the driver asks the stepper for, which flags it passes, and
what it suggests for the next time step.
-/
set_option autoImplicit false
set_option linter.unusedSectionVars false

namespace DLB

/-! ### Specification -/

/-- The history of an integration from `xStart` to `xEnd` that started with the suggestion `dxTry`
and returned `r`: the work data `s k`, the position `ξ k`, the state `η k` and the suggested step
`σ k` before step `k`. -/
structure History {K : Type} [Field K] [LinearOrder K] {N : Nat} {Scr : Type}
    (stepper : Stepper K N Scr) (scr : Scr) (xStart xEnd : K) (y : Vec K N) (dxTry : K)
    (r : DriverResult K N Scr) (s : Nat → Scr) (ξ : Nat → K) (η : Nat → Vec K N) (σ : Nat → K) :
    Prop where
  start : s 0 = scr ∧ ξ 0 = xStart ∧ η 0 = y ∧ σ 0 = dxTry
  finish : s r.steps = r.scratch ∧ ξ r.steps = r.x ∧ η r.steps = r.y
  steps : 1 ≤ r.steps
  /-- the end is not reached before the last step, and reached by it -/
  inside : (∀ k < r.steps, xStart ≤ ξ k ∧ ξ k < xEnd) ∧ xEnd ≤ r.x
  /-- the stepper is called with the suggested step, or with what is left of the interval; it is told
  whether it is the first step and whether a step has been truncated -/
  call : ∀ k < r.steps, ∃ st st', stepper (s k) (ξ k) (η k) st =
      .ok (s (k + 1), ξ (k + 1), η (k + 1), st') ∧
    st.dxTry = min (σ k) (xEnd - ξ k) ∧ st'.dxTry = σ (k + 1) ∧ st.reject = false ∧
    (st.first = true ↔ k = 0) ∧ (st.last = true ↔ ∃ j ≤ k, xEnd < ξ j + σ j)
  /-- the returned suggestion is the last one of the stepper, unless a step has been truncated and it
  was not the only step: then it is the one before -/
  suggestion : (r.steps = 1 ∨ (∀ j < r.steps, ξ j + σ j ≤ xEnd) → r.dxTry = σ r.steps) ∧
    (1 < r.steps → (∃ j < r.steps, xEnd < ξ j + σ j) → r.dxTry = σ (r.steps - 1))

section
variable {K : Type} [Field K] [LinearOrder K] [IsStrictOrderedRing K] {N : Nat} {Scr : Type}

/-- `a` followed by `f`. -/
def prepend {α : Type} (a : α) (f : Nat → α) : Nat → α
  | 0 => a
  | k + 1 => f k

theorem driverLoop_history {stepper : Stepper K N Scr} {xStart xEnd : K} (hlt : xStart < xEnd)
    (I : Scr → K → Vec K N → StepState K → Prop)
    (hpos : ∀ scr x y step, I scr x y step → 0 < step.dxTry)
    (hstep : ∀ scr x y step scr' x' y' step', I scr x y step → xStart ≤ x → x < xEnd →
      stepper scr x y (driverPrepare xStart xEnd x step) = .ok (scr', x', y', step') →
      x < x' ∧ step'.last = (driverPrepare xStart xEnd x step).last ∧ I scr' x' y' { step' with
          first := false
          prevReject := if step'.reject then true else step'.prevReject }) :
    ∀ (left nStep : Nat) (scr : Scr) (x : K) (y : Vec K N) (step : StepState K)
      (r : DriverResult K N Scr), I scr x y step → xStart ≤ x → x < xEnd →
      driverLoop stepper xStart xEnd left nStep scr x y step = .ok r →
      ∃ (n : Nat) (s : Nat → Scr) (ξ : Nat → K) (η : Nat → Vec K N) (σ : Nat → K),
        1 ≤ n ∧ r.steps = nStep + n ∧
        (s 0 = scr ∧ ξ 0 = x ∧ η 0 = y ∧ σ 0 = step.dxTry) ∧
        (s n = r.scratch ∧ ξ n = r.x ∧ η n = r.y) ∧
        ((∀ k < n, xStart ≤ ξ k ∧ ξ k < xEnd) ∧ xEnd ≤ r.x) ∧
        (∀ k < n, ∃ st st', stepper (s k) (ξ k) (η k) st =
            .ok (s (k + 1), ξ (k + 1), η (k + 1), st') ∧
          st.dxTry = min (σ k) (xEnd - ξ k) ∧ st'.dxTry = σ (k + 1) ∧ st.reject = false ∧
          (st.first = true ↔ k = 0 ∧ step.first = true) ∧
          (st.last = true ↔ step.last = true ∨ ∃ j ≤ k, xEnd < ξ j + σ j)) ∧
        ((nStep + n = 1 ∨ (step.last = false ∧ ∀ j < n, ξ j + σ j ≤ xEnd) → r.dxTry = σ n) ∧
          (1 < nStep + n → (step.last = true ∨ ∃ j < n, xEnd < ξ j + σ j) →
            r.dxTry = σ (n - 1))) := by
  intro left
  induction left with
  | zero => intro nStep scr x y step r _ _ _ h; simp [driverLoop] at h
  | succ left ih =>
    intro nStep scr x y step r hI hx hx' h
    simp only [driverLoop, bind, Except.bind] at h
    obtain ⟨pA, pB, -, -⟩ := driverPrepare_spec hx hx' step (hpos _ _ _ _ hI)
    have hdx : (driverPrepare xStart xEnd x step).dxTry = min step.dxTry (xEnd - x) := by
      rcases lt_or_ge xEnd (x + step.dxTry) with hc | hc
      · rw [pA hc, min_eq_right (by linarith)]
      · rw [pB hc, min_eq_left (by linarith)]
    have hlast : (driverPrepare xStart xEnd x step).last = true ↔
        step.last = true ∨ xEnd < x + step.dxTry := by
      rcases lt_or_ge xEnd (x + step.dxTry) with hc | hc
      · rw [pA hc]; simp [hc]
      · rw [pB hc]; simp [not_lt.2 hc]
    have hfirst : (driverPrepare xStart xEnd x step).first = step.first := by
      unfold driverPrepare; dsimp only; split <;> rfl
    have hrej : (driverPrepare xStart xEnd x step).reject = false := by
      unfold driverPrepare; dsimp only; split <;> rfl
    cases hst : stepper scr x y (driverPrepare xStart xEnd x step) with
    | error e => simp [hst] at h
    | ok v =>
      obtain ⟨scr', x', y', st'⟩ := v
      obtain ⟨a1, a2, a3⟩ := hstep _ _ _ _ _ _ _ _ hI hx hx' hst
      simp only [hst] at h
      split at h
      · rename_i hend
        cases h
        refine ⟨1, prepend scr fun _ => scr', prepend x fun _ => x', prepend y fun _ => y',
          prepend step.dxTry fun _ => st'.dxTry, le_rfl, rfl, ⟨rfl, rfl, rfl, rfl⟩,
          ⟨rfl, rfl, rfl⟩, ⟨?_, ?_⟩, ?_, ?_, ?_⟩
        · intro k hk
          obtain rfl : k = 0 := by omega
          exact ⟨hx, hx'⟩
        · by_contra hc
          rw [not_le] at hc
          have : (x' - xEnd) * (xEnd - xStart) < 0 :=
            mul_neg_of_neg_of_pos (by linarith) (by linarith)
          linarith
        · intro k hk
          obtain rfl : k = 0 := by omega
          refine ⟨_, st', hst, hdx, rfl, hrej, by simp [hfirst], ?_⟩
          rw [hlast]
          simp [prepend]
        · intro hc
          dsimp only [prepend]
          rw [if_neg]
          rintro ⟨h0, hl⟩
          rcases hc with hc | ⟨hc1, hc2⟩
          · omega
          · rw [a2, hlast, hc1] at hl
            have := hc2 0 (by omega)
            simp only [prepend] at this
            rcases hl with hl | hl
            · cases hl
            · linarith
        · intro hn hc
          refine if_pos ⟨by omega, ?_⟩
          rw [a2, hlast]
          rcases hc with hc | ⟨j, hj, hc⟩
          · exact Or.inl hc
          · obtain rfl : j = 0 := by omega
            exact Or.inr hc
      · rename_i hend
        have hlt' : x' < xEnd := by
          by_contra hc
          rw [not_lt] at hc
          exact hend (mul_nonneg (by linarith) (by linarith))
        obtain ⟨n, s, ξ, η, σ, b1, b2, ⟨c1, c2, c3, c4⟩, b4, ⟨b5, b6⟩, b7, b8, b9⟩ :=
          ih _ _ _ _ _ _ a3 (by linarith) hlt' h
        dsimp only at c4 b7 b8 b9
        have ex : ∀ m, (∃ j < m + 1, xEnd < prepend x ξ j + prepend step.dxTry σ j) ↔
            xEnd < x + step.dxTry ∨ ∃ j < m, xEnd < ξ j + σ j := by
          intro m
          constructor
          · rintro ⟨j, hj, hc⟩
            cases j with
            | zero => exact Or.inl hc
            | succ j => exact Or.inr ⟨j, by omega, hc⟩
          · rintro (hc | ⟨j, hj, hc⟩)
            · exact ⟨0, by omega, hc⟩
            · exact ⟨j + 1, by omega, hc⟩
        refine ⟨n + 1, prepend scr s, prepend x ξ, prepend y η, prepend step.dxTry σ, by omega,
          by omega, ⟨rfl, rfl, rfl, rfl⟩, b4, ⟨?_, b6⟩, ?_, ?_, ?_⟩
        · intro k hk
          cases k with
          | zero => exact ⟨hx, hx'⟩
          | succ k => exact b5 k (by omega)
        · intro k hk
          cases k with
          | zero =>
            refine ⟨_, st', ?_, hdx, c4.symm, hrej, by simp [hfirst], ?_⟩
            · simp only [prepend]
              rw [c1, c2, c3]; exact hst
            · rw [hlast]; simp [prepend]
          | succ k =>
            obtain ⟨st, st'', d1, d2, d3, d4, d5, d6⟩ := b7 k (by omega)
            refine ⟨st, st'', d1, d2, d3, d4, by rw [d5]; simp, ?_⟩
            rw [d6, a2, hlast]
            have := ex (k + 1)
            simp only [Nat.lt_succ_iff] at this
            rw [show (∃ j ≤ k + 1, xEnd < prepend x ξ j + prepend step.dxTry σ j) ↔ _ from this,
              or_assoc]
        · intro hc
          refine b8 (Or.inr ?_)
          rcases hc with hc | ⟨hc1, hc2⟩
          · omega
          · refine ⟨?_, fun j hj => hc2 (j + 1) (by omega)⟩
            rw [a2, Bool.eq_false_iff, Ne, hlast, hc1]
            have := hc2 0 (by omega)
            simp only [prepend] at this
            simpa using this
        · intro hn hc
          have := b9 (by omega) (by
            rw [a2, hlast, or_assoc, ← ex n]
            exact hc)
          rw [this]
          obtain ⟨m, rfl⟩ : ∃ m, n = m + 1 := ⟨n - 1, by omega⟩
          rfl

/-! ### C42 -/

/-- **C42, for every history of steps.** For every stepper that advances by a positive amount not more
than requested and keeps the flag `last`: an integration that returns has a history as in `History`.
In particular the suggestion returned is the last one of the stepper, or, if a step was truncated and
it was not the only step, the one before. -/
theorem C42_history (stepper : Stepper K N Scr) (hs : Advances stepper)
    (hlast : ∀ scr x y st scr' x' y' st', stepper scr x y st = .ok (scr', x', y', st') →
      st'.last = st.last)
    (maxSteps : Nat) (scr : Scr) (xStart xEnd : K) (hlt : xStart < xEnd) (y : Vec K N) (dxTry : K)
    (hpos : 0 < dxTry) (r : DriverResult K N Scr)
    (h : driverSolve stepper maxSteps scr xStart xEnd y dxTry = .ok r) :
    ∃ s ξ η σ, History stepper scr xStart xEnd y dxTry r s ξ η σ := by
  obtain ⟨n, s, ξ, η, σ, b1, b2, b3, b4, b5, b6, b7, b8⟩ := driverLoop_history hlt
    (fun _ _ _ step => 0 < step.dxTry) (fun _ _ _ _ h => h) (by
      intro scr x y step scr' x' y' step' hI hx hx' hst
      obtain ⟨-, -, p1, -⟩ := driverPrepare_spec hx hx' step hI
      obtain ⟨a1, -, a3⟩ := hs _ _ _ _ _ _ _ _ hst p1
      exact ⟨a1, hlast _ _ _ _ _ _ _ _ hst, a3⟩) maxSteps 0 scr xStart y _ r hpos le_rfl hlt h
  obtain rfl : r.steps = n := by omega
  simp only [StepState.init, Nat.zero_add, and_true, Bool.false_eq_true, false_or, true_and]
    at b3 b6 b7 b8
  exact ⟨s, ξ, η, σ, b3, b4, b1, b5, b6, b7, b8⟩

end

section
variable {K : Type} [Field K] [LinearOrder K] [IsStrictOrderedRing K] {n : Nat} [MathOps K]

/-- **C42, for the extrapolation method.** In exact arithmetic, over a positive interval with a
positive initial step, an integration that returns has a history as in `History`. -/
theorem C42_history_of_integration (hm : PowLaws K) (E : SeulexEnv K n)
    (hj : E.jacRedo < 2 * E.jacRedo) (maxSteps : Nat) (scr : Scratch K n)
    (xStart xEnd : K) (hlt : xStart < xEnd) (y : Vec K (n + 1)) (dxTry : K) (hpos : 0 < dxTry)
    (r : DriverResult K (n + 1) (Scratch K n))
    (h : driverSolve (seulexSolve E) maxSteps scr xStart xEnd y dxTry = .ok r) :
    ∃ s ξ η σ, History (seulexSolve E) scr xStart xEnd y dxTry r s ξ η σ := by
  have hj' : E.jacRedo < ((2 : Nat) : K) * E.jacRedo := by exact_mod_cast hj
  obtain ⟨n, s, ξ, η, σ, b1, b2, b3, b4, b5, b6, b7, b8⟩ := driverLoop_history hlt
    (fun scr _ _ step => Running E scr step) (fun _ _ _ _ h => h.dxTry) (by
      intro scr x y step scr' x' y' step' hI hx hx' hst
      obtain ⟨a1, -, a3⟩ := running_step hm hj' hI hx hx' hst
      obtain ⟨_, _, _, _, -, -, -, -, -, -, -, rfl⟩ := seulexSolve_inv hst
      exact ⟨a1, rfl, a3⟩) maxSteps 0 scr xStart y _ r (running_start E scr hpos) le_rfl hlt h
  obtain rfl : r.steps = n := by omega
  simp only [StepState.init, Nat.zero_add, and_true, Bool.false_eq_true, false_or, true_and]
    at b3 b6 b7 b8
  exact ⟨s, ξ, η, σ, b3, b4, b1, b5, b6, b7, b8⟩

end

/-- A case of `C42_history`: the three steps of `Example.shortSteps`, the last one truncated. -/
example : ∃ r, driverSolve Example.shortSteps 10 () 0 1 (fun _ => 5) (3 / 10) = .ok r ∧ r.steps = 3 ∧
    ∃ s ξ η σ, History Example.shortSteps () 0 1 (fun _ => 5) (3 / 10) r s ξ η σ := by
  have hr : ((driverSolve Example.shortSteps 10 () 0 1 (fun _ => 5) (3 / 10)).toOption.map
      (fun r => r.steps)) = some 3 := by decide +kernel
  cases h : driverSolve Example.shortSteps 10 () 0 1 (fun _ => 5) (3 / 10) with
  | error e => rw [h] at hr; simp [Except.toOption] at hr
  | ok r =>
    rw [h] at hr
    refine ⟨r, rfl, by simpa [Except.toOption] using hr, C42_history _ Example.shortSteps_advances ?_
      10 () 0 1 (by norm_num) _ _ (by norm_num) r h⟩
    intro scr x y st scr' x' y' st' h
    simp only [Example.shortSteps, Except.ok.injEq, Prod.mk.injEq] at h
    obtain ⟨-, -, -, rfl⟩ := h
    rfl

/-- A case of `C42_history_of_integration`: the relaxing temperature, in two steps. -/
example (r : DriverResult ℚ 1 (Scratch ℚ 0)) (h : letI := ratMath
      driverSolve (seulexSolve relaxation) 5 (leftover 7) 0 (1 / 5) (fun _ => 1000) (1 / 10) = .ok r) :
    letI := ratMath
    ∃ s ξ η σ, History (seulexSolve relaxation) (leftover 7) 0 (1 / 5) (fun _ => 1000) (1 / 10) r
      s ξ η σ := by
  let := ratMath
  exact C42_history_of_integration ratMath_powLaws relaxation (by decide +kernel) 5 (leftover 7) 0
    (1 / 5) (by norm_num) _ _ (by norm_num) r h

end DLB
