import Verif.Model.OdeSolver
import Verif.Model.Exact
import Mathlib.Algebra.Order.Field.Basic
import Mathlib.Data.Fintype.Basic
import Mathlib.Data.Fin.VecNotation
import Mathlib.Tactic.Ring
import Mathlib.Tactic.Linarith
/-
C41-C44: the driver loop of the ODE solver, its error norm, and its sizes.
-/
set_option autoImplicit false
set_option linter.unusedSectionVars false

namespace DLB

variable {K : Type} [Field K] [LinearOrder K] [IsStrictOrderedRing K] {N : Nat} {Scr : Type}

/-! ### Driver -/

/-- A stepper that, asked for a positive step, advances by a positive amount that is at most the
step asked for, and suggests a positive next step. -/
def Advances (stepper : Stepper K N Scr) : Prop :=
  ∀ scr x y st scr' x' y' st', stepper scr x y st = .ok (scr', x', y', st') → 0 < st.dxTry →
    x < x' ∧ x' ≤ x + st.dxTry ∧ 0 < st'.dxTry

theorem driverPrepare_spec {xStart xEnd x : K} (hx : xStart ≤ x) (hx' : x < xEnd)
    (step : StepState K) (hpos : 0 < step.dxTry) :
    (xEnd < x + step.dxTry → driverPrepare xStart xEnd x step =
      { step with reject := false, last := true, dxTry := xEnd - x }) ∧
    (x + step.dxTry ≤ xEnd → driverPrepare xStart xEnd x step = { step with reject := false }) ∧
    0 < (driverPrepare xStart xEnd x step).dxTry ∧
    x + (driverPrepare xStart xEnd x step).dxTry ≤ xEnd := by
  have h2 : 0 < x + step.dxTry - xStart := by linarith
  have hA : xEnd < x + step.dxTry → driverPrepare xStart xEnd x step =
      { step with reject := false, last := true, dxTry := xEnd - x } := by
    intro h
    have : 0 < (x + step.dxTry - xEnd) * (x + step.dxTry - xStart) :=
      mul_pos (by linarith) h2
    simp only [driverPrepare, this, if_true]
  have hB : x + step.dxTry ≤ xEnd → driverPrepare xStart xEnd x step =
      { step with reject := false } := by
    intro h
    have : ¬ 0 < (x + step.dxTry - xEnd) * (x + step.dxTry - xStart) := by
      rw [not_lt]
      exact mul_nonpos_of_nonpos_of_nonneg (by linarith) h2.le
    simp only [driverPrepare, this, if_false]
  refine ⟨hA, hB, ?_⟩
  rcases lt_or_ge xEnd (x + step.dxTry) with h | h
  · rw [hA h]
    exact ⟨by simpa using hx', by simp⟩
  · rw [hB h]
    exact ⟨hpos, h⟩

theorem driverLoop_end {stepper : Stepper K N Scr} (hs : Advances stepper) {xStart xEnd : K}
    (hlt : xStart < xEnd) : ∀ (left nStep : Nat) (scr : Scr) (x : K) (y : Vec K N)
    (step : StepState K) (r : DriverResult K N Scr), xStart ≤ x → x < xEnd → 0 < step.dxTry →
    driverLoop stepper xStart xEnd left nStep scr x y step = .ok r →
    r.x = xEnd ∧ nStep + 1 ≤ r.steps ∧ r.steps ≤ nStep + left
  | 0, nStep, scr, x, y, step, r, _, _, _, h => by simp [driverLoop] at h
  | left + 1, nStep, scr, x, y, step, r, hx, hx', hpos, h => by
    simp only [driverLoop, bind, Except.bind] at h
    obtain ⟨-, -, hp1, hp2⟩ := driverPrepare_spec hx hx' step hpos
    cases hst : stepper scr x y (driverPrepare xStart xEnd x step) with
    | error e => simp [hst] at h
    | ok v =>
      obtain ⟨scr', x', y', st'⟩ := v
      obtain ⟨a1, a2, a3⟩ := hs _ _ _ _ _ _ _ _ hst hp1
      simp only [hst] at h
      split at h
      · next hend =>
        simp only [Except.ok.injEq] at h
        subst h
        have : xEnd ≤ x' := by
          by_contra hc
          rw [not_le] at hc
          have : (x' - xEnd) * (xEnd - xStart) < 0 :=
            mul_neg_of_neg_of_pos (by linarith) (by linarith)
          linarith
        exact ⟨le_antisymm (by linarith) this, le_refl _, by simp only; omega⟩
      · next hend =>
        have hlt' : x' < xEnd := by
          by_contra hc
          rw [not_lt] at hc
          exact hend (mul_nonneg (by linarith) (by linarith))
        obtain ⟨b1, b2, b3⟩ := driverLoop_end hs hlt left (nStep + 1) scr' x' y'
          { st' with
            first := false
            prevReject := if st'.reject then true else st'.prevReject } r
          (by linarith) hlt' a3 h
        exact ⟨b1, by omega, by omega⟩

/-- C41.  With a positive interval and a positive initial step, for every number of equations,
right-hand side and stepper that advances by a positive amount not more than requested: if the
driver returns, then with the independent variable exactly at the end of the interval and after at
least one and at most `maxSteps` steps. -/
theorem C41_ends_exactly_at_the_end (stepper : Stepper K N Scr) (hs : Advances stepper)
    (maxSteps : Nat) (scr : Scr) (xStart xEnd : K) (hlt : xStart < xEnd) (y : Vec K N) (dxTry : K)
    (hpos : 0 < dxTry) (r : DriverResult K N Scr)
    (h : driverSolve stepper maxSteps scr xStart xEnd y dxTry = .ok r) :
    r.x = xEnd ∧ 1 ≤ r.steps ∧ r.steps ≤ maxSteps := by
  have := driverLoop_end hs hlt maxSteps 0 scr xStart y (StepState.init dxTry) r le_rfl hlt hpos h
  simpa using this

theorem driverLoop_error {stepper : Stepper K N Scr} {xStart xEnd : K} :
    ∀ (left nStep : Nat) (scr : Scr) (x : K) (y : Vec K N) (step : StepState K) (e : Fault),
    driverLoop stepper xStart xEnd left nStep scr x y step = .error e →
    e = .fatal ∨ ∃ scr x y st, stepper scr x y st = .error e
  | 0, _, _, _, _, _, e, h => by
    simp only [driverLoop, Except.error.injEq] at h
    exact .inl h.symm
  | left + 1, nStep, scr, x, y, step, e, h => by
    simp only [driverLoop, bind, Except.bind] at h
    cases hst : stepper scr x y (driverPrepare xStart xEnd x step) with
    | error e' =>
      simp only [hst, Except.error.injEq] at h
      subst h; exact .inr ⟨_, _, _, _, hst⟩
    | ok v =>
      simp only [hst] at h
      split at h
      · simp at h
      · exact driverLoop_error left _ _ _ _ _ e h

/-- C41, failure: if the driver does not return, it raised a fatal error, or a call of the stepper
failed. -/
theorem C41_otherwise_fatal (stepper : Stepper K N Scr) (maxSteps : Nat) (scr : Scr)
    (xStart xEnd : K) (y : Vec K N) (dxTry : K) (e : Fault)
    (h : driverSolve stepper maxSteps scr xStart xEnd y dxTry = .error e) :
    e = .fatal ∨ ∃ scr x y st, stepper scr x y st = .error e :=
  driverLoop_error _ _ _ _ _ _ _ h

theorem driverLoop_progress {stepper : Stepper K N Scr} (hs : Advances stepper) {xStart xEnd h : K}
    (hlt : xStart < xEnd) (hh : 0 < h)
    (hok : ∀ scr x y st, 0 < st.dxTry → ∃ scr' x' y' st', stepper scr x y st =
      .ok (scr', x', y', st') ∧ (h ≤ x' - x ∨ x' = x + st.dxTry) ∧ h ≤ st'.dxTry) :
    ∀ (left nStep : Nat) (scr : Scr) (x : K) (y : Vec K N) (step : StepState K),
    xStart ≤ x → x < xEnd → h ≤ step.dxTry → xEnd - x < left * h →
    ∃ r, driverLoop stepper xStart xEnd left nStep scr x y step = .ok r
  | 0, nStep, scr, x, y, step, _, hx', _, hl => by
    simp at hl; linarith
  | left + 1, nStep, scr, x, y, step, hx, hx', hpos, hl => by
    obtain ⟨hA, hB, hp1, hp2⟩ := driverPrepare_spec hx hx' step (lt_of_lt_of_le hh hpos)
    obtain ⟨scr', x', y', st', hst, hadv, hnext⟩ := hok scr x y _ hp1
    obtain ⟨a1, a2, a3⟩ := hs _ _ _ _ _ _ _ _ hst hp1
    simp only [driverLoop, bind, Except.bind, hst]
    split
    · exact ⟨_, rfl⟩
    · next hend =>
      have hlt' : x' < xEnd := by
        by_contra hc
        rw [not_lt] at hc
        exact hend (mul_nonneg (by linarith) (by linarith))
      apply driverLoop_progress hs hlt hh hok left _ _ _ _ _ (by linarith) hlt'
      · exact hnext
      · have : h ≤ x' - x := by
          rcases hadv with h1 | h1
          · exact h1
          · rcases lt_or_ge xEnd (x + step.dxTry) with h2 | h2
            · exfalso
              rw [hA h2] at h1
              simp at h1
              linarith
            · rw [hB h2] at h1
              simp only at h1
              linarith
        have e : ((left + 1 : ℕ) : K) * h = left * h + h := by push_cast; ring
        rw [e] at hl
        linarith

/-- C41, success: if every call of the stepper succeeds and advances by at least `h > 0` (or by all
that was asked for), suggesting at least `h` again, and `maxSteps * h` exceeds the interval, then
the driver returns. -/
theorem C41_returns_with_progress (stepper : Stepper K N Scr) (hs : Advances stepper)
    (maxSteps : Nat) (scr : Scr) (xStart xEnd h : K) (hlt : xStart < xEnd) (hh : 0 < h)
    (hok : ∀ scr x y st, 0 < st.dxTry → ∃ scr' x' y' st', stepper scr x y st =
      .ok (scr', x', y', st') ∧ (h ≤ x' - x ∨ x' = x + st.dxTry) ∧ h ≤ st'.dxTry)
    (y : Vec K N) (dxTry : K) (hdx : h ≤ dxTry) (hmax : xEnd - xStart < maxSteps * h) :
    ∃ r, driverSolve stepper maxSteps scr xStart xEnd y dxTry = .ok r :=
  driverLoop_progress hs hlt hh hok maxSteps 0 scr xStart y _ le_rfl hlt hdx hmax

/-- C42.  In a step that is not the first one, if the step suggested before, `step.dxTry`, would
pass the end, and the stepper then reaches the end, the driver returns the suggestion from before
the truncation. -/
theorem C42_untruncated_suggestion (stepper : Stepper K N Scr) (left nStep : Nat)
    (hn : 0 < nStep) (scr scr' : Scr) (xStart xEnd x : K) (y y' : Vec K N) (step st' : StepState K)
    (hx : xStart ≤ x) (hx' : x < xEnd) (hpass : xEnd < x + step.dxTry)
    (hst : stepper scr x y { step with reject := false, last := true, dxTry := xEnd - x } =
      .ok (scr', xEnd, y', st')) (hlast : st'.last = true) :
    driverLoop stepper xStart xEnd (left + 1) nStep scr x y step =
      .ok ⟨scr', y', step.dxTry, xEnd, nStep + 1⟩ := by
  have hpos : 0 < step.dxTry := by linarith
  obtain ⟨hA, -, -, -⟩ := driverPrepare_spec hx hx' step hpos
  simp only [driverLoop, bind, Except.bind, hA hpass, hst, sub_self, zero_mul, le_refl, if_true,
    hn, hlast, and_self]

/-- C42, a single step: if the first step reaches the end, the driver returns what the stepper
suggests. -/
theorem C42_single_step (stepper : Stepper K N Scr) (maxSteps : Nat) (hmax : 0 < maxSteps)
    (scr scr' : Scr) (xStart xEnd dxTry : K) (y y' : Vec K N) (st' : StepState K)
    (hst : stepper scr xStart y (driverPrepare xStart xEnd xStart (StepState.init dxTry)) =
      .ok (scr', xEnd, y', st')) :
    driverSolve stepper maxSteps scr xStart xEnd y dxTry = .ok ⟨scr', y', st'.dxTry, xEnd, 1⟩ := by
  obtain ⟨m, rfl⟩ : ∃ m, maxSteps = m + 1 := ⟨maxSteps - 1, by omega⟩
  simp only [driverSolve, driverLoop, bind, Except.bind, hst, sub_self, zero_mul, le_refl, if_true]
  simp

/-! ### Error norm -/

theorem foamMax_eq_max (a b : K) : foamMax a b = max a b := by
  unfold foamMax
  split
  · next h => rw [max_eq_left h.le]
  · next h => rw [max_eq_right (not_lt.1 h)]

theorem absS_eq_abs' (x : K) : absS x = |x| := by
  unfold absS
  split
  · next h => rw [abs_of_neg h]
  · next h => rw [abs_of_nonneg (not_lt.1 h)]

/-- The tolerance of component `i`. -/
def tolerance (absTol relTol y0 y : Vec K N) (i : Fin N) : K :=
  absTol i + relTol i * max |y0 i| |y i|

theorem normalizeError_le_iff (absTol relTol y0 y err : Vec K N) (e : K) :
    normalizeError absTol relTol y0 y err ≤ e ↔
      0 ≤ e ∧ ∀ i, |err i| / tolerance absTol relTol y0 y i ≤ e := by
  have key : ∀ (l : List (Fin N)) (acc : K),
      l.foldl (fun maxErr i =>
        let tol := absTol i + relTol i * foamMax (absS (y0 i)) (absS (y i))
        foamMax maxErr (absS (err i) / tol)) acc ≤ e ↔
      acc ≤ e ∧ ∀ i ∈ l, |err i| / tolerance absTol relTol y0 y i ≤ e := by
    intro l
    induction l with
    | nil => intro acc; simp
    | cons i l ih =>
      intro acc
      rw [List.foldl_cons, ih]
      simp only [List.mem_cons, forall_eq_or_imp, foamMax_eq_max, absS_eq_abs', max_le_iff,
        tolerance, and_assoc]
  unfold normalizeError
  rw [key]
  simp

/-- C43.  With positive tolerances `normalizeError` is the maximum over the components of
`|err_i| / (absTol_i + relTol_i max(|y0_i|, |y_i|))`: it is non-negative, at most `e ≥ 0` exactly if
no component exceeds `e` times its tolerance, below one exactly if every component is within its
tolerance, and zero exactly if the error is zero. -/
theorem C43_scaled_maximum_norm (absTol relTol y0 y err : Vec K N)
    (htol : ∀ i, 0 < tolerance absTol relTol y0 y i) :
    0 ≤ normalizeError absTol relTol y0 y err ∧
    (∀ e, 0 ≤ e → (normalizeError absTol relTol y0 y err ≤ e ↔
      ∀ i, |err i| ≤ e * tolerance absTol relTol y0 y i)) ∧
    (normalizeError absTol relTol y0 y err < 1 ↔
      ∀ i, |err i| < tolerance absTol relTol y0 y i) ∧
    (normalizeError absTol relTol y0 y err = 0 ↔ ∀ i, err i = 0) := by
  have hle := normalizeError_le_iff absTol relTol y0 y err
  have h0 : 0 ≤ normalizeError absTol relTol y0 y err := ((hle _).1 le_rfl).1
  have hE : ∀ e, 0 ≤ e → (normalizeError absTol relTol y0 y err ≤ e ↔
      ∀ i, |err i| ≤ e * tolerance absTol relTol y0 y i) := by
    intro e he
    rw [hle]
    simp only [he, true_and, div_le_iff₀ (htol _)]
  refine ⟨h0, hE, ?_, ?_⟩
  · constructor
    · intro h i
      have h1 := ((hle _).1 le_rfl).2 i
      have := lt_of_le_of_lt h1 h
      rwa [div_lt_one (htol i)] at this
    · intro h
      by_contra hc
      rw [not_lt] at hc
      -- the maximum of the finitely many quotients (or 0) is below one
      have : ∃ e, 0 ≤ e ∧ e < 1 ∧ ∀ i, |err i| / tolerance absTol relTol y0 y i ≤ e := by
        have aux : ∀ l : List (Fin N), ∃ e : K, 0 ≤ e ∧ e < 1 ∧
            ∀ i ∈ l, |err i| / tolerance absTol relTol y0 y i ≤ e := by
          intro l
          induction l with
          | nil => exact ⟨0, le_rfl, one_pos, by simp⟩
          | cons i l ih =>
            obtain ⟨e, he0, he1, he⟩ := ih
            refine ⟨max e (|err i| / tolerance absTol relTol y0 y i), le_max_of_le_left he0,
              max_lt he1 ?_, ?_⟩
            · rw [div_lt_one (htol i)]; exact h i
            · intro j hj
              rcases List.mem_cons.1 hj with rfl | hj
              · exact le_max_right _ _
              · exact le_max_of_le_left (he j hj)
        obtain ⟨e, he0, he1, he⟩ := aux (List.finRange N)
        exact ⟨e, he0, he1, fun i => he i (List.mem_finRange i)⟩
      obtain ⟨e, he0, he1, he⟩ := this
      have := (hle e).2 ⟨he0, he⟩
      linarith
  · constructor
    · intro h i
      have h1 := (hE 0 le_rfl).1 h.le i
      rw [zero_mul] at h1
      exact abs_nonpos_iff.1 h1
    · intro h
      refine le_antisymm ((hE 0 le_rfl).2 fun i => ?_) h0
      simp [h i]

/-! ### Sizes -/

/-- All work fields of the solver have `n` entries and storage for `maxN`. -/
def SolverSizes.Uniform (s : SolverSizes) : Prop :=
  s.n ≤ s.maxN ∧ ∀ f ∈ [s.absTol, s.relTol, s.table, s.dfdx, s.dfdy, s.a, s.pivotIndices, s.y0,
    s.ySequence, s.scale, s.dy, s.yTemp, s.dydx], f.size = s.n ∧ f.capacity = s.maxN

/-- A sequence of calls of `resize`. -/
def resizeAll : List Nat → SolverSizes → Except Fault SolverSizes
  | [], s => .ok s
  | n :: ns, s => do
    let (_, s) ← s.resize n
    resizeAll ns s

theorem resize_uniform {s : SolverSizes} (hs : s.Uniform) (n : Nat) :
    (n ≤ s.maxN → ∃ s', s.resize n = .ok (decide (n ≠ s.n), s') ∧ s'.Uniform ∧ s'.n = n ∧
      s'.maxN = s.maxN) ∧
    (s.maxN < n → s.resize n = .error .fatal) := by
  obtain ⟨hn, hf⟩ := hs
  simp only [List.mem_cons, List.not_mem_nil, or_false, forall_eq_or_imp, forall_eq] at hf
  constructor
  · intro hle
    by_cases hne : n = s.n
    · refine ⟨s, ?_, ⟨hn, ?_⟩, hne.symm, rfl⟩
      · simp [SolverSizes.resize, SolverSizes.resizeBase, hne, bind, Except.bind]
      · simpa only [List.mem_cons, List.not_mem_nil, or_false, forall_eq_or_imp, forall_eq] using hf
    · have hlt : ¬ s.maxN < n := by omega
      simp only [SolverSizes.resize, SolverSizes.resizeBase, hne, hlt, bind,
        Except.bind, ne_eq, not_false_eq_true, if_true, if_false, decide_true]
      refine ⟨_, rfl, ⟨hle, ?_⟩, rfl, rfl⟩
      simp only [List.mem_cons, List.not_mem_nil, or_false, forall_eq_or_imp, forall_eq, resizeField]
      obtain ⟨h1, h2, h3, h4, h5, h6, h7, h8, h9, h10, h11, h12, h13⟩ := hf
      simp only [true_and]
      exact ⟨h1.2, h2.2, h3.2, h4.2, h5.2, h6.2, h7.2, h8.2, h9.2, h10.2, h11.2, h12.2, h13.2⟩
  · intro hlt
    have hne : n ≠ s.n := by omega
    simp [SolverSizes.resize, SolverSizes.resizeBase, hne, hlt, bind, Except.bind]

/-- C44.  After construction for `maxN` equations and any sequence of calls of `resize`: if all
requested numbers are at most `maxN`, all calls succeed and every work field and matrix has exactly
the number of entries requested last, inside its storage; if one of them is greater, there is a
fatal error. -/
theorem C44_sizes (maxN : Nat) (ns : List Nat) :
    ((∀ n ∈ ns, n ≤ maxN) → ∃ s, resizeAll ns (SolverSizes.construct maxN) = .ok s ∧
      s.Uniform ∧ s.maxN = maxN ∧ s.n = (maxN :: ns).getLast (List.cons_ne_nil _ _)) ∧
    ((∃ n ∈ ns, maxN < n) → resizeAll ns (SolverSizes.construct maxN) = .error .fatal) := by
  have key : ∀ (ns : List Nat) (s : SolverSizes), s.Uniform →
      ((∀ n ∈ ns, n ≤ s.maxN) → ∃ s', resizeAll ns s = .ok s' ∧ s'.Uniform ∧ s'.maxN = s.maxN ∧
        s'.n = (s.n :: ns).getLast (List.cons_ne_nil _ _)) ∧
      ((∃ n ∈ ns, s.maxN < n) → resizeAll ns s = .error .fatal) := by
    intro ns
    induction ns with
    | nil =>
      intro s hs
      exact ⟨fun _ => ⟨s, rfl, hs, rfl, rfl⟩, by rintro ⟨n, hn, _⟩; simp at hn⟩
    | cons n ns ih =>
      intro s hs
      obtain ⟨h1, h2⟩ := resize_uniform hs n
      constructor
      · intro hall
        obtain ⟨s', e1, e2, e3, e4⟩ := h1 (hall n List.mem_cons_self)
        obtain ⟨s'', f1, f2, f3, f4⟩ := (ih s' e2).1
          (fun m hm => by rw [e4]; exact hall m (List.mem_cons_of_mem _ hm))
        refine ⟨s'', ?_, f2, f3.trans e4, ?_⟩
        · simp only [resizeAll, bind, Except.bind, e1, f1]
        · rw [f4, List.getLast_cons_cons]
          congr 1
          rw [e3]
      · rintro ⟨m, hm, hlt⟩
        by_cases hn : n ≤ s.maxN
        · obtain ⟨s', e1, e2, e3, e4⟩ := h1 hn
          rcases List.mem_cons.1 hm with rfl | hm
          · omega
          · simp only [resizeAll, bind, Except.bind, e1]
            exact (ih s' e2).2 ⟨m, hm, by rw [e4]; exact hlt⟩
        · simp only [resizeAll, bind, Except.bind, h2 (by omega)]
  have hc : (SolverSizes.construct maxN).Uniform := by
    refine ⟨le_refl _, ?_⟩
    simp only [List.mem_cons, List.not_mem_nil, or_false, forall_eq_or_imp, forall_eq,
      SolverSizes.construct, and_self]
  exact key ns _ hc

/-! ### Concrete cases -/

namespace Example

/-- A stepper for the tests: takes at most 2/5, and suggests twice what was asked. -/
def shortSteps : Stepper ℚ 1 Unit := fun _ x y st =>
  .ok ((), x + min st.dxTry (2 / 5), fun i => y i + min st.dxTry (2 / 5),
    { st with dxTry := 2 * st.dxTry, dxDid := min st.dxTry (2 / 5) })

theorem shortSteps_advances : Advances shortSteps := by
  intro scr x y st scr' x' y' st' h hpos
  simp only [shortSteps, Except.ok.injEq, Prod.mk.injEq] at h
  obtain ⟨-, rfl, -, rfl⟩ := h
  refine ⟨?_, ?_, by simpa using hpos⟩
  · have : 0 < min st.dxTry (2 / 5) := lt_min hpos (by norm_num)
    linarith
  · have := min_le_left st.dxTry (2 / 5)
    linarith

end Example

/-- C41, C42: from 0 to 1 with first step 3/10: the second step is asked for 3/5 and takes
2/5, the third is truncated from 6/5 to 3/10; ends at 1 after 3 steps and suggests 6/5. -/
example : ((driverSolve Example.shortSteps 10 () 0 1 (fun _ => 5) (3 / 10)).toOption.map
    (fun r => (r.x, r.y 0, r.dxTry, r.steps))) = some (1, 6, 6 / 5, 3) := by decide +kernel

/-- C41: with two steps allowed it is a fatal error. -/
example : (driverSolve Example.shortSteps 2 () 0 1 (fun _ => 5) (3 / 10)).toOption.isNone = true := by
  decide +kernel

/-- C43: two components, errors at half and at the full tolerance. -/
example : normalizeError (S := ℚ) (N := 2) (fun _ => 1 / 10) (fun _ => 1 / 10) ![1, -9] ![2, 3]
    ![3 / 20, 1] = 1 := by decide +kernel

/-- C44: 5 equations, reduced to 3, enlarged to 4. -/
example : (resizeAll [3, 4] (SolverSizes.construct 5)).toOption.map (fun s => (s.n, s.scale)) =
    some (4, ⟨4, 5⟩) := by decide +kernel

end DLB
