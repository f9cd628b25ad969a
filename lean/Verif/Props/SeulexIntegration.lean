import Verif.Props.SeulexNumerics
import Verif.Props.OdeSolver
import Mathlib.Analysis.SpecialFunctions.Log.Base
import Mathlib.Analysis.SpecialFunctions.Pow.Real
/-
C40, C48, C60, C61: direction of the steps, integrations as chains of extrapolated steps, pressure
during an integration, and runs that never return.
-/
set_option autoImplicit false
set_option linter.unusedSectionVars false

namespace DLB
open Spec

section Exact
variable {K : Type} [Field K] [LinearOrder K] [IsStrictOrderedRing K] {n m : Nat} [MathOps K]

/-! ### C60 -/

theorem startInner_dxOpt {E : SeulexEnv K n} {scr : Scratch K n} {y : Vec K (n + 1)}
    {step : StepState K} (h : step.dxTry ≠ 0) : 0 < (startInner E scr y step).dxOpt 0 := by
  simp only [startInner, if_true]
  rw [absS_eq]
  exact abs_pos.2 (mul_ne_zero (by norm_num) h)

/-- **C60.** In exact arithmetic a step that returns has moved in the direction of the integration by
a non-zero amount, and suggests a non-zero next step in the same direction. -/
theorem C60_steps_keep_their_direction (hm : PowLaws K) (E : SeulexEnv K n)
    (scr scr' : Scratch K n) (x x' : K) (y y' : Vec K (n + 1)) (step step' : StepState K)
    (hT : step.first = true ∨ (1 ≤ scr.kTarg ∧ scr.kTarg ≤ 11)) (hdx : step.dxTry ≠ 0)
    (h : seulexSolve E scr x y step = .ok (scr', x', y', step')) :
    (step.forward = true → x < x' ∧ 0 < step'.dxTry) ∧
    (step.forward = false → x' < x ∧ step'.dxTry < 0) := by
  obtain ⟨r, kopt, kT, d, hr, hk, hn, rfl, rfl, h1, h2, rfl⟩ := seulexSolve_inv h
  obtain ⟨t1, t2⟩ := startInner_kTarg (E := E) (y := y) hT
  obtain ⟨e, he, hre, hp⟩ := attempts_pos hm (by rw [absS_eq]; exact abs_pos.2 hdx)
    (startInner_dxOpt hdx) t1 t2 hr
  have hrne : r.dx ≠ 0 := by
    rw [hre]; split
    · exact he.ne'
    · exact neg_ne_zero.2 he.ne'
  have hd := nextStep_pos hrne hp hn
  constructor
  · intro hf
    rw [hre]
    simp only [hf, if_true]
    exact ⟨by linarith, hd⟩
  · intro hf
    rw [hre]
    simp only [hf, Bool.false_eq_true, if_false]
    exact ⟨by linarith, by linarith⟩

/-- **C60.** The first step of an integration, and every step truncated to the end of the interval,
is never larger than requested: it cannot pass the end. -/
theorem C60_first_and_truncated_steps_do_not_grow (hm : PowLaws K) (E : SeulexEnv K n)
    (scr scr' : Scratch K n) (x x' : K) (y y' : Vec K (n + 1)) (step step' : StepState K)
    (hT : step.first = true ∨ (1 ≤ scr.kTarg ∧ scr.kTarg ≤ 11)) (hdx : step.dxTry ≠ 0)
    (hfl : step.first = true ∨ step.last = true)
    (h : seulexSolve E scr x y step = .ok (scr', x', y', step')) :
    |x' - x| ≤ |step.dxTry| := by
  obtain ⟨r, kopt, kT, d, hr, hk, hn, rfl, rfl, h1, h2, rfl⟩ := seulexSolve_inv h
  obtain ⟨t1, t2⟩ := startInner_kTarg (E := E) (y := y) hT
  have := attempts_shrinks hm (by rcases hfl with h | h <;> simp [h])
    (by rw [absS_eq]; exact abs_pos.2 hdx) (startInner_dxOpt hdx) t1 t2 hr
  rw [absS_eq] at this
  rwa [add_sub_cancel_left]

/-! ### C61 -/

/-- An invariant of the driver. -/
theorem driverLoop_chain {N : Nat} {Scr : Type} {stepper : Stepper K N Scr} {xStart xEnd : K}
    (hlt : xStart < xEnd) (I : Scr → K → Vec K N → StepState K → Prop)
    (R : K × Vec K N → K × Vec K N → Prop)
    (hstep : ∀ scr x y step scr' x' y' step', I scr x y step → xStart ≤ x → x < xEnd →
      stepper scr x y (driverPrepare xStart xEnd x step) = .ok (scr', x', y', step') →
      x < x' ∧ R (x, y) (x', y') ∧ I scr' x' y' { step' with
          first := false
          prevReject := if step'.reject then true else step'.prevReject }) :
    ∀ (left nStep : Nat) (scr : Scr) (x : K) (y : Vec K N) (step : StepState K)
      (r : DriverResult K N Scr), I scr x y step → xStart ≤ x → x < xEnd →
      driverLoop stepper xStart xEnd left nStep scr x y step = .ok r →
      Chain R (x, y) (r.x, r.y) ∧ xEnd ≤ r.x ∧
      ∃ scr x y step step', I scr x y step ∧ xStart ≤ x ∧ x < xEnd ∧
        stepper scr x y (driverPrepare xStart xEnd x step) = .ok (r.scratch, r.x, r.y, step') := by
  intro left
  induction left with
  | zero => intro nStep scr x y step r _ _ _ h; simp [driverLoop] at h
  | succ left ih =>
    intro nStep scr x y step r hI hx hx' h
    simp only [driverLoop, bind, Except.bind] at h
    cases hst : stepper scr x y (driverPrepare xStart xEnd x step) with
    | error e => simp [hst] at h
    | ok v =>
      obtain ⟨scr', x', y', st'⟩ := v
      obtain ⟨a1, a2, a3⟩ := hstep _ _ _ _ _ _ _ _ hI hx hx' hst
      simp only [hst] at h
      split at h
      · rename_i hend
        cases h
        refine ⟨.one a2, ?_, scr, x, y, step, st', hI, hx, hx', hst⟩
        by_contra hc
        rw [not_le] at hc
        have : (x' - xEnd) * (xEnd - xStart) < 0 :=
          mul_neg_of_neg_of_pos (by linarith) (by linarith)
        linarith
      · rename_i hend
        have hlt' : x' < xEnd := by
          by_contra hc
          rw [not_lt] at hc
          exact hend (mul_nonneg (by linarith) (by linarith))
        obtain ⟨b1, b2, b3⟩ := ih _ _ _ _ _ _ a3 (by linarith) hlt' h
        exact ⟨.cons a2 b1, b2, b3⟩

/-- What holds before every step of an integration. -/
structure Running (E : SeulexEnv K n) (scr : Scratch K n) (step : StepState K) : Prop where
  forward : step.forward = true
  dxTry : 0 < step.dxTry
  order : step.first = true ∨ (1 ≤ scr.kTarg ∧ scr.kTarg ≤ 11)
  jacobian : step.first = true ∨ ∃ x z, scr.dfdy = E.jacobian x z

theorem running_step (hm : PowLaws K) {E : SeulexEnv K n}
    (hE : E.jacRedo < ((2 : Nat) : K) * E.jacRedo) {xStart xEnd : K}
    {scr scr' : Scratch K n} {x x' : K} {y y' : Vec K (n + 1)} {step step' : StepState K}
    (hI : Running E scr step) (hx : xStart ≤ x) (hx' : x < xEnd)
    (h : seulexSolve E scr x y (driverPrepare xStart xEnd x step) = .ok (scr', x', y', step')) :
    x < x' ∧ (∃ x z, scr'.dfdy = E.jacobian x z) ∧ Running E scr' { step' with
          first := false
          prevReject := if step'.reject then true else step'.prevReject } := by
  obtain ⟨-, -, p1, -⟩ := driverPrepare_spec hx hx' step hI.dxTry
  have pf : (driverPrepare xStart xEnd x step).first = step.first := by
    unfold driverPrepare; dsimp only; split <;> rfl
  have pw : (driverPrepare xStart xEnd x step).forward = true := by
    rw [← hI.forward]; unfold driverPrepare; dsimp only; split <;> rfl
  have hT : (driverPrepare xStart xEnd x step).first = true ∨
      (1 ≤ scr.kTarg ∧ scr.kTarg ≤ 11) := by rw [pf]; exact hI.order
  obtain ⟨a1, a2⟩ := (C60_steps_keep_their_direction hm E _ _ _ _ _ _ _ _ hT p1.ne' h).1 pw
  obtain ⟨b1, b2, b3, b4, b5, b6⟩ := C47_step_advances _ _ _ _ _ _ _ _ _ h
  have hJ : ∃ x z, scr'.dfdy = E.jacobian x z := by
    by_cases hf : step.first = true
    · exact ⟨_, _, C58_first_step_jacobian E hE _ _ _ _ _ _ _ _ (by rw [pf]; exact hf) h⟩
    · rcases C58_jacobian_origin E _ _ _ _ _ _ _ _ hT h with h' | ⟨z, h'⟩
      · rcases hI.jacobian with hj | ⟨x, z, hj⟩
        · exact absurd hj hf
        · exact ⟨x, z, h'.trans hj⟩
      · exact ⟨_, z, h'⟩
  refine ⟨a1, hJ, b6.trans pw, a2, Or.inr ?_, Or.inr hJ⟩
  rcases C45_step_in_range E scr x y _ hT with h' | ⟨s, x₁, y₁, st, h', k1, k2⟩
  · rw [h'] at h; cases h
  · rw [h'] at h; cases h; exact ⟨k1, k2⟩

theorem running_start (E : SeulexEnv K n) (scr : Scratch K n) {dxTry : K} (h : 0 < dxTry) :
    Running E scr (StepState.init dxTry) :=
  ⟨by simp [StepState.init, h], h, Or.inl rfl, Or.inl rfl⟩

/-- **C61.** In exact arithmetic, over a positive interval, an integration that returns is a chain of
extrapolated linearly implicit Euler steps from the initial state to the returned one, each with a
Jacobian of the equations, each forward in time, and the end of the interval is reached.  The linear
solver has to solve regular systems, and the matrices `I/h - J` have to be regular. -/
theorem C61_integration_is_chain_of_extrapolated_steps (hm : PowLaws K) (E : SeulexEnv K n)
    (hE : LapackContract (n + 1) E.linearSolve) (hj : E.jacRedo < 2 * E.jacRedo)
    (hreg : ∀ x z h, 0 < h → Regular (E.jacobian x z) h) (maxSteps : Nat) (scr : Scratch K n)
    (xStart xEnd : K) (hlt : xStart < xEnd) (y : Vec K (n + 1)) (dxTry : K) (hpos : 0 < dxTry)
    (r : DriverResult K (n + 1) (Scratch K n))
    (h : driverSolve (seulexSolve E) maxSteps scr xStart xEnd y dxTry = .ok r) :
    xEnd ≤ r.x ∧ Chain (fun a b => a.1 < b.1 ∧ ∃ x z k, 1 ≤ k ∧ k ≤ 12 ∧
      ExtrapolatedStep (E.jacobian x z) E.derivatives (fun z => 200 < z 0 ∧ z 0 ≤ 5000) k a.1 a.2
        (b.1 - a.1) b.2) (xStart, y) (r.x, r.y) := by
  have hj' : E.jacRedo < ((2 : Nat) : K) * E.jacRedo := by exact_mod_cast hj
  have := driverLoop_chain hlt (fun scr _ _ step => Running E scr step)
    (fun a b => a.1 < b.1 ∧ ∃ x z k, 1 ≤ k ∧ k ≤ 12 ∧
      ExtrapolatedStep (E.jacobian x z) E.derivatives (fun z => 200 < z 0 ∧ z 0 ≤ 5000) k a.1 a.2
        (b.1 - a.1) b.2) (by
      intro scr x y step scr' x' y' step' hI hx hx' hst
      obtain ⟨a1, ⟨xj, zj, hJ⟩, a3⟩ := running_step hm hj' hI hx hx' hst
      refine ⟨a1, ⟨a1, xj, zj, ?_⟩, a3⟩
      have pf : (driverPrepare xStart xEnd x step).first = step.first := by
        unfold driverPrepare; dsimp only; split <;> rfl
      obtain ⟨b1, -⟩ := C47_step_advances _ _ _ _ _ _ _ _ _ hst
      have hd : 0 < step'.dxDid := by rw [b1] at a1; linarith
      obtain ⟨-, k, k1, k2, hk⟩ := C49_accepted_step_is_extrapolation E hE _ _ _ _ _ _ _ _
        (by rw [pf]; exact hI.order) hst hd.ne' (by
          intro l _
          rw [hJ]
          refine hreg _ _ _ (div_pos hd ?_)
          rw [← nSeq_eq_stepNumber]; exact nSeq_cast_pos l)
      refine ⟨k, k1, k2, ?_⟩
      dsimp only
      rw [b1, add_sub_cancel_left, ← hJ]
      exact hk) maxSteps 0 scr xStart y _ r (running_start E scr hpos) le_rfl hlt h
  exact ⟨this.2.1, this.1⟩

/-- **C61.** If the last step was truncated to the end of the interval (or was the first one), the
integration ends exactly at the end.  It always ends at the end or beyond; beyond it only by a step
that was not truncated and grew after a rejected attempt. -/
theorem C61_end_of_integration (hm : PowLaws K) (E : SeulexEnv K n)
    (hj : E.jacRedo < 2 * E.jacRedo) (maxSteps : Nat) (scr : Scratch K n)
    (xStart xEnd : K) (hlt : xStart < xEnd) (y : Vec K (n + 1)) (dxTry : K) (hpos : 0 < dxTry)
    (r : DriverResult K (n + 1) (Scratch K n))
    (h : driverSolve (seulexSolve E) maxSteps scr xStart xEnd y dxTry = .ok r) :
    r.x = xEnd ∨ (xEnd < r.x ∧ ∃ scr x y step scr' step', step.first = false ∧ step.last = false ∧
      0 < step.dxTry ∧ x + step.dxTry ≤ xEnd ∧
      seulexSolve E scr x y step = .ok (scr', r.x, r.y, step') ∧ step.dxTry < r.x - x) := by
  have hj' : E.jacRedo < ((2 : Nat) : K) * E.jacRedo := by exact_mod_cast hj
  obtain ⟨-, h2, scr₁, x, y₁, step, step', hI, hx, hx', hst⟩ := driverLoop_chain hlt
    (fun scr _ _ step => Running E scr step) (fun _ _ => True) (by
      intro scr x y step scr' x' y' step' hI hx hx' hst
      obtain ⟨a1, -, a3⟩ := running_step hm hj' hI hx hx' hst
      exact ⟨a1, trivial, a3⟩) maxSteps 0 scr xStart y _ r (running_start E scr hpos) le_rfl hlt h
  obtain ⟨-, -, p1, p2⟩ := driverPrepare_spec hx hx' step hI.dxTry
  have pf : (driverPrepare xStart xEnd x step).first = step.first := by
    unfold driverPrepare; dsimp only; split <;> rfl
  rcases eq_or_lt_of_le h2 with h3 | h3
  · exact Or.inl h3.symm
  · refine Or.inr ⟨h3, scr₁, x, y₁, driverPrepare xStart xEnd x step, r.scratch, step', ?_, ?_, p1, p2,
      hst, by linarith⟩
    · by_contra hc
      rw [Bool.not_eq_false] at hc
      have := C60_first_and_truncated_steps_do_not_grow hm E _ _ _ _ _ _ _ _
        (by rw [pf]; exact hI.order) p1.ne' (Or.inl hc) hst
      rw [abs_of_pos p1, abs_of_pos (by linarith)] at this
      linarith
    · by_contra hc
      rw [Bool.not_eq_false] at hc
      have := C60_first_and_truncated_steps_do_not_grow hm E _ _ _ _ _ _ _ _
        (by rw [pf]; exact hI.order) p1.ne' (Or.inr hc) hst
      rw [abs_of_pos p1, abs_of_pos (by linarith)] at this
      linarith

/-! ### C40 -/

/-- The linear solver satisfies the last equation of every system whose last equation involves only
the last unknown. -/
def SolvesDecoupledEquation (N : Nat) (solve : (Nat → K) → Vec K (N + 1) → Vec K (N + 1)) : Prop :=
  ∀ a b, (∀ j : Fin (N + 1), j ≠ Fin.last N → a (N + j.val * (N + 1)) = 0) →
    a (N + N * (N + 1)) ≠ 0 → a (N + N * (N + 1)) * solve a b (Fin.last N) = b (Fin.last N)

theorem subSteps_last {E : SeulexEnv K n} (hs : SolvesDecoupledEquation n E.linearSolve)
    (hf : ∀ x y, E.derivatives x y (Fin.last n) = 0) {J : Mat K (n + 1)}
    (hJ : ∀ j, J (Fin.last n) j = 0) {x dx : K} (hdx : dx ≠ 0) {y scale : Vec K (n + 1)} {l : Nat} :
    (subSteps E J x y dx scale l).y (Fin.last n) = y (Fin.last n) := by
  have hh : dx / ((nSeq l : Nat) : K) ≠ 0 := div_ne_zero hdx (nSeq_cast_pos l).ne'
  have key : ∀ x y, E.linearSolve (systemArray J (dx / ((nSeq l : Nat) : K))) (E.derivatives x y)
      (Fin.last n) = 0 := by
    intro x y
    have cm := fun j => columnMajor_systemArray J (dx / ((nSeq l : Nat) : K)) (Fin.last n) j
    have h1 := hs (systemArray J (dx / ((nSeq l : Nat) : K))) (E.derivatives x y) (by
      intro j hj
      have := cm j
      rw [hJ j, if_neg (fun h => hj h.symm), sub_zero] at this
      exact this)
    have hd : systemArray J (dx / ((nSeq l : Nat) : K)) (n + n * (n + 1))
        = 1 / (dx / ((nSeq l : Nat) : K)) := by
      have := cm (Fin.last n)
      rw [hJ, if_pos rfl, sub_zero] at this
      exact this
    rw [hd, hf] at h1
    have hne : 1 / (dx / ((nSeq l : Nat) : K)) ≠ 0 := one_div_ne_zero hh
    exact (mul_eq_zero.1 (h1 hne)).resolve_left hne
  have loop : ∀ (left nn : Nat) (xnew : K) (yT dy : Vec K (n + 1)) (θ : K),
      dy (Fin.last n) = 0 →
      (seulLoop E (systemArray J (dx / ((nSeq l : Nat) : K))) x (dx / ((nSeq l : Nat) : K)) l scale
        left nn xnew yT dy θ).y (Fin.last n) = yT (Fin.last n) := by
    intro left
    induction left with
    | zero => intro nn xnew yT dy θ hd; simp [seulLoop, hd]
    | succ left ih =>
      intro nn xnew yT dy θ hd
      simp only [seulLoop]
      split
      · simp [hd]
      generalize (if nn = 1 ∧ l ≤ 1 then stabilityTheta E _ x _ scale _ _ else θ) = θ'
      split
      · simp [hd]
      · rw [ih _ _ _ _ _ (key _ _)]
        simp [hd]
  exact loop _ _ _ _ _ _ (key _ _)

/-- A component with zero rate and zero row of the Jacobian is not changed by a step. -/
theorem seulexSolve_last (hm : PowLaws K) {E : SeulexEnv K n}
    (hs : SolvesDecoupledEquation n E.linearSolve)
    (hf : ∀ x y, E.derivatives x y (Fin.last n) = 0)
    (hJ : ∀ x y j, E.jacobian x y (Fin.last n) j = 0)
    {scr scr' : Scratch K n} {x x' : K} {y y' : Vec K (n + 1)} {step step' : StepState K}
    (hT : step.first = true ∨ (1 ≤ scr.kTarg ∧ scr.kTarg ≤ 11)) (hdx : step.dxTry ≠ 0)
    (h : seulexSolve E scr x y step = .ok (scr', x', y', step'))
    (hjac : ∃ x z, scr'.dfdy = E.jacobian x z) : y' (Fin.last n) = y (Fin.last n) := by
  obtain ⟨r, kopt, kT, d, hr, hk, hn, rfl, rfl, h1, h2, rfl⟩ := seulexSolve_inv h
  obtain ⟨t1, t2⟩ := startInner_kTarg (E := E) (y := y) hT
  obtain ⟨e, he, hre, hp⟩ := attempts_pos hm (by rw [absS_eq]; exact abs_pos.2 hdx)
    (startInner_dxOpt hdx) t1 t2 hr
  have hrne : r.dx ≠ 0 := by
    rw [hre]; split
    · exact he.ne'
    · exact neg_ne_zero.2 he.ne'
  obtain ⟨-, -, -, hy, -⟩ := attempts_tableau t1 t2 hrne hr
  rw [hy]
  have hJ' : ∀ j, r.dfdy (Fin.last n) j = 0 := by
    obtain ⟨xj, zj, e⟩ := hjac
    intro j; rw [← h1, e]; exact hJ _ _ j
  have : (fun l => (subSteps E r.dfdy x y r.dx (fun i => E.absTol i + E.relTol i * absS (y i)) l).y
      (Fin.last n)) = fun _ => y (Fin.last n) := by
    funext l; exact subSteps_last hs hf hJ' hrne
  rw [this, extrapolant_const hrne _ (Nat.zero_le _)]

/-- **C40.** Integrating a cell with the pyJac model, positive relative tolerances, a positive time
step and a positive first sub-step, and any pyJac library, returns the pressure it was given, whatever
steps were rejected or accepted, provided that the linear solver satisfies the pressure equation. -/
theorem C40_pressure_is_constant (hm : PowLaws K) (L : PyJacLib K m)
    (linearSolve : (Nat → K) → Vec K (m + 2) → Vec K (m + 2))
    (hs : SolvesDecoupledEquation (m + 1) linearSolve) (absTol relTol : Vec K (m + 2))
    (hrel : ∀ i, 0 < relTol i) (fuel maxSteps : Nat) (scr scr' : Scratch K (m + 1)) (p T : K)
    (c : List K) (deltaT subDeltaT : K) (hdt : 0 < deltaT) (hsub : 0 < subDeltaT)
    (r : IntegrateResult K)
    (h : odePyJacSolve (seulexIntegrator (pyJacEnv L linearSolve absTol relTol fuel) maxSteps) scr p T
      c deltaT subDeltaT = .ok (scr', r)) : r.p = p := by
  unfold odePyJacSolve at h
  split at h
  swap
  · cases h
  rename_i hc
  unfold seulexIntegrator at h
  simp only [bind, Except.bind] at h
  split at h
  · cases h
  rename_i v hv
  split at hv
  · cases hv
  rename_i q hq
  cases hv
  cases h
  have hj' : (pyJacEnv L linearSolve absTol relTol fuel).jacRedo
      < ((2 : Nat) : K) * (pyJacEnv L linearSolve absTol relTol fuel).jacRedo := by
    have := jacRedoOf_pos hrel
    show jacRedoOf relTol < ((2 : Nat) : K) * jacRedoOf relTol
    push_cast
    linarith
  have hch := (driverLoop_chain hdt
    (fun scr _ _ step => Running (pyJacEnv L linearSolve absTol relTol fuel) scr step)
    (fun a b => b.2 (Fin.last (m + 1)) = a.2 (Fin.last (m + 1))) (by
      intro scr x y step scr' x' y' step' hI hx hx' hst
      obtain ⟨a1, a2, a3⟩ := running_step hm hj' hI hx hx' hst
      obtain ⟨-, -, p1, -⟩ := driverPrepare_spec hx hx' step hI.dxTry
      have pf : (driverPrepare 0 deltaT x step).first = step.first := by
        unfold driverPrepare; dsimp only; split <;> rfl
      refine ⟨a1, ?_, a3⟩
      refine seulexSolve_last hm (E := pyJacEnv L linearSolve absTol relTol fuel) hs ?_ ?_
        (by rw [pf]; exact hI.order) p1.ne' hst a2
      · intro x y; simp [pyJacEnv, pyJacDerivatives]
      · intro x y j; simp [pyJacEnv, pyJacJacobian]) maxSteps 0 scr 0 _ _ q
    (running_start _ scr hsub) le_rfl hdt hq).1
  have : ∀ a b : K × Vec K (m + 2), Chain (fun a b : K × Vec K (m + 2) =>
      b.2 (Fin.last (m + 1)) = a.2 (Fin.last (m + 1))) a b →
      b.2 (Fin.last (m + 1)) = a.2 (Fin.last (m + 1)) := by
    intro a b h
    induction h with
    | one h => exact h
    | cons h _ ih => exact ih.trans h
  have := this _ _ hch
  simp only [unpackPyJac, pressurePos]
  dsimp only at this
  rw [this]
  simp [packPyJac]

end Exact

/-! ### C48 -/

section AnyArithmetic
variable {S : Type} {n : Nat}
variable [Zero S] [Add S] [Sub S] [Mul S] [Div S] [Neg S] [NatCast S] [OfScientific S]
variable [LT S] [DecidableLT S] [LE S] [DecidableLE S] [BEq S] [Consts S] [MathOps S]

theorem attempts_never {E : SeulexEnv S n} {forward first last : Bool} {x : S}
    {y scale : Vec S (n + 1)}
    (hbad : ∀ (J : Mat S (n + 1)) dx,
      y 0 + E.linearSolve (systemArray J dx) (E.derivatives (x + dx) y) 0 ≤ ((200 : Nat) : S) ∨
      ((5000 : Nat) : S) < y 0 + E.linearSolve (systemArray J dx) (E.derivatives (x + dx) y) 0) :
    ∀ (fuel : Nat) (prevReject jacUpdated : Bool) (dfdy : Mat S (n + 1)) (dxNew : S)
      (st : Inner S n),
      attempts E forward first last x y scale fuel prevReject jacUpdated dfdy dxNew st
        = .error .outOfFuel := by
  intro fuel
  induction fuel with
  | zero => intros; rfl
  | succ fuel ih =>
    intro prevReject jacUpdated dfdy dxNew st
    have hs : ∀ dx θ, ∃ r, seul E dfdy θ x y dx 0 scale = .ok r ∧ r.ok = false := by
      intro dx θ
      refine ⟨_, if_pos (by decide), ?_⟩
      rw [show nSeq 0 - 1 = 0 + 1 from rfl]
      simp only [seulLoop]
      rw [if_pos]
      unfold temperatureBad
      rcases hbad dfdy (dx / ((nSeq 0 : Nat) : S)) with h | h
      · exact Bool.or_eq_true_iff.2 (Or.inl (decide_eq_true h))
      · exact Bool.or_eq_true_iff.2 (Or.inr (decide_eq_true h))
    obtain ⟨r, hr, hok⟩ := hs (if forward then dxNew else -dxNew) st.theta
    unfold attempts
    unfold columnLoop
    simp only [Nat.zero_le, if_true, column, hr, bind, Except.bind, hok]
    exact ih _ _ _ _ _

/-- **C48 is false.** For any arithmetic: if the first sub-step leaves entry 0 of the state at most 200
or above 5000 for every step size and Jacobian, then the step never returns: no number of attempts
is enough, whatever the work arrays contain. -/
theorem C48_step_never_returns (E : SeulexEnv S n) (x : S) (y : Vec S (n + 1))
    (hbad : ∀ (J : Mat S (n + 1)) dx,
      y 0 + E.linearSolve (systemArray J dx) (E.derivatives (x + dx) y) 0 ≤ ((200 : Nat) : S) ∨
      ((5000 : Nat) : S) < y 0 + E.linearSolve (systemArray J dx) (E.derivatives (x + dx) y) 0)
    (fuel : Nat) (scr : Scratch S n) (step : StepState S) :
    seulexSolve { E with fuel := fuel } scr x y step = .error .outOfFuel := by
  have h0 : 0 < iMaxx := by decide
  unfold seulexSolve
  simp only [writeAt_ok h0, bind, Except.bind]
  rw [attempts_never (E := { E with fuel := fuel }) hbad]

/-- **C48 is false**, whole integrations: then the integration does not return either. -/
theorem C48_integration_never_returns (E : SeulexEnv S n) (xStart xEnd : S) (y : Vec S (n + 1))
    (hbad : ∀ (J : Mat S (n + 1)) dx,
      y 0 + E.linearSolve (systemArray J dx) (E.derivatives (xStart + dx) y) 0
        ≤ ((200 : Nat) : S) ∨
      ((5000 : Nat) : S) < y 0 + E.linearSolve (systemArray J dx) (E.derivatives (xStart + dx) y) 0)
    (fuel maxSteps : Nat) (scr : Scratch S n) (dxTry : S) :
    driverSolve (seulexSolve { E with fuel := fuel }) (maxSteps + 1) scr xStart xEnd y dxTry
      = .error .outOfFuel := by
  unfold driverSolve driverLoop
  simp only [bind, Except.bind]
  rw [C48_step_never_returns E xStart y hbad]

/-- **C48 is false for the original state layout.** The temperature check looks at entry 0 of the
state.  With the chemistry model that stores concentrations first, entry 0 is the concentration of the
first species: if that stays at most 200 (kmol per cubic metre), the integration of a cell never
returns. -/
theorem C48_original_layout_never_returns {N : Nat} (E : SeulexEnv S (N + 2)) (p T c₀ : S)
    (cs : List S) (hlen : cs.length = N) (deltaT subDeltaT : S)
    (hbad : ∀ (J : Mat S (N + 3)) dx y, y 0 = c₀ →
      y 0 + E.linearSolve (systemArray J dx) (E.derivatives (0 + dx) y) 0 ≤ ((200 : Nat) : S))
    (fuel maxSteps : Nat) (scr : Scratch S (N + 2)) :
    odeOriginalSolve (N := N + 1) (seulexIntegrator { E with fuel := fuel } (maxSteps + 1)) scr p T
      (c₀ :: cs) deltaT subDeltaT = .error .outOfFuel := by
  unfold odeOriginalSolve
  rw [dif_pos (by simp [hlen])]
  unfold seulexIntegrator
  simp only [bind, Except.bind]
  rw [C48_integration_never_returns E 0 deltaT]
  intro J dx
  exact Or.inl (hbad J dx (fun i => if hi : i.val < N + 1 then
    (c₀ :: cs)[i.val]'(by simpa [hlen] using hi) else if i.val = N + 1 then T else p) rfl)

end AnyArithmetic

section Exact
variable {K : Type} [Field K] [LinearOrder K] [IsStrictOrderedRing K] {m : Nat} [MathOps K]

/-- **C48 is false for cold or hot cells without reactions.** With the pyJac model, a cell with zero
rates and a temperature of at most 200 or above 5000 is never finished, by any linear solver that
solves a system with zero right-hand side by zero. -/
theorem C48_frozen_cell_never_returns (L : PyJacLib K m)
    (linearSolve : (Nat → K) → Vec K (m + 2) → Vec K (m + 2))
    (hz : ∀ a, linearSolve a (fun _ => 0) = fun _ => 0) (absTol relTol : Vec K (m + 2)) (p T : K)
    (hT : T ≤ 200 ∨ 5000 < T) (hrate : ∀ c, L.dydt p (toPyJac T c) = fun _ => 0) (c : List K)
    (hc : c.length = m + 1) (deltaT subDeltaT : K) (fuel maxSteps : Nat)
    (scr : Scratch K (m + 1)) :
    odePyJacSolve (seulexIntegrator (pyJacEnv L linearSolve absTol relTol fuel) (maxSteps + 1)) scr p
      T c deltaT subDeltaT = .error .outOfFuel := by
  have e : pyJacEnv L linearSolve absTol relTol fuel
      = { pyJacEnv L linearSolve absTol relTol 0 with fuel := fuel } := rfl
  unfold odePyJacSolve
  rw [dif_pos hc]
  unfold seulexIntegrator
  simp only [bind, Except.bind]
  rw [e, C48_integration_never_returns]
  intro J dx
  have h0 : packPyJac p T (fun i : Fin (m + 1) => c[i.val]'(by omega)) 0 = T := by simp [packPyJac]
  have hp : packPyJac p T (fun i : Fin (m + 1) => c[i.val]'(by omega)) (pressurePos m) = p := by
    simp [packPyJac, pressurePos]
  have hd : (pyJacEnv L linearSolve absTol relTol 0).derivatives (0 + dx)
      (packPyJac p T (fun i : Fin (m + 1) => c[i.val]'(by omega))) = fun _ => 0 := by
    funext i
    simp only [pyJacEnv, pyJacDerivatives, h0, hp, hrate]
    split <;> rfl
  rw [hd, h0]
  have : (pyJacEnv L linearSolve absTol relTol 0).linearSolve (systemArray J dx) (fun _ => 0)
      = fun _ => 0 := hz _
  rw [this]
  simpa using hT

end Exact

/-! ### Cases -/

theorem ratMath_powLaws : letI := ratMath; PowLaws ℚ := by
  let := ratMath
  exact ⟨fun _ _ h => h, fun _ _ _ h _ => h, fun _ _ h _ => h⟩

/-- The mathematical library over the reals. -/
@[instance_reducible] noncomputable def realMath : MathOps ℝ where
  sqrt := Real.sqrt
  pow := fun x e => x ^ e
  log10 := Real.logb 10
  toInt := fun x => if 0 ≤ x then ⌊x⌋ else ⌈x⌉

theorem realMath_powLaws : letI := realMath; PowLaws ℝ := by
  let := realMath
  exact ⟨fun _ _ h => Real.rpow_pos_of_pos h _, fun _ _ h h1 he => Real.rpow_le_one h.le h1 he.le,
    fun _ _ h he => Real.one_le_rpow h he.le⟩

theorem realMath_sqrtLaws : letI := realMath; SqrtLaws ℝ := by
  let := realMath
  exact ⟨fun _ _ => Real.sqrt_nonneg _, fun _ h => Real.mul_self_sqrt h⟩

/-- Integration of the relaxing temperature over 1/5 with first step 1/10: end point, number of
steps, suggested step. -/
def relaxationRun : Option (ℚ × Nat × Bool) :=
  letI := ratMath
  (driverSolve (seulexSolve relaxation) 5 (leftover 7) 0 (1 / 5) (fun _ => 1000)
    (1 / 10)).toOption.map (fun r => (r.x, r.steps, decide (0 < r.dxTry)))

/-- A case of C60 and C61 (the other hypotheses are `relaxation_solver`, `relaxation_regular` and
`ratMath_powLaws`): two steps, the second one truncated to the end. -/
example : relaxationRun = some (1 / 5, 2, true) := by decide +kernel

/-- A library with one species: the temperature rises at a rate proportional to the pressure. -/
def oneSpecies : PyJacLib ℚ 0 where
  dydt p _ := fun _ => p / 100
  evalJacob _ _ := fun _ => 0
  evalH _ := fun _ => 1
  nsp := 1

/-- Back substitution for two equations of which the second one is decoupled. -/
def backSubstitution (a : Nat → ℚ) (b : Vec ℚ 2) : Vec ℚ 2 :=
  fun i => if i = 0 then (b 0 - a 2 * (b 1 / a 3)) / a 0 else b 1 / a 3

theorem backSubstitution_last : SolvesDecoupledEquation 1 backSubstitution := by
  intro a b _ h
  have h' : a 3 ≠ 0 := h
  show a 3 * (b 1 / a 3) = b 1
  exact mul_div_cancel₀ _ h'

/-- The cell `p = 1e5`, `T = 1000` over 1/10 s with first sub-step 1/100 s. -/
def oneSpeciesRun : Option (ℚ × ℚ) :=
  letI := ratMath
  (odePyJacSolve (m := 0) (seulexIntegrator (pyJacEnv oneSpecies backSubstitution (fun _ => 1)
    (fun _ => 1 / 10000) 10) 20) ⟨0, 0, fun _ _ => 0, fun _ _ => 5, fun _ => 0, fun _ => 0⟩ 100000
    1000 [1] (1 / 10) (1 / 100)).toOption.map (fun r => (r.2.p, r.2.T))

/-- A case of C40: the temperature rises, the pressure stays. -/
example : oneSpeciesRun = some (100000, 1100) := by decide +kernel

/-- A case of C48: the same library without reaction and a cell at 150 K. -/
example (fuel maxSteps : Nat) (scr : Scratch ℚ 1) :
    letI := ratMath
    odePyJacSolve (m := 0) (seulexIntegrator (pyJacEnv { oneSpecies with dydt := fun _ _ _ => 0 }
      backSubstitution (fun _ => 1) (fun _ => 1 / 10000) fuel) (maxSteps + 1)) scr 100000 150 [1]
      (1 / 10) (1 / 100) = .error .outOfFuel := by
  let := ratMath
  refine C48_frozen_cell_never_returns _ _ ?_ _ _ _ _ (Or.inl (by norm_num)) (fun _ => rfl) _ rfl _ _
    _ _ _
  intro a
  funext i
  simp [backSubstitution]

end DLB
