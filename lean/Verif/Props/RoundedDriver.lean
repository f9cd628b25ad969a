import Verif.Props.OdeSolver
import Verif.Lemmas.Binary64
import Mathlib.Tactic.FieldSimp
/-
C100: the driver loop of the ODE solver in floating-point arithmetic, over an interval that starts
at zero, as the chemistry models call it (`odeSolver_->solve(0, deltaT, ...)`).
-/
set_option autoImplicit false
set_option linter.unusedSectionVars false

namespace DLB

variable {K : Type} [Field K] [LinearOrder K] [IsStrictOrderedRing K] {F : FloatFormat K}
  {N : Nat} {Scr : Type}

/-- A stepper that, asked for a positive step, adds (with rounding) a positive number to the
independent variable that is at most the step asked for, and suggests a positive next step. -/
def AdvancesFl (stepper : Stepper (Fl F) N Scr) : Prop :=
  ∀ scr x y st scr' x' y' st', stepper scr x y st = .ok (scr', x', y', st') → 0 < st.dxTry →
    ∃ d : Fl F, 0 < d ∧ d ≤ st.dxTry ∧ x' = x + d ∧ 0 < st'.dxTry

/-- The sign of a rounded sum or difference is right. -/
theorem FloatFormat.sub_pos (F : FloatFormat K) (hu : F.u ≤ 1 / 10) {x y : K} (hx : F.rnd x = x)
    (hy : F.rnd y = y) (h : y < x) :
    9 / 10 * (x - y) ≤ F.rnd (x - y) ∧ F.rnd (x - y) ≤ (1 + F.u) * (x - y) := by
  have h1 := F.near_sub hx hy
  rw [abs_of_pos (by linarith : 0 < x - y)] at h1
  have h2 := abs_le.1 h1
  have h3 : F.u * (x - y) ≤ 1 / 10 * (x - y) := mul_le_mul_of_nonneg_right hu (by linarith)
  constructor <;> linarith [h2.1, h2.2]

/-- A product that is rounded to zero is tiny. -/
theorem FloatFormat.mul_tiny (F : FloatFormat K) (hu : F.u ≤ 1 / 10) {a : K} (ha : 0 < a)
    (h : F.rnd a ≤ 0 ∨ 0 ≤ F.rnd (-a)) : a ≤ 10 / 9 * F.eta := by
  have h3 : F.u * a ≤ 1 / 10 * a := mul_le_mul_of_nonneg_right hu ha.le
  rcases h with h | h
  · have h1 := abs_le.1 (F.near a)
    rw [abs_of_pos ha] at h1
    linarith [h1.1]
  · have h1 := abs_le.1 (F.near (-a))
    rw [abs_neg, abs_of_pos ha] at h1
    linarith [h1.2]

section
variable {xEnd x : Fl F} (hu : F.u ≤ 1 / 10) (hx : 0 ≤ x.val) (hxe : x.val < xEnd.val)
  {step : StepState (Fl F)} (hpos : 0 < step.dxTry)
include hu hx hxe hpos

/-- The step handed to the stepper in floating point: it is the one suggested, which then does not
pass the end (up to underflow), or it is truncated. -/
theorem fl_prepare :
    (driverPrepare 0 xEnd x step = { step with reject := false } ∧
      (x + step.dxTry).val ≤ xEnd.val + 2 * F.eta / xEnd.val) ∨
    (driverPrepare 0 xEnd x step = { step with reject := false, last := true, dxTry := xEnd - x } ∧
      xEnd.val < (x + step.dxTry).val) := by
  have hp : 0 < step.dxTry.val := by have := (Fl.lt_iff _ _).1 hpos; rwa [Fl.val_zero] at this
  have he : 0 < xEnd.val := by linarith
  have hu0 := F.u_nonneg
  have hs : 0 < (x + step.dxTry).val := by
    rw [Fl.val_add]
    have h1 := abs_le.1 (F.near_add _ _ x.ok step.dxTry.ok)
    rw [abs_of_pos (by linarith : 0 < x.val + step.dxTry.val)] at h1
    have : F.u * (x.val + step.dxTry.val) ≤ 1 / 10 * (x.val + step.dxTry.val) :=
      mul_le_mul_of_nonneg_right hu (by linarith)
    linarith [h1.1]
  have hs0 : (x + step.dxTry - 0).val = (x + step.dxTry).val := by
    rw [Fl.val_sub, Fl.val_zero, sub_zero, (x + step.dxTry).ok]
  have hcond : (0 < (x + step.dxTry - xEnd) * (x + step.dxTry - 0)) ↔
      0 < F.rnd ((x + step.dxTry - xEnd).val * (x + step.dxTry).val) := by
    rw [Fl.lt_iff, Fl.val_zero, Fl.val_mul, hs0]
  by_cases hc : 0 < (x + step.dxTry - xEnd) * (x + step.dxTry - 0)
  · right
    refine ⟨by simp only [driverPrepare, hc, if_true], ?_⟩
    by_contra hle
    rw [not_lt] at hle
    rw [hcond] at hc
    have h1 : (x + step.dxTry - xEnd).val ≤ 0 := by
      rw [Fl.val_sub]; exact F.rnd_nonpos (by linarith)
    have h2 := F.rnd_nonpos (mul_nonpos_of_nonpos_of_nonneg h1 hs.le)
    linarith
  · left
    refine ⟨by simp only [driverPrepare, hc, if_false], ?_⟩
    rw [hcond, not_lt] at hc
    by_contra hle
    rw [not_le] at hle
    have hη : 0 ≤ 2 * F.eta / xEnd.val := div_nonneg (by linarith [F.eta_nonneg]) he.le
    have hd := (F.sub_pos hu (x + step.dxTry).ok xEnd.ok (by linarith)).1
    rw [← Fl.val_sub] at hd
    have hA : 0 < (x + step.dxTry - xEnd).val := by linarith
    have ht := F.mul_tiny hu (mul_pos hA hs) (.inl hc)
    have h1 : (x + step.dxTry - xEnd).val * xEnd.val ≤
        (x + step.dxTry - xEnd).val * (x + step.dxTry).val :=
      mul_le_mul_of_nonneg_left (by linarith) hA.le
    have h2 : 9 / 10 * (2 * F.eta / xEnd.val) * xEnd.val < (x + step.dxTry - xEnd).val * xEnd.val :=
      mul_lt_mul_of_pos_right (by linarith) he
    have e : 9 / 10 * (2 * F.eta / xEnd.val) * xEnd.val = 9 / 5 * F.eta := by
      field_simp; ring
    rw [e] at h2
    linarith [F.eta_nonneg]

/-- Where a step of the driver leads to. -/
theorem fl_prepare_step {d : Fl F} (hd : 0 < d)
    (hdx : d ≤ (driverPrepare 0 xEnd x step).dxTry) :
    0 ≤ (x + d).val ∧
    (x + d).val ≤ xEnd.val + 3 * F.u * xEnd.val + 2 * F.eta / xEnd.val := by
  have hd' : 0 < d.val := by have := (Fl.lt_iff _ _).1 hd; rwa [Fl.val_zero] at this
  have he : 0 < xEnd.val := by linarith
  have hu0 := F.u_nonneg
  have hη : 0 ≤ 2 * F.eta / xEnd.val := div_nonneg (by linarith [F.eta_nonneg]) he.le
  have hue : 0 ≤ F.u * xEnd.val := mul_nonneg hu0 he.le
  refine ⟨by rw [Fl.val_add]; exact F.rnd_nonneg (by linarith), ?_⟩
  rcases fl_prepare hu hx hxe hpos with ⟨h1, h2⟩ | ⟨h1, -⟩
  · rw [h1] at hdx
    have : (x + d).val ≤ (x + step.dxTry).val := by
      rw [Fl.val_add, Fl.val_add]
      have := (Fl.le_iff _ _).1 hdx
      exact F.mono _ _ (by linarith)
    linarith
  · rw [h1] at hdx
    have h2 := (Fl.le_iff _ _).1 hdx
    rw [Fl.val_sub] at h2
    have h3 := (F.sub_pos hu xEnd.ok x.ok hxe).2
    have h4 : F.u * (xEnd.val - x.val) ≤ F.u * xEnd.val :=
      mul_le_mul_of_nonneg_left (by linarith) hu0
    have h5 : x.val + d.val ≤ (1 + F.u) * xEnd.val := by linarith
    have h6 := abs_le.1 (F.near_add _ _ x.ok d.ok)
    rw [abs_of_pos (by linarith : 0 < x.val + d.val)] at h6
    have h7 : F.u * (x.val + d.val) ≤ F.u * ((1 + F.u) * xEnd.val) :=
      mul_le_mul_of_nonneg_left h5 hu0
    have h8 : F.u * (F.u * xEnd.val) ≤ 1 / 10 * (F.u * xEnd.val) :=
      mul_le_mul_of_nonneg_right hu hue
    rw [Fl.val_add]
    linarith [h6.2]

end

/-- The test for the end in floating point. -/
theorem fl_end_test (hu : F.u ≤ 1 / 10) {xEnd x : Fl F} (he : 0 < xEnd.val) :
    (0 ≤ (x - xEnd) * (xEnd - 0) → xEnd.val - 2 * F.eta / xEnd.val ≤ x.val) ∧
    (xEnd.val ≤ x.val → 0 ≤ (x - xEnd) * (xEnd - 0)) := by
  have hs0 : (xEnd - 0).val = xEnd.val := by
    rw [Fl.val_sub, Fl.val_zero, sub_zero, xEnd.ok]
  have hcond : (0 ≤ (x - xEnd) * (xEnd - 0)) ↔ 0 ≤ F.rnd ((x - xEnd).val * xEnd.val) := by
    rw [Fl.le_iff, Fl.val_zero, Fl.val_mul, hs0]
  rw [hcond]
  constructor
  · intro h
    by_contra hc
    rw [not_le] at hc
    have hη : 0 ≤ 2 * F.eta / xEnd.val := div_nonneg (by linarith [F.eta_nonneg]) he.le
    have hneg : (x - xEnd).val ≤ -(9 / 10 * (xEnd.val - x.val)) := by
      rw [Fl.val_sub]
      have h1 := abs_le.1 (F.near_sub x.ok xEnd.ok)
      rw [abs_of_neg (by linarith : x.val - xEnd.val < 0)] at h1
      have : F.u * -(x.val - xEnd.val) ≤ 1 / 10 * -(x.val - xEnd.val) :=
        mul_le_mul_of_nonneg_right hu (by linarith)
      linarith [h1.2]
    have ha : 0 < -((x - xEnd).val) * xEnd.val := mul_pos (by linarith) he
    have ht := F.mul_tiny hu ha (.inr (by rw [neg_mul, neg_neg]; exact h))
    have h2 : 9 / 10 * (2 * F.eta / xEnd.val) * xEnd.val < -((x - xEnd).val) * xEnd.val :=
      mul_lt_mul_of_pos_right (by linarith) he
    have e : 9 / 10 * (2 * F.eta / xEnd.val) * xEnd.val = 9 / 5 * F.eta := by
      field_simp; ring
    rw [e] at h2
    linarith [F.eta_nonneg]
  · intro h
    apply F.rnd_nonneg
    apply mul_nonneg _ he.le
    rw [Fl.val_sub]
    exact F.rnd_nonneg (by linarith)

theorem fl_driverLoop_end (hu : F.u ≤ 1 / 10) {stepper : Stepper (Fl F) N Scr}
    (hs : AdvancesFl stepper) {xEnd : Fl F} (he : 0 < xEnd.val) :
    ∀ (left nStep : Nat) (scr : Scr) (x : Fl F) (y : Vec (Fl F) N)
    (step : StepState (Fl F)) (r : DriverResult (Fl F) N Scr), 0 ≤ x.val → x.val < xEnd.val →
    0 < step.dxTry → driverLoop stepper 0 xEnd left nStep scr x y step = .ok r →
    (xEnd.val - 2 * F.eta / xEnd.val ≤ r.x.val ∧
      r.x.val ≤ xEnd.val + 3 * F.u * xEnd.val + 2 * F.eta / xEnd.val) ∧
    nStep + 1 ≤ r.steps ∧ r.steps ≤ nStep + left
  | 0, nStep, scr, x, y, step, r, _, _, _, h => by simp [driverLoop] at h
  | left + 1, nStep, scr, x, y, step, r, hx, hx', hpos, h => by
    simp only [driverLoop, bind, Except.bind] at h
    have hp1 : 0 < (driverPrepare 0 xEnd x step).dxTry := by
      rcases fl_prepare hu hx hx' hpos with ⟨h1, -⟩ | ⟨h1, -⟩
      · rw [h1]; exact hpos
      · rw [h1]
        show (0 : Fl F).val < (xEnd - x).val
        rw [Fl.val_zero, Fl.val_sub]
        have := (F.sub_pos hu xEnd.ok x.ok hx').1
        linarith
    cases hst : stepper scr x y (driverPrepare 0 xEnd x step) with
    | error e => simp [hst] at h
    | ok v =>
      obtain ⟨scr', x', y', st'⟩ := v
      obtain ⟨d, a1, a2, rfl, a3⟩ := hs _ _ _ _ _ _ _ _ hst hp1
      obtain ⟨b1, b2⟩ := fl_prepare_step hu hx hx' hpos a1 a2
      simp only [hst] at h
      split at h
      · next hend =>
        simp only [Except.ok.injEq] at h
        subst h
        exact ⟨⟨(fl_end_test hu he).1 hend, b2⟩, le_refl _, by simp only; omega⟩
      · next hend =>
        have hlt' : (x + d).val < xEnd.val := by
          by_contra hc
          rw [not_lt] at hc
          exact hend ((fl_end_test hu he).2 hc)
        obtain ⟨c1, c2, c3⟩ := fl_driverLoop_end hu hs he left (nStep + 1) scr' (x + d) y'
          { st' with
            first := false
            prevReject := if st'.reject then true else st'.prevReject } r b1 hlt' a3 h
        exact ⟨c1, by omega, by omega⟩

/-- C100.  In floating point, over a positive interval from zero, with a positive initial step and
a stepper that advances by a positive amount not more than requested: if the driver returns, the
independent variable is at the end of the interval up to three rounding errors (and underflow). -/
theorem C100_ends_at_the_end_with_rounding (hu : F.u ≤ 1 / 10) (stepper : Stepper (Fl F) N Scr)
    (hs : AdvancesFl stepper) (maxSteps : Nat) (scr : Scr) (xEnd : Fl F) (he : 0 < xEnd)
    (y : Vec (Fl F) N) (dxTry : Fl F) (hpos : 0 < dxTry) (r : DriverResult (Fl F) N Scr)
    (h : driverSolve stepper maxSteps scr 0 xEnd y dxTry = .ok r) :
    |r.x.val - xEnd.val| ≤ 3 * F.u * xEnd.val + 2 * F.eta / xEnd.val ∧
      1 ≤ r.steps ∧ r.steps ≤ maxSteps := by
  have he' : 0 < xEnd.val := by have := (Fl.lt_iff _ _).1 he; rwa [Fl.val_zero] at this
  obtain ⟨⟨h1, h2⟩, h3, h4⟩ := fl_driverLoop_end hu hs he' maxSteps 0 scr 0 y (StepState.init dxTry) r
    (by rw [Fl.val_zero]) (by rw [Fl.val_zero]; exact he') hpos h
  refine ⟨?_, by omega, by omega⟩
  have := mul_nonneg F.u_nonneg he'.le
  rw [abs_le]
  constructor <;> linarith

/-- From within three rounding errors of the end the next full step ends exactly at the end. -/
theorem fl_last_step (hu : F.u ≤ 1 / 10) {stepper : Stepper (Fl F) N Scr} (hs : AdvancesFl stepper)
    {xEnd : Fl F} (he : 0 < xEnd.val) {h : K} (hh : 8 * (F.u * xEnd.val) ≤ h)
    (htiny : 2 * F.eta / xEnd.val ≤ F.u * xEnd.val)
    (hok : ∀ scr x y st, 0 < st.dxTry → ∃ scr' x' y' st', stepper scr x y st =
      .ok (scr', x', y', st') ∧ (x.val + h ≤ x'.val ∨ x' = x + st.dxTry) ∧ h ≤ st'.dxTry.val)
    (left nStep : Nat) (scr : Scr) (x : Fl F) (y : Vec (Fl F) N) (step : StepState (Fl F))
    (hx : xEnd.val - 3 * (F.u * xEnd.val) ≤ x.val) (hx' : x.val < xEnd.val)
    (hpos : h ≤ step.dxTry.val) :
    ∃ r, driverLoop stepper 0 xEnd (left + 1) nStep scr x y step = .ok r ∧ r.x = xEnd := by
  have hu0 := F.u_nonneg
  have hU : 0 ≤ F.u * xEnd.val := mul_nonneg hu0 he.le
  have hU' : F.u * xEnd.val ≤ 1 / 10 * xEnd.val := mul_le_mul_of_nonneg_right hu he.le
  have hUpos : 0 < F.u * xEnd.val := by
    rcases eq_or_lt_of_le hU with h0 | h0
    · rw [← h0] at hx; linarith
    · exact h0
  have hx0 : 0 ≤ x.val := by linarith
  have hp : 0 < step.dxTry := by show (0 : Fl F).val < _; rw [Fl.val_zero]; linarith
  have hsum : xEnd.val + 2 * F.eta / xEnd.val < (x + step.dxTry).val := by
    rw [Fl.val_add]
    have h1 := abs_le.1 (F.near_add _ _ x.ok step.dxTry.ok)
    rw [abs_of_pos (by linarith : 0 < x.val + step.dxTry.val)] at h1
    have h2 : (1 - F.u) * (xEnd.val + 5 * (F.u * xEnd.val)) ≤ (1 - F.u) * (x.val + step.dxTry.val) :=
      mul_le_mul_of_nonneg_left (by linarith) (by linarith)
    have h3 : F.u * (F.u * xEnd.val) ≤ 1 / 10 * (F.u * xEnd.val) := mul_le_mul_of_nonneg_right hu hU
    linarith [h1.1]
  rcases fl_prepare hu hx0 hx' hp with ⟨-, h2⟩ | ⟨h1, -⟩
  · linarith
  · have hd : xEnd - x = (⟨xEnd.val - x.val, F.sterbenz _ _ xEnd.ok x.ok (by linarith)
        (by linarith)⟩ : Fl F) := by
      ext
      rw [Fl.val_sub]
      exact F.sterbenz _ _ xEnd.ok x.ok (by linarith) (by linarith)
    have hxe : x + (xEnd - x) = xEnd := by
      ext
      rw [hd, Fl.val_add]
      simp only [add_sub_cancel]
      exact xEnd.ok
    have hpp : 0 < (driverPrepare 0 xEnd x step).dxTry := by
      rw [h1]
      show (0 : Fl F).val < (xEnd - x).val
      rw [hd, Fl.val_zero]
      simp only
      linarith
    obtain ⟨scr', x', y', st', hst, hadv, hnext⟩ := hok scr x y _ hpp
    have hx'e : x' = xEnd := by
      rcases hadv with hadv | hadv
      · obtain ⟨d, a1, a2, rfl, a3⟩ := hs _ _ _ _ _ _ _ _ hst hpp
        rw [h1] at a2
        have a2' : d.val ≤ xEnd.val - x.val := by
          have := (Fl.le_iff _ _).1 a2
          simp only [hd] at this
          exact this
        have : (x + d).val ≤ xEnd.val := by
          rw [Fl.val_add]
          exact F.rnd_le xEnd.ok (by linarith)
        linarith
      · rw [hadv, h1]
        exact hxe
    subst hx'e
    refine ⟨⟨scr', y', if 0 < nStep ∧ st'.last = true then step.dxTry else st'.dxTry, x', nStep + 1⟩,
      ?_, rfl⟩
    simp only [driverLoop, bind, Except.bind, hst]
    rw [if_pos ((fl_end_test hu he).2 (le_refl _))]

theorem fl_driverLoop_progress (hu : F.u ≤ 1 / 10) {stepper : Stepper (Fl F) N Scr}
    (hs : AdvancesFl stepper) {xEnd : Fl F} (he : 0 < xEnd.val) {h : K} (h0 : 0 < h)
    (hh : 8 * (F.u * xEnd.val) ≤ h) (htiny : 2 * F.eta / xEnd.val ≤ F.u * xEnd.val)
    (hok : ∀ scr x y st, 0 < st.dxTry → ∃ scr' x' y' st', stepper scr x y st =
      .ok (scr', x', y', st') ∧ (x.val + h ≤ x'.val ∨ x' = x + st.dxTry) ∧ h ≤ st'.dxTry.val) :
    ∀ (left nStep : Nat) (scr : Scr) (x : Fl F) (y : Vec (Fl F) N) (step : StepState (Fl F)),
    0 ≤ x.val → x.val < xEnd.val → h ≤ step.dxTry.val → xEnd.val - x.val < left * (h / 2) →
    ∃ r, driverLoop stepper 0 xEnd (left + 1) nStep scr x y step = .ok r
  | 0, nStep, scr, x, y, step, _, hx', _, hl => by
    simp at hl; linarith
  | left + 1, nStep, scr, x, y, step, hx, hx', hpos, hl => by
    have hu0 := F.u_nonneg
    have hU : 0 ≤ F.u * xEnd.val := mul_nonneg hu0 he.le
    have hU' : F.u * xEnd.val ≤ 1 / 10 * xEnd.val := mul_le_mul_of_nonneg_right hu he.le
    have hp : 0 < step.dxTry := by show (0 : Fl F).val < _; rw [Fl.val_zero]; linarith
    have hpp : 0 < (driverPrepare 0 xEnd x step).dxTry := by
      rcases fl_prepare hu hx hx' hp with ⟨h1, -⟩ | ⟨h1, -⟩
      · rw [h1]; exact hp
      · rw [h1]
        show (0 : Fl F).val < (xEnd - x).val
        rw [Fl.val_zero, Fl.val_sub]
        have := (F.sub_pos hu xEnd.ok x.ok hx').1
        linarith
    obtain ⟨scr', x', y', st', hst, hadv, hnext⟩ := hok scr x y _ hpp
    obtain ⟨d, a1, a2, ex, a3⟩ := hs _ _ _ _ _ _ _ _ hst hpp
    have hb := fl_prepare_step hu hx hx' hp a1 a2
    rw [← ex] at hb
    push_cast at hl
    rw [driverLoop]
    simp only [bind, Except.bind, hst]
    by_cases hend : 0 ≤ (x' - xEnd) * (xEnd - 0)
    · rw [if_pos hend]; exact ⟨_, rfl⟩
    · rw [if_neg hend]
      have hlt : x'.val < xEnd.val := by
        by_contra hc
        rw [not_lt] at hc
        exact hend ((fl_end_test hu he).2 hc)
      have hcase : x.val + h / 2 ≤ x'.val ∨ xEnd.val - 3 * (F.u * xEnd.val) ≤ x'.val := by
        rcases hadv with hadv | hadv
        · left; linarith
        · rcases fl_prepare hu hx hx' hp with ⟨h1, h2⟩ | ⟨h1, -⟩
          · left
            rw [h1] at hadv
            rw [hadv]
            rw [Fl.val_add] at h2 ⊢
            simp only
            have hp' : 0 < step.dxTry.val := by linarith
            have n1 := abs_le.1 (F.near_add _ _ x.ok step.dxTry.ok)
            rw [abs_of_pos (by linarith : 0 < x.val + step.dxTry.val)] at n1
            have n2 : F.u * (x.val + step.dxTry.val) ≤ 1 / 10 * (x.val + step.dxTry.val) :=
              mul_le_mul_of_nonneg_right hu (by linarith)
            have n3 : x.val + step.dxTry.val ≤ 2 * xEnd.val := by linarith [n1.1]
            have n4 : F.u * (x.val + step.dxTry.val) ≤ F.u * (2 * xEnd.val) :=
              mul_le_mul_of_nonneg_left n3 hu0
            linarith [n1.1]
          · right
            rw [h1] at hadv
            rw [hadv, Fl.val_add, Fl.val_sub]
            have n1 := abs_le.1 (F.near_sub xEnd.ok x.ok)
            rw [abs_of_pos (by linarith : 0 < xEnd.val - x.val)] at n1
            have n2 : F.u * (xEnd.val - x.val) ≤ F.u * xEnd.val :=
              mul_le_mul_of_nonneg_left (by linarith) hu0
            have n3 := abs_le.1 (F.near_add _ _ x.ok (xEnd - x).ok)
            rw [Fl.val_sub, abs_of_nonneg (add_nonneg hx (F.rnd_nonneg (by linarith)))] at n3
            have n4 : F.u * (x.val + F.rnd (xEnd.val - x.val)) ≤ F.u * (2 * xEnd.val) :=
              mul_le_mul_of_nonneg_left (by linarith [n1.2]) hu0
            linarith [n1.1, n3.1]
      rcases hcase with hc | hc
      · exact fl_driverLoop_progress hu hs he h0 hh htiny hok left (nStep + 1) scr' x' y' _ hb.1 hlt
          hnext (by linarith)
      · obtain ⟨r, hr, -⟩ := fl_last_step hu hs he hh htiny hok left (nStep + 1) scr' x' y'
          { st' with
            first := false
            prevReject := if st'.reject then true else st'.prevReject } hc hlt hnext
        exact ⟨r, hr⟩

/-- C100, success: if every call of the stepper succeeds and advances by at least `h` (or by all
that was asked for), suggesting at least `h` again, where `h` is at least eight rounding errors of
the end of the interval, and `(maxSteps - 1) h` exceeds twice the interval, then the driver returns
also in floating point: it does not stop short of the end because of rounding. -/
theorem C100_returns_with_progress_with_rounding (hu : F.u ≤ 1 / 10)
    (stepper : Stepper (Fl F) N Scr) (hs : AdvancesFl stepper) (steps : Nat) (scr : Scr)
    (xEnd : Fl F) (he : 0 < xEnd) (h : K) (h0 : 0 < h) (hh : 8 * (F.u * xEnd.val) ≤ h)
    (htiny : 2 * F.eta / xEnd.val ≤ F.u * xEnd.val)
    (hok : ∀ scr x y st, 0 < st.dxTry → ∃ scr' x' y' st', stepper scr x y st =
      .ok (scr', x', y', st') ∧ (x.val + h ≤ x'.val ∨ x' = x + st.dxTry) ∧ h ≤ st'.dxTry.val)
    (y : Vec (Fl F) N) (dxTry : Fl F) (hdx : h ≤ dxTry.val) (hmax : 2 * xEnd.val < steps * h) :
    ∃ r, driverSolve stepper (steps + 1) scr 0 xEnd y dxTry = .ok r := by
  have he' : 0 < xEnd.val := by have := (Fl.lt_iff _ _).1 he; rwa [Fl.val_zero] at this
  exact fl_driverLoop_progress hu hs he' h0 hh htiny hok steps 0 scr 0 y _ (by rw [Fl.val_zero])
    (by rw [Fl.val_zero]; exact he') hdx (by rw [Fl.val_zero]; linarith)

/-- C100 for doubles: for an interval of at least `1e-100` the end is met up to `2^-51` of the
interval. -/
theorem C100_ends_at_the_end_in_doubles (stepper : Stepper (Fl binary64) N Scr)
    (hs : AdvancesFl stepper) (maxSteps : Nat) (scr : Scr) (xEnd : Fl binary64)
    (he : 1 / 10 ^ 100 ≤ xEnd.val) (y : Vec (Fl binary64) N) (dxTry : Fl binary64)
    (hpos : 0 < dxTry) (r : DriverResult (Fl binary64) N Scr)
    (h : driverSolve stepper maxSteps scr 0 xEnd y dxTry = .ok r) :
    |r.x.val - xEnd.val| ≤ xEnd.val / 2 ^ 51 := by
  have hu : binary64.u = 1 / 2 ^ 53 := rfl
  have hη : binary64.eta = 1 / 2 ^ 1075 := rfl
  have he0 : 0 < xEnd.val := lt_of_lt_of_le (by positivity) he
  have h1 := (C100_ends_at_the_end_with_rounding (by rw [hu]; norm_num) stepper hs maxSteps scr xEnd
    (by show (0 : Fl binary64).val < _; rw [Fl.val_zero]; exact he0) y dxTry hpos r h).1
  refine h1.trans ?_
  have h2 : 2 * binary64.eta / xEnd.val ≤ xEnd.val / 2 ^ 53 := by
    rw [hη, div_le_div_iff₀ he0 (by positivity)]
    have a : (1 / 10 ^ 100) * (1 / 10 ^ 100) ≤ xEnd.val * xEnd.val :=
      mul_le_mul he he (by positivity) he0.le
    refine le_trans ?_ a
    have b : (2 : ℚ) * (1 / 2 ^ 1075) * 2 ^ 53 = 1 / 2 ^ 1021 := by
      rw [show (2 : ℚ) ^ 1075 = 2 ^ 1021 * (2 * 2 ^ 53) by rw [← pow_succ', ← pow_add]]
      field_simp
    have c : (1 : ℚ) / 10 ^ 100 * (1 / 10 ^ 100) = 1 / 10 ^ 200 := by
      rw [div_mul_div_comm, one_mul, ← pow_add]
    rw [b, c]
    apply one_div_le_one_div_of_le (by positivity)
    calc (10 : ℚ) ^ 200 ≤ 16 ^ 200 := pow_le_pow_left₀ (by norm_num) (by norm_num) _
      _ = 2 ^ 800 := by rw [show (16 : ℚ) = 2 ^ 4 by norm_num, ← pow_mul]
      _ ≤ 2 ^ 1021 := pow_le_pow_right₀ (by norm_num) (by norm_num)
  rw [hu]
  norm_num at h2 ⊢
  linarith

/-! ### Examples -/

namespace Example

/-- A stepper that takes the full step and suggests the same step again. -/
def fullSteps64 : Stepper (Fl binary64) 1 Unit := fun scr x y st =>
  .ok (scr, x + st.dxTry, y, st)

theorem fullSteps64_advances : AdvancesFl fullSteps64 := by
  intro scr x y st scr' x' y' st' h hp
  simp only [fullSteps64, Except.ok.injEq, Prod.mk.injEq] at h
  obtain ⟨-, rfl, -, rfl⟩ := h
  exact ⟨st.dxTry, hp, (Fl.le_iff _ _).2 (le_refl _), rfl, hp⟩

end Example

/-- Steps of 0.3 and an end at 1: the fourth step is truncated and ends exactly at 1. -/
example : (driverSolve Example.fullSteps64 10 () 0 (Fl.of binary64 1) (fun _ => 0)
      (Fl.of binary64 (3 / 10))).toOption.map (fun r => (r.x.val, r.steps)) = some (1, 4) := by
  decide +kernel

/-- A stepper that takes the full step and always suggests a step of ten. -/
def Example.tenSteps64 : Stepper (Fl binary64) 1 Unit := fun scr x y st =>
  .ok (scr, x + st.dxTry, y, { st with dxTry := Fl.of binary64 10 })

theorem Example.tenSteps64_advances : AdvancesFl Example.tenSteps64 := by
  intro scr x y st scr' x' y' st' h hp
  simp only [tenSteps64, Except.ok.injEq, Prod.mk.injEq] at h
  obtain ⟨-, rfl, -, rfl⟩ := h
  refine ⟨st.dxTry, hp, (Fl.le_iff _ _).2 (le_refl _), rfl, ?_⟩
  show (0 : Fl binary64) < Fl.of binary64 10
  decide +kernel

/-- Two truncated steps: from 0.2, the sum of 0.2 and the rounded difference to the end 0.856 is the
double below 0.856; the next step ends exactly at the end. -/
example : (driverSolve Example.tenSteps64 10 () 0 (Fl.of binary64 (856 / 1000)) (fun _ => 0)
      (Fl.of binary64 (2 / 10))).toOption.map (fun r => (decide (r.x.val = rnd64 (856 / 1000)), r.steps)) =
    some (true, 3) := by decide +kernel

/-- In doubles the end is not always met exactly (contrast C41): from 0.441 to 0.943 the driver ends
one unit in the last place beyond the end. -/
example : (driverSolve Example.tenSteps64 10 () 0 (Fl.of binary64 (943 / 1000)) (fun _ => 0)
      (Fl.of binary64 (441 / 1000))).toOption.map (fun r => (r.x.val - rnd64 (943 / 1000), r.steps)) =
    some (1 / 2 ^ 53, 2) := by decide +kernel

/-- The assumptions on progress are met, with `h = 1/5`. -/
example : ∃ r, driverSolve Example.tenSteps64 (10 + 1) () 0 (Fl.of binary64 (856 / 1000)) (fun _ => 0)
    (Fl.of binary64 (2 / 10)) = .ok r :=
  C100_returns_with_progress_with_rounding (by decide +kernel) Example.tenSteps64
    Example.tenSteps64_advances 10 () _ (by decide +kernel) (1 / 5) (by norm_num)
    (by decide +kernel) (by decide +kernel)
    (fun scr x y st _ => ⟨_, _, _, _, rfl, .inr rfl, by
      show 1 / 5 ≤ rnd64 10
      decide +kernel⟩) _ _ (by decide +kernel) (by decide +kernel)

end DLB
