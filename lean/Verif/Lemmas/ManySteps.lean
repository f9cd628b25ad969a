import Verif.Lemmas.SmallTimeStep
import Mathlib.Analysis.SpecialFunctions.Pow.Real
/-
Lemmas for C123: over a short time every step is accepted at the first attempt, and the suggested steps do not shrink.
-/
set_option autoImplicit false
set_option linter.unusedSectionVars false

namespace DLB
open Spec

section
variable {K : Type} [Field K] [LinearOrder K] [IsStrictOrderedRing K] {n : Nat} [MathOps K]

/-- A law of roots that the growth of the steps relies on, in exact arithmetic. -/
structure RootLaws (K : Type) [Field K] [LinearOrder K] [MathOps K] : Prop where
  root_le : ∀ (x a : K) (k : Nat), 0 < x → 0 ≤ a → x ≤ a ^ (k + 1) → MathOps.pow x ((1.0 : K) / ((k + 1 : Nat) : K)) ≤ a

theorem stepFactor_ge (hm : PowLaws K) (hr : RootLaws K) {err : K} (h0 : 0 ≤ err) (h : err ≤ 1 / 4) {k : Nat} (hk : k ≤ 12) :
    1 ≤ stepFactor err k := by
  have he : (0 : K) < (1.0 : K) / ((k + 1 : Nat) : K) :=
    div_pos (by norm_num) (by exact_mod_cast Nat.succ_pos k)
  have hf := hm.pow_le_one (0.1 : K) _ (by norm_num) (by norm_num) he
  have hp := hm.pow_pos (0.1 : K) ((1.0 : K) / ((k + 1 : Nat) : K)) (by norm_num)
  have one : (1 : K) ≤ (1.0 : K) / MathOps.pow (0.1 : K) ((1.0 : K) / ((k + 1 : Nat) : K)) := by
    rw [le_div_iff₀ hp, show (1.0 : K) = 1 by norm_num, one_mul]
    rw [show (1.0 : K) = 1 by norm_num] at hf
    exact hf
  unfold stepFactor
  dsimp only
  split
  · exact one
  · rename_i hne
    have h00 : (0.0 : K) = 0 := by norm_num
    rw [h00, beq_iff_eq] at hne
    have hpos : 0 < err := lt_of_le_of_ne h0 (Ne.symm hne)
    have hx : 0 < err / (0.8 : K) := div_pos hpos (by norm_num)
    have hroot := hr.root_le (err / (0.8 : K)) (93 / 100) k hx (by norm_num) (by
      have h1 : err / (0.8 : K) ≤ 5 / 16 := by
        rw [div_le_iff₀ (by norm_num)]
        norm_num
        linarith
      have h2 : ((93 : K) / 100) ^ 13 ≤ (93 / 100) ^ (k + 1) :=
        pow_le_pow_of_le_one (by norm_num) (by norm_num) (by omega)
      have h3 : (5 : K) / 16 ≤ (93 / 100) ^ 13 := by norm_num
      linarith)
    have hpp := hm.pow_pos (err / (0.8 : K)) ((1.0 : K) / ((k + 1 : Nat) : K)) hx
    have two : (1 : K) ≤ (0.93 : K) / MathOps.pow (err / (0.8 : K)) ((1.0 : K) / ((k + 1 : Nat) : K)) := by
      rw [le_div_iff₀ hpp, one_mul, show (0.93 : K) = 93 / 100 by norm_num]
      exact hroot
    have hmin : ∀ a b : K, 1 ≤ a → 1 ≤ b → 1 ≤ foamMin a b := by
      intro a b ha hb; unfold foamMin; split <;> assumption
    have hmax : ∀ a b : K, 1 ≤ b → 1 ≤ foamMax a b := by
      intro a b hb; unfold foamMax; split
      · rename_i hc; exact le_trans hb hc.le
      · exact hb
    exact hmax _ _ (hmin _ _ one two)

theorem errorEstimate_nonneg (hq : SqrtLaws K) (scale y row : Vec K (n + 1)) : 0 ≤ errorEstimate scale y row := by
  unfold errorEstimate
  refine hq.sqrt_nonneg _ (div_nonneg ?_ (Nat.cast_nonneg _))
  have : ∀ (l : List (Fin (n + 1))) (s : K), 0 ≤ s →
      0 ≤ l.foldl (fun s i => s + sqr ((y i - row i) / scale i)) s := by
    intro l
    induction l with
    | nil => intro s h; exact h
    | cons i l ih =>
      intro s h
      rw [List.foldl_cons]
      refine ih _ (add_nonneg h ?_)
      unfold sqr
      exact mul_self_nonneg _
  exact this _ _ le_rfl

/-- What an attempt with a small step leaves behind: the state is close to the start, and the optimal steps of all columns are at
least the step. -/
theorem columnLoop_small_state (hm : PowLaws K) (hq : SqrtLaws K) (hr : RootLaws K) {E : SeulexEnv K n}
    (hE : LapackContract (n + 1) E.linearSolve) {first last prevReject : Bool}
    {J : Mat K (n + 1)} {x : K} {y0 scale : Vec K (n + 1)} {ρ B L σ dx : K}
    (hS : SmallStep E J x y0 scale ρ B L σ) (hdx : dx ≠ 0) (hs : |dx| * L ≤ 1 / 2)
    (h1 : 6 * |dx| * B ≤ 1) (h2 : 6 * |dx| * B * ((n + 1 : Nat) : K) ≤ σ)
    (h3 : 2 * |dx| * B ≤ ρ) (h4 : |dx| ≤ ρ) (h5 : 16 * 7 ^ 12 * |dx| * B ≤ σ)
    {st : Inner K n} {a : Attempt K n} (hT1 : 1 ≤ st.kTarg) (hT : st.kTarg ≤ 11)
    (h : columnLoop E first last prevReject J x dx y0 scale (st.kTarg + 2) 0
      { st with errOld := 0 } = .ok a) :
    a.reject = none ∧ 1 ≤ a.k ∧ (∀ i, |a.st.y i - y0 i| ≤ 7 ^ 12 * (2 * |dx| * B)) ∧
      ∀ i, 1 ≤ i → i ≤ a.k → |dx| ≤ a.st.dxOpt i := by
  have hsub := subSteps_small hq hE hS hdx hs h1 h2 h3 h4
  have hB := hS.Bpos
  have hσ := hS.σpos
  have hR : 0 ≤ 2 * |dx| * B := by have := abs_nonneg dx; positivity
  have hnone := columnLoop_small hq hE hS hdx hs h1 h2 h3 h4 (by nlinarith [abs_nonneg dx]) hT1 hT h
  have hmono : ∀ m, m ≤ 12 → (7 : K) ^ m * (2 * |dx| * B) ≤ 7 ^ 12 * (2 * |dx| * B) := by
    intro m hm
    exact mul_le_mul_of_nonneg_right (pow_le_pow_right₀ (by norm_num) hm) hR
  have hnear : ∀ (k : Nat) (tb : Nat → Vec K (n + 1)) (y : Vec K (n + 1)), 1 ≤ k → k ≤ 12 →
      Tableau (fun l => (subSteps E J x y0 dx scale l).y) dx (k + 1) tb y →
      ∀ i, |y i - y0 i| ≤ 7 ^ 12 * (2 * |dx| * B) ∧ |tb 0 i - y0 i| ≤ 7 ^ 12 * (2 * |dx| * B) := by
    intro k tb y hk1 hk2 htab i
    have e1 := htab.y (by omega) i
    have e2 := htab.table 0 (by omega) i
    rw [Nat.add_sub_cancel] at e1 e2
    have b1 := extrapolant_near hdx (fun l => (subSteps E J x y0 dx scale l).y i) (y0 i) _ hR
      (fun l => (hsub l).2 i) k 0
    have b2 := extrapolant_near hdx (fun l => (subSteps E J x y0 dx scale l).y i) (y0 i) _ hR
      (fun l => (hsub l).2 i) (k - 1) 1
    rw [Nat.zero_add, ← e1] at b1
    rw [show 1 + (k - 1) = 0 + 1 + (k - 1) by omega, show 0 + 1 + (k - 1) = k by omega, ← e2] at b2
    have m1 := hmono k hk2
    have m2 := hmono (k - 1) (by omega)
    exact ⟨b1.trans m1, b2.trans m2⟩
  have hclose : ∀ (k : Nat) (tb : Nat → Vec K (n + 1)) (y : Vec K (n + 1)), 1 ≤ k → k ≤ 12 →
      Tableau (fun l => (subSteps E J x y0 dx scale l).y) dx (k + 1) tb y →
      errorEstimate scale y (tb 0) ≤ 1 / 4 := by
    intro k tb y hk1 hk2 htab
    have hM : ∀ i, |y i - tb 0 i| ≤ 2 * (7 ^ 12 * (2 * |dx| * B)) := by
      intro i
      obtain ⟨b1, b2⟩ := hnear k tb y hk1 hk2 htab i
      calc |y i - tb 0 i| = |(y i - y0 i) - (tb 0 i - y0 i)| := by ring_nf
        _ ≤ |y i - y0 i| + |tb 0 i - y0 i| := abs_sub _ _
        _ ≤ _ := by linarith
    refine le_trans (errorEstimate_small hq hσ hS.scale (by positivity) hM) ?_
    rw [div_le_iff₀ hσ]
    linarith
  have htabnext : ∀ (k : Nat) (st st' : Inner K n) (tb' : Nat → Vec K (n + 1)), 1 ≤ k →
      Tableau (fun l => (subSteps E J x y0 dx scale l).y) dx k st.table st.y →
      extrapolate k (fun i => if i = k - 1 then (subSteps E J x y0 dx scale k).y
        else st.table i) st.y = .ok (tb', st'.y) → k < iMaxx ∧
      Tableau (fun l => (subSteps E J x y0 dx scale l).y) dx (k + 1) tb' st'.y := by
    intro k st st' tb' hk hp he
    have hk' : k < iMaxx := by
      by_contra hcon
      have hno : ∀ k : Nat, ¬ k < iMaxx → (coeff k 0 : Except Fault K) = .error .ub := by
        intro k hk; simp [coeff, hk]
      unfold extrapolate at he
      cases hr : extrapolateRows k (k - 1) (fun i => if i = k - 1
        then (subSteps E J x y0 dx scale k).y else st.table i) with
      | error e => rw [hr] at he; simp [bind, Except.bind] at he
      | ok u => rw [hr] at he; simp [bind, Except.bind, hno k hcon] at he
    exact ⟨hk', extrapolate_neville hdx hk hk' hp he⟩
  have hopt : ∀ (k : Nat) (tb : Nat → Vec K (n + 1)) (y : Vec K (n + 1)), 1 ≤ k → k ≤ 12 →
      Tableau (fun l => (subSteps E J x y0 dx scale l).y) dx (k + 1) tb y →
      |dx| ≤ absS (dx * stepFactor (errorEstimate scale y (tb 0)) k) := by
    intro k tb y hk1 hk2 htab
    have g := stepFactor_ge hm hr (errorEstimate_nonneg hq scale y (tb 0)) (hclose k tb y hk1 hk2 htab) hk2
    rw [absS_eq, abs_mul, abs_of_nonneg (by linarith : (0 : K) ≤ stepFactor (errorEstimate scale y (tb 0)) k)]
    nlinarith [abs_nonneg dx]
  have hi12 : iMaxx = 13 := rfl
  obtain ⟨stk, ⟨ptab, popt⟩, pk, -, pacc⟩ := columnLoop_inv
    (fun k st => Tableau (fun l => (subSteps E J x y0 dx scale l).y) dx k st.table st.y ∧
      ∀ i, 1 ≤ i → i < k → |dx| ≤ st.dxOpt i)
    (by
      intro k st st' hT1 hp hc
      cases hc with
      | first h hk hy hd =>
        subst hk
        refine ⟨⟨fun _ i => ?_, fun j hj => by omega⟩, by omega⟩
        rw [hy, Nat.zero_add, Nat.sub_self, extrapolant_self]
      | decided _ tb' h hk he ht herr hd hacc hrej hfl hEr =>
        obtain ⟨k12, htab⟩ := htabnext k st st' tb' hk hp.1 he
        refine ⟨?_, fun i i1 i2 => ?_⟩
        · rw [ht]; exact htab
        · rw [hd]
          dsimp only
          split
          · exact hopt k tb' st'.y hk (by omega) htab
          · exact hp.2 i i1 (by omega))
    _ 0 { st with errOld := 0 } a
    ⟨⟨fun h => by omega, fun j hj => by omega⟩, by omega⟩ hT1 hT (by omega)
    (by show st.kTarg + 2 ≤ _; omega) h
  have hc := pacc hnone
  refine ⟨hnone, ?_⟩
  generalize ho : Outcome.accept = o at hc
  cases hc with
  | failed => cases ho
  | first => cases ho
  | diverged => cases ho
  | decided _ tb' h hk he ht herr hd hacc hrej hfl hEr =>
    obtain ⟨k12, htab⟩ := htabnext a.k stk a.st tb' hk ptab he
    refine ⟨hk, fun i => (hnear a.k tb' a.st.y hk pk htab i).1, fun i i1 i2 => ?_⟩
    rw [hd]
    dsimp only
    split
    · exact hopt a.k tb' a.st.y hk pk htab
    · exact popt i i1 (by omega)

theorem cpu_mono {a b : Nat} (h : a ≤ b) : (cpu a : K) ≤ cpu b := by
  induction b with
  | zero =>
    have : a = 0 := by omega
    rw [this]
  | succ b ih =>
    rcases Nat.lt_or_ge a (b + 1) with h' | h'
    · refine (ih (by omega)).trans ?_
      have : (0 : K) ≤ ((nSeq (b + 1) - 1 : Nat) : K) := Nat.cast_nonneg _
      simp only [cpu]
      push_cast
      nlinarith
    · have : a = b + 1 := by omega
      rw [this]

theorem optimalOrder_pos {k kTarg : Nat} {temp : Nat → K} {kopt : Nat} (hk : 1 ≤ k) (h : optimalOrder k kTarg temp = .ok kopt) :
    1 ≤ kopt := by
  have h12 : kMaxx = 12 := rfl
  unfold optimalOrder readAt at h
  simp only [bind, Except.bind] at h
  repeat' split at h
  all_goals first
    | (cases h; omega)
    | cases h

theorem nextStep_grows {k kopt : Nat} {dx D : K} {st : Inner K n} {o : Nat} {d : K} (hD : 0 ≤ D) (hk : 1 ≤ k) (hk' : 1 ≤ kopt)
    (hp : ∀ i, 1 ≤ i → i ≤ k → D ≤ st.dxOpt i) (h : nextStep false k kopt dx st = .ok (o, d)) : D ≤ d := by
  unfold nextStep readAt at h
  simp only [Bool.false_eq_true, if_false, bind, Except.bind] at h
  split at h
  · rename_i hle
    split at h
    · cases h
    · rename_i hv
      cases h
      split at hv
      · cases hv; exact hp _ hk' hle
      · cases hv
  · rename_i hle
    have key : ∀ m : Nat, k ≤ m → (if m < iMaxx then
        (.ok (kopt, st.dxOpt k * cpu m / cpu k) : Except Fault (Nat × K)) else .error .ub) =
          .ok (o, d) → D ≤ d := by
      intro m hm h
      split at h
      · cases h
        have c0 := cpu_pos (K := K) k
        have c1 := cpu_mono (K := K) hm
        have g := hp k hk le_rfl
        rw [le_div_iff₀ c0]
        exact mul_le_mul g c1 c0.le (hD.trans g)
      · cases h
    by_cases hk : k < iMaxx
    swap
    · simp [hk] at h
    by_cases hT : k < st.kTarg
    · by_cases hk1 : k - 1 < iMaxx
      · simp only [hk, hT, hk1, if_true] at h
        refine key _ ?_ h
        split <;> omega
      · simp [hk, hT, hk1] at h
    · simp only [hk, hT, if_true, if_false] at h
      refine key _ ?_ h
      split <;> omega

/-- A small step is accepted at the first attempt, changes the state by little, and suggests a step that is not smaller. -/
theorem small_step_accepted (hm : PowLaws K) (hq : SqrtLaws K) (hr : RootLaws K) {E : SeulexEnv K n}
    (hE : LapackContract (n + 1) E.linearSolve) (hfuel : 1 ≤ E.fuel) {scr : Scratch K n} {x : K} {y : Vec K (n + 1)}
    {step : StepState K} {ρ B L σ : K}
    (hS : SmallStep E (startJacobian E scr x y step) x y (fun i => E.absTol i + E.relTol i * absS (y i)) ρ B L σ)
    (hd : 0 < step.dxTry) (hs : step.dxTry * L ≤ 1 / 2)
    (h1 : 6 * step.dxTry * B ≤ 1) (h2 : 6 * step.dxTry * B * ((n + 1 : Nat) : K) ≤ σ)
    (h3 : 2 * step.dxTry * B ≤ ρ) (h4 : step.dxTry ≤ ρ) (h5 : 16 * 7 ^ 12 * step.dxTry * B ≤ σ)
    (hT : step.first = true ∨ (1 ≤ scr.kTarg ∧ scr.kTarg ≤ 11)) (hfwd : step.forward = true) (hpr : step.prevReject = false) :
    ∃ scr' y' step', seulexSolve E scr x y step = .ok (scr', x + step.dxTry, y', step') ∧
      scr'.dfdy = startJacobian E scr x y step ∧ (∀ i, |y' i - y i| ≤ 7 ^ 12 * (2 * step.dxTry * B)) ∧
      step.dxTry ≤ step'.dxTry ∧ 1 ≤ scr'.kTarg ∧ scr'.kTarg ≤ 11 ∧ step'.forward = true ∧ step'.reject = false ∧
      step'.prevReject = false ∧ step'.last = step.last := by
  obtain ⟨f, hf⟩ : ∃ f, E.fuel = f + 1 := ⟨E.fuel - 1, by omega⟩
  obtain ⟨t1, t2⟩ := startInner_kTarg (E := E) (scr := scr) (y := y) (step := step) hT
  have habs : absS step.dxTry = step.dxTry := by rw [absS_eq, abs_of_pos hd]
  obtain ⟨a, -, e1, -⟩ := columnLoop_agree E step.first step.last step.prevReject (startJacobian E scr x y step) x step.dxTry y
    (fun i => E.absTol i + E.relTol i * absS (y i)) ((startInner E scr y step).kTarg + 2) 0
    { startInner E scr y step with errOld := 0 } { startInner E scr y step with errOld := 0 } (Agree.refl _ _) t1 t2
    (by omega) (by show (startInner E scr y step).kTarg + 2 ≤ _; omega)
  obtain ⟨hacc, hk1, hnear, hopt⟩ := columnLoop_small_state hm hq hr hE hS hd.ne' (by rw [abs_of_pos hd]; exact hs)
    (by rw [abs_of_pos hd]; exact h1) (by rw [abs_of_pos hd]; exact h2) (by rw [abs_of_pos hd]; exact h3)
    (by rw [abs_of_pos hd]; exact h4) (by rw [abs_of_pos hd]; exact h5) t1 t2 e1
  rw [abs_of_pos hd] at hnear hopt
  have hr : attempts E step.forward step.first step.last x y
        (fun i => E.absTol i + E.relTol i * absS (y i)) E.fuel step.prevReject
        (decide (E.jacRedo < (startInner E scr y step).theta)) (startJacobian E scr x y step)
        (absS step.dxTry) (startInner E scr y step) =
      .ok ⟨a.k, a.st, startJacobian E scr x y step, step.dxTry, step.prevReject⟩ := by
    rw [hf, habs, hfwd]
    unfold attempts
    simp only [if_true, bind, Except.bind, e1, hacc]
  rcases C45_step_in_range E scr x y step hT with h | ⟨scr', x', y', step', h, k1, k2⟩
  · exfalso
    have h0 : 0 < iMaxx := by decide
    unfold seulexSolve at h
    simp only [writeAt_ok h0, bind, Except.bind] at h
    unfold startJacobian startInner at hr
    dsimp only at hr
    rw [hr] at h
    dsimp only at h
    split at h
    · rename_i e he
      cases h
      exact optimalOrder_fault _ _ _ he
    split at h
    · rename_i e he
      cases h
      exact nextStep_fault _ _ _ _ _ he
    cases h
  · obtain ⟨r, kopt, kT, dxNew, ha, ho, hn, hx, hy, hdf, hkT, hst⟩ := seulexSolve_inv h
    rw [hr] at ha
    cases ha
    rw [hpr] at hn
    have hgrow := nextStep_grows hd.le hk1 (optimalOrder_pos hk1 ho) hopt hn
    refine ⟨scr', y', step', by rw [h, hx], hdf, ?_, ?_, k1, k2, ?_, ?_, ?_, ?_⟩
    · rw [hy]; exact hnear
    · rw [hst, hfwd]; exact hgrow
    · rw [hst]; exact hfwd
    · rw [hst]
    · rw [hst]
    · rw [hst]

/-- What is known near the initial state of an integration over the time `dt`, and that `dt` is short. -/
structure ShortTime (E : SeulexEnv K n) (z : Vec K (n + 1)) (ρ B L σ dt : K) : Prop where
  ρpos : 0 < ρ
  Bpos : 0 < B
  Lpos : 0 < L
  σpos : 0 < σ
  bound : ∀ x y, |x| ≤ ρ → (∀ i, |y i - z i| ≤ ρ) → ∀ i, |E.derivatives x y i| ≤ B
  temp : ∀ t : K, |t - z 0| ≤ ρ → 200 < t ∧ t ≤ 5000
  rows : ∀ x y, |x| ≤ ρ → (∀ i, |y i - z i| ≤ ρ) → ∀ i, ∑ j, |E.jacobian x y i j| ≤ L
  scale : ∀ i (t : K), 0 ≤ t → σ ≤ E.absTol i + E.relTol i * t
  time : dt * L ≤ 1 / 2 ∧ 6 * dt * B ≤ 1 ∧ 6 * dt * B * ((n + 1 : Nat) : K) ≤ σ ∧ 2 * dt * B ≤ ρ / 2 ∧ dt ≤ ρ / 2 ∧
    16 * 7 ^ 12 * dt * B ≤ σ ∧ 7 ^ 12 * (2 * dt * B) ≤ ρ / 2

/-- Over a short time every step is accepted at the first attempt; the integration returns if `maxSteps` steps of the initial size
cover the time, and hands out a next step that is at least as long as the initial one or the whole time. -/
theorem driver_short (hm : PowLaws K) (hq : SqrtLaws K) (hr : RootLaws K) {E : SeulexEnv K n}
    (hE : LapackContract (n + 1) E.linearSolve) (hfuel : 1 ≤ E.fuel) (hj : E.jacRedo < ((2 : Nat) : K) * E.jacRedo)
    {z : Vec K (n + 1)} {ρ B L σ dt sub : K} (hS : ShortTime E z ρ B L σ dt) (hsub : 0 < sub) :
    ∀ (left nStep : Nat) (scr : Scratch K n) (x : K) (y : Vec K (n + 1)) (step : StepState K),
      0 ≤ x → x < dt → (∀ i, |y i - z i| ≤ 7 ^ 12 * (2 * x * B)) → step.forward = true → step.prevReject = false →
      (step.first = true ∨ (1 ≤ scr.kTarg ∧ scr.kTarg ≤ 11)) →
      (step.first = true ∨ ∀ i, ∑ j, |scr.dfdy i j| ≤ L) → sub ≤ step.dxTry → dt - x ≤ left * sub →
      (∃ r, driverLoop (seulexSolve E) 0 dt left nStep scr x y step = .ok r ∧ ((nStep = 0 → x = 0) → min sub dt ≤ r.dxTry)) ∧
      ((acceptedSteps (seulexSolve E) 0 dt left scr x y step).map Prod.fst).sum = dt - x ∧
      ∀ q ∈ acceptedSteps (seulexSolve E) 0 dt left scr x y step, 0 < q.1 ∧ q.1 ≤ dt ∧ ∀ i, ∑ j, |q.2 i j| ≤ L := by
  obtain ⟨s1, s2, s3, s4, s5, s6, s7⟩ := hS.time
  have hB := hS.Bpos
  intro left
  induction left with
  | zero => intro nStep scr x y step h0 h1 _ _ _ _ _ _ hl; simp at hl; linarith
  | succ left ih =>
    intro nStep scr x y step hx0 hxd hy hfwd hpr hT hJ hle hl
    obtain ⟨pA, pB, p1, p2⟩ := driverPrepare_spec hx0 hxd step (lt_of_lt_of_le hsub hle)
    obtain ⟨st, hst⟩ : ∃ st, driverPrepare 0 dt x step = st := ⟨_, rfl⟩
    rw [hst] at p1 p2 pA pB
    have f1 : st.first = step.first := by
      rw [← hst]; unfold driverPrepare; dsimp only; split <;> rfl
    have f2 : st.forward = step.forward := by
      rw [← hst]; unfold driverPrepare; dsimp only; split <;> rfl
    have f3 : st.prevReject = step.prevReject := by
      rw [← hst]; unfold driverPrepare; dsimp only; split <;> rfl
    have hdle : st.dxTry ≤ dt := by linarith
    have hyρ : ∀ t, 0 ≤ t → t ≤ dt → 7 ^ 12 * (2 * t * B) ≤ ρ / 2 := fun t ht htd => by
      have : 2 * t * B ≤ 2 * dt * B := by nlinarith
      linarith
    have near : ∀ i, |y i - z i| ≤ ρ := fun i => (hy i).trans ((hyρ x hx0 hxd.le).trans (by linarith [hS.ρpos]))
    have hJrows : ∀ i, ∑ j, |startJacobian E scr x y st i j| ≤ L := by
      unfold startJacobian
      split
      · exact hS.rows x y (by rw [abs_of_nonneg hx0]; linarith [hS.ρpos]) near
      · rename_i hn
        rcases hJ with hf | hJ
        · exfalso
          apply hn
          unfold startInner
          dsimp only
          rw [f1, hf, Bool.true_or, if_pos rfl]
          exact decide_eq_true hj
        · exact hJ
    have hSS : SmallStep E (startJacobian E scr x y st) x y (fun i => E.absTol i + E.relTol i * absS (y i)) (ρ / 2) B L σ := by
      refine ⟨by linarith [hS.ρpos], ?_, hB, ?_, hJrows, hS.Lpos, hS.σpos, ?_⟩
      · intro x' z' hx' hz' i
        refine hS.bound x' z' ?_ (fun i => ?_) i
        · have := abs_add_le (x' - x) x
          rw [sub_add_cancel, abs_of_nonneg hx0] at this
          linarith
        · have := abs_add_le (z' i - y i) (y i - z i)
          rw [sub_add_sub_cancel] at this
          linarith [hz' i, hy i, hyρ x hx0 hxd.le]
      · intro t ht
        refine hS.temp t ?_
        have := abs_add_le (t - y 0) (y 0 - z 0)
        rw [sub_add_sub_cancel] at this
        linarith [hy 0, hyρ x hx0 hxd.le]
      · intro i
        rw [absS_eq]
        exact hS.scale i _ (abs_nonneg _)
    have mono : ∀ c : K, 0 ≤ c → c * st.dxTry ≤ c * dt := fun c hc => mul_le_mul_of_nonneg_left hdle hc
    have hN : (0 : K) ≤ ((n + 1 : Nat) : K) := Nat.cast_nonneg _
    obtain ⟨scr', y', step', hsolve, hdf, hnear, hgrow, k1, k2, g1, g2, g3, g4⟩ := small_step_accepted hm hq hr hE hfuel hSS p1
      (by have := mono L hS.Lpos.le; linarith) (by have := mono (6 * B) (by positivity); linarith)
      (by have := mono (6 * B * ((n + 1 : Nat) : K)) (by positivity); linarith)
      (by have := mono (2 * B) (by positivity); linarith) (by linarith)
      (by have := mono (16 * 7 ^ 12 * B) (by positivity); linarith)
      (by rw [f1]; exact hT) (f2.trans hfwd) (f3.trans hpr)
    have hq1 : 0 < x + st.dxTry - x ∧ x + st.dxTry - x ≤ dt ∧ ∀ i, ∑ j, |scr'.dfdy i j| ≤ L := by
      rw [add_sub_cancel_left, hdf]
      exact ⟨p1, hdle, hJrows⟩
    unfold driverLoop acceptedSteps
    simp only [bind, Except.bind, hst, hsolve]
    by_cases hend : 0 ≤ (x + st.dxTry - dt) * (dt - 0)
    · have hdt : x + st.dxTry = dt := by
        refine le_antisymm p2 ?_
        by_contra hc
        rw [not_le] at hc
        have : (x + st.dxTry - dt) * (dt - 0) < 0 := mul_neg_of_neg_of_pos (by linarith) (by linarith)
        linarith
      rw [if_pos hend, if_pos hend]
      refine ⟨⟨_, rfl, fun hx => ?_⟩, ?_, ?_⟩
      · dsimp only
        by_cases hc : 0 < nStep ∧ step'.last = true
        · rw [if_pos hc]
          exact (min_le_left _ _).trans hle
        rw [if_neg hc]
        refine le_trans ?_ hgrow
        rcases lt_or_ge dt (x + step.dxTry) with hl' | hl'
        · have hn0 : nStep = 0 := by
            by_contra hne
            exact hc ⟨Nat.pos_of_ne_zero hne, by rw [g4, pA hl']⟩
          have h0 := hx hn0
          have : st.dxTry = dt := by linarith
          rw [this]
          exact min_le_right _ _
        · rw [pB hl']
          exact (min_le_left _ _).trans hle
      · simp only [List.map_cons, List.map_nil, List.sum_cons, List.sum_nil]
        linarith
      · intro q hq
        rw [List.mem_singleton] at hq
        subst hq
        exact hq1
    · have hlt : x + st.dxTry < dt := by
        by_contra hc
        rw [not_lt] at hc
        exact hend (mul_nonneg (by linarith) (by linarith))
      have hst' : st.dxTry = step.dxTry := by
        rcases lt_or_ge dt (x + step.dxTry) with hc | hc
        · rw [pA hc] at hlt
          simp at hlt
        · rw [pB hc]
      rw [if_neg hend, if_neg hend]
      obtain ⟨i1, i2, i3⟩ := ih (nStep + 1) scr' (x + st.dxTry) y' { step' with
          first := false
          prevReject := if step'.reject then true else step'.prevReject } (by linarith) hlt (by
            intro i
            have := abs_add_le (y' i - y i) (y i - z i)
            rw [sub_add_sub_cancel] at this
            have e : 7 ^ 12 * (2 * (x + st.dxTry) * B) = 7 ^ 12 * (2 * st.dxTry * B) + 7 ^ 12 * (2 * x * B) := by ring
            rw [e]
            linarith [hnear i, hy i]) g1 (by simp [g2, g3]) (Or.inr ⟨k1, k2⟩) (Or.inr (by rw [hdf]; exact hJrows))
          (by
            show sub ≤ step'.dxTry
            rw [hst'] at hgrow
            linarith) (by
            have e : ((left + 1 : Nat) : K) * sub = left * sub + sub := by push_cast; ring
            rw [e] at hl
            rw [hst']
            linarith)
      obtain ⟨q, hq, hq'⟩ := i1
      refine ⟨⟨q, hq, fun _ => hq' (fun h => absurd h (Nat.succ_ne_zero _))⟩, ?_, ?_⟩
      · rw [List.map_cons, List.sum_cons, i2]
        ring
      · intro q hq
        rcases List.mem_cons.1 hq with rfl | hq
        · exact hq1
        · exact i3 q hq

end
end DLB
