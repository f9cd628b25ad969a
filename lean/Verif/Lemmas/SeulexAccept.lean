import Verif.Lemmas.SeulexExact
/-
What an accepted step of the extrapolation stepper is, in exact arithmetic.
-/
set_option autoImplicit false
set_option linter.unusedSectionVars false

namespace DLB
open Spec

section AnyArithmetic
variable {S : Type} {n : Nat}
variable [Zero S] [Add S] [Sub S] [Mul S] [Div S] [Neg S] [NatCast S] [OfScientific S]
variable [LT S] [DecidableLT S] [LE S] [DecidableLE S] [BEq S] [Consts S] [MathOps S]

/-- The state of the attempts at the start of a step. -/
def startInner (E : SeulexEnv S n) (scr : Scratch S n) (y : Vec S (n + 1)) (step : StepState S) :
    Inner S n :=
  ⟨y, if step.first || step.prevReject then ((2 : Nat) : S) * E.jacRedo else scr.theta,
    if step.first then initialOrder E else scr.kTarg, scr.table,
    fun k => if k = 0 then absS ((0.1 : S) * step.dxTry) else scr.dxOpt k,
    fun k => if k = 0 then Consts.great else scr.temp k, 0⟩

/-- The Jacobian at the start of a step. -/
def startJacobian (E : SeulexEnv S n) (scr : Scratch S n) (x : S) (y : Vec S (n + 1))
    (step : StepState S) : Mat S (n + 1) :=
  if decide (E.jacRedo < (startInner E scr y step).theta) = true then E.jacobian x y else scr.dfdy

theorem startInner_kTarg {E : SeulexEnv S n} {scr : Scratch S n} {y : Vec S (n + 1)}
    {step : StepState S} (h : step.first = true ∨ (1 ≤ scr.kTarg ∧ scr.kTarg ≤ 11)) :
    1 ≤ (startInner E scr y step).kTarg ∧ (startInner E scr y step).kTarg ≤ 11 := by
  unfold startInner
  dsimp only
  cases hf : step.first with
  | true => simpa using initialOrder_range E
  | false =>
    rcases h with h | h
    · rw [hf] at h; cases h
    · simpa using h

theorem seulexSolve_inv {E : SeulexEnv S n} {scr scr' : Scratch S n} {x x' : S}
    {y y' : Vec S (n + 1)} {step step' : StepState S}
    (h : seulexSolve E scr x y step = .ok (scr', x', y', step')) :
    ∃ r kopt kT dxNew, attempts E step.forward step.first step.last x y
        (fun i => E.absTol i + E.relTol i * absS (y i)) E.fuel step.prevReject
        (decide (E.jacRedo < (startInner E scr y step).theta)) (startJacobian E scr x y step)
        (absS step.dxTry) (startInner E scr y step) = .ok r ∧
      optimalOrder r.k r.st.kTarg r.st.temp = .ok kopt ∧
      nextStep r.prevReject r.k kopt r.dx r.st = .ok (kT, dxNew) ∧
      x' = x + r.dx ∧ y' = r.st.y ∧ scr'.dfdy = r.dfdy ∧ scr'.kTarg = kT ∧
      step' = { step with
        dxTry := if step.forward then dxNew else -dxNew, dxDid := r.dx, reject := false,
        prevReject := false } := by
  have h0 : 0 < iMaxx := by decide
  unfold seulexSolve at h
  simp only [writeAt_ok h0, bind, Except.bind] at h
  split at h
  · cases h
  rename_i r hr
  split at h
  · cases h
  rename_i kopt hk
  split at h
  · cases h
  rename_i v hv
  obtain ⟨kT, d⟩ := v
  cases h
  exact ⟨r, kopt, kT, d, hr, hk, hv, rfl, rfl, rfl, rfl, rfl⟩

end AnyArithmetic

variable {K : Type} [Field K] [LinearOrder K] [IsStrictOrderedRing K] {n : Nat} [MathOps K]

/-- Laws of the power function that the step control relies on, in exact arithmetic. -/
structure PowLaws (K : Type) [Field K] [LinearOrder K] [MathOps K] : Prop where
  pow_pos : ∀ x e : K, 0 < x → 0 < MathOps.pow x e
  pow_le_one : ∀ x e : K, 0 < x → x ≤ 1 → 0 < e → MathOps.pow x e ≤ 1
  one_le_pow : ∀ x e : K, 1 ≤ x → 0 < e → 1 ≤ MathOps.pow x e

/-- Laws of the square root in exact arithmetic. -/
structure SqrtLaws (K : Type) [Field K] [LinearOrder K] [MathOps K] : Prop where
  sqrt_nonneg : ∀ x : K, 0 ≤ x → 0 ≤ MathOps.sqrt x
  sqrt_mul_self : ∀ x : K, 0 ≤ x → MathOps.sqrt x * MathOps.sqrt x = x

theorem absS_eq (x : K) : absS x = |x| := by
  unfold absS
  split
  · rename_i h; rw [abs_of_neg h]
  · rename_i h; rw [abs_of_nonneg (not_lt.1 h)]

theorem stepFactor_pos (hm : PowLaws K) (err : K) (k : Nat) : 0 < stepFactor err k := by
  unfold stepFactor
  have h := hm.pow_pos (0.1 : K) ((1.0 : K) / ((k + 1 : Nat) : K)) (by norm_num)
  dsimp only
  split
  · exact div_pos (by norm_num) h
  · unfold foamMax
    split
    · exact div_pos h (by norm_num)
    · rename_i hc
      exact lt_of_lt_of_le (div_pos h (by norm_num)) (not_lt.1 hc)

/-! ### Positive steps -/

/-- Optimal steps written so far are positive. -/
def PosOpt (k : Nat) (st : Inner K n) : Prop := ∀ i, i < max 1 k → 0 < st.dxOpt i

theorem columnCase_pos (hm : PowLaws K) {E : SeulexEnv K n} {fl : Bool} {dfdy : Mat K (n + 1)}
    {x dx : K} {y0 scale : Vec K (n + 1)} {k : Nat} {st st' : Inner K n} {o : Outcome K} (hdx : dx ≠ 0)
    (hp : PosOpt k st) (h : ColumnCase E fl dfdy x dx y0 scale k st st' o) :
    PosOpt 0 st' ∧ (∀ d, o = .reject d → 0 < d) ∧ ((∀ d, o ≠ .reject d) → PosOpt (k + 1) st') := by
  have half : 0 < absS dx * (0.5 : K) := by
    rw [absS_eq]; exact mul_pos (abs_pos.2 hdx) (by norm_num)
  have low : PosOpt 0 st := fun i hi => hp i (by omega)
  cases h with
  | failed h hy ht hd =>
    refine ⟨fun i hi => by rw [hd]; exact low i hi, ?_, fun h => absurd rfl (h _)⟩
    intro d hd; cases hd; exact half
  | first h hk hy hd =>
    subst hk
    refine ⟨fun i hi => by rw [hd]; exact low i hi, by simp, fun _ i hi => by rw [hd]; exact hp i hi⟩
  | diverged tb' h hk he ht herr hd =>
    refine ⟨fun i hi => by rw [hd]; exact low i hi, ?_, fun h => absurd rfl (h _)⟩
    intro d hd; cases hd; exact half
  | decided _ tb' h hk he ht herr hd hacc hrej =>
    have all : PosOpt (k + 1) st' := by
      intro i hi
      rw [hd]
      dsimp only
      split
      · rw [absS_eq]; exact abs_pos.2 (mul_ne_zero hdx (stepFactor_pos hm _ _).ne')
      · exact hp i (by omega)
    refine ⟨fun i hi => all i (by omega), ?_, fun _ => all⟩
    intro d hd'
    obtain ⟨i, i1, i2, rfl⟩ := hrej d hd'
    exact all i (by omega)

theorem columnLoop_pos (hm : PowLaws K) {E : SeulexEnv K n} {forward first last prevReject : Bool}
    {dfdy : Mat K (n + 1)} {x d : K} {y0 scale : Vec K (n + 1)} {st : Inner K n} {a : Attempt K n}
    (hd : 0 < d) (hp : 0 < st.dxOpt 0) (hT1 : 1 ≤ st.kTarg) (hT : st.kTarg ≤ 11)
    (h : columnLoop E first last prevReject dfdy x (if forward then d else -d) y0 scale
        (st.kTarg + 2) 0 { st with errOld := 0 } = .ok a) :
      (∀ d', a.reject = some d' → PosOpt 0 a.st ∧ 0 < d') ∧
      (a.reject = none → PosOpt (a.k + 1) a.st) := by
  have ne : (if forward then d else -d) ≠ 0 := by
    split
    · exact hd.ne'
    · exact neg_ne_zero.2 hd.ne'
  obtain ⟨stk, p1, p2, p3, p4⟩ := columnLoop_inv (fun k st => PosOpt k st)
    (fun k st st' _ hp hc => (columnCase_pos hm ne hp hc).2.2 (by simp)) _ 0
    { st with errOld := 0 } a
    (fun i hi => by have : i = 0 := by omega
                    subst this; exact hp) hT1 hT (by omega) (by show st.kTarg + 2 ≤ _; omega) h
  constructor
  · intro d' hd'
    have hc := columnCase_pos hm ne p1 (p3 d' hd')
    exact ⟨hc.1, hc.2.1 d' rfl⟩
  · intro hn
    exact (columnCase_pos hm ne p1 (p4 hn)).2.2 (by simp)

/-- The accepted attempt of a step has a non-zero step size in the direction of integration, and
starts from positive optimal steps. -/
theorem attempts_pos (hm : PowLaws K) {E : SeulexEnv K n} {forward first last : Bool} {x : K}
    {y0 scale : Vec K (n + 1)} {fuel : Nat} {prevReject jacUpdated : Bool} {dfdy : Mat K (n + 1)}
    {dxNew : K} {st : Inner K n} {r : StepResult K n} (hd : 0 < dxNew) (hp : 0 < st.dxOpt 0)
    (hT1 : 1 ≤ st.kTarg) (hT : st.kTarg ≤ 11)
    (h : attempts E forward first last x y0 scale fuel prevReject jacUpdated dfdy dxNew st = .ok r) :
    ∃ d, 0 < d ∧ r.dx = (if forward then d else -d) ∧ PosOpt (r.k + 1) r.st := by
  obtain ⟨d, s, pr, ⟨q1, q2⟩, t1, t2, e, hl, -⟩ := attempts_inv
    (fun _ d st => 0 < d ∧ 0 < st.dxOpt 0) (by
      intro dfdy dxNew st pr a d θ J hq hT1 hT hl hr _
      obtain ⟨p, hd⟩ := (columnLoop_pos hm hq.1 hq.2 hT1 hT hl).1 d hr
      exact ⟨hd, p 0 (by omega)⟩) _ _ _ _ _ _ _ ⟨hd, hp⟩ hT1 hT h
  rw [e] at hl
  exact ⟨d, q1, e, (columnLoop_pos (forward := forward) hm q1 q2 t1 t2 hl).2 rfl⟩

/-! ### First and truncated steps do not grow -/

theorem stepFactor_lt_one (hm : PowLaws K) {err : K} (h : ¬ err ≤ (1.0 : K)) (k : Nat) :
    stepFactor err k < 1 := by
  have h1 : (1.0 : K) = 1 := by norm_num
  rw [h1, not_le] at h
  have he : (0 : K) < (1.0 : K) / ((k + 1 : Nat) : K) :=
    div_pos (by norm_num) (by exact_mod_cast Nat.succ_pos k)
  have hf := hm.pow_le_one (0.1 : K) _ (by norm_num) (by norm_num) he
  have hp := hm.one_le_pow (err / (0.8 : K)) _ (by rw [le_div_iff₀ (by norm_num)]; linarith) he
  unfold stepFactor
  dsimp only
  have hne : ¬ (err == (0.0 : K)) = true := by
    have h0 : (0.0 : K) = 0 := by norm_num
    rw [h0, beq_iff_eq]
    intro h'; rw [h'] at h; linarith
  rw [if_neg hne]
  have a1 : MathOps.pow (0.1 : K) ((1.0 : K) / ((k + 1 : Nat) : K)) / (4.0 : K) < 1 := by
    rw [div_lt_one (by norm_num)]
    have : (4.0 : K) = 4 := by norm_num
    linarith
  have a2 : (0.93 : K) / MathOps.pow (err / (0.8 : K)) ((1.0 : K) / ((k + 1 : Nat) : K)) < 1 := by
    rw [div_lt_one (by linarith)]
    have : (0.93 : K) < 1 := by norm_num
    linarith
  have hmax : ∀ a b : K, a < 1 → b < 1 → foamMax a b < 1 := by
    intro a b ha hb; unfold foamMax; split
    · exact ha
    · exact hb
  have hmin : ∀ a b : K, b < 1 → foamMin a b < 1 := by
    intro a b hb; unfold foamMin; split
    · rename_i hlt; exact lt_trans hlt hb
    · exact hb
  exact hmax _ _ a1 (hmin _ _ a2)

/-- If the step is the first one or truncated, a rejected attempt is followed by a smaller one. -/
theorem columnLoop_shrinks (hm : PowLaws K) {E : SeulexEnv K n} {first last prevReject : Bool}
    {dfdy : Mat K (n + 1)} {x dx : K} {y0 scale : Vec K (n + 1)} {st : Inner K n} {a : Attempt K n}
    (hfl : (first || last) = true) (hdx : dx ≠ 0) (hT1 : 1 ≤ st.kTarg) (hT : st.kTarg ≤ 11)
    (h : columnLoop E first last prevReject dfdy x dx y0 scale (st.kTarg + 2) 0
      { st with errOld := 0 } = .ok a) (d : K) (hd : a.reject = some d) : d < |dx| := by
  have habs := abs_pos.2 hdx
  have step : ∀ {err : K} {k : Nat}, ¬ err ≤ (1.0 : K) → absS (dx * stepFactor err k) < |dx| := by
    intro err k he
    rw [absS_eq, abs_mul, abs_of_pos (stepFactor_pos hm err k)]
    have := stepFactor_lt_one hm he k
    nlinarith
  obtain ⟨stk, p1, -, p3, -⟩ := columnLoop_inv
    (fun k st => ∀ i, 1 ≤ i → i < k → st.dxOpt i < |dx|)
    (by
      intro k s s' _ hp hc i i1 i2
      cases hc with
      | first h hk hy hd => omega
      | decided _ tb' h hk he ht herr hd hacc hrej hl =>
        rw [hd]
        dsimp only
        split
        · exact step (hl hfl (by simp))
        · exact hp i i1 (by omega)) _ 0
    { st with errOld := 0 } a (fun i i1 i2 => by omega) hT1 hT (by omega)
    (by show st.kTarg + 2 ≤ _; omega) h
  have half : absS dx * (0.5 : K) < |dx| := by
    rw [absS_eq]
    have : (0.5 : K) < 1 := by norm_num
    nlinarith
  have hc := p3 d hd
  generalize ho : Outcome.reject d = o at hc
  cases hc with
  | failed => cases ho; exact half
  | first h => cases ho
  | diverged tb' h => cases ho; exact half
  | decided _ tb' h hk he ht herr hopt hacc hrej hl =>
    obtain ⟨i, i1, i2, rfl⟩ := hrej d ho.symm
    rw [hopt]
    dsimp only
    split
    · exact step (hl hfl (by rw [← ho]; simp))
    · exact p1 i i1 (by omega)

theorem attempts_shrinks (hm : PowLaws K) {E : SeulexEnv K n} {forward first last : Bool} {x : K}
    {y0 scale : Vec K (n + 1)} {fuel : Nat} {prevReject jacUpdated : Bool} {dfdy : Mat K (n + 1)}
    {dxNew : K} {st : Inner K n} {r : StepResult K n} (hfl : (first || last) = true)
    (hd : 0 < dxNew) (hp : 0 < st.dxOpt 0) (hT1 : 1 ≤ st.kTarg) (hT : st.kTarg ≤ 11)
    (h : attempts E forward first last x y0 scale fuel prevReject jacUpdated dfdy dxNew st = .ok r) :
    |r.dx| ≤ dxNew := by
  have ne : ∀ d : K, 0 < d → (if forward then d else -d) ≠ 0 := by
    intro d hd; split
    · exact hd.ne'
    · exact neg_ne_zero.2 hd.ne'
  have ab : ∀ d : K, 0 < d → |(if forward then d else -d)| = d := by
    intro d hd; split
    · exact abs_of_pos hd
    · rw [abs_neg, abs_of_pos hd]
  obtain ⟨d, s, pr, ⟨q1, -, q3⟩, t1, t2, e, hl, -⟩ := attempts_inv
    (fun _ d st => 0 < d ∧ 0 < st.dxOpt 0 ∧ d ≤ dxNew) (by
      intro dfdy d₀ st pr a d θ J hq hT1 hT hl hr _
      obtain ⟨p, hd⟩ := (columnLoop_pos hm hq.1 hq.2.1 hT1 hT hl).1 d hr
      have := columnLoop_shrinks hm hfl (ne _ hq.1) hT1 hT hl d hr
      rw [ab _ hq.1] at this
      exact ⟨hd, p 0 (by omega), le_trans this.le hq.2.2⟩) _ _ _ _ _ _ _ ⟨hd, hp, le_refl _⟩ hT1 hT h
  rw [e, ab _ q1]
  exact q3

theorem cpu_pos (k : Nat) : (0 : K) < cpu k := by
  induction k with
  | zero => simp only [cpu, nSeq]; push_cast; norm_num
  | succ k ih =>
    have : (0 : K) ≤ ((nSeq (k + 1) - 1 : Nat) : K) := Nat.cast_nonneg _
    simp only [cpu]
    push_cast
    nlinarith

theorem nextStep_pos {prevReject : Bool} {k kopt : Nat} {dx : K} {st : Inner K n} {o : Nat} {d : K}
    (hdx : dx ≠ 0) (hp : PosOpt (k + 1) st) (h : nextStep prevReject k kopt dx st = .ok (o, d)) :
    0 < d := by
  unfold nextStep at h
  split at h
  · cases hr : readAt iMaxx st.dxOpt (min kopt k) with
    | error e => rw [hr] at h; simp [bind, Except.bind] at h
    | ok v =>
      rw [hr] at h
      simp only [bind, Except.bind] at h
      cases h
      unfold readAt at hr
      split at hr
      · cases hr
        unfold foamMin
        split
        · rw [absS_eq]; exact abs_pos.2 hdx
        · exact hp _ (by omega)
      · cases hr
  split at h
  · cases hr : readAt iMaxx st.dxOpt kopt with
    | error e => rw [hr] at h; simp [bind, Except.bind] at h
    | ok v =>
      rw [hr] at h
      simp only [bind, Except.bind] at h
      cases h
      unfold readAt at hr
      split at hr
      · cases hr; exact hp _ (by omega)
      · cases hr
  · have key : ∀ m : Nat, (if m < iMaxx then
        (.ok (kopt, st.dxOpt k * cpu m / cpu k) : Except Fault (Nat × K)) else .error .ub) =
          .ok (o, d) → 0 < d := by
      intro m h
      split at h
      · cases h
        exact div_pos (mul_pos (hp _ (by omega)) (cpu_pos _)) (cpu_pos _)
      · cases h
    unfold readAt at h
    by_cases hk : k < iMaxx
    swap
    · simp [hk, bind, Except.bind] at h
    by_cases hT : k < st.kTarg
    · by_cases hk1 : k - 1 < iMaxx
      · simp only [hk, hT, hk1, if_true, bind, Except.bind] at h
        exact key _ h
      · simp [hk, hT, hk1, bind, Except.bind] at h
    · simp only [hk, hT, if_true, if_false, bind, Except.bind] at h
      exact key _ h

/-! ### The accepted step -/

/-- The accepted attempt: all its columns succeeded, the solution is the extrapolated value, and the
error estimate is at most one. -/
theorem attempts_tableau {E : SeulexEnv K n} {forward first last : Bool} {x : K}
    {y0 scale : Vec K (n + 1)} {fuel : Nat} {prevReject jacUpdated : Bool} {dfdy : Mat K (n + 1)}
    {dxNew : K} {st : Inner K n} {r : StepResult K n} (hT1 : 1 ≤ st.kTarg) (hT : st.kTarg ≤ 11)
    (hdx : r.dx ≠ 0)
    (h : attempts E forward first last x y0 scale fuel prevReject jacUpdated dfdy dxNew st = .ok r) :
    1 ≤ r.k ∧ r.k ≤ 12 ∧ (∀ l, l ≤ r.k → (subSteps E r.dfdy x y0 r.dx scale l).ok = true) ∧
    (∀ i, r.st.y i = extrapolant (fun l => r.dx / (nSeq l : K))
      (fun l => (subSteps E r.dfdy x y0 r.dx scale l).y i) 0 r.k) ∧
    errorEstimate scale r.st.y (fun i => extrapolant (fun l => r.dx / (nSeq l : K))
      (fun l => (subSteps E r.dfdy x y0 r.dx scale l).y i) 1 r.k) ≤ 1 := by
  obtain ⟨d, s, pr, -, t1, t2, -, hl, -⟩ := attempts_inv (fun _ _ _ => True)
    (fun _ _ _ _ _ _ _ _ _ _ _ _ _ _ => trivial) _ _ _ _ _ _ _ trivial hT1 hT h
  obtain ⟨stk, ⟨pok, ptab⟩, pk, -, pacc⟩ := columnLoop_inv
    (fun k st => (∀ l, l < k → (subSteps E r.dfdy x y0 r.dx scale l).ok = true) ∧
      Tableau (fun l => (subSteps E r.dfdy x y0 r.dx scale l).y) r.dx k st.table st.y)
    (by
      intro k st st' hT1 hp hc
      cases hc with
      | first h hk hy hd =>
        subst hk
        refine ⟨fun l hl => ?_, fun _ i => ?_, fun j hj => by omega⟩
        · have : l = 0 := by omega
          subst this; exact h
        · rw [hy, Nat.zero_add, Nat.sub_self, extrapolant_self]
      | decided _ tb' h hk he ht herr hd hacc hrej =>
        refine ⟨fun l hl => ?_, ?_⟩
        · rcases Nat.lt_succ_iff_lt_or_eq.1 hl with h' | rfl
          · exact hp.1 l h'
          · exact h
        · rw [ht]
          have hk' : k < iMaxx := by
            by_contra hcon
            have hno : ∀ k : Nat, ¬ k < iMaxx → (coeff k 0 : Except Fault K) = .error .ub := by
              intro k hk; simp [coeff, hk]
            unfold extrapolate at he
            cases hr : extrapolateRows k (k - 1) (fun i => if i = k - 1
              then (subSteps E r.dfdy x y0 r.dx scale k).y else st.table i) with
            | error e => rw [hr] at he; simp [bind, Except.bind] at he
            | ok u => rw [hr] at he; simp [bind, Except.bind, hno k hcon] at he
          exact extrapolate_neville hdx hk hk' hp.2 he)
    _ 0 { s with errOld := 0 } ⟨r.k, r.st, none⟩
    ⟨fun l hl => by omega, fun h => by omega, fun j hj => by omega⟩ t1 t2 (by omega)
    (by show s.kTarg + 2 ≤ _; omega) hl
  have hc := pacc rfl
  dsimp only at pok ptab pk hc
  cases hc with
  | decided _ tb' h hk he ht herr hd hacc hrej =>
    have hk' : r.k < iMaxx := by show r.k < 13; omega
    have htab := extrapolate_neville hdx hk hk' ptab he
    have hrow : tb' 0 = fun i => extrapolant (fun l => r.dx / (nSeq l : K))
        (fun l => (subSteps E r.dfdy x y0 r.dx scale l).y i) 1 r.k := by
      funext i
      have := htab.table 0 (by omega) i
      rwa [Nat.add_sub_cancel] at this
    refine ⟨hk, pk, fun l hl => ?_, fun i => ?_, ?_⟩
    · rcases Nat.lt_or_eq_of_le hl with h' | rfl
      · exact pok l h'
      · exact h
    · have := htab.y (by omega) i
      rwa [Nat.add_sub_cancel] at this
    · rw [← hrow]
      have h1 : (1.0 : K) = 1 := by norm_num
      rw [h1] at hacc
      rcases hacc rfl with h | h
      · exact h
      · exact not_lt.1 h

theorem extrapolant_const {dx : K} (hdx : dx ≠ 0) (c : K) {a b : Nat} (hab : a ≤ b) :
    extrapolant (fun l => dx / (nSeq l : K)) (fun _ => c) a b = c := by
  unfold extrapolant
  rw [← Lagrange.eq_interpolate_of_eval_eq (f := Polynomial.C c) _
    (stepSizes_injective hdx).injOn]
  · simp
  · refine lt_of_le_of_lt Polynomial.degree_C_le ?_
    have : 0 < (Finset.Icc a b).card := Finset.card_pos.2 ⟨a, by simp [hab]⟩
    exact_mod_cast this
  · intro i _; simp

end DLB
