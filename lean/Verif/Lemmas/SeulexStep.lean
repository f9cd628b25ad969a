import Verif.Lemmas.Seulex
/-
Inversion lemmas for the extrapolation stepper, for any arithmetic.
-/
set_option autoImplicit false
set_option linter.unusedSectionVars false

namespace DLB

variable {S : Type} {n : Nat}
variable [Zero S] [Add S] [Sub S] [Mul S] [Div S] [Neg S] [NatCast S] [OfScientific S]
variable [LT S] [DecidableLT S] [LE S] [DecidableLE S] [BEq S] [Consts S] [MathOps S]

/-- Whether `seul` succeeds and what it returns does not depend on the value of `theta_` before. -/
theorem seulLoop_theta (E : SeulexEnv S n) (a : Nat → S) (x0 dx : S) (k : Nat)
    (scale : Vec S (n + 1)) : ∀ (left nn : Nat) (xnew : S) (yTemp dy : Vec S (n + 1)) (θ θ' : S),
    (seulLoop E a x0 dx k scale left nn xnew yTemp dy θ).ok
      = (seulLoop E a x0 dx k scale left nn xnew yTemp dy θ').ok ∧
    (seulLoop E a x0 dx k scale left nn xnew yTemp dy θ).y
      = (seulLoop E a x0 dx k scale left nn xnew yTemp dy θ').y
  | 0, _, _, _, _, _, _ => ⟨rfl, rfl⟩
  | left + 1, nn, xnew, yTemp, dy, θ, θ' => by
    simp only [seulLoop]
    split
    · exact ⟨rfl, rfl⟩
    by_cases hc : nn = 1 ∧ k ≤ 1
    · simp only [hc, and_self, if_true, true_and]
    · have hc' : ∀ z : S, ¬(nn = 1 ∧ k ≤ 1 ∧ (1.0 : S) < z) := fun z h => hc ⟨h.1, h.2.1⟩
      simp only [hc, hc', if_false]
      exact seulLoop_theta E a x0 dx k scale left _ _ _ _ _ _

/-- The result of the sub-steps of column `l`. -/
def subSteps (E : SeulexEnv S n) (dfdy : Mat S (n + 1)) (x : S) (y0 : Vec S (n + 1)) (dx : S)
    (scale : Vec S (n + 1)) (l : Nat) : SeulResult S n :=
  seulLoop E (systemArray dfdy (dx / ((nSeq l : Nat) : S))) x (dx / ((nSeq l : Nat) : S)) l scale
    (nSeq l - 1) 1 (x + dx / ((nSeq l : Nat) : S)) y0
    (E.linearSolve (systemArray dfdy (dx / ((nSeq l : Nat) : S)))
      (E.derivatives (x + dx / ((nSeq l : Nat) : S)) y0)) 0

theorem seul_subSteps {E : SeulexEnv S n} {dfdy : Mat S (n + 1)} {θ x : S} {y0 : Vec S (n + 1)}
    {dx : S} {l : Nat} {scale : Vec S (n + 1)} {r : SeulResult S n}
    (h : seul E dfdy θ x y0 dx l scale = .ok r) :
    r.ok = (subSteps E dfdy x y0 dx scale l).ok ∧ r.y = (subSteps E dfdy x y0 dx scale l).y := by
  unfold seul at h
  split at h
  · simp only [Except.ok.injEq] at h
    subst h
    exact seulLoop_theta E _ x _ l scale _ _ _ _ _ _ _
  · simp at h

theorem seul_ok {E : SeulexEnv S n} {dfdy : Mat S (n + 1)} {θ x : S} {y0 : Vec S (n + 1)}
    {dx : S} {l : Nat} {scale : Vec S (n + 1)} (h : l < iMaxx) :
    ∃ r, seul E dfdy θ x y0 dx l scale = .ok r := by
  simp [seul, h]

theorem rejectWithOrder_inv {st st' : Inner S n} {k : Nat} {o : Outcome S}
    (h : rejectWithOrder st k = .ok (st', o)) : st'.y = st.y ∧ st'.table = st.table ∧
      st'.theta = st.theta ∧ st'.dxOpt = st.dxOpt ∧ st'.temp = st.temp ∧
      (st'.kTarg = st.kTarg ∨ (1 < st.kTarg ∧ st'.kTarg = st.kTarg - 1)) ∧
      o = .reject (st.dxOpt st'.kTarg) := by
  unfold rejectWithOrder readAt at h
  simp only [bind, Except.bind] at h
  by_cases c1 : 1 < st.kTarg
  · simp only [c1, if_true, true_and] at h
    split at h
    · cases h
    split at h
    · cases h
    rename_i t1 _ _ t0 _
    by_cases c2 : t1 < (0.7 : S) * t0
    · simp only [c2, if_true] at h
      split at h
      · cases h
      rename_i d hd
      split at hd
      · cases hd; cases h; exact ⟨rfl, rfl, rfl, rfl, rfl, Or.inr ⟨c1, rfl⟩, rfl⟩
      · cases hd
    · simp only [c2, if_false] at h
      split at h
      · cases h
      rename_i d hd
      split at hd
      · cases hd; cases h; exact ⟨rfl, rfl, rfl, rfl, rfl, Or.inl rfl, rfl⟩
      · cases hd
  · simp only [c1, if_false, false_and] at h
    split at h
    · cases h
    rename_i d hd
    split at hd
    · cases hd; cases h; exact ⟨rfl, rfl, rfl, rfl, rfl, Or.inl rfl, rfl⟩
    · cases hd

/-- What the decision after a column does: nothing to the solution; accepting requires that the error
is not above one; rejecting hands out an optimal step of a column from 1 to `k`. -/
theorem decideOrder_inv {first last prevReject : Bool} {err : S} {k : Nat} {st st' : Inner S n}
    {o : Outcome S} (hk1 : 1 ≤ k) (hT1 : 1 ≤ st.kTarg)
    (h : decideOrder first last prevReject err k st = .ok (st', o)) :
    st'.y = st.y ∧ st'.table = st.table ∧ st'.theta = st.theta ∧ st'.dxOpt = st.dxOpt ∧
      st'.temp = st.temp ∧
      (o = .accept → err ≤ (1.0 : S) ∨ ¬ (1.0 : S) < err) ∧
      (∀ d, o = .reject d → ∃ i, 1 ≤ i ∧ i ≤ k ∧ d = st.dxOpt i) := by
  have acc : err ≤ (1.0 : S) ∨ ¬ (1.0 : S) < err → (Except.ok (st, Outcome.accept) :
      Except Fault (Inner S n × Outcome S)) = .ok (st', o) →
      st'.y = st.y ∧ st'.table = st.table ∧ st'.theta = st.theta ∧ st'.dxOpt = st.dxOpt ∧
      st'.temp = st.temp ∧ (o = .accept → err ≤ (1.0 : S) ∨ ¬ (1.0 : S) < err) ∧
      (∀ d, o = .reject d → ∃ i, 1 ≤ i ∧ i ≤ k ∧ d = st.dxOpt i) := by
    intro he h
    cases h
    exact ⟨rfl, rfl, rfl, rfl, rfl, fun _ => he, by simp⟩
  have rej : ∀ (s₁ : Inner S n) (l : Nat), s₁.y = st.y → s₁.table = st.table →
      s₁.theta = st.theta → s₁.dxOpt = st.dxOpt → s₁.temp = st.temp → 1 ≤ s₁.kTarg → s₁.kTarg ≤ k →
      rejectWithOrder s₁ l = .ok (st', o) →
      st'.y = st.y ∧ st'.table = st.table ∧ st'.theta = st.theta ∧ st'.dxOpt = st.dxOpt ∧
      st'.temp = st.temp ∧ (o = .accept → err ≤ (1.0 : S) ∨ ¬ (1.0 : S) < err) ∧
      (∀ d, o = .reject d → ∃ i, 1 ≤ i ∧ i ≤ k ∧ d = st.dxOpt i) := by
    intro s₁ l e1 e2 e3 e4 e5 a1 a2 h
    obtain ⟨g1, g2, g3, g4, g5, g6, rfl⟩ := rejectWithOrder_inv h
    refine ⟨g1.trans e1, g2.trans e2, g3.trans e3, g4.trans e4, g5.trans e5, by simp, ?_⟩
    intro d hd
    cases hd
    rw [e4]
    refine ⟨st'.kTarg, ?_, ?_, rfl⟩ <;> omega
  unfold decideOrder at h
  split at h
  · rename_i hc
    exact acc (Or.inl (by simp at hc; exact hc.2)) h
  split at h
  · rename_i hc; exact acc (Or.inl hc.2.2) h
  split at h
  · cases h
  split at h
  · exact rej { st with kTarg := k } _ rfl rfl rfl rfl rfl hk1 (Nat.le_refl _) h
  split at h
  · rename_i hc; exact acc (Or.inl hc.2) h
  split at h
  · cases h
  split at h
  · rename_i hc; exact rej _ _ rfl rfl rfl rfl rfl hT1 (by omega) h
  split at h
  · split at h
    · exact rej _ _ rfl rfl rfl rfl rfl hT1 (by omega) h
    · rename_i hc; exact acc (Or.inr hc) h
  · cases h
    exact ⟨rfl, rfl, rfl, rfl, rfl, by simp, by simp⟩

/-- What the decision after a column does to the target order: while the loop goes on the order stays, and
the error of the target column is above one; a rejection lowers the order, or hands out the optimal step of the
target column, whose error is above one; a rejection has an error above one. -/
theorem decideOrder_order {first last prevReject : Bool} {err : S} {k : Nat} {st st' : Inner S n}
    {o : Outcome S}
    (h : decideOrder first last prevReject err k st = .ok (st', o)) :
    st'.errOld = st.errOld ∧
    (o = .next → st'.kTarg = st.kTarg ∧ (k = st.kTarg → ¬ err ≤ (1.0 : S))) ∧
    (∀ d, o = .reject d → (st'.kTarg < st.kTarg ∨ (st'.kTarg = st.kTarg ∧ d = st'.dxOpt st.kTarg ∧
        st.kTarg ≤ k ∧ (k = st.kTarg → ¬ err ≤ (1.0 : S)))) ∧
      ∃ c : Nat, 1 ≤ c ∧ ((1.0 : S) < err ∨ (c : S) * (4.0 : S) < err ∨ (c : S) * (2.0 : S) < err)) := by
  have errOld : ∀ (s₁ : Inner S n) (l : Nat), s₁.errOld = st.errOld →
      rejectWithOrder s₁ l = .ok (st', o) → st'.errOld = st.errOld := by
    intro s₁ l e h
    unfold rejectWithOrder readAt at h
    simp only [bind, Except.bind] at h
    repeat' split at h
    all_goals first
      | cases h; done
      | (cases h; first | exact e | (split <;> exact e))
  have np : ∀ j, 1 ≤ nSeq j := by
    intro j
    induction j using nSeq.induct with
    | case1 => decide
    | case2 => decide
    | case3 i ih => simp only [nSeq]; omega
  unfold decideOrder at h
  split at h
  · cases h; exact ⟨rfl, by simp, by simp⟩
  split at h
  · cases h; exact ⟨rfl, by simp, by simp⟩
  split at h
  · cases h
  split at h
  · rename_i hc
    obtain ⟨g1, g2, g3, g4, g5, g6, rfl⟩ := rejectWithOrder_inv h
    refine ⟨errOld { st with kTarg := k } k rfl h, by simp, fun d hd => ⟨Or.inl ?_, nSeq st.kTarg * nSeq (st.kTarg + 1),
      Nat.mul_pos (np _) (np _), Or.inr (Or.inl hc.2.2)⟩⟩
    dsimp only at g6
    omega
  split at h
  · cases h; exact ⟨rfl, by simp, by simp⟩
  rename_i hno
  split at h
  · cases h
  split at h
  · rename_i hc
    obtain ⟨g1, g2, g3, g4, g5, g6, rfl⟩ := rejectWithOrder_inv h
    refine ⟨errOld _ _ rfl h, by simp, fun d hd => ⟨?_, nSeq (k + 1), np _, Or.inr (Or.inr hc.2)⟩⟩
    rcases g6 with g6 | g6
    · refine Or.inr ⟨g6, ?_, by omega, fun hk he => hno ⟨hk, he⟩⟩
      cases hd
      rw [g6, g4]
    · exact Or.inl (by omega)
  split at h
  · rename_i hk1
    split at h
    · rename_i he1
      obtain ⟨g1, g2, g3, g4, g5, g6, rfl⟩ := rejectWithOrder_inv h
      refine ⟨errOld _ _ rfl h, by simp, fun d hd => ⟨?_, 1, Nat.le_refl _, Or.inl he1⟩⟩
      rcases g6 with g6 | g6
      · refine Or.inr ⟨g6, ?_, by omega, by omega⟩
        cases hd
        rw [g6, g4]
      · exact Or.inl (by omega)
    · cases h; exact ⟨rfl, by simp, by simp⟩
  · cases h
    exact ⟨rfl, fun _ => ⟨rfl, fun hk he => hno ⟨hk, he⟩⟩, by simp⟩

/-- The factor by which the step is multiplied, seulex_LAPACK.C:438-451. -/
def stepFactor (err : S) (k : Nat) : S :=
  let expo := (1.0 : S) / ((k + 1 : Nat) : S)
  let facmin := MathOps.pow (0.1 : S) expo
  if err == (0.0 : S) then (1.0 : S) / facmin
  else foamMax (facmin / (4.0 : S))
    (foamMin ((1.0 : S) / facmin) ((0.93 : S) / MathOps.pow (err / (0.8 : S)) expo))

theorem optimalStep_inv {dx err : S} {k : Nat} {st st' : Inner S n}
    (h : optimalStep dx err k st = .ok st') : st'.y = st.y ∧ st'.table = st.table ∧
      st'.theta = st.theta ∧ st'.kTarg = st.kTarg ∧
      st'.errOld = foamMax ((4.0 : S) * err) ((1 : Nat) : S) ∧
      st'.dxOpt = (fun i => if i = k then absS (dx * stepFactor err k) else st.dxOpt i) := by
  unfold optimalStep writeAt at h
  simp only [bind, Except.bind] at h
  split at h
  · cases h
  rename_i d hd
  split at h
  · cases h
  split at hd
  · cases hd; cases h; exact ⟨rfl, rfl, rfl, rfl, rfl, rfl⟩
  · cases hd

/-- The possible results of one iteration of the loop over the columns; `fl` is `first || last`. -/
inductive ColumnCase (E : SeulexEnv S n) (fl : Bool) (dfdy : Mat S (n + 1)) (x dx : S)
    (y0 scale : Vec S (n + 1)) (k : Nat) (st st' : Inner S n) : Outcome S → Prop
  /-- the sub-steps failed -/
  | failed (h : (subSteps E dfdy x y0 dx scale k).ok = false) (hy : st'.y = st.y)
      (ht : st'.table = st.table) (hd : st'.dxOpt = st.dxOpt) (hT : st'.kTarg = st.kTarg) :
      ColumnCase E fl dfdy x dx y0 scale k st st' (.reject (absS dx * (0.5 : S)))
  /-- first column -/
  | first (h : (subSteps E dfdy x y0 dx scale k).ok = true) (hk : k = 0)
      (hy : st'.y = (subSteps E dfdy x y0 dx scale k).y) (hd : st'.dxOpt = st.dxOpt)
      (hT : st'.kTarg = st.kTarg) :
      ColumnCase E fl dfdy x dx y0 scale k st st' .next
  /-- the error is too large or increases -/
  | diverged (tb' : Nat → Vec S (n + 1)) (h : (subSteps E dfdy x y0 dx scale k).ok = true)
      (hk : 1 ≤ k)
      (he : extrapolate k (fun i => if i = k - 1 then (subSteps E dfdy x y0 dx scale k).y
        else st.table i) st.y = .ok (tb', st'.y)) (ht : st'.table = tb')
      (herr : (1.0 : S) / Consts.SMALL < errorEstimate scale st'.y (tb' 0) ∨
        (1 < k ∧ st.errOld ≤ errorEstimate scale st'.y (tb' 0))) (hd : st'.dxOpt = st.dxOpt)
      (hT : st'.kTarg = st.kTarg) :
      ColumnCase E fl dfdy x dx y0 scale k st st' (.reject (absS dx * (0.5 : S)))
  /-- a decision by the order control -/
  | decided (o : Outcome S) (tb' : Nat → Vec S (n + 1))
      (h : (subSteps E dfdy x y0 dx scale k).ok = true) (hk : 1 ≤ k)
      (he : extrapolate k (fun i => if i = k - 1 then (subSteps E dfdy x y0 dx scale k).y
        else st.table i) st.y = .ok (tb', st'.y)) (ht : st'.table = tb')
      (herr : ¬((1.0 : S) / Consts.SMALL < errorEstimate scale st'.y (tb' 0) ∨
        (1 < k ∧ st.errOld ≤ errorEstimate scale st'.y (tb' 0))))
      (hd : st'.dxOpt = fun i => if i = k then
        absS (dx * stepFactor (errorEstimate scale st'.y (tb' 0)) k) else st.dxOpt i)
      (hacc : o = .accept → errorEstimate scale st'.y (tb' 0) ≤ (1.0 : S) ∨
        ¬ (1.0 : S) < errorEstimate scale st'.y (tb' 0))
      (hrej : ∀ d, o = .reject d → ∃ i, 1 ≤ i ∧ i ≤ k ∧ d = st'.dxOpt i)
      (hfl : fl = true → o ≠ .accept → ¬ errorEstimate scale st'.y (tb' 0) ≤ (1.0 : S))
      (hE : st'.errOld = foamMax ((4.0 : S) * errorEstimate scale st'.y (tb' 0)) ((1 : Nat) : S))
      (hTn : o = .next → st'.kTarg = st.kTarg ∧
        (k = st.kTarg → ¬ errorEstimate scale st'.y (tb' 0) ≤ (1.0 : S)))
      (hTr : ∀ d, o = .reject d → (st'.kTarg < st.kTarg ∨ (st'.kTarg = st.kTarg ∧
          d = st'.dxOpt st.kTarg ∧ st.kTarg ≤ k ∧
          (k = st.kTarg → ¬ errorEstimate scale st'.y (tb' 0) ≤ (1.0 : S)))) ∧
        ∃ c : Nat, 1 ≤ c ∧ ((1.0 : S) < errorEstimate scale st'.y (tb' 0) ∨
          (c : S) * (4.0 : S) < errorEstimate scale st'.y (tb' 0) ∨
          (c : S) * (2.0 : S) < errorEstimate scale st'.y (tb' 0))) :
      ColumnCase E fl dfdy x dx y0 scale k st st' o

theorem column_inv {E : SeulexEnv S n} {first last prevReject : Bool} {dfdy : Mat S (n + 1)}
    {x dx : S} {y0 scale : Vec S (n + 1)} {k : Nat} {st st' : Inner S n} {o : Outcome S}
    (hT1 : 1 ≤ st.kTarg)
    (h : column E first last prevReject dfdy x dx y0 scale k st = .ok (st', o)) :
    ColumnCase E (first || last) dfdy x dx y0 scale k st st' o := by
  unfold column at h
  cases hr : seul E dfdy st.theta x y0 dx k scale with
  | error e => rw [hr] at h; simp [bind, Except.bind] at h
  | ok r =>
    obtain ⟨r1, r2⟩ := seul_subSteps hr
    rw [hr] at h
    simp only [bind, Except.bind] at h
    split at h
    · rename_i hok
      cases h
      exact .failed (by rw [← r1]; exact hok) rfl rfl rfl rfl
    rename_i hok
    have hok' : (subSteps E dfdy x y0 dx scale k).ok = true := by
      rw [← r1]; simpa using hok
    split at h
    · rename_i hk
      cases h
      exact .first hok' hk r2 rfl rfl
    rename_i hk
    split at h
    · cases h
    rename_i tb htb
    unfold writeAt at htb
    rw [if_pos (by by_cases hb : k - 1 < kMaxx; exact hb; rw [if_neg hb] at htb; cases htb)] at htb
    cases htb
    split at h
    · cases h
    rename_i v hv
    obtain ⟨tb', y'⟩ := v
    rw [r2] at hv
    simp only at h
    split at h
    · cases h
    rename_i row0 hrow
    unfold readAt at hrow
    rw [if_pos (by decide)] at hrow
    cases hrow
    split at h
    · rename_i hc
      cases h
      exact .diverged tb' hok' (by omega) hv rfl hc rfl rfl
    rename_i hc
    split at h
    · cases h
    rename_i s₂ hs₂
    obtain ⟨o1, o2, o3, o4, o5, o6⟩ := optimalStep_inv hs₂
    simp only at o1 o2 o3 o4 o5 o6
    obtain ⟨d1, d2, d3, d4, d5, d6, d7⟩ := decideOrder_inv (by omega) (by omega) h
    obtain ⟨q1, q2, q3⟩ := decideOrder_order h
    rw [o4] at q2 q3
    have hy : st'.y = y' := d1.trans o1
    refine .decided o tb' hok' (by omega) (by rw [hy]; exact hv) (d2.trans o2) ?_ ?_ ?_ ?_ ?_ ?_ ?_ ?_
    · rw [hy]; exact hc
    · rw [hy, d4, o6]
    · rw [hy]; exact d6
    · intro d hd
      obtain ⟨i, i1, i2, i3⟩ := d7 d hd
      exact ⟨i, i1, i2, by rw [d4]; exact i3⟩
    · intro hfl ho he
      rw [hy] at he
      unfold decideOrder at h
      rw [if_pos (by rw [hfl]; simpa using he)] at h
      cases h
      exact ho rfl
    · rw [q1, o5, hy]
    · rw [hy]; exact q2
    · rw [hy]; exact q3

theorem Agree.refl (k : Nat) (st : Inner S n) : Agree k st st :=
  ⟨rfl, rfl, rfl, rfl, fun _ _ => rfl, fun _ _ => rfl, fun _ _ => rfl⟩

/-- An invariant of the loop over the columns: if it holds before column 0 and is preserved by
columns that neither accept nor reject, then the loop ends with a column entered with it. -/
theorem columnLoop_inv {E : SeulexEnv S n} {first last prevReject : Bool} {dfdy : Mat S (n + 1)}
    {x dx : S} {y0 scale : Vec S (n + 1)} (P : Nat → Inner S n → Prop)
    (hP : ∀ k st st', 1 ≤ st.kTarg → P k st →
      ColumnCase E (first || last) dfdy x dx y0 scale k st st' .next → P (k + 1) st') :
    ∀ (left k : Nat) (st : Inner S n) (a : Attempt S n), P k st → 1 ≤ st.kTarg → st.kTarg ≤ 11 →
      k ≤ st.kTarg + 1 → st.kTarg + 2 ≤ left + k →
      columnLoop E first last prevReject dfdy x dx y0 scale left k st = .ok a →
      ∃ stk, P a.k stk ∧ a.k ≤ 12 ∧
        (∀ d, a.reject = some d → ColumnCase E (first || last) dfdy x dx y0 scale a.k stk a.st (.reject d)) ∧
        (a.reject = none → ColumnCase E (first || last) dfdy x dx y0 scale a.k stk a.st .accept) := by
  intro left
  induction left with
  | zero => intro k st a _ _ _ hk hl; omega
  | succ left ih =>
    intro k st a hp hT1 hT hk hl h
    obtain ⟨s', t', o, e1, e2, ha, b1, b2, hn, hacc⟩ :=
      (column_agree E first last prevReject dfdy x dx y0 scale (Agree.refl k st) hT1 hT hk).ex
    have hcase := column_inv hT1 e1
    unfold columnLoop at h
    simp only [hk, if_true, e1, bind, Except.bind] at h
    cases o with
    | next =>
      obtain ⟨g1, g2, g3⟩ := hn rfl
      exact ih (k + 1) s' a (hP k st s' hT1 hp hcase) b1 b2 (by omega) (by omega) h
    | accept =>
      cases h
      exact ⟨st, hp, by show k ≤ 12; omega, by simp, fun _ => hcase⟩
    | reject d =>
      cases h
      refine ⟨st, hp, by show k ≤ 12; omega, ?_, by simp⟩
      intro d' hd
      cases hd
      exact hcase

theorem ite_cases {α : Type} (b : Bool) (u v : α) :
    (if b = true then u else v) = v ∨ (if b = true then u else v) = u := by
  cases b
  · exact Or.inl rfl
  · exact Or.inr rfl

/-- Inversion of the attempts of a step.  `Q dfdy dx st` is an invariant of the attempts: if it holds
for the first and every rejected attempt passes it on, the accepted attempt was started with it. -/
theorem attempts_inv {E : SeulexEnv S n} {forward first last : Bool} {x : S}
    {y0 scale : Vec S (n + 1)} (Q : Mat S (n + 1) → S → Inner S n → Prop)
    (hQ : ∀ dfdy dxNew st prevReject (a : Attempt S n) d θ J, Q dfdy dxNew st → 1 ≤ st.kTarg →
      st.kTarg ≤ 11 →
      columnLoop E first last prevReject dfdy x (if forward then dxNew else -dxNew) y0 scale
        (st.kTarg + 2) 0 { st with errOld := 0 } = .ok a → a.reject = some d →
      (J = dfdy ∨ J = E.jacobian x a.st.y) → Q J d { a.st with theta := θ }) :
    ∀ (fuel : Nat) (prevReject jacUpdated : Bool) (dfdy : Mat S (n + 1)) (dxNew : S)
      (st : Inner S n) (r : StepResult S n), Q dfdy dxNew st → 1 ≤ st.kTarg → st.kTarg ≤ 11 →
      attempts E forward first last x y0 scale fuel prevReject jacUpdated dfdy dxNew st = .ok r →
      ∃ dxNew st pr, Q r.dfdy dxNew st ∧ 1 ≤ st.kTarg ∧ st.kTarg ≤ 11 ∧
        r.dx = (if forward then dxNew else -dxNew) ∧
        columnLoop E first last pr r.dfdy x r.dx y0 scale (st.kTarg + 2) 0 { st with errOld := 0 }
          = .ok ⟨r.k, r.st, none⟩ ∧ pr = r.prevReject := by
  intro fuel
  induction fuel with
  | zero => intro _ _ _ _ _ _ _ _ _ h; cases h
  | succ fuel ih =>
    intro prevReject jacUpdated dfdy dxNew st r hq hT1 hT h
    obtain ⟨a, b, e1, -, -, -, -, b1, b2, -⟩ :=
      columnLoop_agree E first last prevReject dfdy x (if forward then dxNew else -dxNew) y0 scale
        (st.kTarg + 2) 0 { st with errOld := 0 } { st with errOld := 0 } (Agree.refl _ _) hT1 hT
        (by omega) (by show st.kTarg + 2 ≤ _; omega)
    unfold attempts at h
    simp only [e1, bind, Except.bind] at h
    obtain ⟨ak, as, ar⟩ := a
    cases ar with
    | none =>
      cases h
      exact ⟨dxNew, st, prevReject, hq, hT1, hT, rfl, e1, rfl⟩
    | some d =>
      refine ih _ _ _ _ _ _ ?_ ?_ ?_ h
      · refine hQ dfdy dxNew st prevReject ⟨ak, as, some d⟩ d _ _ hq hT1 hT e1 rfl ?_
        exact ite_cases _ _ _
      · exact b1
      · exact b2

end DLB
