import Verif.Model.PyJac
import Verif.Model.Exact
import Mathlib.Algebra.Order.Field.Basic
import Mathlib.Algebra.BigOperators.Fin
import Mathlib.Data.Fin.VecNotation
import Mathlib.Data.Rat.Cast.OfScientific
import Mathlib.Tactic.Ring
import Mathlib.Tactic.Linarith
import Mathlib.Tactic.NormNum
import Mathlib.Tactic.NormNum.OfScientific
/-
C36-C39, C56, C57: the pyJac chemistry model and the ODE chemistry solver, for an arbitrary
integrator and an arbitrary pyJac library.
-/
set_option autoImplicit false
set_option linter.unusedSectionVars false

namespace DLB

variable {K : Type} [Field K] [LinearOrder K] [IsStrictOrderedRing K] {m : Nat} {Scr : Type}

/-! ### Specification -/

/-- `y` is the state vector of the pyJac model for pressure `p`, temperature `T` and composition
`c`: temperature first, then all mass fractions but the last, then pressure. -/
structure Layout (p T : K) (c : List K) (y : Vec K (m + 2)) : Prop where
  size : c.length = m + 1
  temperature : y 0 = T
  species : ∀ i : Fin m, c[i.val]? = some (y i.castSucc.succ)
  pressure : y (Fin.last (m + 1)) = p

/-- Mass fractions computed from a state vector: negative values are replaced by zero, the last
species is what is missing to one. -/
def clippedComposition (y : Vec K (m + 2)) : Vec K (m + 1) :=
  Fin.snoc (α := fun _ => K) (fun i : Fin m => max 0 (y i.castSucc.succ))
    (1 - ∑ i : Fin m, max 0 (y i.castSucc.succ))

/-! ### Lemmas -/

theorem foldl_add_finRange {N : Nat} (f : Fin N → K) (a : K) :
    (List.finRange N).foldl (fun s i => s + f i) a = a + ∑ i, f i := by
  have h : ∀ (l : List (Fin N)) (a : K),
      l.foldl (fun s i => s + f i) a = a + (l.map f).sum := by
    intro l
    induction l with
    | nil => intro a; simp
    | cons x l ih => intro a; rw [List.foldl_cons, ih, List.map_cons, List.sum_cons, add_assoc]
  rw [h, ← List.ofFn_eq_map, List.sum_ofFn]

theorem foamMax_zero_right (x : K) : foamMax x 0 = max 0 x := by
  unfold foamMax; split
  · rw [max_eq_right (by linarith)]
  · rw [max_eq_left (by linarith)]

theorem foamMax_zero_left (x : K) : foamMax 0 x = max 0 x := by
  unfold foamMax; split
  · rw [max_eq_left (by linarith)]
  · rw [max_eq_right (by linarith)]

theorem speciesPos_eq (i : Fin m) : speciesPos i = i.castSucc.succ := rfl

theorem snoc_eq_dite (f : Fin m → K) (x : K) (i : Fin (m + 1)) :
    (Fin.snoc (α := fun _ => K) f x : Vec K (m + 1)) i
      = if h : i.val < m then f ⟨i.val, h⟩ else x := by
  simp only [Fin.snoc]
  split <;> rfl

theorem modelComposition_eq (y : Vec K (m + 2)) : modelComposition y = clippedComposition y := by
  funext i
  simp only [modelComposition, clippedComposition, snoc_eq_dite, foldl_add_finRange,
    foamMax_zero_right, speciesPos_eq, zero_add]
  norm_num

theorem unpackPyJac_eq (y : Vec K (m + 2)) :
    unpackPyJac y = (y (Fin.last (m + 1)), y 0, clippedComposition y) := by
  simp only [unpackPyJac, pressurePos, Prod.mk.injEq, true_and]
  funext i
  simp only [clippedComposition, snoc_eq_dite, foldl_add_finRange, foamMax_zero_left,
    speciesPos_eq, zero_add]
  norm_num

theorem packPyJac_layout (p T : K) (c : List K) (h : c.length = m + 1) :
    Layout p T c (packPyJac p T (fun i : Fin (m + 1) => c[i.val]'(by omega))) := by
  refine ⟨h, by simp [packPyJac], fun i => ?_, by simp [packPyJac]⟩
  have := i.isLt
  simp [packPyJac, List.getElem?_eq_getElem (show i.val < c.length by omega)]

theorem Layout.unique {p T : K} {c : List K} {y y' : Vec K (m + 2)} (h : Layout p T c y)
    (h' : Layout p T c y') : y = y' := by
  funext i
  refine Fin.cases ?_ (fun j => ?_) i
  · rw [h.temperature, h'.temperature]
  · refine Fin.lastCases ?_ (fun j => ?_) j
    · rw [Fin.succ_last, h.pressure, h'.pressure]
    · have := (h.species j).symm.trans (h'.species j)
      simpa using this

theorem sum_clippedComposition (y : Vec K (m + 2)) : ∑ i, clippedComposition y i = 1 := by
  rw [Fin.sum_univ_castSucc]
  simp [clippedComposition]

theorem odePyJacSolve_ok {I : Integrator K (m + 2) Scr} {scr scr' : Scr} {p T dt sub : K}
    {c : List K} {r : IntegrateResult K}
    (h : odePyJacSolve I scr p T c dt sub = .ok (scr', r)) :
    ∃ y y' sub', Layout p T c y ∧ I scr dt y sub = .ok (scr', y', sub') ∧
      r = ⟨y' (Fin.last (m + 1)), y' 0, List.ofFn (clippedComposition y'), dt, sub'⟩ := by
  unfold odePyJacSolve at h
  split at h
  · rename_i hlen
    cases hI : I scr dt (packPyJac p T (fun i : Fin (m + 1) => c[i.val]'(by omega))) sub with
    | error e => rw [hI] at h; simp [bind, Except.bind] at h
    | ok v =>
      obtain ⟨s, y', sub'⟩ := v
      rw [hI] at h
      simp only [bind, Except.bind, Except.ok.injEq, Prod.mk.injEq, unpackPyJac_eq] at h
      obtain ⟨rfl, rfl⟩ := h
      exact ⟨_, _, _, packPyJac_layout p T c hlen, hI, rfl⟩
  · simp at h

/-! ### C36, C37 -/

/-- **C36.** Whatever the ODE integrator returns, afterwards there are as many mass fractions as
before, they sum to exactly one, and all but the last are non-negative. -/
theorem C36_mass_fractions_sum_to_one (I : Integrator K (m + 2) Scr) (scr scr' : Scr)
    (p T dt sub : K) (c : List K) (r : IntegrateResult K)
    (h : odePyJacSolve I scr p T c dt sub = .ok (scr', r)) :
    r.c.length = c.length ∧ r.c.sum = 1 ∧ ∀ x ∈ r.c.dropLast, 0 ≤ x := by
  obtain ⟨y, y', sub', hl, -, rfl⟩ := odePyJacSolve_ok h
  refine ⟨by simp [hl.size], by rw [List.sum_ofFn, sum_clippedComposition], ?_⟩
  intro x hx
  rw [List.ofFn_succ', List.concat_eq_append, List.dropLast_concat, List.mem_ofFn] at hx
  obtain ⟨i, rfl⟩ := hx
  simp [clippedComposition]

/-- **C37, the part that holds.** If the integrator returns a state in which the sum of the
non-negative parts of all but the last species is at most one, every mass fraction is non-negative.
Missing: the same without a condition on the integrator; it is false, see the next theorem. -/
theorem C37_nonnegative_partial (I : Integrator K (m + 2) Scr) (scr scr' : Scr)
    (p T dt sub : K) (c : List K) (r : IntegrateResult K)
    (h : odePyJacSolve I scr p T c dt sub = .ok (scr', r))
    (hI : ∀ y s y' sub', I scr dt y sub = .ok (s, y', sub') →
      ∑ i : Fin m, max 0 (y' i.castSucc.succ) ≤ 1) :
    ∀ x ∈ r.c, 0 ≤ x := by
  obtain ⟨y, y', sub', hl, hi, rfl⟩ := odePyJacSolve_ok h
  have hs := hI _ _ _ _ hi
  intro x hx
  rw [List.mem_ofFn] at hx
  obtain ⟨i, rfl⟩ := hx
  refine Fin.lastCases ?_ (fun j => ?_) i
  · simp only [clippedComposition, Fin.snoc_last]; linarith
  · simp [clippedComposition]

/-- An integrator that adds 1/2 to every mass fraction of a three species mixture. -/
def addHalf : Integrator ℚ 4 Unit := fun _ _ y sub =>
  .ok ((), ![y 0, y 1 + 1 / 2, y 2 + 1 / 2, y 3], sub)

/-- **C37 is false in general.** An integrator whose result violates the sum makes the last mass
fraction negative; nothing is reported. -/
theorem C37_last_species_can_be_negative :
    ∃ (I : Integrator ℚ 4 Unit) (r : IntegrateResult ℚ),
      odePyJacSolve (m := 2) I () 100000 1000 [1 / 4, 1 / 4, 1 / 2] 1 1 = .ok ((), r) ∧
      ∃ x ∈ r.c, x < 0 := by
  have h : (odePyJacSolve (m := 2) addHalf () 100000 1000 [1 / 4, 1 / 4, 1 / 2] 1 1).toOption.map
      (fun v => v.2.c) = some [3 / 4, 3 / 4, -1 / 2] := by decide +kernel
  cases hr : odePyJacSolve (m := 2) addHalf () 100000 1000 [1 / 4, 1 / 4, 1 / 2] 1 1 with
  | error e => rw [hr] at h; simp [Except.toOption] at h
  | ok v =>
    rw [hr] at h
    simp only [Except.toOption, Option.map_some, Option.some.injEq] at h
    refine ⟨addHalf, v.2, hr, -1 / 2, ?_, by norm_num⟩
    rw [h]; simp

/-! ### C38 -/

/-- **C38, layout.** The integrator is started from the state vector with the stated layout, for the
interval `dt` and the step `sub`, and its result is read with the same layout; negative mass
fractions become zero and the last one is the complement. -/
theorem C38_layout (I : Integrator K (m + 2) Scr) (scr : Scr) (p T dt sub : K) (c : List K)
    (y : Vec K (m + 2)) (hy : Layout p T c y) :
    (∀ e, I scr dt y sub = .error e → odePyJacSolve I scr p T c dt sub = .error e) ∧
    ∀ scr' y' sub', I scr dt y sub = .ok (scr', y', sub') →
      ∃ r, odePyJacSolve I scr p T c dt sub = .ok (scr', r) ∧ r.T = y' 0 ∧
        r.p = y' (Fin.last (m + 1)) ∧ r.subDeltaT = sub' ∧ r.deltaT = dt ∧
        (∀ i : Fin m, r.c[i.val]? = some (max 0 (y' i.castSucc.succ))) ∧
        r.c[m]? = some (1 - ∑ i : Fin m, max 0 (y' i.castSucc.succ)) := by
  have hlen := hy.size
  have hyp := hy.unique (packPyJac_layout p T c hlen)
  clear hy
  subst hyp
  constructor
  · intro e he
    simp only [odePyJacSolve, hlen, dif_pos, he]; rfl
  · intro scr' y' sub' h
    refine ⟨⟨_, _, List.ofFn (clippedComposition y'), dt, sub'⟩, ?_, rfl, rfl, rfl, rfl, ?_, ?_⟩
    · simp only [odePyJacSolve, hlen, dif_pos, h]
      simp only [bind, Except.bind, unpackPyJac_eq]
    · intro i
      have := i.isLt
      rw [List.getElem?_ofFn, dif_pos (by omega)]
      simp [clippedComposition, snoc_eq_dite, this]
    · rw [List.getElem?_ofFn, dif_pos (by omega)]
      simp [clippedComposition, snoc_eq_dite]

/-- **C38, round trip.** If the integrator returns the state it was given, pressure, temperature and
a composition that sums to one with non-negative entries come back unchanged. -/
theorem C38_round_trip (I : Integrator K (m + 2) Scr) (scr : Scr) (p T dt sub : K) (c : List K)
    (hlen : c.length = m + 1) (hsum : c.sum = 1) (hpos : ∀ x ∈ c, 0 ≤ x)
    (hI : ∀ y, I scr dt y sub = .ok (scr, y, sub)) :
    odePyJacSolve I scr p T c dt sub = .ok (scr, ⟨p, T, c, dt, sub⟩) := by
  have hy := packPyJac_layout p T c hlen
  set y := packPyJac p T (fun i : Fin (m + 1) => c[i.val]'(by omega)) with hyd
  have hc : c = List.ofFn (fun i : Fin (m + 1) => c[i.val]'(by omega)) := by
    apply List.ext_getElem
    · simp [hlen]
    · intro i h1 h2; rw [List.getElem_ofFn]
  have hsp : ∀ i : Fin m, max 0 (y i.castSucc.succ) = c[i.val]'(by omega) := by
    intro i
    have h := hy.species i
    have hi : i.val < c.length := by have := i.isLt; omega
    rw [List.getElem?_eq_getElem hi, Option.some.injEq] at h
    rw [← h, max_eq_right (hpos _ (List.getElem_mem _))]
  have hcomp : List.ofFn (clippedComposition y) = c := by
    conv_rhs => rw [hc]
    congr 1
    funext i
    refine Fin.lastCases ?_ (fun j => ?_) i
    · simp only [clippedComposition, Fin.snoc_last, hsp, Fin.val_last]
      have : ∑ i : Fin (m + 1), c[i.val]'(by omega) = 1 := by
        rw [← List.sum_ofFn, ← hc, hsum]
      rw [Fin.sum_univ_castSucc] at this
      simp only [Fin.val_castSucc, Fin.val_last] at this
      linarith
    · simp only [clippedComposition, Fin.snoc_castSucc, hsp, Fin.val_castSucc]
  simp only [odePyJacSolve, hlen, dif_pos]
  rw [← hyd, hI y]
  simp only [bind, Except.bind, unpackPyJac_eq, hcomp, hy.temperature, hy.pressure]

/-- **C38, the branch for models with `nSpecie + 2` equations.** There the state has the species
first, then the temperature, then the pressure; the result is read with the same layout, and negative
concentrations become zero. -/
theorem C38_original_layout {N : Nat} (I : Integrator K (N + 2) Scr) (scr : Scr) (p T dt sub : K)
    (c : List K) (hlen : c.length = N) (y : Vec K (N + 2))
    (hc : ∀ i : Fin N, c[i.val]? = some (y i.castSucc.castSucc))
    (hT : y (Fin.last N).castSucc = T) (hp : y (Fin.last (N + 1)) = p) :
    (∀ e, I scr dt y sub = .error e → odeOriginalSolve I scr p T c dt sub = .error e) ∧
    ∀ scr' y' sub', I scr dt y sub = .ok (scr', y', sub') →
      ∃ r, odeOriginalSolve I scr p T c dt sub = .ok (scr', r) ∧
        r.T = y' (Fin.last N).castSucc ∧ r.p = y' (Fin.last (N + 1)) ∧ r.subDeltaT = sub' ∧
        r.deltaT = dt ∧ r.c.length = N ∧
        ∀ i : Fin N, r.c[i.val]? = some (max 0 (y' i.castSucc.castSucc)) := by
  have e : (fun i : Fin (N + 2) => if hi : i.val < N then c[i.val]'(by omega)
      else if i.val = N then T else p) = y := by
    funext i
    refine Fin.lastCases ?_ (fun i => Fin.lastCases ?_ (fun i => ?_) i) i
    · simp [hp]
    · simp [hT]
    · have h := hc i
      have hi : i.val < c.length := by omega
      rw [List.getElem?_eq_getElem hi, Option.some.injEq] at h
      simp [h]
  constructor
  · intro f hf
    simp only [odeOriginalSolve, hlen, dif_pos, e, hf]; rfl
  · intro scr' y' sub' h
    refine ⟨_, by simp only [odeOriginalSolve, hlen, dif_pos, e, h]; rfl, rfl, rfl, rfl, rfl, by simp,
      fun i => ?_⟩
    rw [List.getElem?_ofFn, dif_pos i.isLt, foamMax_zero_left]
    rfl

/-- A case: two species, an integrator that makes the first concentration negative. -/
example : (odeOriginalSolve (N := 2) (fun (_ : Unit) _ y s => .ok ((), ![y 0 - 1, y 1, y 2 + 10, y 3], s))
    () (100000 : ℚ) 1000 [1 / 4, 3 / 4] 1 1).toOption.map (fun v => (v.2.p, v.2.T, v.2.c)) =
      some (100000, 1010, [0, 3 / 4]) := by decide +kernel

/-- Non-trivial case of C36, C37 (partial) and C38: three species, an integrator that changes
nothing. -/
example : odePyJacSolve (m := 2) (fun (_ : Unit) _ y s => .ok ((), y, s)) () (100000 : ℚ) 1000
    [1 / 4, 1 / 4, 1 / 2] 1 1 = .ok ((), ⟨100000, 1000, [1 / 4, 1 / 4, 1 / 2], 1, 1⟩) :=
  C38_round_trip _ _ _ _ _ _ _ rfl (by norm_num) (by simp) (fun _ => rfl)

/-! ### C39 -/

/-- **C39.** The right-hand side and the Jacobian call pyJac with the pressure entry of the state and
the array of temperature and all mass fractions, clipped at zero with the last one the complement.
Row `i` of the derivative is entry `i` of pyJac's result and the derivative of the pressure is zero.
Entry `(i, j)` of the Jacobian is entry `i + j * nSpecie` of pyJac's array; the pressure row and
column are zero. -/
theorem C39_right_hand_side_and_jacobian (L : PyJacLib K m) (t : K) (y : Vec K (m + 2)) :
    let z : Vec K (m + 2) := Fin.cons (α := fun _ => K) (y 0) (clippedComposition y)
    let p := y (Fin.last (m + 1))
    (∀ i : Fin (m + 1), pyJacDerivatives L t y i.castSucc = L.dydt p z i) ∧
    pyJacDerivatives L t y (Fin.last (m + 1)) = 0 ∧
    (∀ i j : Fin (m + 1), pyJacJacobian L t y i.castSucc j.castSucc
      = L.evalJacob p z (i.val + j.val * (m + 1))) ∧
    (∀ j, pyJacJacobian L t y (Fin.last (m + 1)) j = 0) ∧
    (∀ i, pyJacJacobian L t y i (Fin.last (m + 1)) = 0) := by
  intro z p
  have hz : toPyJac (y 0) (modelComposition y) = z := by
    funext i
    refine Fin.cases ?_ (fun j => ?_) i
    · simp [toPyJac, z]
    · simp [toPyJac, z, modelComposition_eq]
  refine ⟨fun i => ?_, ?_, fun i j => ?_, fun j => ?_, fun i => ?_⟩
  · simp [pyJacDerivatives, hz, pressurePos, p]
  · simp [pyJacDerivatives]
  · simp [pyJacJacobian, hz, pressurePos, p, Nat.add_comm]
  · simp [pyJacJacobian]
  · simp [pyJacJacobian]

/-- Non-trivial case of C39: a two species library; `evalJacob` numbers its entries. -/
def numberedLib : PyJacLib ℚ 1 :=
  ⟨fun p z => ![p + z 1, z 2], fun p _ i => p + i, fun T => ![T, 2 * T], 2⟩

example : pyJacDerivatives numberedLib 0 ![1000, -1 / 4, 5] = ![5, 1, 0] ∧
    pyJacJacobian numberedLib 0 ![1000, -1 / 4, 5] = ![![5, 7, 0], ![6, 8, 0], ![0, 0, 0]] := by
  constructor
  · funext i; revert i; decide +kernel
  · funext i j; revert i j; decide +kernel

/-! ### C56, C57 -/

/-- **C56.** The heat release of a cell is minus the sum of enthalpy of formation times reaction
rate; it is linear in the rates and zero when chemistry is off. -/
theorem C56_heat_release (h rr : Vec K (m + 1)) :
    pyJacQdot true h rr = -∑ i, h i * rr i ∧ pyJacQdot false h rr = 0 := by
  refine ⟨?_, by simp [pyJacQdot]⟩
  have : ∀ (l : List (Fin (m + 1))) (a : K),
      l.foldl (fun q i => q - h i * rr i) a = a - (l.map (fun i => h i * rr i)).sum := by
    intro l
    induction l with
    | nil => intro a; simp
    | cons x l ih => intro a; rw [List.foldl_cons, ih, List.map_cons, List.sum_cons]; ring
  simp only [pyJacQdot, if_true, this, zero_sub]
  rw [← List.ofFn_eq_map, List.sum_ofFn]

/-- **C57.** The model is constructed exactly if the number of species is that of the pyJac library;
otherwise there is a fatal error.  The enthalpies of formation are the library's at 298.15 K.  The
chemical time scale is always refused. -/
theorem C57_construction (L : PyJacLib K m) :
    (m + 1 = L.nsp → pyJacConstruct L true = .ok (L.evalH (29815 / 100))) ∧
    (∀ chemistry, m + 1 ≠ L.nsp → pyJacConstruct L chemistry = .error .fatal) ∧
    (pyJacTc (S := K)) = .error .fatal := by
  refine ⟨fun h => ?_, fun c h => by simp [pyJacConstruct, h], rfl⟩
  have : (298.15 : K) = 29815 / 100 := by norm_num
  simp [pyJacConstruct, h, this]

example : pyJacConstruct numberedLib true = .ok ![29815 / 100, 2 * (29815 / 100)] :=
  (C57_construction numberedLib).1 rfl

example : pyJacQdot true (![2, 3] : Vec ℚ 2) ![5, -1] = -7 := by decide +kernel

end DLB
