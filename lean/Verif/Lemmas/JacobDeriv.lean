import Verif.Spec.Jacobian
import Verif.Spec.Reactor
import Mathlib.Analysis.SpecialFunctions.Pow.Deriv
import Mathlib.Analysis.SpecialFunctions.Log.Deriv
import Mathlib.Analysis.SpecialFunctions.ExpDeriv
import Mathlib.Analysis.Calculus.Deriv.Inv
import Mathlib.Analysis.Calculus.Deriv.ZPow
/-
The temperature derivative of the right-hand side of the reactor, from the specification alone.
-/
set_option autoImplicit false
set_option linter.unusedSectionVars false

namespace DLB

/-- The logarithmic derivative of `g` with respect to `ln T` is `a`. -/
def LogD (g : ℝ → ℝ) (a T : ℝ) : Prop := HasDerivAt g (g T * a / T) T

namespace LogD
variable {g h : ℝ → ℝ} {a b T : ℝ}

theorem const (c T : ℝ) : LogD (fun _ => c) 0 T := by
  unfold LogD
  simpa using hasDerivAt_const T c

theorem mul (hg : LogD g a T) (hh : LogD h b T) : LogD (fun t => g t * h t) (a + b) T := by
  unfold LogD at *
  refine (hg.mul hh).congr_deriv ?_
  ring

theorem inv (hg : LogD g a T) (h0 : g T ≠ 0) : LogD (fun t => (g t)⁻¹) (-a) T := by
  unfold LogD at *
  refine (hg.inv h0).congr_deriv ?_
  field_simp

theorem div (hg : LogD g a T) (hh : LogD h b T) (h0 : h T ≠ 0) : LogD (fun t => g t / h t) (a - b) T := by
  simp only [div_eq_mul_inv, sub_eq_add_neg]
  exact hg.mul (hh.inv h0)

theorem add (hg : LogD g a T) (hh : LogD h a T) : LogD (fun t => g t + h t) a T := by
  unfold LogD at *
  refine (hg.add hh).congr_deriv ?_
  ring

theorem sum {n : Nat} {f : Nat → ℝ → ℝ} (h : ∀ i, LogD (f i) a T) : LogD (fun t => ∑ i ∈ Finset.range n, f i t) a T := by
  induction n with
  | zero =>
    unfold LogD
    simpa using hasDerivAt_const T (0 : ℝ)
  | succ n ih =>
    simp only [Finset.sum_range_succ]
    exact ih.add (h n)

theorem prod {l : List Nat} {f : Nat → ℝ → ℝ} (h : ∀ i, LogD (f i) a T) : LogD (fun t => (l.map fun i => f i t).prod) (l.length * a) T := by
  induction l with
  | nil => simpa using const 1 T
  | cons i l ih =>
    simp only [List.map_cons, List.prod_cons, List.length_cons]
    have := (h i).mul ih
    convert this using 1
    push_cast
    ring

theorem rpow (p : ℝ) (hT : 0 < T) : LogD (fun t => t ^ p) p T := by
  unfold LogD
  refine (Real.hasDerivAt_rpow_const (Or.inl hT.ne')).congr_deriv ?_
  rw [Real.rpow_sub_one hT.ne']
  ring

theorem recip (hT : 0 < T) : LogD (fun t => t⁻¹) (-1) T := by
  unfold LogD
  refine (hasDerivAt_inv hT.ne').congr_deriv ?_
  field_simp

theorem exp {f : ℝ → ℝ} {f' : ℝ} (hf : HasDerivAt f f' T) (hT : 0 < T) : LogD (fun t => Real.exp (f t)) (T * f') T := by
  unfold LogD
  refine hf.exp.congr_deriv ?_
  field_simp

theorem congr (hg : LogD g a T) (e : h =ᶠ[nhds T] g) : LogD h a T := by
  unfold LogD at *
  rw [e.eq_of_nhds]
  exact hg.congr_of_eventuallyEq e

theorem zero (a T : ℝ) : LogD (fun _ => 0) a T := by
  unfold LogD
  simpa using hasDerivAt_const T (0 : ℝ)

theorem of_eq (hg : LogD g a T) (e : a = b) : LogD g b T := e ▸ hg

theorem zpow (hg : LogD g a T) (h0 : g T ≠ 0) (n : Int) : LogD (fun t => g t ^ n) (n * a) T := by
  unfold LogD at *
  refine ((hasDerivAt_zpow n (g T) (Or.inl h0)).comp T hg).congr_deriv ?_
  rw [zpow_sub_one₀ h0]
  field_simp

end LogD

theorem coefficient_logD (k : Arrhenius) (o : Nat) {T : ℝ} (hT : 0 < T) :
    LogD (fun t => k.coefficient o t) (SDec.val k.b + k.temperature / T) T := by
  unfold Arrhenius.coefficient
  have h1 : HasDerivAt (fun t : ℝ => -(k.temperature / t)) (k.temperature / T ^ 2) T := by
    have := ((hasDerivAt_inv hT.ne').const_mul k.temperature).neg
    simp only [div_eq_mul_inv]
    refine this.congr_deriv ?_
    ring
  have := ((LogD.const (SDec.val k.A / 1000 ^ (o - 1)) T).mul (LogD.rpow (SDec.val k.b) hT)).mul (LogD.exp h1 hT)
  refine this.of_eq ?_
  field_simp
  ring

/-- The polynomials in use do not change near a temperature other than the middle one. -/
theorem at_eventually (p : Nasa) {T : ℝ} (h : T ≠ (p.tMid.1 : ℝ) / 10 ^ p.tMid.2) : ∀ᶠ t in nhds T, p.at t = p.at T := by
  unfold Nasa.at
  rcases lt_or_gt_of_ne h with h | h
  · filter_upwards [Iio_mem_nhds h] with t ht
    rw [if_pos (le_of_lt ht), if_pos h.le]
  · filter_upwards [Ioi_mem_nhds h] with t ht
    rw [if_neg (not_le.2 ht), if_neg (not_le.2 h)]

theorem gOverRT_deriv (a : List SDec) {T : ℝ} (hT : 0 < T) : HasDerivAt (fun t => gOverRT a t) (-(hOverR a T / T ^ 2)) T := by
  unfold gOverRT hOverR sOverR
  have id := hasDerivAt_id' T
  have hp : ∀ n : Nat, HasDerivAt (fun t : ℝ => t ^ n) (n * T ^ (n - 1)) T := fun n => hasDerivAt_pow n T
  have hh : HasDerivAt (fun T : ℝ => nasaCoeff a 5 + nasaCoeff a 0 * T + nasaCoeff a 1 * T ^ 2 / 2 + nasaCoeff a 2 * T ^ 3 / 3 +
      nasaCoeff a 3 * T ^ 4 / 4 + nasaCoeff a 4 * T ^ 5 / 5)
      (nasaCoeff a 0 * 1 + nasaCoeff a 1 * ((2 : Nat) * T ^ (2 - 1)) / 2 + nasaCoeff a 2 * ((3 : Nat) * T ^ (3 - 1)) / 3 +
        nasaCoeff a 3 * ((4 : Nat) * T ^ (4 - 1)) / 4 + nasaCoeff a 4 * ((5 : Nat) * T ^ (5 - 1)) / 5) T :=
    (((((id.const_mul (nasaCoeff a 0)).const_add (nasaCoeff a 5)).add (((hp 2).const_mul (nasaCoeff a 1)).div_const 2)).add
      (((hp 3).const_mul (nasaCoeff a 2)).div_const 3)).add (((hp 4).const_mul (nasaCoeff a 3)).div_const 4)).add
      (((hp 5).const_mul (nasaCoeff a 4)).div_const 5)
  have hs : HasDerivAt (fun T : ℝ => nasaCoeff a 0 * Real.log T + nasaCoeff a 1 * T + nasaCoeff a 2 * T ^ 2 / 2 + nasaCoeff a 3 * T ^ 3 / 3 +
      nasaCoeff a 4 * T ^ 4 / 4 + nasaCoeff a 6)
      (nasaCoeff a 0 * T⁻¹ + nasaCoeff a 1 * 1 + nasaCoeff a 2 * ((2 : Nat) * T ^ (2 - 1)) / 2 + nasaCoeff a 3 * ((3 : Nat) * T ^ (3 - 1)) / 3 +
        nasaCoeff a 4 * ((4 : Nat) * T ^ (4 - 1)) / 4) T :=
    ((((((Real.hasDerivAt_log hT.ne').const_mul (nasaCoeff a 0)).add (id.const_mul (nasaCoeff a 1))).add
      (((hp 2).const_mul (nasaCoeff a 2)).div_const 2)).add (((hp 3).const_mul (nasaCoeff a 3)).div_const 3)).add
      (((hp 4).const_mul (nasaCoeff a 4)).div_const 4)).add_const (nasaCoeff a 6)
  refine ((hh.div id hT.ne').sub hs).congr_deriv ?_
  push_cast
  field_simp
  ring

/-- The logarithmic slope of the equilibrium constant: `sum of nu_i h_i / (R T) - sum of nu_i`. -/
noncomputable def kcSlope (nsp : Nat) (fit : Nat → Nasa) (r : Reaction) (T : ℝ) : ℝ :=
  (∑ i ∈ Finset.range nsp, (r.net i : ℝ) * (hOverR ((fit i).at T) T / T)) - r.molecules

theorem equilibriumConstant_logD (nsp : Nat) (fit : Nat → Nasa) (r : Reaction) {T : ℝ} (hT : 0 < T)
    (hmid : ∀ i, i < nsp → T ≠ ((fit i).tMid.1 : ℝ) / 10 ^ (fit i).tMid.2) :
    LogD (fun t => equilibriumConstant nsp fit r t) (kcSlope nsp fit r T) T := by
  have h1 : HasDerivAt (fun t => -∑ i ∈ Finset.range nsp, (r.net i : ℝ) * gOverRT ((fit i).at T) t)
      (-∑ i ∈ Finset.range nsp, (r.net i : ℝ) * -(hOverR ((fit i).at T) T / T ^ 2)) T :=
    (HasDerivAt.fun_sum fun i _ => (gOverRT_deriv ((fit i).at T) hT).const_mul (r.net i : ℝ)).neg
  have h2 : LogD (fun t => standardPressure / (gasR * t)) (-1) T := by
    have := (LogD.const (standardPressure / gasR) T).mul (LogD.recip hT)
    refine (this.congr (Filter.Eventually.of_forall fun t => ?_)).of_eq (zero_add _)
    show standardPressure / (gasR * t) = standardPressure / gasR * t⁻¹
    rw [← div_div, div_eq_mul_inv (standardPressure / gasR)]
  have h3 : standardPressure / (gasR * T) ≠ 0 := by unfold standardPressure gasR; positivity
  have h4 := (LogD.exp h1 hT).mul (h2.zpow h3 r.molecules)
  refine (h4.congr ?_).of_eq ?_
  · have hall : ∀ᶠ t in nhds T, ∀ i ∈ Finset.range nsp, (fit i).at t = (fit i).at T :=
      (Filter.eventually_all_finset _).2 fun i hi => at_eventually (fit i) (hmid i (Finset.mem_range.1 hi))
    filter_upwards [hall] with t ht
    unfold equilibriumConstant
    have : ∑ i ∈ Finset.range nsp, (r.net i : ℝ) * gOverRT ((fit i).at t) t =
        ∑ i ∈ Finset.range nsp, (r.net i : ℝ) * gOverRT ((fit i).at T) t :=
      Finset.sum_congr rfl fun i hi => by rw [ht i hi]
    rw [this]
  · unfold kcSlope
    rw [← Finset.sum_neg_distrib, Finset.mul_sum]
    have : ∀ i, T * -((r.net i : ℝ) * -(hOverR ((fit i).at T) T / T ^ 2)) = (r.net i : ℝ) * (hOverR ((fit i).at T) T / T) := by
      intro i
      field_simp
    simp only [this]
    ring

/-- `A` of Troe's formula. -/
noncomputable def exactA (Pr Fc : ℝ) : ℝ := lg Pr - 67 / 100 * lg Fc - 4 / 10

/-- `B` of Troe's formula. -/
noncomputable def exactB (Pr Fc : ℝ) : ℝ := 806 / 1000 - 11762 / 10000 * lg Fc - 14 / 100 * lg Pr

/-- The logarithmic slope of Troe's factor: `φ` and `S` are those of the centre and of the reduced pressure. -/
noncomputable def factorSlope (Pr Fc φ S : ℝ) : ℝ :=
  let A := exactA Pr Fc
  let B := exactB Pr Fc
  let D := 1 + A * A / (B * B)
  let L := 2 * Real.log Fc * A / (B * B * B * D * D)
  (1 / D - L * (-(67 / 100 / Real.log 10) * B + 11762 / 10000 / Real.log 10 * A)) * φ -
    L * (1 / Real.log 10 * B + 14 / 100 / Real.log 10 * A) * S

theorem factor_logD {F P : ℝ → ℝ} {φ S T m : ℝ} (hT : 0 < T) (hF : LogD F φ T) (hF0 : 0 < F T) (hP : LogD P S T) (hm : 0 < m)
    (hP0 : m < P T) (hB : exactB (P T) (F T) ≠ 0) :
    LogD (fun t => Troe.factor (F t) (max (P t) m)) (factorSlope (P T) (F T) φ S) T := by
  have hPp : 0 < P T := hm.trans hP0
  have l10 : Real.log 10 ≠ 0 := (Real.log_pos (by norm_num)).ne'
  have dF : HasDerivAt (fun t => lg (F t)) (φ / T / Real.log 10) T := by
    unfold lg
    have := (HasDerivAt.log hF hF0.ne').div_const (Real.log 10)
    refine this.congr_deriv ?_
    field_simp
  have dP : HasDerivAt (fun t => lg (P t)) (S / T / Real.log 10) T := by
    unfold lg
    have := (HasDerivAt.log hP hPp.ne').div_const (Real.log 10)
    refine this.congr_deriv ?_
    field_simp
  have dA : HasDerivAt (fun t => exactA (P t) (F t)) (S / T / Real.log 10 - 67 / 100 * (φ / T / Real.log 10)) T := by
    unfold exactA
    exact (dP.sub (dF.const_mul (67 / 100))).sub_const (4 / 10)
  have dB : HasDerivAt (fun t => exactB (P t) (F t)) (-(11762 / 10000 * (φ / T / Real.log 10)) - 14 / 100 * (S / T / Real.log 10)) T := by
    unfold exactB
    exact ((dF.const_mul (11762 / 10000)).const_sub (806 / 1000)).sub (dP.const_mul (14 / 100))
  have hD : HasDerivAt (fun t => 1 + (exactA (P t) (F t) / exactB (P t) (F t)) ^ 2) _ T :=
    (((dA.div dB hB).pow 2).const_add 1)
  have hD0 : 1 + (exactA (P T) (F T) / exactB (P T) (F T)) ^ 2 ≠ 0 := by positivity
  have hL : HasDerivAt (fun t => Real.log (F t) / (1 + (exactA (P t) (F t) / exactB (P t) (F t)) ^ 2)) _ T :=
    (HasDerivAt.log hF hF0.ne').div hD hD0
  have hE := LogD.exp hL hT
  refine (hE.congr ?_).of_eq ?_
  · have hc : ContinuousAt P T := HasDerivAt.continuousAt hP
    have hcF : ContinuousAt F T := HasDerivAt.continuousAt hF
    filter_upwards [hc.eventually (Ioi_mem_nhds hP0), hcF.eventually (Ioi_mem_nhds hF0)] with t ht htF
    rw [max_eq_left (le_of_lt ht)]
    unfold Troe.factor
    rw [Real.rpow_def_of_pos (by norm_num)]
    congr 1
    have e1 : lg (P t) + (-(4 / 10) - 67 / 100 * lg (F t)) = exactA (P t) (F t) := by unfold exactA; ring
    have e2 : 75 / 100 - 127 / 100 * lg (F t) - 14 / 100 * exactA (P t) (F t) = exactB (P t) (F t) := by
      unfold exactA exactB; ring
    simp only [e1, e2]
    unfold lg
    field_simp
  · simp only [Pi.div_apply]
    unfold factorSlope
    dsimp only
    generalize exactA (P T) (F T) = A at *
    generalize exactB (P T) (F T) = B at *
    have hAB : B ^ 2 + A ^ 2 ≠ 0 := by positivity
    have hAB' : B * B + A * A ≠ 0 := by rw [← pow_two, ← pow_two]; exact hAB
    have hF0 := hF0.ne'
    have hT := hT.ne'
    generalize F T = f at *
    generalize Real.log f = lf at *
    generalize Real.log 10 = l at *
    push_cast
    field_simp
    ring

/-- The slope of the centre, times `T` and over the centre. -/
noncomputable def Troe.centreSlope (t : Troe) (T : ℝ) : ℝ :=
  T * (-((1 - SDec.val t.A) / SDec.val t.T3 * Real.exp (-(T / SDec.val t.T3))) -
    SDec.val t.A / SDec.val t.T1 * Real.exp (-(T / SDec.val t.T1)) +
    match t.T2 with
    | some d => SDec.val d / (T * T) * Real.exp (-(SDec.val d / T))
    | none => 0) / t.centre T

theorem centre_logD (t : Troe) {T : ℝ} (hT : 0 < T) (h0 : 0 < t.centre T) : LogD t.centre (t.centreSlope T) T := by
  have h1 : ∀ s : ℝ, HasDerivAt (fun t : ℝ => Real.exp (-(t / s))) (Real.exp (-(T / s)) * -(1 / s)) T := fun s =>
    ((hasDerivAt_id' T).div_const s).neg.exp
  have h2 : ∀ s : ℝ, HasDerivAt (fun t : ℝ => Real.exp (-(s / t))) (Real.exp (-(s / T)) * (s / (T * T))) T := by
    intro s
    have := ((hasDerivAt_inv hT.ne').const_mul s).neg
    have h : HasDerivAt (fun t : ℝ => -(s / t)) (s / (T * T)) T := by
      simp only [div_eq_mul_inv]
      refine this.congr_deriv ?_
      field_simp
    exact h.exp
  unfold LogD Troe.centreSlope
  have e : ∀ x : ℝ, t.centre T * (T * x / t.centre T) / T = x := by
    intro x
    field_simp
  rw [e]
  unfold Troe.centre
  cases t.T2 with
  | none =>
    refine ((((h1 (SDec.val t.T3)).const_mul (1 - SDec.val t.A)).add ((h1 (SDec.val t.T1)).const_mul (SDec.val t.A))).add_const 0).congr_deriv ?_
    ring
  | some d =>
    refine ((((h1 (SDec.val t.T3)).const_mul (1 - SDec.val t.A)).add ((h1 (SDec.val t.T1)).const_mul (SDec.val t.A))).add
      (h2 (SDec.val d))).congr_deriv ?_
    ring

namespace Chemistry
variable (X : Chemistry)

/-- The logarithmic slope of the modification by third bodies and pressure at constant pressure and composition. -/
noncomputable def modSlope (n : Numbered) (T : ℝ) (C : Nat → ℝ) : ℝ := match n.r.kind, X.law n.k with
  | .elementary, _ => 0
  | .thirdBody _, _ => -1
  | .falloff eff, .falloff kInf k0 (some t) =>
    let S := SDec.val k0.b - SDec.val kInf.b - 1 + (k0.temperature - kInf.temperature) / T
    S / (1 + X.reducedPressure n kInf k0 eff T C) + factorSlope (X.reducedPressure n kInf k0 eff T C) (t.centre T) (t.centreSlope T) S
  | .falloff eff, .falloff kInf k0 none =>
    (SDec.val k0.b - SDec.val kInf.b - 1 + (k0.temperature - kInf.temperature) / T) / (1 + X.reducedPressure n kInf k0 eff T C)
  | .falloff _, .simple _ => 0

/-- The slope of the net rate of a reaction over the density, times `T` and the density. -/
noncomputable def rateSlope (n : Numbered) (T : ℝ) (C : Nat → ℝ) : ℝ :=
  X.modification n T C * (X.forward n T C * (SDec.val (X.law n.k).high.b + (X.law n.k).high.temperature / T - n.r.reactants.length + 1 + X.modSlope n T C) -
    X.reverse n T C * (SDec.val (X.law n.k).high.b + (X.law n.k).high.temperature / T - kcSlope X.nsp X.fit n.r T - n.r.products.length + 1 +
      X.modSlope n T C))

/-- What is needed of the falloff reactions: positive coefficients and centres, reduced pressures that are not cut off, and no pole. -/
def Regular (T : ℝ) (C : Nat → ℝ) : Prop := ∀ n ∈ number X.reactions, ∀ eff kInf k0 troe, n.r.kind = .falloff eff →
  X.law n.k = .falloff kInf k0 troe → kInf.coefficient n.r.reactants.length T ≠ 0 ∧ 0 ≤ X.reducedPressure n kInf k0 eff T C ∧
  ∀ t, troe = some t → 0 < t.centre T ∧ 1 / 10 ^ 300 < X.reducedPressure n kInf k0 eff T C ∧
    exactB (X.reducedPressure n kInf k0 eff T C) (t.centre T) ≠ 0

theorem density_logD (p : ℝ) (Y : Nat → ℝ) {T : ℝ} (hT : 0 < T) : LogD (fun t => X.density t p Y) (-1) T := by
  have := (LogD.const (p / gasR / ∑ i ∈ Finset.range X.nsp, Y i / X.weight i) T).mul (LogD.recip hT)
  refine (this.congr (Filter.Eventually.of_forall fun t => ?_)).of_eq (by ring)
  show X.density t p Y = _
  unfold density
  simp only [div_eq_mul_inv, mul_inv]
  ring

theorem concentrations_logD (p : ℝ) (Y : Nat → ℝ) {T : ℝ} (hT : 0 < T) (i : Nat) : LogD (fun t => X.concentrations t p Y i) (-1) T := by
  have := (X.density_logD p Y hT).mul (LogD.const (Y i / X.weight i) T)
  refine (this.congr (Filter.Eventually.of_forall fun t => ?_)).of_eq (by ring)
  show X.concentrations t p Y i = _
  unfold concentrations
  ring

theorem thirdBody_logD (eff : List (Nat × Nat × Nat)) (p : ℝ) (Y : Nat → ℝ) {T : ℝ} (hT : 0 < T) :
    LogD (fun t => thirdBody X.nsp eff (X.concentrations t p Y)) (-1) T := by
  unfold thirdBody
  exact LogD.sum fun i => ((LogD.const (efficiency eff i) T).mul (X.concentrations_logD p Y hT i)).of_eq (by ring)

theorem products_logD (l : List Nat) (p : ℝ) (Y : Nat → ℝ) {T : ℝ} (hT : 0 < T) :
    LogD (fun t => (l.map (X.concentrations t p Y)).prod) (-l.length) T :=
  (LogD.prod (l := l) (X.concentrations_logD p Y hT)).of_eq (by ring)

theorem forward_logD (n : Numbered) (p : ℝ) (Y : Nat → ℝ) {T : ℝ} (hT : 0 < T) :
    LogD (fun t => X.forward n t (X.concentrations t p Y))
      (SDec.val (X.law n.k).high.b + (X.law n.k).high.temperature / T - n.r.reactants.length) T :=
  ((coefficient_logD (X.law n.k).high n.r.order hT).mul (X.products_logD n.r.reactants p Y hT)).of_eq (by ring)

theorem reverse_logD (n : Numbered) (p : ℝ) (Y : Nat → ℝ) {T : ℝ} (hT : 0 < T)
    (hmid : ∀ i, i < X.nsp → T ≠ ((X.fit i).tMid.1 : ℝ) / 10 ^ (X.fit i).tMid.2) :
    LogD (fun t => X.reverse n t (X.concentrations t p Y))
      (SDec.val (X.law n.k).high.b + (X.law n.k).high.temperature / T - kcSlope X.nsp X.fit n.r T - n.r.products.length) T := by
  unfold reverse
  by_cases hr : n.r.reversible = true
  · simp only [hr, if_true]
    have hK : equilibriumConstant X.nsp X.fit n.r T ≠ 0 := by
      unfold equilibriumConstant standardPressure gasR
      positivity
    exact (((coefficient_logD (X.law n.k).high n.r.order hT).div (equilibriumConstant_logD X.nsp X.fit n.r hT hmid) hK).mul
      (X.products_logD n.r.products p Y hT)).of_eq (by ring)
  · simp only [hr, Bool.false_eq_true, if_false]
    exact LogD.zero _ _

theorem reducedPressure_logD (n : Numbered) (kInf k0 : Arrhenius) (eff : List (Nat × Nat × Nat)) (p : ℝ) (Y : Nat → ℝ) {T : ℝ} (hT : 0 < T)
    (h : kInf.coefficient n.r.reactants.length T ≠ 0) :
    LogD (fun t => X.reducedPressure n kInf k0 eff t (X.concentrations t p Y))
      (SDec.val k0.b - SDec.val kInf.b - 1 + (k0.temperature - kInf.temperature) / T) T :=
  (((coefficient_logD k0 (n.r.reactants.length + 1) hT).mul (X.thirdBody_logD eff p Y hT)).div
    (coefficient_logD kInf n.r.reactants.length hT) h).of_eq (by ring)

theorem saturation_logD {g : ℝ → ℝ} {S T : ℝ} (hg : LogD g S T) (h0 : 0 ≤ g T) : LogD (fun t => g t / (1 + g t)) (S / (1 + g T)) T := by
  unfold LogD at *
  have h1 : 1 + g T ≠ 0 := by positivity
  refine (hg.div (hg.const_add 1) h1).congr_deriv ?_
  field_simp
  ring

theorem modification_logD (n : Numbered) (hn : n ∈ number X.reactions) (p : ℝ) (Y : Nat → ℝ) {T : ℝ} (hT : 0 < T)
    (hreg : X.Regular T (X.concentrations T p Y)) :
    LogD (fun t => X.modification n t (X.concentrations t p Y)) (X.modSlope n T (X.concentrations T p Y)) T := by
  have hreg := hreg n hn
  unfold modification modSlope
  cases hk : n.r.kind with
  | elementary => exact LogD.const 1 T
  | thirdBody eff => exact X.thirdBody_logD eff p Y hT
  | falloff eff =>
    cases hl : X.law n.k with
    | simple k => exact LogD.const 0 T
    | falloff kInf k0 troe =>
      obtain ⟨h1, h2, h3⟩ := hreg eff kInf k0 troe hk hl
      have hP := X.reducedPressure_logD n kInf k0 eff p Y hT h1
      have hS := saturation_logD hP h2
      cases troe with
      | none => exact hS
      | some t =>
        obtain ⟨h4, h5, h6⟩ := h3 t rfl
        have hF := factor_logD hT (centre_logD t hT h4) h4 hP (by positivity) h5 h6
        have := hS.mul hF
        refine (this.congr (Filter.Eventually.of_forall fun x => ?_))
        dsimp only
        ring

/-- The temperature derivative of the contribution of a reaction. -/
theorem dYdtFrom_deriv (p : ℝ) (Y : Nat → ℝ) {T : ℝ} (hT : 0 < T) (hρ : X.density T p Y ≠ 0)
    (hmid : ∀ i, i < X.nsp → T ≠ ((X.fit i).tMid.1 : ℝ) / 10 ^ (X.fit i).tMid.2)
    (hreg : X.Regular T (X.concentrations T p Y)) (i : Nat) (n : Numbered) (hn : n ∈ number X.reactions) :
    HasDerivAt (fun t => X.dYdtFrom n t p Y i) ((n.r.net i : ℝ) * X.weight i * (X.rateSlope n T (X.concentrations T p Y) / (X.density T p Y * T))) T := by
  have hM := X.modification_logD n hn p Y hT hreg
  have hd := X.density_logD p Y hT
  have hf : HasDerivAt _ _ T := ((X.forward_logD n p Y hT).mul hM).div hd hρ
  have hr : HasDerivAt _ _ T := ((X.reverse_logD n p Y hT hmid).mul hM).div hd hρ
  have := (hf.sub hr).const_mul ((n.r.net i : ℝ) * X.weight i)
  refine (this.congr_of_eventuallyEq (Filter.Eventually.of_forall fun t => ?_)).congr_deriv ?_
  · simp only [Pi.sub_apply, dYdtFrom]
    ring
  · unfold rateSlope
    dsimp only
    field_simp
    ring

/-- The temperature derivative of the rate of change of a mass fraction. -/
theorem dYdt_deriv (p : ℝ) (Y : Nat → ℝ) {T : ℝ} (hT : 0 < T) (hρ : X.density T p Y ≠ 0)
    (hmid : ∀ i, i < X.nsp → T ≠ ((X.fit i).tMid.1 : ℝ) / 10 ^ (X.fit i).tMid.2)
    (hreg : X.Regular T (X.concentrations T p Y)) (i : Nat) :
    HasDerivAt (fun t => X.dYdt t p Y i) (((number X.reactions).map fun n => (n.r.net i : ℝ) * X.weight i *
      (X.rateSlope n T (X.concentrations T p Y) / (X.density T p Y * T))).sum) T := by
  have key := X.dYdtFrom_deriv p Y hT hρ hmid hreg i
  have sum : ∀ l : List Numbered, (∀ n ∈ l, n ∈ number X.reactions) →
      HasDerivAt (fun t => (l.map fun n => X.dYdtFrom n t p Y i).sum)
      ((l.map fun n => (n.r.net i : ℝ) * X.weight i * (X.rateSlope n T (X.concentrations T p Y) / (X.density T p Y * T))).sum) T := by
    intro l hl
    induction l with
    | nil => simpa using hasDerivAt_const T (0 : ℝ)
    | cons n l ih =>
      simp only [List.map_cons, List.sum_cons]
      exact (key n (hl n (by simp))).add (ih fun n hn => hl n (by simp [hn]))
  refine (sum (number X.reactions) fun _ h => h).congr_of_eventuallyEq (Filter.Eventually.of_forall fun t => ?_)
  dsimp only
  unfold dYdt production
  generalize number X.reactions = l
  induction l with
  | nil => simp
  | cons n l ih =>
    simp only [List.map_cons, List.sum_cons]
    rw [← ih, dYdtFrom]
    ring

end Chemistry
end DLB
