import Verif.Lemmas.ReactorSolution
/-
Where all species are present the rates of change in the reactor are twice continuously differentiable.
-/
set_option autoImplicit false
set_option linter.unusedSectionVars false

namespace DLB
open scoped Topology NNReal
open Spec

/-- `f` is twice continuously differentiable in a neighbourhood of `z`. -/
abbrev TwiceAt {E F : Type} [NormedAddCommGroup E] [NormedSpace ℝ E] [NormedAddCommGroup F] [NormedSpace ℝ F] (f : E → F) (z : E) :
    Prop := ContDiffAt ℝ 2 f z

variable {E : Type} [NormedAddCommGroup E] [NormedSpace ℝ E] {z : E} {T p : E → ℝ} {C Y : E → Nat → ℝ}

theorem TwiceAt.list_prod {l : List Nat} (h : ∀ s ∈ l, TwiceAt (fun x => C x s) z) : TwiceAt (fun x => (l.map (C x)).prod) z := by
  induction l with
  | nil => simpa using contDiffAt_const
  | cons a l ih =>
    simp only [List.map_cons, List.prod_cons]
    exact (h a (by simp)).mul (ih fun s hs => h s (by simp [hs]))

theorem TwiceAt.list_sum {α : Type} {f : α → E → ℝ} {l : List α} (h : ∀ s ∈ l, TwiceAt (f s) z) :
    TwiceAt (fun x => (l.map fun s => f s x).sum) z := by
  induction l with
  | nil => simpa using contDiffAt_const
  | cons a l ih =>
    simp only [List.map_cons, List.sum_cons]
    exact (h a (by simp)).add (ih fun s hs => h s (by simp [hs]))

theorem TwiceAt.range_sum {f : Nat → E → ℝ} {n : Nat} (h : ∀ i, i < n → TwiceAt (f i) z) :
    TwiceAt (fun x => ∑ i ∈ Finset.range n, f i x) z :=
  ContDiffAt.sum fun i hi => h i (Finset.mem_range.1 hi)

theorem coefficient_twice (k : Arrhenius) (o : Nat) (hT : TwiceAt T z) (h0 : 0 < T z) :
    TwiceAt (fun x => k.coefficient o (T x)) z :=
  (contDiffAt_const.mul (hT.rpow_const_of_ne h0.ne')).mul ((contDiffAt_const.div hT h0.ne').neg.exp)

theorem cpOverR_twice (a : List SDec) (hT : TwiceAt T z) : TwiceAt (fun x => cpOverR a (T x)) z := by
  unfold cpOverR
  exact ((((contDiffAt_const).add (contDiffAt_const.mul hT)).add (contDiffAt_const.mul (hT.pow 2))).add
    (contDiffAt_const.mul (hT.pow 3))).add (contDiffAt_const.mul (hT.pow 4))

theorem term_twice (c : ℝ) (k : Nat) (d : ℝ) (hT : TwiceAt T z) : TwiceAt (fun x => c * T x ^ k / d) z :=
  (contDiffAt_const.mul (hT.pow k)).div_const d

theorem hOverR_twice (a : List SDec) (hT : TwiceAt T z) : TwiceAt (fun x => hOverR a (T x)) z := by
  unfold hOverR
  exact ((((contDiffAt_const.add (contDiffAt_const.mul hT)).add (term_twice _ 2 2 hT)).add
    (term_twice _ 3 3 hT)).add (term_twice _ 4 4 hT)).add (term_twice _ 5 5 hT)

theorem sOverR_twice (a : List SDec) (hT : TwiceAt T z) (h0 : 0 < T z) : TwiceAt (fun x => sOverR a (T x)) z := by
  unfold sOverR
  exact (((((contDiffAt_const.mul (hT.log h0.ne')).add (contDiffAt_const.mul hT)).add
    (term_twice _ 2 2 hT)).add (term_twice _ 3 3 hT)).add
    (term_twice _ 4 4 hT)).add contDiffAt_const

/-- What is computed with the polynomials of a species, away from the temperature at which they change. -/
theorem fit_twice (q : Nasa) (f : List SDec → ℝ → ℝ) (hT : TwiceAt T z) (hm : T z ≠ (q.tMid.1 : ℝ) / 10 ^ q.tMid.2)
    (hf : ∀ a, TwiceAt (fun x => f a (T x)) z) : TwiceAt (fun x => f (q.at (T x)) (T x)) z := by
  refine (hf (q.at (T z))).congr_of_eventuallyEq ?_
  filter_upwards [hT.continuousAt.eventually (at_eventually q hm)] with x hx
  rw [hx]

theorem equilibriumConstant_twice (nsp : Nat) (fit : Nat → Nasa) (r : Reaction) (hT : TwiceAt T z) (h0 : 0 < T z)
    (hm : ∀ i, i < nsp → T z ≠ ((fit i).tMid.1 : ℝ) / 10 ^ (fit i).tMid.2) :
    TwiceAt (fun x => equilibriumConstant nsp fit r (T x)) z := by
  have hR : (0 : ℝ) < gasR := by unfold gasR; positivity
  have hq : (0 : ℝ) < standardPressure / (gasR * T z) := by unfold standardPressure; positivity
  have hz : TwiceAt (fun x => (standardPressure / (gasR * T x)) ^ r.molecules) z := by
    have : TwiceAt (fun x => (standardPressure / (gasR * T x)) ^ (r.molecules : ℝ)) z :=
      (contDiffAt_const.div (contDiffAt_const.mul hT) (mul_pos hR h0).ne').rpow_const_of_ne hq.ne'
    simpa only [Real.rpow_intCast] using this
  refine ContDiffAt.mul (ContDiffAt.exp (ContDiffAt.neg (TwiceAt.range_sum fun i hi => contDiffAt_const.mul ?_))) hz
  exact fit_twice (fit i) gOverRT hT (hm i hi) fun a => ((hOverR_twice a hT).div hT h0.ne').sub (sOverR_twice a hT h0)

theorem thirdBody_twice (nsp : Nat) (eff : List (Nat × Nat × Nat)) (hC : ∀ i, i < nsp → TwiceAt (fun x => C x i) z) :
    TwiceAt (fun x => thirdBody nsp eff (C x)) z :=
  TwiceAt.range_sum fun i hi => contDiffAt_const.mul (hC i hi)

theorem lg_twice {f : E → ℝ} (hf : TwiceAt f z) (h0 : f z ≠ 0) : TwiceAt (fun x => lg (f x)) z :=
  (hf.log h0).div_const _

theorem centre_twice (t : Troe) (hT : TwiceAt T z) (h0 : 0 < T z) : TwiceAt (fun x => t.centre (T x)) z := by
  have e : ∀ c : ℝ, TwiceAt (fun x => Real.exp (-(T x / c))) z := fun c => (hT.div_const c).neg.exp
  unfold Troe.centre
  refine ((contDiffAt_const.mul (e _)).add (contDiffAt_const.mul (e _))).add ?_
  cases t.T2 with
  | none => exact contDiffAt_const
  | some d => exact (contDiffAt_const.div hT h0.ne').neg.exp

theorem factor_twice {F P : E → ℝ} (hF : TwiceAt F z) (hP : TwiceAt P z) (hF0 : 0 < F z) (hP0 : 0 < P z)
    (hpole : lg (P z) ≠ Troe.pole (F z)) : TwiceAt (fun x => Troe.factor (F x) (P x)) z := by
  have lF := lg_twice hF hF0.ne'
  have lP := lg_twice hP hP0.ne'
  have hc : TwiceAt (fun x => -(4 / 10) - 67 / 100 * lg (F x)) z := contDiffAt_const.sub (contDiffAt_const.mul lF)
  have hn : TwiceAt (fun x => 75 / 100 - 127 / 100 * lg (F x)) z := contDiffAt_const.sub (contDiffAt_const.mul lF)
  have hs : TwiceAt (fun x => lg (P x) + (-(4 / 10) - 67 / 100 * lg (F x))) z := lP.add hc
  have hd : TwiceAt (fun x => (75 / 100 - 127 / 100 * lg (F x)) - 14 / 100 * (lg (P x) + (-(4 / 10) - 67 / 100 * lg (F x)))) z :=
    hn.sub (contDiffAt_const.mul hs)
  have hne : (75 / 100 - 127 / 100 * lg (F z)) - 14 / 100 * (lg (P z) + (-(4 / 10) - 67 / 100 * lg (F z))) ≠ 0 := by
    intro e
    apply hpole
    unfold Troe.pole
    linarith
  have hx : TwiceAt (fun x => lg (F x) / (1 + ((lg (P x) + (-(4 / 10) - 67 / 100 * lg (F x))) /
      ((75 / 100 - 127 / 100 * lg (F x)) - 14 / 100 * (lg (P x) + (-(4 / 10) - 67 / 100 * lg (F x))))) ^ 2)) z :=
    lF.div (contDiffAt_const.add ((hs.div hd hne).pow 2))
      (by have := sq_nonneg ((lg (P z) + (-(4 / 10) - 67 / 100 * lg (F z))) /
            ((75 / 100 - 127 / 100 * lg (F z)) - 14 / 100 * (lg (P z) + (-(4 / 10) - 67 / 100 * lg (F z))))); linarith)
  have := ((contDiffAt_const (c := Real.log 10)).mul hx).exp
  refine this.congr_of_eventuallyEq (Filter.Eventually.of_forall fun x => ?_)
  unfold Troe.factor
  exact Real.rpow_def_of_pos (by norm_num) _

section
variable {X : Chemistry}

theorem forward_twice (n : Numbered) (hn : n ∈ number X.reactions) (hX : X.ProperAt (T z)) (hT : TwiceAt T z)
    (hC : ∀ i, i < X.nsp → TwiceAt (fun x => C x i) z) : TwiceAt (fun x => X.forward n (T x) (C x)) z :=
  (coefficient_twice _ _ hT hX.temperature).mul (TwiceAt.list_prod fun s hs => hC s ((hX.species n hn).1 s hs))

theorem reverse_twice (n : Numbered) (hn : n ∈ number X.reactions) (hX : X.ProperAt (T z)) (hm : X.BetweenFits (T z))
    (hT : TwiceAt T z) (hC : ∀ i, i < X.nsp → TwiceAt (fun x => C x i) z) :
    TwiceAt (fun x => X.reverse n (T x) (C x)) z := by
  unfold Chemistry.reverse
  split
  · exact ((coefficient_twice _ _ hT hX.temperature).div
      (equilibriumConstant_twice _ _ _ hT hX.temperature hm)
      (equilibriumConstant_pos _ _ _ hX.temperature).ne').mul
      (TwiceAt.list_prod fun s hs => hC s ((hX.species n hn).2 s hs))
  · exact contDiffAt_const

theorem reducedPressure_twice (n : Numbered) (hn : n ∈ number X.reactions) (hX : X.ProperAt (T z)) (hT : TwiceAt T z)
    (hC : ∀ i, i < X.nsp → TwiceAt (fun x => C x i) z) {eff kInf k0 troe} (e1 : n.r.kind = .falloff eff)
    (e2 : X.law n.k = .falloff kInf k0 troe) : TwiceAt (fun x => X.reducedPressure n kInf k0 eff (T x) (C x)) z :=
  ((coefficient_twice _ _ hT hX.temperature).mul (thirdBody_twice _ _ hC)).div
    (coefficient_twice _ _ hT hX.temperature) (hX.limits n hn eff kInf k0 troe e1 e2).1.ne'

theorem modification_twice (n : Numbered) (hn : n ∈ number X.reactions) (hX : X.ProperAt (T z)) (hT : TwiceAt T z)
    (hC : ∀ i, i < X.nsp → TwiceAt (fun x => C x i) z) (hC0 : ∀ i, i < X.nsp → 0 ≤ C z i)
    (hp : X.AwayFromPoles (T z) (C z)) (hc : X.AboveCutOff (T z) (C z)) : TwiceAt (fun x => X.modification n (T x) (C x)) z := by
  unfold Chemistry.modification
  split
  · exact contDiffAt_const
  · exact thirdBody_twice _ _ hC
  · rename_i eff kInf k0 e1 e2
    have h0 := reducedPressure_nonneg n hn hX hC0 e1 e2
    have h1 := reducedPressure_twice n hn hX hT hC e1 e2
    exact h1.div (contDiffAt_const.add h1) (by linarith)
  · rename_i eff kInf k0 t e1 e2
    have h0 := reducedPressure_nonneg n hn hX hC0 e1 e2
    have h1 := reducedPressure_twice n hn hX hT hC e1 e2
    have hcut := hc n hn eff kInf k0 t e1 e2
    have hm1 : TwiceAt (fun x => max (X.reducedPressure n kInf k0 eff (T x) (C x)) (1 / 10 ^ 300)) z := by
      refine h1.congr_of_eventuallyEq ?_
      filter_upwards [h1.continuousAt.eventually_const_lt hcut] with x hx
      exact max_eq_left hx.le
    have hne : lg (max (X.reducedPressure n kInf k0 eff (T z) (C z)) (1 / 10 ^ 300)) ≠ Troe.pole (t.centre (T z)) := by
      intro e
      have := hp n hn eff kInf k0 t e1 e2
      rw [e, sub_self, abs_zero] at this
      exact absurd this (not_lt.2 (by positivity))
    have h2 := factor_twice (centre_twice t hT hX.temperature) hm1
      (hX.centre n hn eff kInf k0 t e1 e2) (lt_max_of_lt_right (by positivity)) hne
    exact (h2.mul h1).div (contDiffAt_const.add h1) (by linarith)
  · exact contDiffAt_const

theorem production_twice (i : Nat) (hX : X.ProperAt (T z)) (hm : X.BetweenFits (T z)) (hT : TwiceAt T z)
    (hC : ∀ i, i < X.nsp → TwiceAt (fun x => C x i) z) (hC0 : ∀ i, i < X.nsp → 0 ≤ C z i)
    (hp : X.AwayFromPoles (T z) (C z)) (hc : X.AboveCutOff (T z) (C z)) : TwiceAt (fun x => X.production (T x) (C x) i) z :=
  TwiceAt.list_sum fun n hn => contDiffAt_const.mul (((forward_twice n hn hX hT hC).sub
    (reverse_twice n hn hX hm hT hC)).mul (modification_twice n hn hX hT hC hC0 hp hc))

variable (h : X.RegularAt (T z) (p z) (Y z)) (hc : X.AboveCutOff (T z) (X.concentrations (T z) (p z) (Y z)))
  (hT : TwiceAt T z) (hp : TwiceAt p z) (hY : ∀ i, i < X.nsp → TwiceAt (fun x => Y x i) z)
include h hT hp hY

theorem density_twice : TwiceAt (fun x => X.density (T x) (p x) (Y x)) z := by
  have hR : (0 : ℝ) < gasR := by unfold gasR; positivity
  exact hp.div ((contDiffAt_const.mul hT).mul (TwiceAt.range_sum fun i hi => (hY i hi).div_const _))
    (mul_pos (mul_pos hR h.proper.temperature) (moles_pos h.proper h.fractions h.some_pos)).ne'

theorem concentrations_twice (i : Nat) (hi : i < X.nsp) :
    TwiceAt (fun x => X.concentrations (T x) (p x) (Y x) i) z :=
  ((density_twice h hT hp hY).mul (hY i hi)).div_const _

include hc

theorem dYdt_twice (i : Nat) : TwiceAt (fun x => X.dYdt (T x) (p x) (Y x) i) z := by
  have hC0 : ∀ i, i < X.nsp → 0 ≤ X.concentrations (T z) (p z) (Y z) i := fun i hi =>
    div_nonneg (mul_nonneg (density_pos h.proper h.pressure h.fractions h.some_pos).le (h.fractions i hi))
      (h.proper.weight i hi).le
  exact ((production_twice i h.proper h.fits hT (concentrations_twice h hT hp hY) hC0
    h.poles hc).mul contDiffAt_const).div (density_twice h hT hp hY)
    (density_pos h.proper h.pressure h.fractions h.some_pos).ne'

omit hc in
theorem heat_twice : TwiceAt (fun x => ∑ i ∈ Finset.range X.nsp, X.cp (T x) i * Y x i) z :=
  TwiceAt.range_sum fun i hi => (contDiffAt_const.mul (fit_twice (X.fit i) cpOverR hT (h.fits i hi) fun a =>
    cpOverR_twice a hT)).mul (hY i hi)

theorem dTdt_twice : TwiceAt (fun x => X.dTdt (T x) (p x) (Y x)) z :=
  (ContDiffAt.neg (TwiceAt.range_sum fun i hi => (contDiffAt_const.mul (fit_twice (X.fit i) hOverR hT (h.fits i hi) fun a =>
    hOverR_twice a hT)).mul (dYdt_twice h hc hT hp hY i))).div (heat_twice h hT hp hY)
    (heat_pos h.proper h.fractions h.some_pos).ne'

end

section
variable {m : Nat}

theorem entry_twice (z : Fin (m + 2) → ℝ) (i : Fin (m + 2)) : TwiceAt (fun x : Fin (m + 2) → ℝ => x i) z := by
  unfold TwiceAt; fun_prop

theorem stateComposition_twice (z : Fin (m + 2) → ℝ) (i : Nat) : TwiceAt (fun x => stateComposition x i) z := by
  have one : ∀ k, TwiceAt (fun x : Fin (m + 2) → ℝ => if h : k < m then x ⟨k + 1, by omega⟩ else 0) z := fun k => by
    by_cases h : k < m
    · simp only [dif_pos h]; exact entry_twice z _
    · simp only [dif_neg h]; exact contDiffAt_const
  unfold stateComposition complement
  by_cases h : i = m
  · simp only [if_pos h]
    exact contDiffAt_const.sub (TwiceAt.range_sum fun k _ => one k)
  · simp only [if_neg h]; exact one i

theorem stateRate_twice {X : Chemistry} (hn : X.nsp = m + 1) {z : Fin (m + 2) → ℝ} (hX : ∀ t, 200 ≤ t → t ≤ 5000 → X.ProperAt t)
    (h : X.Interior z) (hs : X.Smooth z) : TwiceAt (fun x : Fin (m + 2) → ℝ => X.stateRate x) z := by
  have hR := regularAt_of hn hX h
  refine contDiffAt_pi.2 fun i => ?_
  unfold Chemistry.stateRate
  by_cases h0 : i.val = 0
  · simp only [if_pos h0]
    exact dTdt_twice (T := fun x : Fin (m + 2) → ℝ => x 0) (p := fun x => x (Fin.last (m + 1))) (Y := stateComposition)
      hR hs.cutOff (entry_twice z 0) (entry_twice z _) fun i _ => stateComposition_twice z i
  · by_cases h1 : i.val = m + 1
    · simp only [if_neg h0, if_pos h1]; exact contDiffAt_const
    · simp only [if_neg h0, if_neg h1]
      exact dYdt_twice (T := fun x : Fin (m + 2) → ℝ => x 0) (p := fun x => x (Fin.last (m + 1))) (Y := stateComposition)
        hR hs.cutOff (entry_twice z 0) (entry_twice z _) (fun i _ => stateComposition_twice z i) _

/-- Around a point at which a function is twice continuously differentiable: its Taylor expansion to first order. -/
theorem twice_nearby {N : Nat} {f : (Fin N → ℝ) → Fin N → ℝ} {z : Fin N → ℝ} (h : TwiceAt f z) : ∃ r Λ Λ₂ Q : ℝ, 0 < r ∧ 0 ≤ Λ ∧ 0 ≤ Λ₂ ∧
    0 ≤ Q ∧ (∀ x ∈ Metric.closedBall z r, ∀ y ∈ Metric.closedBall z r, ‖f y - f x - fderiv ℝ f x (y - x)‖ ≤ Q * ‖y - x‖ ^ 2) ∧
    (∀ x ∈ Metric.closedBall z r, ∀ v, ‖fderiv ℝ f x v‖ ≤ Λ * ‖v‖) ∧
    ∀ x ∈ Metric.closedBall z r, ∀ y ∈ Metric.closedBall z r, ‖fderiv ℝ f x (f x) - fderiv ℝ f y (f y)‖ ≤ Λ₂ * ‖x - y‖ := by
  have h1 : ContDiffAt ℝ 1 (fderiv ℝ f) z := h.fderiv_right (by norm_num)
  obtain ⟨K, U, hU, hL⟩ := h1.exists_lipschitzOnWith
  have hd : ∀ᶠ x in 𝓝 z, DifferentiableAt ℝ f x := (h.eventually (by simp)).mono fun x hx => hx.differentiableAt (by simp)
  obtain ⟨r, hr, hball⟩ := Metric.nhds_basis_closedBall.eventually_iff.1 ((Filter.eventually_mem_set.2 hU).and hd)
  have hz := Metric.mem_closedBall_self (x := z) hr.le
  have hLn : ∀ x ∈ Metric.closedBall z r, ∀ y ∈ Metric.closedBall z r, ‖fderiv ℝ f x - fderiv ℝ f y‖ ≤ K * ‖x - y‖ := fun x hx y hy => by
    have := hL.dist_le_mul x (hball hx).1 y (hball hy).1
    rwa [dist_eq_norm, dist_eq_norm] at this
  obtain ⟨Λ, hΛ⟩ : ∃ Λ, Λ = ‖fderiv ℝ f z‖ + K * r := ⟨_, rfl⟩
  have hΛ0 : 0 ≤ Λ := by rw [hΛ]; positivity
  have hdist : ∀ x ∈ Metric.closedBall z r, ‖x - z‖ ≤ r := fun x hx => by rwa [Metric.mem_closedBall, dist_eq_norm] at hx
  have hD : ∀ x ∈ Metric.closedBall z r, ‖fderiv ℝ f x‖ ≤ Λ := fun x hx => by
    have a1 := norm_le_norm_add_norm_sub' (fderiv ℝ f x) (fderiv ℝ f z)
    have a2 := mul_le_mul_of_nonneg_left (hdist x hx) K.coe_nonneg
    have a3 := hLn x hx z hz
    rw [hΛ]
    linarith
  have hf : ∀ x ∈ Metric.closedBall z r, ∀ y ∈ Metric.closedBall z r, ‖f x - f y‖ ≤ Λ * ‖x - y‖ := fun x hx y hy =>
    (convex_closedBall z r).norm_image_sub_le_of_norm_fderiv_le (fun w hw => (hball hw).2) hD hy hx
  have hfb : ∀ x ∈ Metric.closedBall z r, ‖f x‖ ≤ ‖f z‖ + Λ * r := fun x hx => by
    have a1 := norm_le_norm_add_norm_sub' (f x) (f z)
    have a2 := mul_le_mul_of_nonneg_left (hdist x hx) hΛ0
    have a3 := hf x hx z hz
    linarith
  refine ⟨r, Λ, Λ * Λ + K * (‖f z‖ + Λ * r), K, hr, hΛ0, by positivity, K.coe_nonneg, fun x hx y hy => ?_,
    fun x hx v => ((fderiv ℝ f x).le_opNorm v).trans (mul_le_mul_of_nonneg_right (hD x hx) (norm_nonneg _)), fun x hx y hy => ?_⟩
  · have hseg : segment ℝ x y ⊆ Metric.closedBall z r := (convex_closedBall z r).segment_subset hx hy
    have := (convex_segment x y).norm_image_sub_le_of_norm_fderiv_le' (φ := fderiv ℝ f x) (C := K * ‖y - x‖)
      (fun w hw => (hball (hseg hw)).2) (fun w hw => (hLn w (hseg hw) x hx).trans (mul_le_mul_of_nonneg_left ?_ K.coe_nonneg))
      (left_mem_segment ℝ x y) (right_mem_segment ℝ x y)
    · refine this.trans (le_of_eq (by ring))
    · obtain ⟨a, b, ha, hb, hab, rfl⟩ := hw
      have e : a • x + b • y - x = b • (y - x) := by
        have : a = 1 - b := by linarith
        rw [this]; module
      rw [e, norm_smul, Real.norm_of_nonneg hb]
      exact mul_le_of_le_one_left (norm_nonneg _) (by linarith)
  · calc ‖fderiv ℝ f x (f x) - fderiv ℝ f y (f y)‖ = ‖fderiv ℝ f x (f x - f y) + (fderiv ℝ f x - fderiv ℝ f y) (f y)‖ := by
          congr 1; rw [map_sub, sub_apply]; abel
      _ ≤ Λ * (Λ * ‖x - y‖) + K * ‖x - y‖ * (‖f z‖ + Λ * r) := by
          refine (norm_add_le _ _).trans (add_le_add ?_ ?_)
          · exact ((fderiv ℝ f x).le_opNorm _).trans (mul_le_mul (hD x hx) (hf x hx y hy) (norm_nonneg _) hΛ0)
          · exact ((fderiv ℝ f x - fderiv ℝ f y).le_opNorm _).trans (mul_le_mul (hLn x hx y hy) (hfb y hy) (norm_nonneg _) (by positivity))
      _ = _ := by ring

/-- A tube remains one if it is shortened and narrowed. -/
theorem Chemistry.Tube.restrict {X : Chemistry} {φ : ℝ → Fin (m + 2) → ℝ} {b b' ρ ρ' B Λ Λ' S : ℝ} (h : X.Tube φ b ρ B Λ S)
    (hb : b' ≤ b) (hρ : ρ' ≤ ρ) (hΛ : Λ ≤ Λ') : X.Tube φ b' ρ' B Λ' S := by
  have mono : ∀ t x, Spec.Near φ 0 b' ρ' t x → Spec.Near φ 0 b ρ t x := fun t x h =>
    ⟨⟨h.1.1, h.1.2.trans hb⟩, h.2.trans hρ⟩
  exact ⟨fun t ht => (h.solves t ⟨ht.1, ht.2.trans hb⟩).mono (Set.Icc_subset_Icc le_rfl hb),
    fun t x h' => h.admissible t x (mono t x h'), fun t x h' => h.terms t x (mono t x h'),
    fun t x h' => h.bound t x (mono t x h'),
    fun t x t' x' h1 h2 h3 h4 => (h.lipschitz t x t' x' (mono t x h1) (mono t' x' h2) h3 h4).trans
      (mul_le_mul_of_nonneg_right hΛ (norm_nonneg _)),
    fun t ht => h.nonNegative t ⟨ht.1, ht.2.trans hb⟩⟩

/-- A state inside the domain with all species present is the start of a solution of the reactor, with a neighbourhood in which the rates
are smooth to second order. -/
theorem exists_smooth_tube {X : Chemistry} (hn : X.nsp = m + 1) {z : Fin (m + 2) → ℝ} (hX : ∀ t, 200 ≤ t → t ≤ 5000 → X.ProperAt t)
    (h : X.AllPresent z) : ∃ b ρ B Λ Λ₂ Q S : ℝ, ∃ φ : ℝ → Fin (m + 2) → ℝ,
    ∃ D : ℝ → (Fin (m + 2) → ℝ) → (Fin (m + 2) → ℝ) →ₗ[ℝ] (Fin (m + 2) → ℝ),
    0 < b ∧ 0 < ρ ∧ 0 ≤ B ∧ 0 ≤ Λ ∧ 0 ≤ Λ₂ ∧ 0 ≤ Q ∧ 0 ≤ S ∧ φ 0 = z ∧ X.Tube φ b ρ B Λ S ∧
    SmoothNear (fun _ x => X.stateRate (clip x)) D (fun _ _ => 0) φ 0 b ρ Λ Λ₂ Q := by
  obtain ⟨b, ρ, B, Λ, S, φ, hb, hρ, hB, hΛ, hS, h0, hφ⟩ := exists_tube hn hX h.toInterior
  obtain ⟨r, Λ', Λ₂, Q, hr, hΛ', hΛ₂, hQ, k1, k2, k3⟩ := twice_nearby
    (stateRate_twice hn hX h.toInterior ⟨h.toAdmissible, h.fits, h.cutOff⟩)
  have hpos : ∀ᶠ x in 𝓝 z, NonNegative x := by
    refine Filter.eventually_all.2 fun i => ?_
    have hi := h.present i.val i.isLt
    unfold stateComposition complement at hi
    rw [if_neg (by omega)] at hi
    dsimp only at hi
    rw [dif_pos i.isLt] at hi
    exact ((lipAt_entry z i.castSucc.succ).continuousAt.eventually_const_lt hi).mono fun x hx => hx.le
  obtain ⟨r', hr', hball⟩ := Metric.nhds_basis_closedBall.eventually_iff.1 hpos
  obtain ⟨s, hs⟩ : ∃ s, s = min r r' := ⟨_, rfl⟩
  have hs0 : 0 < s := by rw [hs]; exact lt_min hr hr'
  obtain ⟨δ, hδ, hcont⟩ := Metric.continuousWithinAt_iff.1 (hφ.solves 0 ⟨le_rfl, hb.le⟩).continuousWithinAt (s / 2) (by positivity)
  obtain ⟨b', hb'⟩ : ∃ b', b' = min b (δ / 2) := ⟨_, rfl⟩
  have hb0 : 0 < b' := by rw [hb']; exact lt_min hb (by positivity)
  have hbb : b' ≤ b := by rw [hb']; exact min_le_left _ _
  have hbδ : b' ≤ δ / 2 := by rw [hb']; exact min_le_right _ _
  obtain ⟨ρ', hρ'⟩ : ∃ ρ', ρ' = min ρ (s / 2) := ⟨_, rfl⟩
  have hρ0 : 0 < ρ' := by rw [hρ']; exact lt_min hρ (by positivity)
  have hρρ : ρ' ≤ ρ := by rw [hρ']; exact min_le_left _ _
  have hρs : ρ' ≤ s / 2 := by rw [hρ']; exact min_le_right _ _
  have hnear : ∀ t x, Spec.Near φ 0 b' ρ' t x → x ∈ Metric.closedBall z s := by
    rintro t x ⟨ht, hx⟩
    have h1 := hcont (x := t) ⟨ht.1, ht.2.trans hbb⟩ (by
      rw [Real.dist_eq, sub_zero, abs_of_nonneg ht.1]
      have := ht.2.trans hbδ
      linarith)
    rw [h0] at h1
    rw [Metric.mem_closedBall]
    rw [← dist_eq_norm] at hx
    linarith [dist_triangle x (φ t) z]
  have hin : ∀ t x, Spec.Near φ 0 b' ρ' t x → x ∈ Metric.closedBall z r := fun t x hx =>
    Metric.closedBall_subset_closedBall (by rw [hs]; exact min_le_left _ _) (hnear t x hx)
  have hclip : ∀ t x, Spec.Near φ 0 b' ρ' t x → clip x = x := fun t x hx =>
    clip_of_nonNegative (hball (Metric.closedBall_subset_closedBall (by rw [hs]; exact min_le_right _ _) (hnear t x hx)))
  refine ⟨b', ρ', B, max Λ Λ', Λ₂, Q, S, φ, fun _ x => (fderiv ℝ (fun x => X.stateRate x) x).toLinearMap, hb0, hρ0, hB,
    le_max_of_le_left hΛ, hΛ₂, hQ, hS, h0, hφ.restrict hbb hρρ (le_max_left _ _), ⟨fun t x t' x' hx hx' => ?_, fun t x v hx => ?_,
    fun t x x' hx hx' => ?_⟩⟩
  · rw [hclip t x hx, hclip t' x' hx', smul_zero, sub_zero]
    refine (k1 x (hin t x hx) x' (hin t' x' hx')).trans (mul_le_mul_of_nonneg_left ?_ hQ)
    have := abs_nonneg (t' - t)
    gcongr
    linarith
  · exact (k2 x (hin t x hx) v).trans (mul_le_mul_of_nonneg_right (le_max_right _ _) (norm_nonneg _))
  · rw [hclip t x hx, hclip t x' hx', add_zero, add_zero]
    exact k3 x (hin t x hx) x' (hin t x' hx')

end
end DLB
