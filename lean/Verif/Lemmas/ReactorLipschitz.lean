import Verif.Lemmas.LocalLipschitz
import Verif.Lemmas.JacobDeriv
import Verif.Lemmas.SecondLaw
import Verif.Spec.ReactorState
/-
The rates of change in the reactor are locally Lipschitz continuous.
-/
set_option autoImplicit false
set_option linter.unusedSectionVars false

namespace DLB
open scoped Topology

/-- What makes the rate laws of a mechanism meaningful at the temperature `T`. -/
structure Chemistry.ProperAt (X : Chemistry) (T : ℝ) : Prop where
  temperature : 0 < T
  weight : ∀ i, i < X.nsp → 0 < X.weight i
  species : ∀ n ∈ number X.reactions, (∀ s ∈ n.r.reactants, s < X.nsp) ∧ ∀ s ∈ n.r.products, s < X.nsp
  coefficient : ∀ n ∈ number X.reactions, 0 < X.coefficient n T
  limits : ∀ n ∈ number X.reactions, ∀ eff kInf k0 troe, n.r.kind = .falloff eff → X.law n.k = .falloff kInf k0 troe →
    0 < kInf.coefficient n.r.reactants.length T ∧ 0 ≤ k0.coefficient (n.r.reactants.length + 1) T
  centre : ∀ n ∈ number X.reactions, ∀ eff kInf k0 t, n.r.kind = .falloff eff → X.law n.k = .falloff kInf k0 (some t) →
    0 < t.centre T
  cp : ∀ i, i < X.nsp → 0 < X.cp T i

variable {E : Type} [PseudoEMetricSpace E] {z : E} {T p : E → ℝ} {C Y : E → Nat → ℝ}

theorem coefficient_lipAt (k : Arrhenius) (o : Nat) (hT : LipAt T z) (h0 : 0 < T z) :
    LipAt (fun x => k.coefficient o (T x)) z :=
  ((LipAt.const _ z).mul (hT.rpow h0 _)).mul (((LipAt.const k.temperature z).div hT h0.ne').neg.exp)

theorem cpOverR_lipAt (a : List SDec) (hT : LipAt T z) : LipAt (fun x => cpOverR a (T x)) z := by
  unfold cpOverR
  exact ((((LipAt.const _ z).add ((LipAt.const _ z).mul hT)).add ((LipAt.const _ z).mul (hT.pow 2))).add
    ((LipAt.const _ z).mul (hT.pow 3))).add ((LipAt.const _ z).mul (hT.pow 4))

theorem term_lipAt (c : ℝ) (k : Nat) (d : ℝ) (hd : d ≠ 0) (hT : LipAt T z) : LipAt (fun x => c * T x ^ k / d) z :=
  ((LipAt.const c z).mul (hT.pow k)).div (LipAt.const d z) hd

theorem hOverR_lipAt (a : List SDec) (hT : LipAt T z) : LipAt (fun x => hOverR a (T x)) z := by
  unfold hOverR
  exact (((((LipAt.const _ z).add ((LipAt.const _ z).mul hT)).add (term_lipAt _ 2 2 (by norm_num) hT)).add
    (term_lipAt _ 3 3 (by norm_num) hT)).add (term_lipAt _ 4 4 (by norm_num) hT)).add (term_lipAt _ 5 5 (by norm_num) hT)

theorem hTerms_lipAt (a : List SDec) (hT : LipAt T z) : LipAt (fun x => hTerms a (T x)) z := by
  unfold hTerms
  exact (((((LipAt.const _ z).add ((LipAt.const _ z).mul hT).abs).add (term_lipAt _ 2 2 (by norm_num) hT).abs).add
    (term_lipAt _ 3 3 (by norm_num) hT).abs).add (term_lipAt _ 4 4 (by norm_num) hT).abs).add
    (term_lipAt _ 5 5 (by norm_num) hT).abs

theorem sOverR_lipAt (a : List SDec) (hT : LipAt T z) (h0 : 0 < T z) : LipAt (fun x => sOverR a (T x)) z := by
  unfold sOverR
  exact ((((((LipAt.const _ z).mul (hT.log h0.ne')).add ((LipAt.const _ z).mul hT)).add
    (term_lipAt _ 2 2 (by norm_num) hT)).add (term_lipAt _ 3 3 (by norm_num) hT)).add
    (term_lipAt _ 4 4 (by norm_num) hT)).add (LipAt.const _ z)

/-- What is computed with the polynomials of a species, away from the temperature at which they change. -/
theorem fit_lipAt (q : Nasa) (f : List SDec → ℝ → ℝ) (hT : LipAt T z) (hm : T z ≠ (q.tMid.1 : ℝ) / 10 ^ q.tMid.2)
    (hf : ∀ a, LipAt (fun x => f a (T x)) z) : LipAt (fun x => f (q.at (T x)) (T x)) z := by
  refine (hf (q.at (T z))).congr ?_
  filter_upwards [hT.continuousAt.eventually (at_eventually q hm)] with x hx
  rw [hx]

theorem equilibriumConstant_lipAt (nsp : Nat) (fit : Nat → Nasa) (r : Reaction) (hT : LipAt T z) (h0 : 0 < T z)
    (hm : ∀ i, i < nsp → T z ≠ ((fit i).tMid.1 : ℝ) / 10 ^ (fit i).tMid.2) :
    LipAt (fun x => equilibriumConstant nsp fit r (T x)) z := by
  have hR : (0 : ℝ) < gasR := by unfold gasR; positivity
  have hq : (0 : ℝ) < standardPressure / (gasR * T z) := by unfold standardPressure; positivity
  have hz : LipAt (fun x => (standardPressure / (gasR * T x)) ^ r.molecules) z := by
    have := ((LipAt.const standardPressure z).div ((LipAt.const gasR z).mul hT) (mul_pos hR h0).ne').rpow hq
      (r.molecules : ℝ)
    simpa only [Real.rpow_intCast] using this
  refine LipAt.mul (LipAt.exp (LipAt.neg (LipAt.sum fun i hi => (LipAt.const _ z).mul ?_))) hz
  exact fit_lipAt (fit i) gOverRT hT (hm i hi) fun a => ((hOverR_lipAt a hT).div hT h0.ne').sub (sOverR_lipAt a hT h0)

theorem thirdBody_lipAt (nsp : Nat) (eff : List (Nat × Nat × Nat)) (hC : ∀ i, i < nsp → LipAt (fun x => C x i) z) :
    LipAt (fun x => thirdBody nsp eff (C x)) z :=
  LipAt.sum fun i hi => (LipAt.const _ z).mul (hC i hi)

theorem lg_lipAt {f : E → ℝ} (hf : LipAt f z) (h0 : f z ≠ 0) : LipAt (fun x => lg (f x)) z :=
  (hf.log h0).div (LipAt.const _ z) log_ten_pos.ne'

theorem centre_lipAt (t : Troe) (hT : LipAt T z) (h0 : 0 < T z) : LipAt (fun x => t.centre (T x)) z := by
  have e : ∀ c : ℝ, LipAt (fun x => Real.exp (-(T x / c))) z := fun c => by
    have := (hT.mul (LipAt.const c⁻¹ z)).neg.exp
    simpa only [← div_eq_mul_inv] using this
  unfold Troe.centre
  refine (((LipAt.const _ z).mul (e _)).add ((LipAt.const _ z).mul (e _))).add ?_
  cases t.T2 with
  | none => exact LipAt.const _ z
  | some d => exact ((LipAt.const _ z).div hT h0.ne').neg.exp

theorem factor_lipAt {F P : E → ℝ} (hF : LipAt F z) (hP : LipAt P z) (hF0 : 0 < F z) (hP0 : 0 < P z)
    (hpole : lg (P z) ≠ Troe.pole (F z)) : LipAt (fun x => Troe.factor (F x) (P x)) z := by
  have lF := lg_lipAt hF hF0.ne'
  have lP := lg_lipAt hP hP0.ne'
  have hc : LipAt (fun x => -(4 / 10) - 67 / 100 * lg (F x)) z := (LipAt.const _ z).sub ((LipAt.const _ z).mul lF)
  have hn : LipAt (fun x => 75 / 100 - 127 / 100 * lg (F x)) z := (LipAt.const _ z).sub ((LipAt.const _ z).mul lF)
  have hs := lP.add hc
  have hd := hn.sub ((LipAt.const (14 / 100) z).mul hs)
  have hne : (75 / 100 - 127 / 100 * lg (F z)) - 14 / 100 * (lg (P z) + (-(4 / 10) - 67 / 100 * lg (F z))) ≠ 0 := by
    intro e
    apply hpole
    unfold Troe.pole
    linarith
  have hx := lF.div ((LipAt.const 1 z).add ((hs.div hd hne).pow 2))
    (by have := sq_nonneg ((lg (P z) + (-(4 / 10) - 67 / 100 * lg (F z))) /
          ((75 / 100 - 127 / 100 * lg (F z)) - 14 / 100 * (lg (P z) + (-(4 / 10) - 67 / 100 * lg (F z))))); linarith)
  have := ((LipAt.const (Real.log 10) z).mul hx).exp
  refine this.congr (Filter.Eventually.of_forall fun x => ?_)
  unfold Troe.factor
  exact Real.rpow_def_of_pos (by norm_num) _

section
variable {X : Chemistry}

theorem forward_lipAt (n : Numbered) (hn : n ∈ number X.reactions) (hX : X.ProperAt (T z)) (hT : LipAt T z)
    (hC : ∀ i, i < X.nsp → LipAt (fun x => C x i) z) : LipAt (fun x => X.forward n (T x) (C x)) z :=
  (coefficient_lipAt _ _ hT hX.temperature).mul (LipAt.list_prod fun s hs => hC s ((hX.species n hn).1 s hs))

theorem reverse_lipAt (n : Numbered) (hn : n ∈ number X.reactions) (hX : X.ProperAt (T z)) (hm : X.BetweenFits (T z))
    (hT : LipAt T z) (hC : ∀ i, i < X.nsp → LipAt (fun x => C x i) z) :
    LipAt (fun x => X.reverse n (T x) (C x)) z := by
  unfold Chemistry.reverse
  split
  · exact ((coefficient_lipAt _ _ hT hX.temperature).div
      (equilibriumConstant_lipAt _ _ _ hT hX.temperature hm)
      (equilibriumConstant_pos _ _ _ hX.temperature).ne').mul
      (LipAt.list_prod fun s hs => hC s ((hX.species n hn).2 s hs))
  · exact LipAt.const _ z

theorem reducedPressure_nonneg (n : Numbered) (hn : n ∈ number X.reactions) {t : ℝ} (hX : X.ProperAt t) {c : Nat → ℝ}
    (h : ∀ i, i < X.nsp → 0 ≤ c i) {eff kInf k0 troe} (e1 : n.r.kind = .falloff eff)
    (e2 : X.law n.k = .falloff kInf k0 troe) : 0 ≤ X.reducedPressure n kInf k0 eff t c := by
  obtain ⟨a, b⟩ := hX.limits n hn eff kInf k0 troe e1 e2
  exact div_nonneg (mul_nonneg b (thirdBody_nonneg _ _ _ h)) a.le

theorem modification_nonneg (n : Numbered) (hn : n ∈ number X.reactions) {t : ℝ} (hX : X.ProperAt t) {c : Nat → ℝ}
    (h : ∀ i, i < X.nsp → 0 ≤ c i) : 0 ≤ X.modification n t c := by
  unfold Chemistry.modification
  split
  · exact zero_le_one
  · exact thirdBody_nonneg _ _ _ h
  · rename_i eff kInf k0 e1 e2
    have := reducedPressure_nonneg n hn hX h e1 e2
    positivity
  · rename_i eff kInf k0 t' e1 e2
    have := reducedPressure_nonneg n hn hX h e1 e2
    have : 0 ≤ Troe.factor (t'.centre t) (max (X.reducedPressure n kInf k0 eff t c) (1 / 10 ^ 300)) :=
      Real.rpow_nonneg (by norm_num) _
    positivity
  · exact le_rfl

theorem reducedPressure_lipAt (n : Numbered) (hn : n ∈ number X.reactions) (hX : X.ProperAt (T z)) (hT : LipAt T z)
    (hC : ∀ i, i < X.nsp → LipAt (fun x => C x i) z) {eff kInf k0 troe} (e1 : n.r.kind = .falloff eff)
    (e2 : X.law n.k = .falloff kInf k0 troe) : LipAt (fun x => X.reducedPressure n kInf k0 eff (T x) (C x)) z :=
  ((coefficient_lipAt _ _ hT hX.temperature).mul (thirdBody_lipAt _ _ hC)).div
    (coefficient_lipAt _ _ hT hX.temperature) (hX.limits n hn eff kInf k0 troe e1 e2).1.ne'

theorem modification_lipAt (n : Numbered) (hn : n ∈ number X.reactions) (hX : X.ProperAt (T z)) (hT : LipAt T z)
    (hC : ∀ i, i < X.nsp → LipAt (fun x => C x i) z) (hC0 : ∀ i, i < X.nsp → 0 ≤ C z i)
    (hp : X.AwayFromPoles (T z) (C z)) : LipAt (fun x => X.modification n (T x) (C x)) z := by
  unfold Chemistry.modification
  split
  · exact LipAt.const _ z
  · exact thirdBody_lipAt _ _ hC
  · rename_i eff kInf k0 e1 e2
    have h0 := reducedPressure_nonneg n hn hX hC0 e1 e2
    have h1 := reducedPressure_lipAt n hn hX hT hC e1 e2
    exact h1.div ((LipAt.const 1 z).add h1) (by linarith)
  · rename_i eff kInf k0 t e1 e2
    have h0 := reducedPressure_nonneg n hn hX hC0 e1 e2
    have h1 := reducedPressure_lipAt n hn hX hT hC e1 e2
    have hne : lg (max (X.reducedPressure n kInf k0 eff (T z) (C z)) (1 / 10 ^ 300)) ≠ Troe.pole (t.centre (T z)) := by
      intro e
      have := hp n hn eff kInf k0 t e1 e2
      rw [e, sub_self, abs_zero] at this
      exact absurd this (not_lt.2 (by positivity))
    have h2 := factor_lipAt (centre_lipAt t hT hX.temperature) (h1.max_const (1 / 10 ^ 300))
      (hX.centre n hn eff kInf k0 t e1 e2) (lt_max_of_lt_right (by positivity)) hne
    exact (h2.mul h1).div ((LipAt.const 1 z).add h1) (by linarith)
  · exact LipAt.const _ z

theorem production_lipAt (i : Nat) (hX : X.ProperAt (T z)) (hm : X.BetweenFits (T z)) (hT : LipAt T z)
    (hC : ∀ i, i < X.nsp → LipAt (fun x => C x i) z) (hC0 : ∀ i, i < X.nsp → 0 ≤ C z i)
    (hp : X.AwayFromPoles (T z) (C z)) : LipAt (fun x => X.production (T x) (C x) i) z :=
  LipAt.list_sum fun n hn => (LipAt.const _ z).mul (((forward_lipAt n hn hX hT hC).sub
    (reverse_lipAt n hn hX hm hT hC)).mul (modification_lipAt n hn hX hT hC hC0 hp))

theorem turnover_lipAt (i : Nat) (hX : X.ProperAt (T z)) (hm : X.BetweenFits (T z)) (hT : LipAt T z)
    (hC : ∀ i, i < X.nsp → LipAt (fun x => C x i) z) (hC0 : ∀ i, i < X.nsp → 0 ≤ C z i)
    (hp : X.AwayFromPoles (T z) (C z)) : LipAt (fun x => X.turnover (T x) (C x) i) z :=
  LipAt.list_sum fun n hn => (LipAt.const _ z).mul (((forward_lipAt n hn hX hT hC).add
    (reverse_lipAt n hn hX hm hT hC)).mul (modification_lipAt n hn hX hT hC hC0 hp))

/-- A species that is absent is not consumed. -/
theorem production_of_absent {t : ℝ} (hX : X.ProperAt t) {c : Nat → ℝ} (h : ∀ i, i < X.nsp → 0 ≤ c i) {i : Nat}
    (hi : c i = 0) : 0 ≤ X.production t c i := by
  refine List.sum_nonneg fun q hq => ?_
  obtain ⟨n, hn, rfl⟩ := List.mem_map.1 hq
  have hm := modification_nonneg n hn hX h
  have hprod : ∀ l : List Nat, (∀ s ∈ l, s < X.nsp) → 0 ≤ (l.map c).prod := fun l hl =>
    List.prod_nonneg fun q hq => by
      obtain ⟨s, hs, rfl⟩ := List.mem_map.1 hq
      exact h s (hl s hs)
  have hzero : ∀ l : List Nat, i ∈ l → (l.map c).prod = 0 := fun l hl =>
    List.prod_eq_zero (by rw [← hi]; exact List.mem_map_of_mem hl)
  have hf : 0 ≤ X.forward n t c := mul_nonneg (hX.coefficient n hn).le (hprod _ (hX.species n hn).1)
  have hr : 0 ≤ X.reverse n t c := by
    unfold Chemistry.reverse
    split
    · exact mul_nonneg (div_nonneg (hX.coefficient n hn).le (equilibriumConstant_pos _ _ _ hX.temperature).le)
        (hprod _ (hX.species n hn).2)
    · exact le_rfl
  rcases lt_trichotomy (n.r.net i) 0 with hlt | heq | hgt
  · have : i ∈ n.r.reactants := by
      by_contra hc
      have := List.count_eq_zero_of_not_mem hc
      unfold Reaction.net at hlt
      omega
    have e : X.forward n t c = 0 := by unfold Chemistry.forward; rw [hzero _ this, mul_zero]
    rw [e, zero_sub, neg_mul, mul_neg]
    have : (n.r.net i : ℝ) ≤ 0 := by exact_mod_cast hlt.le
    have := mul_nonneg hr hm
    nlinarith
  · rw [heq]; simp
  · have : i ∈ n.r.products := by
      by_contra hc
      have := List.count_eq_zero_of_not_mem hc
      unfold Reaction.net at hgt
      omega
    have e : X.reverse n t c = 0 := by
      unfold Chemistry.reverse
      split
      · rw [hzero _ this, mul_zero]
      · rfl
    rw [e, sub_zero]
    have : (0 : ℝ) ≤ (n.r.net i : ℝ) := by exact_mod_cast hgt.le
    positivity

theorem moles_pos {y : Nat → ℝ} {t : ℝ} (hX : X.ProperAt t) (hY : ∀ i, i < X.nsp → 0 ≤ y i)
    (hs : ∃ i, i < X.nsp ∧ 0 < y i) : 0 < ∑ i ∈ Finset.range X.nsp, y i / X.weight i := by
  obtain ⟨i, hi, h0⟩ := hs
  exact Finset.sum_pos' (fun j hj => div_nonneg (hY j (Finset.mem_range.1 hj)) (hX.weight j (Finset.mem_range.1 hj)).le)
    ⟨i, Finset.mem_range.2 hi, div_pos h0 (hX.weight i hi)⟩

theorem density_pos {y : Nat → ℝ} {t q : ℝ} (hX : X.ProperAt t) (hq : 0 < q) (hY : ∀ i, i < X.nsp → 0 ≤ y i)
    (hs : ∃ i, i < X.nsp ∧ 0 < y i) : 0 < X.density t q y := by
  have hR : (0 : ℝ) < gasR := by unfold gasR; positivity
  exact div_pos hq (mul_pos (mul_pos hR hX.temperature) (moles_pos hX hY hs))

theorem heat_pos {y : Nat → ℝ} {t : ℝ} (hX : X.ProperAt t) (hY : ∀ i, i < X.nsp → 0 ≤ y i)
    (hs : ∃ i, i < X.nsp ∧ 0 < y i) : 0 < ∑ i ∈ Finset.range X.nsp, X.cp t i * y i := by
  obtain ⟨i, hi, h0⟩ := hs
  exact Finset.sum_pos' (fun j hj => mul_nonneg (hX.cp j (Finset.mem_range.1 hj)).le (hY j (Finset.mem_range.1 hj)))
    ⟨i, Finset.mem_range.2 hi, mul_pos (hX.cp i hi) h0⟩

/-- Where the rates of change are locally Lipschitz continuous. -/
structure Chemistry.RegularAt (X : Chemistry) (t q : ℝ) (y : Nat → ℝ) : Prop where
  proper : X.ProperAt t
  fits : X.BetweenFits t
  pressure : 0 < q
  fractions : ∀ i, i < X.nsp → 0 ≤ y i
  some_pos : ∃ i, i < X.nsp ∧ 0 < y i
  poles : X.AwayFromPoles t (X.concentrations t q y)

variable (h : X.RegularAt (T z) (p z) (Y z)) (hT : LipAt T z) (hp : LipAt p z)
  (hY : ∀ i, i < X.nsp → LipAt (fun x => Y x i) z)
include h hT hp hY

theorem density_lipAt : LipAt (fun x => X.density (T x) (p x) (Y x)) z := by
  have hR : (0 : ℝ) < gasR := by unfold gasR; positivity
  exact hp.div (((LipAt.const _ z).mul hT).mul (LipAt.sum fun i hi => (hY i hi).div (LipAt.const _ z)
    (h.proper.weight i hi).ne')) (mul_pos (mul_pos hR h.proper.temperature) (moles_pos h.proper h.fractions h.some_pos)).ne'

theorem concentrations_lipAt (i : Nat) (hi : i < X.nsp) :
    LipAt (fun x => X.concentrations (T x) (p x) (Y x) i) z :=
  ((density_lipAt h hT hp hY).mul (hY i hi)).div (LipAt.const _ z) (h.proper.weight i hi).ne'

theorem concentrations_nonneg (i : Nat) (hi : i < X.nsp) : 0 ≤ X.concentrations (T z) (p z) (Y z) i :=
  div_nonneg (mul_nonneg (density_pos h.proper h.pressure h.fractions h.some_pos).le (h.fractions i hi))
    (h.proper.weight i hi).le

theorem dYdt_lipAt (i : Nat) : LipAt (fun x => X.dYdt (T x) (p x) (Y x) i) z :=
  ((production_lipAt i h.proper h.fits hT (concentrations_lipAt h hT hp hY) (concentrations_nonneg h hT hp hY)
    h.poles).mul (LipAt.const _ z)).div (density_lipAt h hT hp hY)
    (density_pos h.proper h.pressure h.fractions h.some_pos).ne'

theorem dYdtTerms_lipAt (i : Nat) : LipAt (fun x => X.dYdtTerms (T x) (p x) (Y x) i) z :=
  ((turnover_lipAt i h.proper h.fits hT (concentrations_lipAt h hT hp hY) (concentrations_nonneg h hT hp hY)
    h.poles).mul (LipAt.const _ z)).div (density_lipAt h hT hp hY)
    (density_pos h.proper h.pressure h.fractions h.some_pos).ne'

theorem heat_lipAt : LipAt (fun x => ∑ i ∈ Finset.range X.nsp, X.cp (T x) i * Y x i) z :=
  LipAt.sum fun i hi => ((LipAt.const _ z).mul (fit_lipAt (X.fit i) cpOverR hT (h.fits i hi) fun a =>
    cpOverR_lipAt a hT)).mul (hY i hi)

theorem dTdt_lipAt : LipAt (fun x => X.dTdt (T x) (p x) (Y x)) z :=
  (LipAt.neg (LipAt.sum fun i hi => ((LipAt.const _ z).mul (fit_lipAt (X.fit i) hOverR hT (h.fits i hi) fun a =>
    hOverR_lipAt a hT)).mul (dYdt_lipAt h hT hp hY i))).div (heat_lipAt h hT hp hY)
    (heat_pos h.proper h.fractions h.some_pos).ne'

theorem dTdtTerms_lipAt : LipAt (fun x => X.dTdtTerms (T x) (p x) (Y x)) z :=
  (LipAt.sum fun i hi => ((LipAt.const _ z).mul (fit_lipAt (X.fit i) hTerms hT (h.fits i hi) fun a =>
    hTerms_lipAt a hT)).mul (dYdtTerms_lipAt h hT hp hY i)).div (heat_lipAt h hT hp hY)
    (heat_pos h.proper h.fractions h.some_pos).ne'

/-- The condition on the poles of Troe's formula holds in a neighbourhood. -/
theorem poles_eventually : ∀ᶠ x in 𝓝 z, X.AwayFromPoles (T x) (X.concentrations (T x) (p x) (Y x)) := by
  have one : ∀ n ∈ number X.reactions, ∀ᶠ x in 𝓝 z, ∀ eff kInf k0 t, n.r.kind = .falloff eff →
      X.law n.k = .falloff kInf k0 (some t) →
      1 / 10 ^ 9 < |lg (max (X.reducedPressure n kInf k0 eff (T x) (X.concentrations (T x) (p x) (Y x))) (1 / 10 ^ 300))
        - Troe.pole (t.centre (T x))| := by
    intro n hn
    by_cases hex : ∃ eff kInf k0 t, n.r.kind = .falloff eff ∧ X.law n.k = .falloff kInf k0 (some t)
    · obtain ⟨eff, kInf, k0, t, e1, e2⟩ := hex
      have h1 := reducedPressure_lipAt n hn h.proper hT (concentrations_lipAt h hT hp hY) e1 e2
      have h2 := lg_lipAt (h1.max_const (1 / 10 ^ 300)) (lt_max_of_lt_right (by positivity) : (0 : ℝ) < _).ne'
      have h3 := lg_lipAt (centre_lipAt t hT h.proper.temperature) (h.proper.centre n hn eff kInf k0 t e1 e2).ne'
      have h4 : LipAt (fun x => Troe.pole (t.centre (T x))) z :=
        (((LipAt.const _ z).sub ((LipAt.const _ z).mul h3)).mul (LipAt.const _ z)).sub
          ((LipAt.const _ z).sub ((LipAt.const _ z).mul h3))
      filter_upwards [(h2.sub h4).abs.continuousAt.eventually_const_lt (h.poles n hn eff kInf k0 t e1 e2)] with x hx
      intro eff' kInf' k0' t' e1' e2'
      rw [e1] at e1'
      rw [e2] at e2'
      cases e1'; cases e2'
      exact hx
    · exact Filter.Eventually.of_forall fun x eff kInf k0 t e1 e2 => absurd ⟨eff, kInf, k0, t, e1, e2⟩ hex
  have all : ∀ l : List Numbered, (∀ n ∈ l, n ∈ number X.reactions) → ∀ᶠ x in 𝓝 z, ∀ n ∈ l, ∀ eff kInf k0 t,
      n.r.kind = .falloff eff → X.law n.k = .falloff kInf k0 (some t) →
      1 / 10 ^ 9 < |lg (max (X.reducedPressure n kInf k0 eff (T x) (X.concentrations (T x) (p x) (Y x))) (1 / 10 ^ 300))
        - Troe.pole (t.centre (T x))| := by
    intro l
    induction l with
    | nil => intro _; exact Filter.Eventually.of_forall fun x n hn => absurd hn (by simp)
    | cons a l ih =>
      intro hl
      filter_upwards [one a (hl a (by simp)), ih fun n hn => hl n (by simp [hn])] with x h1 h2
      intro n hn
      rcases List.mem_cons.1 hn with rfl | hn
      · exact h1
      · exact h2 n hn
  exact all _ fun n hn => hn

end
end DLB
