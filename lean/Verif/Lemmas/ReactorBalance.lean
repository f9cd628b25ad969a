import Verif.Spec.ReactorBalance
import Verif.Lemmas.ReactorProper
import Verif.Props.SecondLaw
/-
Enthalpy, atoms and entropy along solutions of the reactor.
-/
set_option autoImplicit false
set_option linter.unusedSectionVars false

namespace DLB
open Spec
open scoped Topology

variable {m : Nat}

/-- Sums over species of what is proportional to the atoms in a molecule do not change. -/
theorem dYdt_weighted {D : Package} (a : Nat → ℝ) (ha : ∀ n ∈ number D.reactions, ∑ s ∈ Finset.range D.nsp, a s * (n.r.net s : ℝ) = 0)
    (hW : ∀ i, i < D.nsp → 0 < D.chemistry.weight i) (T p : ℝ) (Y : Nat → ℝ) :
    ∑ i ∈ Finset.range D.nsp, a i / D.chemistry.weight i * D.chemistry.dYdt T p Y i = 0 := by
  have e1 : ∀ i ∈ Finset.range D.nsp, a i / D.chemistry.weight i * D.chemistry.dYdt T p Y i =
      a i * D.chemistry.production T (D.chemistry.concentrations T p Y) i * (1 / D.chemistry.density T p Y) := by
    intro i hi
    have := (hW i (Finset.mem_range.1 hi)).ne'
    unfold Chemistry.dYdt
    field_simp
  rw [Finset.sum_congr rfl e1, ← Finset.sum_mul]
  have e2 := sum_weighted D.nsp (number D.reactions) a fun n =>
    (D.chemistry.forward n T (D.chemistry.concentrations T p Y) - D.chemistry.reverse n T (D.chemistry.concentrations T p Y)) *
      D.chemistry.modification n T (D.chemistry.concentrations T p Y)
  have e3 : ∑ i ∈ Finset.range D.nsp, a i * D.chemistry.production T (D.chemistry.concentrations T p Y) i = 0 := by
    refine e2.trans (List.sum_eq_zero ?_)
    intro v hv
    obtain ⟨n, hn, rfl⟩ := List.mem_map.1 hv
    rw [ha n hn, zero_mul]
  rw [e3, zero_mul]

theorem dYdt_sum {D : Package} (hD : D ∈ shipped) (T p : ℝ) (Y : Nat → ℝ) :
    ∑ i ∈ Finset.range D.nsp, D.chemistry.dYdt T p Y i = 0 := by
  have hc := checked_of_shipped hD
  have hW : ∀ i, i < D.nsp → 0 < D.chemistry.weight i := fun i hi => molWeight_pos hc i hi
  have := dYdt_weighted (D := D) (fun i => D.molWeight i) (mass_net hc) hW T p Y
  rw [← this]
  refine Finset.sum_congr rfl fun i hi => ?_
  have e : (D.molWeight i : ℝ) = D.chemistry.weight i := rfl
  rw [e, div_self (hW i (Finset.mem_range.1 hi)).ne', one_mul]

/-- The mass fractions along a solution. -/
theorem composition_deriv {D : Package} (hD : D ∈ shipped) (hn : D.nsp = m + 1) {φ : ℝ → Fin (m + 2) → ℝ} {b : ℝ}
    (hφ : SolvesOn (fun _ => D.chemistry.stateRate) φ 0 b) (t : ℝ) (ht : t ∈ Set.Icc 0 b) (i : Nat) (hi : i < m + 1) :
    HasDerivWithinAt (fun t => stateComposition (φ t) i)
      (D.chemistry.dYdt (φ t 0) (φ t (Fin.last (m + 1))) (stateComposition (φ t)) i) (Set.Icc 0 b) t := by
  have hd := hasDerivWithinAt_pi.1 (hφ t ht)
  have one : ∀ k, k < m → HasDerivWithinAt (fun t => if h : k < m then φ t ⟨k + 1, by omega⟩ else 0)
      (D.chemistry.dYdt (φ t 0) (φ t (Fin.last (m + 1))) (stateComposition (φ t)) k) (Set.Icc 0 b) t := fun k hk => by
    have := hd ⟨k + 1, by omega⟩
    unfold Chemistry.stateRate at this
    dsimp only at this
    rw [if_neg (by simp), if_neg (by simp; omega)] at this
    simp only [dif_pos hk]
    exact this
  by_cases e : i = m
  · have hs := dYdt_sum hD (φ t 0) (φ t (Fin.last (m + 1))) (stateComposition (φ t))
    rw [hn, Finset.sum_range_succ] at hs
    have := (HasDerivWithinAt.fun_sum (u := Finset.range m) fun k hk => one k (Finset.mem_range.1 hk)).const_sub 1
    rw [e]
    unfold stateComposition complement at this ⊢
    simp only [if_true] at this ⊢
    refine this.congr_deriv ?_
    unfold stateComposition complement at hs
    linarith
  · unfold stateComposition complement
    simp only [if_neg e]
    exact one i (by omega)

theorem temperature_deriv {X : Chemistry} {φ : ℝ → Fin (m + 2) → ℝ} {b : ℝ}
    (hφ : SolvesOn (fun _ => X.stateRate) φ 0 b) (t : ℝ) (ht : t ∈ Set.Icc 0 b) :
    HasDerivWithinAt (fun t => φ t 0) (X.dTdt (φ t 0) (φ t (Fin.last (m + 1))) (stateComposition (φ t))) (Set.Icc 0 b) t := by
  have := hasDerivWithinAt_pi.1 (hφ t ht) 0
  unfold Chemistry.stateRate at this
  dsimp only at this
  rwa [if_pos (by simp)] at this

theorem pressure_const {X : Chemistry} {φ : ℝ → Fin (m + 2) → ℝ} {b : ℝ}
    (hφ : SolvesOn (fun _ => X.stateRate) φ 0 b) (t : ℝ) (ht : t ∈ Set.Icc 0 b) : φ t (Fin.last (m + 1)) = φ 0 (Fin.last (m + 1)) := by
  have hd : ∀ t ∈ Set.Icc 0 b, HasDerivWithinAt (fun t => φ t (Fin.last (m + 1))) 0 (Set.Icc 0 b) t := fun t ht => by
    have := hasDerivWithinAt_pi.1 (hφ t ht) (Fin.last (m + 1))
    unfold Chemistry.stateRate at this
    dsimp only at this
    rwa [if_neg (by simp), if_pos (by simp)] at this
  exact constant_of_has_deriv_right_zero (fun t ht => (hd t ht).continuousWithinAt)
    (fun t ht => (hd t ⟨ht.1, ht.2.le⟩).mono_of_mem_nhdsWithin (Icc_mem_nhdsGE_of_mem ht)) t ht

/-- A function whose derivative is not negative does not decrease. -/
theorem le_of_rising {f f' : ℝ → ℝ} {b : ℝ} (hf : ∀ t ∈ Set.Icc 0 b, HasDerivWithinAt f (f' t) (Set.Icc 0 b) t)
    (h : ∀ t ∈ Set.Icc 0 b, 0 ≤ f' t) (t : ℝ) (ht : t ∈ Set.Icc 0 b) : f 0 ≤ f t := by
  have := nonneg_of_barrier (f := fun t => f t - f 0) (f' := f') (b := b) (by simp) (fun t ht => (hf t ht).sub_const _)
    (fun t ht _ => h t ht) t ht
  linarith

theorem enthalpy_along {D : Package} (hD : D ∈ shipped) (hn : D.nsp = m + 1) {φ : ℝ → Fin (m + 2) → ℝ} {b : ℝ}
    (hφ : SolvesOn (fun _ => D.chemistry.stateRate) φ 0 b) (ha : ∀ t ∈ Set.Icc 0 b, D.chemistry.Admissible (φ t))
    (hl : ∀ t ∈ Set.Icc 0 b, 0 < stateComposition (φ t) m)
    (hm : ∀ t ∈ Set.Icc 0 b, D.chemistry.BetweenFits (φ t 0)) (t : ℝ) (ht : t ∈ Set.Icc 0 b) :
    D.chemistry.mixtureEnthalpy (φ t 0) (stateComposition (φ t)) = D.chemistry.mixtureEnthalpy (φ 0 0) (stateComposition (φ 0)) := by
  have hd : ∀ t ∈ Set.Icc 0 b, HasDerivWithinAt (fun t => D.chemistry.mixtureEnthalpy (φ t 0) (stateComposition (φ t))) 0
      (Set.Icc 0 b) t := by
    intro t ht
    have hP := proper_of_shipped hD _ (ha t ht).temperature.1 (ha t ht).temperature.2
    have one : ∀ i ∈ Finset.range D.nsp, HasDerivWithinAt (fun t => stateComposition (φ t) i * D.chemistry.enthalpy (φ t 0) i)
        (D.chemistry.dYdt (φ t 0) (φ t (Fin.last (m + 1))) (stateComposition (φ t)) i * D.chemistry.enthalpy (φ t 0) i +
          stateComposition (φ t) i * (D.chemistry.cp (φ t 0) i *
            D.chemistry.dTdt (φ t 0) (φ t (Fin.last (m + 1))) (stateComposition (φ t)))) (Set.Icc 0 b) t := by
      intro i hi
      have hi := Finset.mem_range.1 hi
      refine (composition_deriv hD hn hφ t ht i (by omega)).mul ?_
      have h1 : ∀ T : ℝ, HasDerivAt (fun s : ℝ => hOverR ((D.chemistry.fit i).at T) s) (cpOverR ((D.chemistry.fit i).at T) T) T := by
        intro T
        unfold hOverR cpOverR
        have hp : ∀ n : Nat, HasDerivAt (fun t : ℝ => t ^ n) (n * T ^ (n - 1)) T := fun n => hasDerivAt_pow n T
        have := (((((hasDerivAt_id' T).const_mul (nasaCoeff ((D.chemistry.fit i).at T) 0)).const_add
          (nasaCoeff ((D.chemistry.fit i).at T) 5)).add
          (((hp 2).const_mul (nasaCoeff ((D.chemistry.fit i).at T) 1)).div_const 2)).add
          (((hp 3).const_mul (nasaCoeff ((D.chemistry.fit i).at T) 2)).div_const 3)).add
          (((hp 4).const_mul (nasaCoeff ((D.chemistry.fit i).at T) 3)).div_const 4) |>.add
          (((hp 5).const_mul (nasaCoeff ((D.chemistry.fit i).at T) 4)).div_const 5)
        refine this.congr_deriv ?_
        push_cast
        ring
      have h2 : HasDerivAt (fun s : ℝ => D.chemistry.enthalpy s i) (D.chemistry.cp (φ t 0) i) (φ t 0) := by
        unfold Chemistry.enthalpy Chemistry.cp
        refine (((h1 (φ t 0)).congr_of_eventuallyEq ?_).const_mul _)
        filter_upwards [at_eventually (D.chemistry.fit i) (hm t ht i hi)] with s hs
        rw [hs]
      exact HasDerivAt.comp_hasDerivWithinAt (h := fun t => φ t 0) (h₂ := fun s => D.chemistry.enthalpy s i) t h2 (temperature_deriv hφ t ht)
    refine (HasDerivWithinAt.fun_sum one).congr_deriv ?_
    have hcp := heat_pos hP (y := stateComposition (φ t)) (fun i hi => (ha t ht).fractions i (by
      have : D.chemistry.nsp = m + 1 := hn
      omega)) ⟨m, by
        have : D.chemistry.nsp = m + 1 := hn
        omega, hl t ht⟩
    rw [Finset.sum_add_distrib]
    have e2 : ∑ i ∈ Finset.range D.nsp, stateComposition (φ t) i * (D.chemistry.cp (φ t 0) i *
        D.chemistry.dTdt (φ t 0) (φ t (Fin.last (m + 1))) (stateComposition (φ t))) =
        (∑ i ∈ Finset.range D.chemistry.nsp, D.chemistry.cp (φ t 0) i * stateComposition (φ t) i) *
          D.chemistry.dTdt (φ t 0) (φ t (Fin.last (m + 1))) (stateComposition (φ t)) := by
      rw [Finset.sum_mul]
      exact Finset.sum_congr rfl fun i _ => by ring
    rw [e2]
    have e3 : ∀ A B : ℝ, B ≠ 0 → B * (-A / B) = -A := fun A B h => by field_simp
    unfold Chemistry.dTdt
    rw [e3 _ _ hcp.ne', add_neg_eq_zero]
    exact Finset.sum_congr rfl fun i _ => by ring
  exact constant_of_has_deriv_right_zero (fun t ht => (hd t ht).continuousWithinAt)
    (fun t ht => (hd t ⟨ht.1, ht.2.le⟩).mono_of_mem_nhdsWithin (Icc_mem_nhdsGE_of_mem ht)) t ht

theorem atoms_along {D : Package} (hD : D ∈ shipped) (hn : D.nsp = m + 1) (e : Nat) (he : e < D.elements.length)
    {φ : ℝ → Fin (m + 2) → ℝ} {b : ℝ} (hφ : SolvesOn (fun _ => D.chemistry.stateRate) φ 0 b) (t : ℝ) (ht : t ∈ Set.Icc 0 b) :
    D.chemistry.atomsPerMass (fun i => D.atomCount i e) (stateComposition (φ t)) =
      D.chemistry.atomsPerMass (fun i => D.atomCount i e) (stateComposition (φ 0)) := by
  have hc := checked_of_shipped hD
  have hW : ∀ i, i < D.nsp → 0 < D.chemistry.weight i := fun i hi => molWeight_pos hc i hi
  have hd : ∀ t ∈ Set.Icc 0 b, HasDerivWithinAt
      (fun t => D.chemistry.atomsPerMass (fun i => D.atomCount i e) (stateComposition (φ t))) 0 (Set.Icc 0 b) t := by
    intro t ht
    refine (HasDerivWithinAt.fun_sum (u := Finset.range D.nsp) fun i hi =>
      ((composition_deriv hD hn hφ t ht i (by have := Finset.mem_range.1 hi; omega)).div_const (D.chemistry.weight i)).const_mul
        (D.atomCount i e : ℝ)).congr_deriv ?_
    refine Eq.trans (Finset.sum_congr rfl fun i _ => ?_) (dYdt_weighted (D := D) (fun i => (D.atomCount i e : ℝ)) (fun n hn => ?_) hW
      (φ t 0) (φ t (Fin.last (m + 1))) (stateComposition (φ t)))
    · ring
    · obtain ⟨b1, b2, b3⟩ := balance_sound (K := ℝ) hc n.r (mem_numberFrom D.reactions 0 0 0 n hn)
      rw [sum_net D.nsp n.r (fun s => (D.atomCount s e : ℝ)) b1 b2, b3 e he, sub_self]
  exact constant_of_has_deriv_right_zero (fun t ht => (hd t ht).continuousWithinAt)
    (fun t ht => (hd t ⟨ht.1, ht.2.le⟩).mono_of_mem_nhdsWithin (Icc_mem_nhdsGE_of_mem ht)) t ht

theorem entropy_along {D : Package} (hD : D ∈ shipped) (hrev : ∀ n ∈ number D.reactions, n.r.reversible = true) (hn : D.nsp = m + 1)
    {φ : ℝ → Fin (m + 2) → ℝ} {b : ℝ}
    (hφ : SolvesOn (fun _ => D.chemistry.stateRate) φ 0 b) (ha : ∀ t ∈ Set.Icc 0 b, D.chemistry.Admissible (φ t))
    (hpos : ∀ t ∈ Set.Icc 0 b, ∀ i, i < m + 1 → 0 < stateComposition (φ t) i)
    (hm : ∀ t ∈ Set.Icc 0 b, D.chemistry.BetweenFits (φ t 0)) (t : ℝ) (ht : t ∈ Set.Icc 0 b) :
    D.chemistry.entropy (φ 0 0) (φ 0 (Fin.last (m + 1))) (stateComposition (φ 0)) ≤
      D.chemistry.entropy (φ t 0) (φ 0 (Fin.last (m + 1))) (stateComposition (φ t)) := by
  obtain ⟨p, hp⟩ : ∃ p, p = φ 0 (Fin.last (m + 1)) := ⟨_, rfl⟩
  have hns : D.chemistry.nsp = m + 1 := hn
  have hp0 : 0 < p := by
    rw [hp]
    exact (ha 0 ⟨le_rfl, ht.1.trans ht.2⟩).pressure
  rw [← hp]
  refine le_of_rising (b := b) (f := fun t => D.chemistry.entropy (φ t 0) p (stateComposition (φ t)))
    (f' := fun t => ∑ i ∈ Finset.range D.chemistry.nsp, D.chemistry.partialEntropy (φ t 0) p (stateComposition (φ t)) i *
      D.chemistry.dYdt (φ t 0) p (stateComposition (φ t)) i +
      D.chemistry.mixtureCp (φ t 0) (stateComposition (φ t)) / φ t 0 * D.chemistry.dTdt (φ t 0) p (stateComposition (φ t)))
    (fun t ht => ?_) (fun t ht => ?_) t ht
  · have hP := proper_of_shipped hD _ (ha t ht).temperature.1 (ha t ht).temperature.2
    have e := pressure_const hφ t ht
    rw [← hp] at e
    have h1 := temperature_deriv hφ t ht
    have h2 := composition_deriv hD hn hφ t ht
    rw [e] at h1
    simp only [e] at h2
    exact entropy_curve hP.temperature hp0 hP.weight (fun i hi => hpos t ht i (by omega)) (by omega) (hm t ht) h1
      fun i hi => h2 i (by omega)
  · have hP := proper_of_shipped hD _ (ha t ht).temperature.1 (ha t ht).temperature.2
    have hY : ∀ i, i < D.chemistry.nsp → 0 < stateComposition (φ t) i := fun i hi => hpos t ht i (by omega)
    have hcp := heat_pos hP (y := stateComposition (φ t)) (fun i hi => (hY i hi).le) ⟨m, by omega, hY m (by omega)⟩
    have hden := density_pos hP hp0 (y := stateComposition (φ t)) (fun i hi => (hY i hi).le) ⟨m, by omega, hY m (by omega)⟩
    have hR : (0 : ℝ) < gasR := by unfold gasR; positivity
    rw [entropy_production hP.temperature hp0 hP.weight hY (by omega) (show D.chemistry.mixtureCp _ _ ≠ 0 from hcp.ne')]
    refine mul_nonneg (by positivity) (List.sum_nonneg fun v hv => ?_)
    obtain ⟨n, hn', rfl⟩ := List.mem_map.1 hv
    have hC : ∀ i, i < D.chemistry.nsp → 0 < D.chemistry.concentrations (φ t 0) p (stateComposition (φ t)) i := fun i hi =>
      div_pos (mul_pos hden (hY i hi)) (hP.weight i hi)
    have hq := affinity_progress (X := D.chemistry) (n := n) (ε := 0)
      (Kc := equilibriumConstant D.chemistry.nsp D.chemistry.fit n.r (φ t 0)) hP.temperature hC (hP.species n hn').1
      (hP.species n hn').2 (hP.coefficient n hn') (by rw [Real.exp_zero, mul_one])
      (modification_nonneg n hn' hP fun i hi => (hC i hi).le)
    rw [abs_zero, zero_mul, neg_zero] at hq
    unfold Chemistry.forward Chemistry.reverse
    rw [if_pos (hrev n hn')]
    exact hq

end DLB
