import Verif.Spec.SecondLaw
import Verif.Lemmas.JacobDeriv
import Verif.Lemmas.JacobNear
import Verif.Lemmas.MechField
/-
The second law for a mixture of ideal gases with reactions that obey the law of mass action and detailed balance.
-/
set_option autoImplicit false
set_option linter.unusedSectionVars false

namespace DLB

theorem mul_log_nonneg {a b A ε : ℝ} (ha : 0 < a) (hb : 0 < b) (h : Real.log a - Real.log b = A + ε) :
    -(|ε| * |a - b|) ≤ A * (a - b) := by
  have h1 : 0 ≤ (A + ε) * (a - b) := by
    rw [← h]
    rcases le_total a b with hab | hab
    · exact mul_nonneg_of_nonpos_of_nonpos (sub_nonpos.2 (Real.log_le_log ha hab)) (sub_nonpos.2 hab)
    · exact mul_nonneg (sub_nonneg.2 (Real.log_le_log hb hab)) (sub_nonneg.2 hab)
  have h2 := le_abs_self (ε * (a - b))
  rw [abs_mul] at h2
  linarith

theorem prod_pos_of {l : List Nat} {C : Nat → ℝ} (h : ∀ i ∈ l, 0 < C i) : 0 < (l.map C).prod := by
  induction l with
  | nil => simp
  | cons a l ih =>
    simp only [List.map_cons, List.prod_cons]
    exact mul_pos (h a (by simp)) (ih fun i hi => h i (by simp [hi]))

theorem log_prod {l : List Nat} {C : Nat → ℝ} (h : ∀ i ∈ l, 0 < C i) : Real.log (l.map C).prod = (l.map fun i => Real.log (C i)).sum := by
  induction l with
  | nil => simp
  | cons a l ih =>
    have h' : ∀ i ∈ l, 0 < C i := fun i hi => h i (by simp [hi])
    simp only [List.map_cons, List.prod_cons, List.sum_cons]
    rw [Real.log_mul (h a (by simp)).ne' (prod_pos_of h').ne', ih h']

theorem equilibriumConstant_pos (nsp : Nat) (fit : Nat → Nasa) (r : Reaction) {T : ℝ} (hT : 0 < T) : 0 < equilibriumConstant nsp fit r T := by
  unfold equilibriumConstant standardPressure gasR
  positivity

variable {X : Chemistry} {T : ℝ} {C : Nat → ℝ} {n : Numbered}

/-- The affinity tells how far the reaction is from equilibrium. -/
theorem affinity_eq (hT : 0 < T) (hC : ∀ i, i < X.nsp → 0 < C i) (h1 : ∀ s ∈ n.r.reactants, s < X.nsp) (h2 : ∀ s ∈ n.r.products, s < X.nsp) :
    X.affinity n T C = Real.log (equilibriumConstant X.nsp X.fit n.r T) + Real.log (n.r.reactants.map C).prod -
      Real.log (n.r.products.map C).prod := by
  have hR : (0 : ℝ) < gasR := by unfold gasR; positivity
  have hp : (0 : ℝ) < standardPressure := by unfold standardPressure; positivity
  have hq : 0 < standardPressure / (gasR * T) := by positivity
  have e1 : ∀ i ∈ Finset.range X.nsp, (n.r.net i : ℝ) * X.potential T C i =
      (n.r.net i : ℝ) * gOverRT ((X.fit i).at T) T + Real.log (C i) * (n.r.net i : ℝ) - (n.r.net i : ℝ) * Real.log (standardPressure / (gasR * T)) := by
    intro i hi
    unfold Chemistry.potential
    have : C i * (gasR * T) / standardPressure = C i / (standardPressure / (gasR * T)) := by field_simp
    rw [this, Real.log_div (hC i (Finset.mem_range.1 hi)).ne' hq.ne']
    ring
  unfold Chemistry.affinity
  rw [Finset.sum_congr rfl e1, Finset.sum_sub_distrib, Finset.sum_add_distrib, ← Finset.sum_mul, net_sum _ _ h1 h2,
    sum_net X.nsp n.r (fun i => Real.log (C i)) h1 h2, log_prod fun i hi => hC i (h1 i hi), log_prod fun i hi => hC i (h2 i hi)]
  unfold equilibriumConstant
  rw [Real.log_mul (Real.exp_pos _).ne' (zpow_pos hq _).ne', Real.log_exp, Real.log_zpow]
  ring

/-- A reversible reaction runs in the direction of its affinity; `exp ε` is the error of the equilibrium constant. -/
theorem affinity_progress (hT : 0 < T) (hC : ∀ i, i < X.nsp → 0 < C i) (h1 : ∀ s ∈ n.r.reactants, s < X.nsp)
    (h2 : ∀ s ∈ n.r.products, s < X.nsp) {kf Kc ε : ℝ} (hk : 0 < kf)
    (hK : Kc = equilibriumConstant X.nsp X.fit n.r T * Real.exp ε) {m : ℝ} (hm : 0 ≤ m) :
    -(|ε| * |(kf * (n.r.reactants.map C).prod - kf / Kc * (n.r.products.map C).prod) * m|) ≤
      X.affinity n T C * ((kf * (n.r.reactants.map C).prod - kf / Kc * (n.r.products.map C).prod) * m) := by
  have pA : 0 < (n.r.reactants.map C).prod := prod_pos_of fun i hi => hC i (h1 i hi)
  have pB : 0 < (n.r.products.map C).prod := prod_pos_of fun i hi => hC i (h2 i hi)
  have hE := equilibriumConstant_pos X.nsp X.fit n.r hT
  have hKp : 0 < Kc := by rw [hK]; positivity
  have hl : Real.log (kf * (n.r.reactants.map C).prod) - Real.log (kf / Kc * (n.r.products.map C).prod) = X.affinity n T C + ε := by
    rw [affinity_eq hT hC h1 h2, Real.log_mul hk.ne' pA.ne', Real.log_mul (div_pos hk hKp).ne' pB.ne', Real.log_div hk.ne' hKp.ne', hK,
      Real.log_mul hE.ne' (Real.exp_pos _).ne', Real.log_exp]
    ring
  have := mul_le_mul_of_nonneg_right (mul_log_nonneg (mul_pos hk pA) (mul_pos (div_pos hk hKp) pB) hl) hm
  rw [abs_mul, abs_of_nonneg hm]
  nlinarith

/-- Potentials times production rates are affinities times rates of progress. -/
theorem potential_sum (l : List Numbered) (q : Numbered → ℝ) :
    ∑ i ∈ Finset.range X.nsp, X.potential T C i * (l.map fun n => (n.r.net i : ℝ) * q n).sum =
      -(l.map fun n => X.affinity n T C * q n).sum := by
  rw [sum_weighted X.nsp l (X.potential T C) q]
  have e : ∀ n : Numbered, ∑ s ∈ Finset.range X.nsp, X.potential T C s * (n.r.net s : ℝ) = -X.affinity n T C := by
    intro n
    unfold Chemistry.affinity
    rw [neg_neg]
    exact Finset.sum_congr rfl fun i _ => mul_comm _ _
  simp only [e]
  induction l with
  | nil => simp
  | cons n l ih =>
    simp only [List.map_cons, List.sum_cons, ih]
    ring

/-- The entropy along a curve. -/
theorem entropy_curve {p : ℝ} {Tf : ℝ → ℝ} {Yf : ℝ → Nat → ℝ} {s : Set ℝ} {t₀ a : ℝ} {b : Nat → ℝ} (hT : 0 < Tf t₀) (hp : 0 < p)
    (hW : ∀ i, i < X.nsp → 0 < X.weight i) (hY : ∀ i, i < X.nsp → 0 < Yf t₀ i) (hn : 0 < X.nsp)
    (hmid : ∀ i, i < X.nsp → Tf t₀ ≠ ((X.fit i).tMid.1 : ℝ) / 10 ^ (X.fit i).tMid.2) (hTd : HasDerivWithinAt Tf a s t₀)
    (hYd : ∀ i, i < X.nsp → HasDerivWithinAt (fun t => Yf t i) (b i) s t₀) :
    HasDerivWithinAt (fun t => X.entropy (Tf t) p (Yf t))
      (∑ i ∈ Finset.range X.nsp, X.partialEntropy (Tf t₀) p (Yf t₀) i * b i + X.mixtureCp (Tf t₀) (Yf t₀) / Tf t₀ * a) s t₀ := by
  have hs0 : (0 : ℝ) < standardPressure := by unfold standardPressure; positivity
  obtain ⟨T, hTe⟩ : ∃ T, T = Tf t₀ := ⟨_, rfl⟩
  obtain ⟨Y, hYe⟩ : ∃ Y, Y = Yf t₀ := ⟨_, rfl⟩
  rw [← hTe] at hT hmid ⊢
  rw [← hYe] at hY ⊢
  obtain ⟨N, hN⟩ : ∃ N, N = ∑ j ∈ Finset.range X.nsp, Y j / X.weight j := ⟨_, rfl⟩
  obtain ⟨N', hN'⟩ : ∃ N', N' = ∑ j ∈ Finset.range X.nsp, b j / X.weight j := ⟨_, rfl⟩
  have hNp : 0 < N := by
    rw [hN]
    exact Finset.sum_pos (fun i hi => div_pos (hY i (Finset.mem_range.1 hi)) (hW i (Finset.mem_range.1 hi))) ⟨0, Finset.mem_range.2 hn⟩
  have hNd : HasDerivWithinAt (fun t : ℝ => ∑ j ∈ Finset.range X.nsp, Yf t j / X.weight j) N' s t₀ := by
    rw [hN']
    exact HasDerivWithinAt.fun_sum fun j hj => (hYd j (Finset.mem_range.1 hj)).div_const _
  have eN : ∑ j ∈ Finset.range X.nsp, Yf t₀ j / X.weight j = N := by rw [hN, hYe]
  -- one species
  have key : ∀ i ∈ Finset.range X.nsp, HasDerivWithinAt
      (fun t => Yf t i * X.partialEntropy (Tf t) p (Yf t) i)
      (X.partialEntropy T p Y i * b i + (X.cp T i * Y i / T * a) + gasR * (Y i / X.weight i * (N' / N) - b i / X.weight i)) s t₀ := by
    intro i hi
    have hi := Finset.mem_range.1 hi
    have hY' := hY i hi
    have hW' := hW i hi
    -- the entropy of the pure species
    have hs : HasDerivWithinAt (fun t => sOverR ((X.fit i).at (Tf t)) (Tf t)) (cpOverR ((X.fit i).at T) T / T * a) s t₀ := by
      have h1 : HasDerivAt (fun t : ℝ => sOverR ((X.fit i).at T) t) (cpOverR ((X.fit i).at T) T / T) T := by
        unfold sOverR cpOverR
        have hp : ∀ n : Nat, HasDerivAt (fun t : ℝ => t ^ n) (n * T ^ (n - 1)) T := fun n => hasDerivAt_pow n T
        have := ((((((Real.hasDerivAt_log hT.ne').const_mul (nasaCoeff ((X.fit i).at T) 0)).add
          ((hasDerivAt_id' T).const_mul (nasaCoeff ((X.fit i).at T) 1))).add
          (((hp 2).const_mul (nasaCoeff ((X.fit i).at T) 2)).div_const 2)).add (((hp 3).const_mul (nasaCoeff ((X.fit i).at T) 3)).div_const 3)).add
          (((hp 4).const_mul (nasaCoeff ((X.fit i).at T) 4)).div_const 4)).add_const (nasaCoeff ((X.fit i).at T) 6)
        refine this.congr_deriv ?_
        push_cast
        field_simp
      have h2 : HasDerivAt (fun t : ℝ => sOverR ((X.fit i).at t) t) (cpOverR ((X.fit i).at T) T / T) T := by
        refine h1.congr_of_eventuallyEq ?_
        filter_upwards [at_eventually (X.fit i) (hmid i hi)] with t ht
        rw [ht]
      rw [hTe] at h2 ⊢
      exact h2.comp_hasDerivWithinAt t₀ hTd
    have hl : HasDerivWithinAt (fun t => Real.log (Yf t i / X.weight i / (∑ j ∈ Finset.range X.nsp, Yf t j / X.weight j) * p / standardPressure))
        (b i / Y i - N' / N) s t₀ := by
      have hq := ((((hYd i hi).div_const (X.weight i)).div hNd (by rw [eN]; exact hNp.ne')).mul_const p).div_const standardPressure
      have hne : Yf t₀ i / X.weight i / (∑ j ∈ Finset.range X.nsp, Yf t₀ j / X.weight j) * p / standardPressure ≠ 0 := by
        rw [eN, ← hYe]
        positivity
      refine (hq.log hne).congr_deriv ?_
      simp only [Pi.div_apply]
      rw [eN, ← hYe]
      field_simp
    have hpe := (hs.sub hl).const_mul (gasR / X.weight i)
    refine ((hYd i hi).mul hpe).congr_deriv ?_
    simp only [Pi.sub_apply]
    rw [eN, ← hYe, ← hTe]
    unfold Chemistry.partialEntropy Chemistry.moleFraction Chemistry.cp
    rw [← hN]
    field_simp
    ring
  refine (HasDerivWithinAt.fun_sum key).congr_deriv ?_
  have e1 : ∑ i ∈ Finset.range X.nsp, Y i / X.weight i * (N' / N) = N * (N' / N) := by rw [← Finset.sum_mul, ← hN]
  rw [Finset.sum_add_distrib, Finset.sum_add_distrib, ← Finset.mul_sum, Finset.sum_sub_distrib, e1, ← hN']
  have : ∑ i ∈ Finset.range X.nsp, X.cp T i * Y i / T * a = X.mixtureCp T Y / T * a := by
    unfold Chemistry.mixtureCp
    rw [Finset.sum_div, Finset.sum_mul]
  rw [this]
  field_simp
  ring

/-- The entropy along a line. -/
theorem entropy_deriv {p : ℝ} {Y : Nat → ℝ} (hT : 0 < T) (hp : 0 < p) (hW : ∀ i, i < X.nsp → 0 < X.weight i) (hY : ∀ i, i < X.nsp → 0 < Y i)
    (hn : 0 < X.nsp) (hmid : ∀ i, i < X.nsp → T ≠ ((X.fit i).tMid.1 : ℝ) / 10 ^ (X.fit i).tMid.2) (a : ℝ) (b : Nat → ℝ) :
    HasDerivAt (fun t => X.entropy (T + t * a) p fun i => Y i + t * b i)
      (∑ i ∈ Finset.range X.nsp, X.partialEntropy T p Y i * b i + X.mixtureCp T Y / T * a) 0 := by
  have line : ∀ c d : ℝ, HasDerivWithinAt (fun t : ℝ => c + t * d) d Set.univ 0 := by
    intro c d
    have := ((hasDerivAt_id' (0 : ℝ)).mul_const d).const_add c
    rw [hasDerivWithinAt_univ]
    simpa using this
  have eY : (fun i => Y i + 0 * b i) = Y := by funext i; ring
  have eT : T + 0 * a = T := by ring
  have := entropy_curve (X := X) (Tf := fun t => T + t * a) (Yf := fun t i => Y i + t * b i) (s := Set.univ) (t₀ := 0) (a := a) (b := b)
    (p := p) (by rw [eT]; exact hT) hp hW (fun i hi => by rw [zero_mul, add_zero]; exact hY i hi) hn (by rw [eT]; exact hmid) (line _ _) fun i _ => line _ _
  rw [hasDerivWithinAt_univ] at this
  simpa only [eY, eT] using this

/-- The entropy production of the reactor: affinities times rates of progress. -/
theorem entropy_production {p : ℝ} {Y : Nat → ℝ} (hT : 0 < T) (hp : 0 < p) (hW : ∀ i, i < X.nsp → 0 < X.weight i)
    (hY : ∀ i, i < X.nsp → 0 < Y i) (hn : 0 < X.nsp) (hcp : X.mixtureCp T Y ≠ 0) :
    ∑ i ∈ Finset.range X.nsp, X.partialEntropy T p Y i * X.dYdt T p Y i + X.mixtureCp T Y / T * X.dTdt T p Y =
      gasR / X.density T p Y * ((number X.reactions).map fun n => X.affinity n T (X.concentrations T p Y) *
        ((X.forward n T (X.concentrations T p Y) - X.reverse n T (X.concentrations T p Y)) *
          X.modification n T (X.concentrations T p Y))).sum := by
  have hR : (0 : ℝ) < gasR := by unfold gasR; positivity
  have hs0 : (0 : ℝ) < standardPressure := by unfold standardPressure; positivity
  have hNp : 0 < ∑ j ∈ Finset.range X.nsp, Y j / X.weight j :=
    Finset.sum_pos (fun i hi => div_pos (hY i (Finset.mem_range.1 hi)) (hW i (Finset.mem_range.1 hi))) ⟨0, Finset.mem_range.2 hn⟩
  have hρ : 0 < X.density T p Y := by unfold Chemistry.density; positivity
  have e1 : X.mixtureCp T Y / T * X.dTdt T p Y = -∑ i ∈ Finset.range X.nsp, X.enthalpy T i / T * X.dYdt T p Y i := by
    have : X.dTdt T p Y = -(∑ i ∈ Finset.range X.nsp, X.enthalpy T i * X.dYdt T p Y i) / X.mixtureCp T Y := rfl
    rw [this, Finset.sum_congr rfl fun i _ => (by ring :
      X.enthalpy T i / T * X.dYdt T p Y i = 1 / T * (X.enthalpy T i * X.dYdt T p Y i)), ← Finset.mul_sum]
    field_simp
  rw [e1, ← sub_eq_add_neg, ← Finset.sum_sub_distrib]
  have e2 : ∀ i ∈ Finset.range X.nsp, X.partialEntropy T p Y i * X.dYdt T p Y i - X.enthalpy T i / T * X.dYdt T p Y i =
      -(gasR / X.density T p Y) * (X.potential T (X.concentrations T p Y) i * X.production T (X.concentrations T p Y) i) := by
    intro i hi
    have hW' := hW i (Finset.mem_range.1 hi)
    have hl : X.concentrations T p Y i * (gasR * T) / standardPressure = X.moleFraction Y i * p / standardPressure := by
      congr 1
      unfold Chemistry.concentrations Chemistry.density Chemistry.moleFraction
      field_simp
    unfold Chemistry.potential Chemistry.partialEntropy Chemistry.dYdt Chemistry.enthalpy gOverRT
    rw [hl]
    field_simp
    ring
  rw [Finset.sum_congr rfl e2, ← Finset.mul_sum]
  have := potential_sum (X := X) (T := T) (C := X.concentrations T p Y) (number X.reactions) fun n =>
    (X.forward n T (X.concentrations T p Y) - X.reverse n T (X.concentrations T p Y)) * X.modification n T (X.concentrations T p Y)
  unfold Chemistry.production
  rw [this]
  ring

end DLB
