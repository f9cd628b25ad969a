import Verif.Lemmas.JacobDeriv
import Verif.Spec.Jacobian
/-
The derivatives of the right-hand side of the reactor by the mass fractions, from the specification alone.
-/
set_option autoImplicit false
set_option linter.unusedSectionVars false

namespace DLB

/-- The derivative of a product of concentrations if the concentrations have the derivatives `c`. -/
noncomputable def prodDiff (C c : Nat → ℝ) : List Nat → ℝ
  | [] => 0
  | a :: l => c a * (l.map C).prod + C a * prodDiff C c l

theorem prodDiff_deriv {f : ℝ → Nat → ℝ} {c : Nat → ℝ} {x : ℝ} (l : List Nat) (h : ∀ i, HasDerivAt (fun t => f t i) (c i) x) :
    HasDerivAt (fun t => (l.map (f t)).prod) (prodDiff (f x) c l) x := by
  induction l with
  | nil => exact hasDerivAt_const x (1 : ℝ)
  | cons a l ih =>
    simp only [List.map_cons, List.prod_cons]
    exact (h a).mul ih

theorem prodDiff_lin (C c : Nat → ℝ) (α β : ℝ) (l : List Nat) :
    prodDiff C (fun i => α * C i + β * c i) l = α * l.length * (l.map C).prod + β * prodDiff C c l := by
  induction l with
  | nil => simp [prodDiff]
  | cons a l ih =>
    simp only [prodDiff, ih, List.map_cons, List.prod_cons, List.length_cons]
    push_cast
    ring

theorem prodDiff_congr (C c c' : Nat → ℝ) (l : List Nat) (h : ∀ i ∈ l, c i = c' i) : prodDiff C c l = prodDiff C c' l := by
  induction l with
  | nil => rfl
  | cons a l ih =>
    simp only [prodDiff]
    rw [h a (by simp), ih fun i hi => h i (by simp [hi])]

theorem prodDiff_single (C : Nat → ℝ) (j : Nat) (w : ℝ) (l : List Nat) :
    prodDiff C (fun i => if i = j then w else 0) l = w * Chemistry.productBy l C j := by
  induction l with
  | nil => simp [prodDiff, Chemistry.productBy]
  | cons a l ih =>
    simp only [prodDiff, ih]
    unfold Chemistry.productBy
    by_cases h : a = j
    · subst h
      rw [if_pos rfl, List.count_cons_self, List.erase_cons_head]
      push_cast
      by_cases hm : a ∈ l
      · have := List.prod_map_erase C hm
        rw [← this]
        ring
      · rw [List.count_eq_zero_of_not_mem hm]
        push_cast
        ring
    · rw [if_neg h, List.count_cons_of_ne h, List.erase_cons_tail (by simpa using h)]
      simp only [List.map_cons, List.prod_cons]
      ring

namespace Chemistry
variable (X : Chemistry)

/-- The logarithmic slope of the modification by the concentration of third bodies. -/
noncomputable def thirdSlope (n : Numbered) (T : ℝ) (C : Nat → ℝ) : ℝ := match n.r.kind, X.law n.k with
  | .elementary, _ => 0
  | .thirdBody _, _ => 1
  | .falloff eff, .falloff kInf k0 (some t) =>
    1 / (1 + X.reducedPressure n kInf k0 eff T C) + factorSlope (X.reducedPressure n kInf k0 eff T C) (t.centre T) 0 1
  | .falloff eff, .falloff kInf k0 none => 1 / (1 + X.reducedPressure n kInf k0 eff T C)
  | .falloff _, .simple _ => 0

/-- The derivative of the net rate of a reaction over the density; the mass fractions have the derivatives `u`. -/
noncomputable def rateAlong (n : Numbered) (T p : ℝ) (Y u : Nat → ℝ) : ℝ :=
  let C := X.concentrations T p Y
  let ρ := X.density T p Y
  let θ := (∑ i ∈ Finset.range X.nsp, u i / X.weight i) / ∑ i ∈ Finset.range X.nsp, Y i / X.weight i
  let g := X.thirdSlope n T C
  θ / ρ * (X.modification n T C * (X.forward n T C - X.reverse n T C)) -
  θ / ρ * (X.modification n T C * ((n.r.reactants.length + g) * X.forward n T C - (n.r.products.length + g) * X.reverse n T C)) +
  X.modification n T C * (X.coefficient n T * prodDiff C (fun i => u i / X.weight i) n.r.reactants -
    (if n.r.reversible then X.coefficient n T / equilibriumConstant X.nsp X.fit n.r T * prodDiff C (fun i => u i / X.weight i) n.r.products else 0)) +
  g * X.modificationPer n T C * (∑ i ∈ Finset.range X.nsp, efficiencyOf n.r i * (u i / X.weight i)) * (X.forward n T C - X.reverse n T C)

theorem factorSlope_lin (P F S : ℝ) : factorSlope P F 0 S = S * factorSlope P F 0 1 := by
  unfold factorSlope
  dsimp only
  ring

theorem factor_deriv {P : ℝ → ℝ} {F P' x m : ℝ} (hF0 : 0 < F) (hP : HasDerivAt P P' x) (hm : 0 < m) (hP0 : m < P x)
    (hB : exactB (P x) F ≠ 0) :
    HasDerivAt (fun t => Troe.factor F (max (P t) m)) (Troe.factor F (max (P x) m) * (P' / P x * factorSlope (P x) F 0 1)) x := by
  have hp : P x ≠ 0 := (hm.trans hP0).ne'
  have sh : HasDerivAt (fun t : ℝ => x + (t - 1)) 1 1 := by
    simpa using ((hasDerivAt_id' (1 : ℝ)).sub_const 1).const_add x
  have e0 : x + ((1 : ℝ) - 1) = x := by ring
  have hL : LogD (fun t => P (x + (t - 1))) (P' / P x) 1 := by
    unfold LogD
    have h' : HasDerivAt P P' (x + ((1 : ℝ) - 1)) := by rw [e0]; exact hP
    refine (h'.comp (1 : ℝ) sh).congr_deriv ?_
    dsimp only
    rw [e0]
    field_simp
  have h := factor_logD (m := m) (T := 1) one_pos (LogD.const F 1) hF0 hL hm (by rw [e0]; exact hP0) (by rw [e0]; exact hB)
  unfold LogD at h
  simp only [e0] at h
  have back : HasDerivAt (fun t : ℝ => 1 + (t - x)) 1 x := by
    simpa using ((hasDerivAt_id' x).sub_const x).const_add 1
  have e1 : 1 + (x - x) = (1 : ℝ) := by ring
  have h' : HasDerivAt (fun t => Troe.factor F (max (P (x + (t - 1))) m)) (Troe.factor F (max (P x) m) * factorSlope (P x) F 0 (P' / P x) / 1)
      (1 + (x - x)) := by rw [e1]; exact h
  have := h'.comp x back
  refine (this.congr_of_eventuallyEq (Filter.Eventually.of_forall fun t => ?_)).congr_deriv ?_
  · show _ = Troe.factor F (max (P (x + (1 + (t - x) - 1))) m)
    congr 3
    ring
  · rw [factorSlope_lin]
    ring

section
variable {T p : ℝ} {f : ℝ → Nat → ℝ} {u : Nat → ℝ} {x : ℝ} (hf : ∀ i, HasDerivAt (fun t => f t i) (u i) x)
  (hμ : ∑ i ∈ Finset.range X.nsp, f x i / X.weight i ≠ 0)
include hf hμ

theorem density_along : HasDerivAt (fun t => X.density T p (f t))
    (-(X.density T p (f x) * ((∑ i ∈ Finset.range X.nsp, u i / X.weight i) / ∑ i ∈ Finset.range X.nsp, f x i / X.weight i))) x := by
  have h1 : HasDerivAt (fun t => ∑ i ∈ Finset.range X.nsp, f t i / X.weight i) (∑ i ∈ Finset.range X.nsp, u i / X.weight i) x :=
    HasDerivAt.fun_sum fun i _ => (hf i).div_const _
  have h2 := (h1.inv hμ).const_mul (p / (gasR * T))
  refine (h2.congr_of_eventuallyEq (Filter.Eventually.of_forall fun t => ?_)).congr_deriv ?_
  · show X.density T p (f t) = _ * (∑ i ∈ Finset.range X.nsp, f t i / X.weight i)⁻¹
    unfold density
    simp only [div_eq_mul_inv, mul_inv]
    ring
  · unfold density
    generalize ∑ i ∈ Finset.range X.nsp, f x i / X.weight i = s at *
    simp only [div_eq_mul_inv, mul_inv]
    field_simp

theorem concentrations_along (i : Nat) : HasDerivAt (fun t => X.concentrations T p (f t) i)
    (-((∑ i ∈ Finset.range X.nsp, u i / X.weight i) / ∑ i ∈ Finset.range X.nsp, f x i / X.weight i) * X.concentrations T p (f x) i +
      X.density T p (f x) * (u i / X.weight i)) x := by
  have := ((X.density_along (T := T) (p := p) hf hμ).mul (hf i)).div_const (X.weight i)
  refine this.congr_deriv ?_
  unfold concentrations
  ring

theorem products_along (l : List Nat) : HasDerivAt (fun t => (l.map (X.concentrations T p (f t))).prod)
    (-((∑ i ∈ Finset.range X.nsp, u i / X.weight i) / ∑ i ∈ Finset.range X.nsp, f x i / X.weight i) * l.length *
      (l.map (X.concentrations T p (f x))).prod +
      X.density T p (f x) * prodDiff (X.concentrations T p (f x)) (fun i => u i / X.weight i) l) x := by
  have := prodDiff_deriv l (X.concentrations_along (T := T) (p := p) hf hμ)
  rw [prodDiff_lin] at this
  exact this

theorem thirdBody_along (eff : List (Nat × Nat × Nat)) : HasDerivAt (fun t => thirdBody X.nsp eff (X.concentrations T p (f t)))
    (-((∑ i ∈ Finset.range X.nsp, u i / X.weight i) / ∑ i ∈ Finset.range X.nsp, f x i / X.weight i) *
      thirdBody X.nsp eff (X.concentrations T p (f x)) +
      X.density T p (f x) * ∑ i ∈ Finset.range X.nsp, efficiency eff i * (u i / X.weight i)) x := by
  unfold thirdBody
  have : HasDerivAt (fun t => ∑ i ∈ Finset.range X.nsp, efficiency eff i * X.concentrations T p (f t) i) _ x :=
    HasDerivAt.fun_sum fun i _ => (X.concentrations_along (T := T) (p := p) hf hμ i).const_mul (efficiency eff i : ℝ)
  refine this.congr_deriv ?_
  rw [Finset.mul_sum, Finset.mul_sum, ← Finset.sum_add_distrib]
  exact Finset.sum_congr rfl fun i _ => by ring

theorem modification_along (n : Numbered) (hn : n ∈ number X.reactions) (hreg : X.Regular T (X.concentrations T p (f x)))
    (hP : ∀ eff kInf k0 troe, n.r.kind = .falloff eff → X.law n.k = .falloff kInf k0 troe →
      0 < X.reducedPressure n kInf k0 eff T (X.concentrations T p (f x))) :
    HasDerivAt (fun t => X.modification n T (X.concentrations T p (f t)))
      (X.thirdSlope n T (X.concentrations T p (f x)) *
        (-((∑ i ∈ Finset.range X.nsp, u i / X.weight i) / ∑ i ∈ Finset.range X.nsp, f x i / X.weight i) *
          X.modification n T (X.concentrations T p (f x)) +
        X.density T p (f x) * (X.modificationPer n T (X.concentrations T p (f x)) *
          ∑ i ∈ Finset.range X.nsp, efficiencyOf n.r i * (u i / X.weight i)))) x := by
  have hreg := hreg n hn
  have ht := fun eff => X.thirdBody_along (T := T) (p := p) hf hμ eff
  obtain ⟨θ, hθ⟩ : ∃ θ, θ = (∑ i ∈ Finset.range X.nsp, u i / X.weight i) / ∑ i ∈ Finset.range X.nsp, f x i / X.weight i := ⟨_, rfl⟩
  rw [← hθ] at ht ⊢
  unfold modificationPer efficiencyOf thirdSlope modification
  cases hk : n.r.kind with
  | elementary =>
    refine (hasDerivAt_const x (1 : ℝ)).congr_deriv ?_
    ring
  | thirdBody eff =>
    refine (ht eff).congr_deriv ?_
    ring
  | falloff eff =>
    cases hl : X.law n.k with
    | simple k =>
      refine (hasDerivAt_const x (0 : ℝ)).congr_deriv ?_
      ring
    | falloff kInf k0 troe =>
      obtain ⟨h1, -, h3⟩ := hreg eff kInf k0 troe hk hl
      have hPp := hP eff kInf k0 troe hk hl
      obtain ⟨a, ha⟩ : ∃ a, a = ∑ i ∈ Finset.range X.nsp, efficiency eff i * (u i / X.weight i) := ⟨_, rfl⟩
      obtain ⟨M, hM⟩ : ∃ M, M = thirdBody X.nsp eff (X.concentrations T p (f x)) := ⟨_, rfl⟩
      have ht := ht eff
      rw [← ha, ← hM] at ht
      dsimp only
      rw [← ha, ← hM]
      obtain ⟨κ, hκ⟩ : ∃ κ, κ = k0.coefficient (n.r.reactants.length + 1) T / kInf.coefficient n.r.reactants.length T := ⟨_, rfl⟩
      have hPe : ∀ t, X.reducedPressure n kInf k0 eff T (X.concentrations T p (f t)) = κ * thirdBody X.nsp eff (X.concentrations T p (f t)) := by
        intro t
        rw [hκ]
        unfold reducedPressure
        ring
      have hPx : X.reducedPressure n kInf k0 eff T (X.concentrations T p (f x)) = κ * M := by rw [hPe, hM]
      have hd : HasDerivAt (fun t => X.reducedPressure n kInf k0 eff T (X.concentrations T p (f t)))
          (κ * (-θ * M + X.density T p (f x) * a)) x := by
        refine ((ht.const_mul κ).congr_of_eventuallyEq (Filter.Eventually.of_forall fun t => ?_))
        exact hPe t
      rw [hPx] at hPp
      have hκ0 : κ ≠ 0 := by rintro h; simp [h] at hPp
      have hM0 : M ≠ 0 := by rintro h; simp [h] at hPp
      have hq : 1 + κ * M ≠ 0 := by positivity
      have hS := hd.div (hd.const_add 1) (by rw [hPx]; exact hq)
      cases troe with
      | none =>
        refine hS.congr_deriv ?_
        simp only [hPx]
        field_simp
        ring
      | some t =>
        obtain ⟨h4, h5, h6⟩ := h3 t rfl
        have hF := factor_deriv h4 hd (by positivity) h5 h6
        have := hF.mul hS
        refine (this.congr_of_eventuallyEq (Filter.Eventually.of_forall fun y => ?_)).congr_deriv ?_
        · simp only [Pi.mul_apply, Pi.div_apply]
          ring
        · simp only [Pi.div_apply, hPx]
          generalize Troe.factor (t.centre T) (max (κ * M) (1 / 10 ^ 300)) = F
          generalize factorSlope (κ * M) (t.centre T) 0 1 = s
          field_simp
          ring

/-- The derivative of the rate of change of a mass fraction along a curve of mixtures. -/
theorem dYdt_along (hp : X.density T p (f x) ≠ 0) (hreg : X.Regular T (X.concentrations T p (f x)))
    (hP : ∀ n ∈ number X.reactions, ∀ eff kInf k0 troe, n.r.kind = .falloff eff → X.law n.k = .falloff kInf k0 troe →
      0 < X.reducedPressure n kInf k0 eff T (X.concentrations T p (f x))) (i : Nat) :
    HasDerivAt (fun t => X.dYdt T p (f t) i) (((number X.reactions).map fun n => (n.r.net i : ℝ) * X.weight i *
      X.rateAlong n T p (f x) u).sum) x := by
  have key : ∀ n ∈ number X.reactions, HasDerivAt (fun t => (n.r.net i : ℝ) * ((X.forward n T (X.concentrations T p (f t)) -
      X.reverse n T (X.concentrations T p (f t))) * X.modification n T (X.concentrations T p (f t))) * X.weight i / X.density T p (f t))
      ((n.r.net i : ℝ) * X.weight i * X.rateAlong n T p (f x) u) x := by
    intro n hn
    have hM := X.modification_along (T := T) (p := p) hf hμ n hn hreg (hP n hn)
    have hd := X.density_along (T := T) (p := p) hf hμ
    have h1 := X.products_along (T := T) (p := p) hf hμ n.r.reactants
    have h2 := X.products_along (T := T) (p := p) hf hμ n.r.products
    have hF := h1.const_mul (X.coefficient n T)
    have hR : HasDerivAt (fun t => X.reverse n T (X.concentrations T p (f t)))
        (if n.r.reversible then X.coefficient n T / equilibriumConstant X.nsp X.fit n.r T *
          (-((∑ i ∈ Finset.range X.nsp, u i / X.weight i) / ∑ i ∈ Finset.range X.nsp, f x i / X.weight i) * n.r.products.length *
      (n.r.products.map (X.concentrations T p (f x))).prod +
      X.density T p (f x) * prodDiff (X.concentrations T p (f x)) (fun i => u i / X.weight i) n.r.products) else 0) x := by
      unfold reverse
      by_cases hr : n.r.reversible = true
      · simp only [hr, if_true]
        exact h2.const_mul _
      · simp only [hr, Bool.false_eq_true, if_false]
        exact hasDerivAt_const x 0
    have := ((((hF.sub hR).mul hM).const_mul ((n.r.net i : ℝ))).mul_const (X.weight i)).div hd hp
    refine this.congr_deriv ?_
    simp only [Pi.sub_apply, Pi.mul_apply]
    unfold rateAlong
    dsimp only
    obtain ⟨θ, hθ⟩ : ∃ θ, θ = (∑ i ∈ Finset.range X.nsp, u i / X.weight i) / ∑ i ∈ Finset.range X.nsp, f x i / X.weight i := ⟨_, rfl⟩
    rw [← hθ]
    have eR : X.reverse n T (X.concentrations T p (f x)) = if n.r.reversible then
      X.coefficient n T / equilibriumConstant X.nsp X.fit n.r T * (n.r.products.map (X.concentrations T p (f x))).prod else 0 := rfl
    have eF : X.forward n T (X.concentrations T p (f x)) = X.coefficient n T * (n.r.reactants.map (X.concentrations T p (f x))).prod := rfl
    rw [eR, eF]
    generalize X.density T p (f x) = ρ at *
    generalize X.concentrations T p (f x) = C at *
    generalize X.coefficient n T = k
    generalize k / equilibriumConstant X.nsp X.fit n.r T = k'
    generalize (∑ i ∈ Finset.range X.nsp, efficiencyOf n.r i * (u i / X.weight i)) = a
    generalize X.modificationPer n T C = q
    generalize X.modification n T C = M
    generalize X.thirdSlope n T C = g
    generalize (n.r.reactants.map C).prod = D1
    generalize (n.r.products.map C).prod = D2
    generalize prodDiff C (fun i => u i / X.weight i) n.r.reactants = d1
    generalize prodDiff C (fun i => u i / X.weight i) n.r.products = d2
    by_cases hr : n.r.reversible = true
    · simp only [hr, if_true]
      field_simp
      ring
    · simp only [hr, Bool.false_eq_true, if_false]
      field_simp
      ring
  have sum : ∀ l : List Numbered, (∀ n ∈ l, n ∈ number X.reactions) →
      HasDerivAt (fun t => (l.map fun n => (n.r.net i : ℝ) * ((X.forward n T (X.concentrations T p (f t)) -
      X.reverse n T (X.concentrations T p (f t))) * X.modification n T (X.concentrations T p (f t))) * X.weight i / X.density T p (f t)).sum)
      ((l.map fun n => (n.r.net i : ℝ) * X.weight i * X.rateAlong n T p (f x) u).sum) x := by
    intro l hl
    induction l with
    | nil => simpa using hasDerivAt_const x (0 : ℝ)
    | cons n l ih =>
      simp only [List.map_cons, List.sum_cons]
      exact (key n (hl n (by simp))).add (ih fun n hn => hl n (by simp [hn]))
  refine (sum (number X.reactions) fun _ h => h).congr_of_eventuallyEq (Filter.Eventually.of_forall fun t => ?_)
  dsimp only
  unfold dYdt production
  generalize number X.reactions = l
  induction l with
  | nil => simp
  | cons n l ih =>
    simp only [List.map_cons, List.sum_cons]
    rw [← ih]
    ring

end
end Chemistry
end DLB
