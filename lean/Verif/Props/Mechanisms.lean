import Verif.Lemmas.Shipped
import Verif.Lemmas.RealMath
/-
Properties of the shipped pyJac mechanisms (C52-C55, C62-C68).

`K` is any linearly ordered field; `exp`, `log`, `log10`, `pow` and `fmax` are arbitrary functions of which only `exp x > 0` and
`pow a x > 0` for `a > 0` are assumed (`CMathLaws`), where needed.
-/
set_option autoImplicit false
set_option linter.unusedSectionVars false

namespace DLB

/-- Some functions on the rationals, for examples that do not use them. -/
instance ratCMath : CMath ℚ where
  exp _ := 1
  log _ := 1
  log10 _ := 1
  pow _ _ := 1
  fmax := max

theorem gri30_shipped : gri30 ∈ shipped := by simp [shipped]
theorem drm19_shipped : drm19 ∈ shipped := by simp [shipped]
theorem yao_shipped : yao ∈ shipped := by simp [shipped]

section spec
variable {K : Type} [Field K] [LinearOrder K] [IsStrictOrderedRing K] [CMath K]

/-- C62. For every mechanism and arbitrary forward, reverse and pressure modification rates, eval_spec_rates computes, for every species, the sum
over the reactions of chem.cti of net stoichiometric coefficient times rate of progress. -/
theorem C62_species_rates (D : Package) (hD : D ∈ shipped) (fwd rev pm : Nat → K) :
    ∃ σ, D.mech.callSpecRates (fun i => some (fwd i)) (fun i => some (rev i)) (fun i => some (pm i)) = some σ ∧
      ∀ s, s < D.nsp → σ (specLoc D.nsp s) = some (productionRate D.reactions fwd rev pm s) := by
  have h := checked_of_shipped hD
  obtain ⟨σ, e, hs⟩ := specRates_call h.spec h.specSafe (0 : K) (fun i => some (fwd i)) (fun i => some (rev i))
    (fun i => some (pm i)) fwd rev pm (fun _ _ => rfl) (fun _ _ => rfl) (fun _ _ => rfl)
  refine ⟨σ, e, fun s h' => ?_⟩
  rw [hs s h', checkSpec_sound h.spec _ h']
  rfl

/-- C52. Whatever the rates of progress are, the production rates conserve every element. -/
theorem C52_elements_conserved (D : Package) (hD : D ∈ shipped) (fwd rev pm : Nat → K) :
    ∃ (σ : CMem K) (ω : Nat → K),
      D.mech.callSpecRates (fun i => some (fwd i)) (fun i => some (rev i)) (fun i => some (pm i)) = some σ ∧
      (∀ s, s < D.nsp → σ (specLoc D.nsp s) = some (ω s)) ∧
      ∀ e, e < D.elements.length → ∑ s ∈ Finset.range D.nsp, (D.atomCount s e : K) * ω s = 0 := by
  obtain ⟨σ, e, hs⟩ := C62_species_rates D hD fwd rev pm
  exact ⟨σ, _, e, hs, fun e he => elements_conserved (checked_of_shipped hD) fwd rev pm e he⟩

/-- C53. Whatever the rates of progress are, the production rates conserve mass: exactly for the molecular weights computed from the
atomic weights, and for any weights that differ from those by rounding up to a correspondingly small error. -/
theorem C53_mass_conserved (D : Package) (hD : D ∈ shipped) (fwd rev pm : Nat → K) :
    ∃ (σ : CMem K) (ω : Nat → K),
      D.mech.callSpecRates (fun i => some (fwd i)) (fun i => some (rev i)) (fun i => some (pm i)) = some σ ∧
      (∀ s, s < D.nsp → σ (specLoc D.nsp s) = some (ω s)) ∧
      ∑ s ∈ Finset.range D.nsp, D.molWeight s * ω s = 0 ∧
      ∀ w r : Nat → K, CloseWeights D w r →
        |∑ s ∈ Finset.range D.nsp, w s * ω s| ≤ (∑ s ∈ Finset.range D.nsp, D.molWeight s * |ω s|) / 10 ^ 15 := by
  obtain ⟨σ, e, hs⟩ := C62_species_rates D hD fwd rev pm
  exact ⟨σ, _, e, hs, mass_conserved (checked_of_shipped hD) fwd rev pm,
    fun w r hw => mass_conserved_literals (checked_of_shipped hD) hw fwd rev pm⟩

/-- C53. Molecular weights are what they should be: those in thermo.foam are the sums of the atomic weights up to a relative
error of 10^-15, so that OpenFOAM and pyJac agree on them. -/
theorem C53_foam_weights (D : Package) (hD : D ∈ shipped) (s : Nat) (hs : s < D.nsp) :
    |((D.foamWeights.getD s (0, 0)).1 : K) / 10 ^ (D.foamWeights.getD s (0, 0)).2 - D.molWeight s| ≤
      D.molWeight s / 10 ^ 15 := by
  have := List.all_eq_true.1 (checked_of_shipped hD).weights s (List.mem_range.2 hs)
  simp only [Bool.and_eq_true] at this
  exact (weightOk_sound this.1.1.2).2

/-- Rates 1, 2, 3, ... of progress in drm19: H2 is produced. -/
example : (Mech.drm19.callSpecRates (fun i => some (i : ℚ)) (fun _ => some 1) (fun _ => some 1)).map
    (fun σ => σ (.arr .spRates 0)) = some (some 50) := by decide +kernel
example : (drm19.molWeight 5 : ℚ) = 1801528 / 100000 := by decide +kernel
example : gri30.elements.length = 5 ∧ gri30.nsp = 53 ∧ gri30.reactions.length = 325 := by decide +kernel

/-! ### Rates of progress -/

/-- C63. Law of mass action: for every temperature and every reaction there are positive rate coefficients, independent of the composition, such
that for all concentrations eval_rxn_rates computes the forward rate as coefficient times product of the reactants' concentrations
and, for a reversible reaction, the reverse rate as coefficient times product of the products' concentrations. -/
theorem C63_mass_action (D : Package) (hD : D ∈ shipped) (L : CMathLaws K) (T pres : K) :
    ∀ n ∈ number D.reactions,
      (∃ kf, 0 < kf ∧ ∀ C : Nat → K, ∃ σ, D.mech.callRxnRates T pres (fun i => some (C i)) = some σ ∧
        σ (.arr .fwd n.k) = some (kf * (n.r.reactants.map C).prod)) ∧
      (n.r.reversible = true → ∃ kr, 0 < kr ∧ ∀ C : Nat → K, ∃ σ,
        D.mech.callRxnRates T pres (fun i => some (C i)) = some σ ∧
        σ (.arr .rev n.j) = some (kr * (n.r.products.map C).prod)) := by
  have h := checked_of_shipped hD
  intro n hn
  obtain ⟨h1, h2⟩ := rates_massAction L h.rates T pres n hn
  constructor
  · obtain ⟨kf, kp, e⟩ := h1
    refine ⟨kf, kp, fun C => ?_⟩
    obtain ⟨σ, eσ, hσ⟩ := rxnRates_call h.rates h.ratesSafe T pres (fun i => some (C i)) C (fun _ _ => rfl)
    exact ⟨σ, eσ, by rw [(hσ n hn).1, e]⟩
  · intro hr
    obtain ⟨kf, kp, e⟩ := h2 hr
    refine ⟨kf, kp, fun C => ?_⟩
    obtain ⟨σ, eσ, hσ⟩ := rxnRates_call h.rates h.ratesSafe T pres (fun i => some (C i)) C (fun _ _ => rfl)
    exact ⟨σ, eσ, by rw [(hσ n hn).2 hr, e]⟩

/-- C64. Third bodies and falloff: for every temperature and pressure and every reaction with a third body, and all concentrations whose total
is that of the ideal gas, get_rxn_pres_mod computes the sum of the concentrations weighted with the efficiencies
of chem.cti; for a falloff reaction it computes `F Pr / (1 + Pr)` with `Pr` proportional to that sum and `F > 0`. -/
theorem C64_pressure_modification (D : Package) (hD : D ∈ shipped) (L : CMathLaws K) (T pres : K) :
    ∀ n ∈ number D.reactions, ∃ f : (Nat → K) → K, PressureFactor D.nsp (pres / (gasR * T)) n.r.kind f ∧
      ∀ C : Nat → K, ∃ σ, D.mech.callPresMod T pres (fun i => some (C i)) = some σ ∧
        (n.r.modified = true → σ (.arr .presMod n.p) = some (f C)) := by
  have h := checked_of_shipped hD
  intro n hn
  refine ⟨_, pres_factor L h.presMod T pres n hn, fun C => ?_⟩
  obtain ⟨σ, eσ, hσ⟩ := presMod_call h.presMod h.presSafe T pres (fun i => some (C i)) C (fun _ _ => rfl)
  exact ⟨σ, eσ, fun hm => hσ n hn hm⟩

/-- The hypotheses are met by the reals; gri30 has reactions of all kinds. -/
example (T pres : ℝ) := C63_mass_action gri30 gri30_shipped realCMathLaws T pres
example (T pres : ℝ) := C64_pressure_modification gri30 gri30_shipped realCMathLaws T pres
example : (number gri30.reactions).countP (fun n => n.r.reversible) = 309 ∧
    (number gri30.reactions).countP (fun n => n.r.modified) = 41 := by decide +kernel

/-! ### Concentrations and conversions -/

theorem mean_pos {n : Nat} {Y a : Nat → K} (hY : ∀ i, i ≤ n → 0 ≤ complement n Y i) (ha : ∀ i, i ≤ n → 0 < a i) :
    0 < ∑ i ∈ Finset.range (n + 1), complement n Y i * a i := by
  have hnn : ∀ i ∈ Finset.range (n + 1), 0 ≤ complement n Y i * a i := fun i hi =>
    mul_nonneg (hY i (by have := Finset.mem_range.1 hi; omega)) (ha i (by have := Finset.mem_range.1 hi; omega)).le
  rcases (Finset.sum_nonneg hnn).lt_or_eq with h' | h'
  · exact h'
  · exfalso
    have hz := (Finset.sum_eq_zero_iff_of_nonneg hnn).1 h'.symm
    have : ∑ i ∈ Finset.range (n + 1), complement n Y i = 0 := Finset.sum_eq_zero fun i hi =>
      (mul_eq_zero.1 (hz i hi)).resolve_right (ha i (by have := Finset.mem_range.1 hi; omega)).ne'
    rw [complement_sum] at this
    exact one_ne_zero this

/-- C65. Concentrations are those of the ideal gas: with `r` the reciprocal molecular weights (up to rounding), for every composition of which
the mean reciprocal weight does not vanish, eval_conc computes the density `p / (R T sum Y_i r_i)` and the concentrations
`density * Y_i * r_i`, which sum to `p / (R T)`; they are non-negative if the mass fractions are. -/
theorem C65_concentrations (D : Package) (hD : D ∈ shipped) :
    ∃ w r : Nat → K, CloseWeights D w r ∧ ∀ (T pres : K) (y : Nat → K), 0 < T → 0 < pres →
      ∑ i ∈ Finset.range D.nsp, complement (D.nsp - 1) y i * r i ≠ 0 →
      ∃ (σ : CMem K) (ρ : K) (C : Nat → K), D.mech.callEvalConc T pres (fun i => some (y i)) = some σ ∧
        σ (.var .rho) = some ρ ∧ ρ = pres / (gasR * T * ∑ i ∈ Finset.range D.nsp, complement (D.nsp - 1) y i * r i) ∧
        (∀ i, i < D.nsp → σ (.arr .C i) = some (C i) ∧ C i = ρ * complement (D.nsp - 1) y i * r i) ∧
        ∑ i ∈ Finset.range D.nsp, C i = pres / (gasR * T) ∧
        ((∀ i, i < D.nsp → 0 ≤ complement (D.nsp - 1) y i) → 0 < ρ ∧ ∀ i, i < D.nsp → 0 ≤ C i) := by
  have h := checked_of_shipped hD
  refine ⟨_, _, close_literals h, ?_⟩
  intro T pres y hT hp hmw
  obtain ⟨n, hn⟩ : ∃ n, D.nsp = n + 1 := ⟨D.nsp - 1, by have := nsp_pos h; omega⟩
  have hn1 : D.nsp - 1 = n := by omega
  have ht := h.templates
  simp only [checkTemplates, Bool.and_eq_true, decide_eq_true_eq] at ht
  obtain ⟨⟨⟨⟨⟨⟨⟨tc, -⟩, -⟩, -⟩, -⟩, -⟩, -⟩, -⟩ := ht
  obtain ⟨σ, e, c1, -, c3⟩ := evalConc_call h.thermoSafe T pres (fun i => some (y i)) y (fun i _ => rfl)
  obtain ⟨-, v2, v3⟩ := evalConcT_val n D.mech.recips (inT T pres y)
  rw [tc, hn1] at c1 c3
  rw [v2] at c3
  rw [hn1] at hmw ⊢
  have hρ : inT T pres y (.var .pres) * (1 / ∑ i ∈ Finset.range (n + 1),
      complement n (fun i => inT T pres y (.arr .y i)) i * Dec.val (nth D.mech.recips i)) /
        (gasR * inT T pres y (.var .T)) =
      pres / (gasR * T * ∑ i ∈ Finset.range D.nsp, complement n y i * Dec.val (nth D.mech.recips i)) := by
    show pres * (1 / ∑ i ∈ Finset.range (n + 1), complement n y i * Dec.val (nth D.mech.recips i)) / (gasR * T) = _
    rw [← hn]
    rw [mul_one_div, div_div, mul_comm (∑ i ∈ Finset.range D.nsp, _)]
  rw [hρ] at c3
  have hR0 : (0 : K) < gasR := by unfold gasR; positivity
  refine ⟨σ, _, fun i => pres / (gasR * T * ∑ i ∈ Finset.range D.nsp, complement n y i * Dec.val (nth D.mech.recips i)) *
    complement n y i * Dec.val (nth D.mech.recips i), e, c3, rfl, fun i hi => ⟨?_, rfl⟩, ?_, fun hY => ?_⟩
  · have hi' : i < D.mech.nsp := hi
    rw [c1 i hi, v3 i (by omega), hρ]
    rfl
  · have : ∀ ρ : K, ∑ i ∈ Finset.range D.nsp, ρ * complement n y i * Dec.val (nth D.mech.recips i) =
        ρ * ∑ i ∈ Finset.range D.nsp, complement n y i * Dec.val (nth D.mech.recips i) := fun ρ => by
      rw [Finset.mul_sum]
      exact Finset.sum_congr rfl fun i _ => by ring
    rw [this]
    field_simp
  · have hpos : ∀ i, i < D.nsp → (0 : K) < Dec.val (nth D.mech.recips i) := fun i hi =>
      (close_pos (close_literals h) (fun i hi => molWeight_pos h i hi) i hi).2
    have hm : 0 < ∑ i ∈ Finset.range D.nsp, complement n y i * (Dec.val (nth D.mech.recips i) : K) := by
      rw [hn]
      exact mean_pos (fun i hi => hY i (by omega)) fun i hi => hpos i (by omega)
    refine ⟨by positivity, fun i hi => ?_⟩
    have h1 := hY i hi
    have h2 := hpos i hi
    positivity

example := C65_concentrations (K := ℚ) gri30 gri30_shipped

theorem complement_eq {n : Nat} {Z y : Nat → K} (hs : ∑ i ∈ Finset.range (n + 1), Z i = 1) (h : ∀ i, i < n → y i = Z i)
    (i : Nat) (hi : i ≤ n) : complement n y i = Z i := by
  unfold complement
  split
  · rename_i e
    subst e
    rw [Finset.sum_congr rfl fun j hj => h j (Finset.mem_range.1 hj), ← hs, Finset.sum_range_succ]
    ring
  · exact h i (by omega)

/-- C54. With `w` the molecular weights (up to rounding): mole2mass computes `X_i w_i / sum X_j w_j` and mass2mole computes `(Y_i / w_i) / sum Y_j / w_j`. -/
theorem C54_conversions (D : Package) (hD : D ∈ shipped) :
    ∃ w r : Nat → K, CloseWeights D w r ∧
      (∀ X : Nat → K, ∃ σ, D.mech.callMole2mass X = some σ ∧ ∀ i, i < D.nsp - 1 → σ (.arr .Y i) =
        some (X i * w i / ∑ j ∈ Finset.range D.nsp, complement (D.nsp - 1) X j * w j)) ∧
      (∀ Y : Nat → K, ∃ σ, D.mech.callMass2mole Y = some σ ∧ ∀ i, i < D.nsp - 1 → σ (.arr .X i) =
        some (Y i / w i / ∑ j ∈ Finset.range D.nsp, complement (D.nsp - 1) Y j / w j)) ∧
      (∀ (T pres : K) (X : Nat → K), D.mech.callGetDensity T pres X =
        some (pres * (∑ j ∈ Finset.range D.nsp, complement (D.nsp - 1) X j * w j) / (gasR * T))) := by
  have h := checked_of_shipped hD
  obtain ⟨n, hn⟩ : ∃ n, D.nsp = n + 1 := ⟨D.nsp - 1, by have := nsp_pos h; omega⟩
  have hn1 : D.nsp - 1 = n := by omega
  have ht := h.templates
  simp only [checkTemplates, Bool.and_eq_true, decide_eq_true_eq] at ht
  obtain ⟨⟨⟨⟨⟨⟨⟨-, t1⟩, t2⟩, t3⟩, -⟩, -⟩, -⟩, -⟩ := ht
  rw [hn1] at t1 t2 t3
  refine ⟨_, _, close_literals h, fun X => ?_, fun Y => ?_, fun T pres X => ?_⟩
  · obtain ⟨σ, e, hs⟩ := mole2mass_call h.thermoSafe (0 : K) X
    refine ⟨σ, e, fun i hi => ?_⟩
    have hi' : i < n := by omega
    rw [hs i hi, t1, mole2massT_val n _ _ i hi', hn1, hn]
    simp only [complement, if_neg (by omega : ¬ i = n)]
    rfl
  · obtain ⟨σ, e, hs⟩ := mass2mole_call h.thermoSafe (0 : K) Y
    refine ⟨σ, e, fun i hi => ?_⟩
    have hi' : i < n := by omega
    rw [hs i hi, t2, mass2moleT_val n _ _ i hi', hn1, hn]
    simp only [complement, if_neg (by omega : ¬ i = n), inT]
    congr 1
    rw [mul_one_div, div_right_comm]
  · rw [getDensity_call h.thermoSafe, t3, getDensityT_val, hn1, hn]
    rfl

/-- C54. Mole to mass fractions and back restores the composition, and so does mass to mole fractions and back. -/
theorem C54_roundtrip (D : Package) (hD : D ∈ shipped) :
    ∃ w r : Nat → K, CloseWeights D w r ∧
      (∀ X : Nat → K, ∑ j ∈ Finset.range D.nsp, complement (D.nsp - 1) X j * w j ≠ 0 →
        ∃ σ, D.mech.callMole2mass X = some σ ∧ ∀ Y : Nat → K, (∀ i, i < D.nsp - 1 → σ (.arr .Y i) = some (Y i)) →
          ∃ σ', D.mech.callMass2mole Y = some σ' ∧ ∀ i, i < D.nsp - 1 → σ' (.arr .X i) = some (X i)) ∧
      (∀ Y : Nat → K, ∑ j ∈ Finset.range D.nsp, complement (D.nsp - 1) Y j / w j ≠ 0 →
        ∃ σ, D.mech.callMass2mole Y = some σ ∧ ∀ X : Nat → K, (∀ i, i < D.nsp - 1 → σ (.arr .X i) = some (X i)) →
          ∃ σ', D.mech.callMole2mass X = some σ' ∧ ∀ i, i < D.nsp - 1 → σ' (.arr .Y i) = some (Y i)) := by
  have h := checked_of_shipped hD
  obtain ⟨w, r, hc, h1, h2, -⟩ := C54_conversions (K := K) D hD
  have hw : ∀ i, i < D.nsp → 0 < w i := fun i hi => (close_pos hc (fun i hi => molWeight_pos h i hi) i hi).1
  obtain ⟨n, hn⟩ : ∃ n, D.nsp = n + 1 := ⟨D.nsp - 1, by have := nsp_pos h; omega⟩
  have hn1 : D.nsp - 1 = n := by omega
  rw [hn1] at h1 h2 ⊢
  rw [hn] at h1 h2 hw ⊢
  refine ⟨w, r, hc, fun X hm => ?_, fun Y hm => ?_⟩
  · obtain ⟨σ, e, hs⟩ := h1 X
    refine ⟨σ, e, fun Y hY => ?_⟩
    obtain ⟨σ', e', hs'⟩ := h2 Y
    refine ⟨σ', e', fun i hi => ?_⟩
    obtain ⟨m, hmd⟩ : ∃ m, m = ∑ j ∈ Finset.range (n + 1), complement n X j * w j := ⟨_, rfl⟩
    rw [← hmd] at hm
    have hYe : ∀ i, i ≤ n → complement n Y i = complement n X i * w i / m := complement_eq (by
        rw [← Finset.sum_div, ← hmd, div_self hm]) fun i hi => by
      have := Option.some.inj ((hY i hi).symm.trans (hs i hi))
      rw [this, ← hmd]
      simp only [complement, if_neg (by omega : ¬ i = n)]
    have hsum : ∑ j ∈ Finset.range (n + 1), complement n Y j / w j = 1 / m := by
      rw [← complement_sum n X, Finset.sum_div]
      refine Finset.sum_congr rfl fun j hj => ?_
      have hj' : j < n + 1 := Finset.mem_range.1 hj
      rw [hYe j (by omega)]
      have := (hw j hj').ne'
      field_simp
    rw [hs' i hi, hsum]
    have h3 := hYe i (by omega)
    simp only [complement, if_neg (by omega : ¬ i = n)] at h3
    rw [h3]
    have := (hw i (by omega)).ne'
    congr 1
    field_simp
  · obtain ⟨σ, e, hs⟩ := h2 Y
    refine ⟨σ, e, fun X hX => ?_⟩
    obtain ⟨σ', e', hs'⟩ := h1 X
    refine ⟨σ', e', fun i hi => ?_⟩
    obtain ⟨m, hmd⟩ : ∃ m, m = ∑ j ∈ Finset.range (n + 1), complement n Y j / w j := ⟨_, rfl⟩
    rw [← hmd] at hm
    have hXe : ∀ i, i ≤ n → complement n X i = complement n Y i / w i / m := complement_eq (by
        rw [← Finset.sum_div, ← hmd, div_self hm]) fun i hi => by
      have := Option.some.inj ((hX i hi).symm.trans (hs i hi))
      rw [this, ← hmd]
      simp only [complement, if_neg (by omega : ¬ i = n)]
    have hsum : ∑ j ∈ Finset.range (n + 1), complement n X j * w j = 1 / m := by
      rw [← complement_sum n Y, Finset.sum_div]
      refine Finset.sum_congr rfl fun j hj => ?_
      have hj' : j < n + 1 := Finset.mem_range.1 hj
      rw [hXe j (by omega)]
      have := (hw j hj').ne'
      field_simp
    rw [hs' i hi, hsum]
    have h3 := hXe i (by omega)
    simp only [complement, if_neg (by omega : ¬ i = n)] at h3
    rw [h3]
    have := (hw i (by omega)).ne'
    congr 1
    field_simp

/-- The mean weights do not vanish for compositions: any non-negative composition qualifies. -/
theorem C54_mean_weight (D : Package) (hD : D ∈ shipped) (w r : Nat → K) (hw : CloseWeights D w r) (X : Nat → K)
    (hX : ∀ i, i < D.nsp → 0 ≤ complement (D.nsp - 1) X i) :
    ∑ j ∈ Finset.range D.nsp, complement (D.nsp - 1) X j * w j ≠ 0 ∧
    ∑ j ∈ Finset.range D.nsp, complement (D.nsp - 1) X j / w j ≠ 0 := by
  have h := checked_of_shipped hD
  have hp : ∀ i, i < D.nsp → 0 < w i := fun i hi => (close_pos hw (fun i hi => molWeight_pos h i hi) i hi).1
  obtain ⟨n, hn⟩ : ∃ n, D.nsp = n + 1 := ⟨D.nsp - 1, by have := nsp_pos h; omega⟩
  have hn1 : D.nsp - 1 = n := by omega
  rw [hn1] at hX ⊢
  rw [hn] at hX hp ⊢
  constructor
  · exact (mean_pos (fun i hi => hX i (by omega)) fun i hi => hp i (by omega)).ne'
  · have := mean_pos (n := n) (Y := X) (a := fun i => 1 / w i) (fun i hi => hX i (by omega))
      fun i hi => one_div_pos.2 (hp i (by omega))
    simp only [mul_one_div] at this
    exact this.ne'

/-- Equal fractions of all species of gri30. -/
theorem equal_fractions : ∀ i, i < gri30.nsp → (0 : ℚ) ≤ complement (gri30.nsp - 1) (fun _ => 1 / 53) i := by
  intro i _
  have e : gri30.nsp - 1 = 52 := rfl
  unfold complement
  rw [e]
  split
  · simp only [Finset.sum_const, Finset.card_range]; norm_num
  · norm_num

example (w r : Nat → ℚ) (hw : CloseWeights gri30 w r) := C54_mean_weight gri30 gri30_shipped w r hw _ equal_fractions
example := C54_roundtrip (K := ℚ) gri30 gri30_shipped

end spec

/-! ### Species order -/

section masks
variable {S : Type} [Add S] [Sub S] [Mul S] [Div S] [Neg S] [OfScientific S] [CMath S] [LE S] [DecidableLE S]

theorem mask_calls (D : Package) (hD : D ∈ shipped) (y : Nat → S) :
    (∃ σ, D.mech.callMask y = some σ ∧
      ∀ i, i < D.nsp → σ (.arr .y i) = some (y ((Mech.permOf D.mech.applyMask).getD i 0))) ∧
    (∃ σ, D.mech.callReverseMask y = some σ ∧
      ∀ i, i < D.nsp → σ (.arr .y i) = some (y ((Mech.permOf D.mech.applyReverseMask).getD i 0))) := by
  have h := checked_of_shipped hD
  have ht := h.templates
  simp only [checkTemplates, Bool.and_eq_true, decide_eq_true_eq] at ht
  obtain ⟨⟨-, t1⟩, t2⟩ := ht
  constructor
  · obtain ⟨σ, e, hs⟩ := mask_call h.thermoSafe y (y 0)
    refine ⟨σ, e, fun i hi => ?_⟩
    rw [hs i hi]
    conv_lhs => rw [t1]
    rw [maskT_val _ _ _ i hi]
    rfl
  · obtain ⟨σ, e, hs⟩ := reverseMask_call h.thermoSafe y (y 0)
    refine ⟨σ, e, fun i hi => ?_⟩
    rw [hs i hi]
    conv_lhs => rw [t2]
    rw [maskT_val _ _ _ i hi]
    rfl

/-- C55. apply_mask and apply_reverse_mask undo each other. -/
theorem C55_masks_inverse (D : Package) (hD : D ∈ shipped) (y : Nat → S) :
    (∃ σ, D.mech.callMask y = some σ ∧ ∀ z : Nat → S, (∀ i, i < D.nsp → σ (.arr .y i) = some (z i)) →
      ∃ σ', D.mech.callReverseMask z = some σ' ∧ ∀ i, i < D.nsp → σ' (.arr .y i) = some (y i)) ∧
    (∃ σ, D.mech.callReverseMask y = some σ ∧ ∀ z : Nat → S, (∀ i, i < D.nsp → σ (.arr .y i) = some (z i)) →
      ∃ σ', D.mech.callMask z = some σ' ∧ ∀ i, i < D.nsp → σ' (.arr .y i) = some (y i)) := by
  have h := checked_of_shipped hD
  have hm : ∀ i, i < D.nsp → _ := fun i hi => List.all_eq_true.1 h.masks i (List.mem_range.2 hi)
  simp only [Bool.and_eq_true, decide_eq_true_eq] at hm
  constructor
  · obtain ⟨σ, e, hs⟩ := (mask_calls D hD y).1
    refine ⟨σ, e, fun z hz => ?_⟩
    obtain ⟨σ', e', hs'⟩ := (mask_calls D hD z).2
    refine ⟨σ', e', fun i hi => ?_⟩
    obtain ⟨⟨⟨-, b⟩, c⟩, -⟩ := hm i hi
    rw [hs' i hi, ← hz _ b, hs _ b, c]
  · obtain ⟨σ, e, hs⟩ := (mask_calls D hD y).2
    refine ⟨σ, e, fun z hz => ?_⟩
    obtain ⟨σ', e', hs'⟩ := (mask_calls D hD z).1
    refine ⟨σ', e', fun i hi => ?_⟩
    obtain ⟨⟨⟨a, -⟩, -⟩, d⟩ := hm i hi
    rw [hs' i hi, ← hz _ a, hs _ a, d]

/-- C55. apply_mask takes values in the species order of chem.cti to the order of pyJac, which is that of species.foam; the species have the
atoms chem.cti says in thermo.foam; no species occurs twice. -/
theorem C55_species_order (D : Package) (hD : D ∈ shipped) (v : String → S) :
    D.foamNames = D.names ∧ D.foamAtoms = D.atoms ∧ D.names.Nodup ∧ D.names.length = D.nsp ∧
    ∃ σ, D.mech.callMask (fun i => v (D.ctiNames.getD i "")) = some σ ∧
      ∀ i, i < D.nsp → σ (.arr .y i) = some (v (D.names.getD i "")) := by
  have hn := (checked_of_shipped hD).names
  simp only [checkNames, Bool.and_eq_true, decide_eq_true_eq, List.all_eq_true, List.mem_range] at hn
  obtain ⟨⟨⟨⟨⟨⟨⟨a, b⟩, c⟩, -⟩, d⟩, -⟩, -⟩, e⟩ := hn
  obtain ⟨σ, e', hs⟩ := (mask_calls D hD (fun i => v (D.ctiNames.getD i ""))).1
  exact ⟨a, b, d, c, σ, e', fun i hi => by rw [hs i hi, e i hi]⟩

/-- N2 is moved to the end in gri30. -/
example : (Mech.gri30.callMask (fun i => (i : ℚ))).map (fun σ => σ (.arr .y 52)) = some (some 47) ∧
    gri30.names.getD 52 "" = "N2" := by decide +kernel

/-! ### Absence of undefined behaviour -/

/-- C66. No function of any mechanism library reads an uninitialised variable or beyond the end of an array, and all outputs are set; for any
scalars, in particular with NaNs, infinities and rounding. -/
theorem C66_no_undefined_behaviour (D : Package) (hD : D ∈ shipped) (T pres : S) (a b c y : Nat → S) :
    (∃ σ, D.mech.callEvalConc T pres (fun i => some (a i)) = some σ ∧ (∀ i, i < D.nsp → (σ (.arr .C i)).isSome) ∧
      (σ (.var .yN)).isSome ∧ (σ (.var .rho)).isSome) ∧
    (∃ σ, D.mech.callRxnRates T pres (fun i => some (a i)) = some σ ∧
      (∀ i, i < D.mech.nFwd → (σ (.arr .fwd i)).isSome) ∧ (∀ i, i < D.mech.nRev → (σ (.arr .rev i)).isSome)) ∧
    (∃ σ, D.mech.callPresMod T pres (fun i => some (a i)) = some σ ∧
      (∀ i, i < D.mech.nPresMod → (σ (.arr .presMod i)).isSome)) ∧
    (∃ σ, D.mech.callSpecRates (fun i => some (a i)) (fun i => some (b i)) (fun i => some (c i)) = some σ ∧
      (∀ s, s < D.nsp → (σ (specLoc D.nsp s)).isSome)) ∧
    (∃ σ, D.mech.callCp T = some σ ∧ ∀ i, i < D.nsp → (σ (.arr .cp i)).isSome) ∧
    (∃ σ, D.mech.callH T = some σ ∧ ∀ i, i < D.nsp → (σ (.arr .h i)).isSome) ∧
    (∃ σ, D.mech.callMole2mass a = some σ ∧ ∀ i, i < D.nsp - 1 → (σ (.arr .Y i)).isSome) ∧
    (∃ σ, D.mech.callMass2mole a = some σ ∧ ∀ i, i < D.nsp - 1 → (σ (.arr .X i)).isSome) ∧
    (D.mech.callGetDensity T pres a).isSome ∧
    (∃ σ, D.mech.callMask a = some σ ∧ ∀ i, i < D.nsp → (σ (.arr .y i)).isSome) ∧
    (∃ σ, D.mech.callReverseMask a = some σ ∧ ∀ i, i < D.nsp → (σ (.arr .y i)).isSome) ∧
    (∃ σ, D.mech.callDydt pres y = some σ ∧ ∀ i, i < D.nsp → (σ (.arr .dy i)).isSome) := by
  have h := checked_of_shipped hD
  have hsz := h.sizes
  simp only [checkSizes, Bool.and_eq_true, decide_eq_true_eq] at hsz
  obtain ⟨⟨⟨z0, z1⟩, z2⟩, z3⟩ := hsz
  refine ⟨?_, ?_, ?_, ?_, ?_, ?_, ?_, ?_, ?_, ?_, ?_, ?_⟩
  · obtain ⟨σ, e, h1, h2, h3⟩ := evalConc_call h.thermoSafe T pres (fun i => some (a i)) a (fun _ _ => rfl)
    exact ⟨σ, e, fun i hi => by simp [h1 i hi], by simp [h2], by simp [h3]⟩
  · obtain ⟨σ, e, h1⟩ := rxnRates_call h.rates h.ratesSafe T pres (fun i => some (a i)) a (fun _ _ => rfl)
    refine ⟨σ, e, fun i hi => ?_, fun i hi => ?_⟩
    · obtain ⟨n, hn, rfl⟩ := cover_k D.reactions 0 0 0 i (by omega) (by omega)
      simp [(h1 n hn).1]
    · obtain ⟨n, hn, hr, rfl⟩ := cover_j D.reactions 0 0 0 i (by omega) (by omega)
      simp [(h1 n hn).2 hr]
  · obtain ⟨σ, e, h1⟩ := presMod_call h.presMod h.presSafe T pres (fun i => some (a i)) a (fun _ _ => rfl)
    refine ⟨σ, e, fun i hi => ?_⟩
    obtain ⟨n, hn, hr, rfl⟩ := cover_p D.reactions 0 0 0 i (by omega) (by omega)
    simp [h1 n hn hr]
  · obtain ⟨σ, e, h1⟩ := specRates_call h.spec h.specSafe T (fun i => some (a i)) (fun i => some (b i))
      (fun i => some (c i)) a b c (fun _ _ => rfl) (fun _ _ => rfl) (fun _ _ => rfl)
    exact ⟨σ, e, fun i hi => by simp [h1 i hi]⟩
  · obtain ⟨σ, e, h1⟩ := cp_call h.thermoSafe T
    exact ⟨σ, e, fun i hi => by simp [h1 i hi]⟩
  · obtain ⟨σ, e, h1⟩ := h_call h.thermoSafe T
    exact ⟨σ, e, fun i hi => by simp [h1 i hi]⟩
  · obtain ⟨σ, e, h1⟩ := mole2mass_call h.thermoSafe T a
    exact ⟨σ, e, fun i hi => by simp [h1 i hi]⟩
  · obtain ⟨σ, e, h1⟩ := mass2mole_call h.thermoSafe T a
    exact ⟨σ, e, fun i hi => by simp [h1 i hi]⟩
  · rw [getDensity_call h.thermoSafe]; rfl
  · obtain ⟨σ, e, h1⟩ := mask_call h.thermoSafe a T
    exact ⟨σ, e, fun i hi => by simp [h1 i hi]⟩
  · obtain ⟨σ, e, h1⟩ := reverseMask_call h.thermoSafe a T
    exact ⟨σ, e, fun i hi => by simp [h1 i hi]⟩
  · obtain ⟨σ, e, ⟨_, _, _, _, _, _, _, _, _, _, _, _, _, _, _, -, -, -, -, -, -, -, -, -, -, -, -, -, -, -, hd⟩⟩ :=
      dydt_call (rs := D.reactions) h.sizes h.rates h.ratesSafe h.presMod h.presSafe h.spec h.specSafe h.thermoSafe pres y
    exact ⟨σ, e, fun i hi => by simp [hd i hi]⟩

end masks

/-! ### The right-hand side of the ODE -/

section dydt
variable {K : Type} [Field K] [LinearOrder K] [IsStrictOrderedRing K] [CMath K]

/-- C67. For every mechanism there are the molecular weights and their reciprocals (up to rounding) such that for all temperatures, pressures and
compositions dydt is the right-hand side of the constant pressure reactor: with `Y` the mass fractions including the last species,
density `ρ` and concentrations `C` of the ideal gas, and rates of progress obeying mass action at `C`, the species equations are
`dY_i/dt = ω_i w_i / ρ` with `ω` the production rates of the mechanism, and the temperature equation
is `dT/dt = - sum h_i w_i ω_i / (ρ sum cp_i Y_i)`. -/
theorem C67_reactor_equations (D : Package) (hD : D ∈ shipped) (L : CMathLaws K) :
    ∃ w r : Nat → K, CloseWeights D w r ∧ ∀ (pres : K) (y Y : Nat → K),
      Y = complement (D.nsp - 1) (fun i => y (i + 1)) → 0 < y 0 → 0 < pres → (∀ i, i < D.nsp → 0 ≤ Y i) →
      ∃ (σ σcp σh : CMem K) (ρ : K) (C fwd rev pm cp enth : Nat → K),
        D.mech.callDydt pres y = some σ ∧
        0 < ρ ∧ ρ = pres / (gasR * y 0 * ∑ i ∈ Finset.range D.nsp, Y i * r i) ∧
        (∀ i, i < D.nsp → C i = ρ * Y i * r i) ∧
        RatesAt D.reactions D.nsp C fwd rev pm ∧
        D.mech.callCp (y 0) = some σcp ∧ (∀ i, i < D.nsp → σcp (.arr .cp i) = some (cp i)) ∧
        D.mech.callH (y 0) = some σh ∧ (∀ i, i < D.nsp → σh (.arr .h i) = some (enth i)) ∧
        (∀ i, i < D.nsp - 1 → σ (.arr .dy (i + 1)) = some (productionRate D.reactions fwd rev pm i * w i / ρ)) ∧
        σ (.arr .dy 0) = some (-(∑ i ∈ Finset.range D.nsp, enth i * w i * productionRate D.reactions fwd rev pm i) /
          (ρ * ∑ i ∈ Finset.range D.nsp, cp i * Y i)) := by
  have h := checked_of_shipped hD
  refine ⟨_, _, close_literals h, ?_⟩
  rintro pres y Y rfl hT hp hY
  obtain ⟨σ, σcp, σh, ρ, C, fwd, rev, pm, cp, enth, e, h1, h2, h3, -, h4, h5, h6, h7, h8, h9, h10⟩ :=
    dydt_spec h L pres y hT hp hY
  exact ⟨σ, σcp, σh, ρ, C, fwd, rev, pm, cp, enth, e, h1, h2, h3, h4, h5, h6, h7, h8, h9, h10⟩

/-- C68. A species that is absent is not consumed: its mass fraction's derivative is not negative. -/
theorem C68_absent_species_not_consumed (D : Package) (hD : D ∈ shipped) (L : CMathLaws K) (pres : K) (y : Nat → K)
    (hT : 0 < y 0) (hp : 0 < pres) (hY : ∀ i, i < D.nsp → 0 ≤ complement (D.nsp - 1) (fun i => y (i + 1)) i)
    (s : Nat) (hs : s < D.nsp - 1) (h0 : y (s + 1) = 0) :
    ∃ σ v, D.mech.callDydt pres y = some σ ∧ σ (.arr .dy (s + 1)) = some v ∧ 0 ≤ v := by
  have h := checked_of_shipped hD
  obtain ⟨σ, σcp, σh, ρ, C, fwd, rev, pm, cp, enth, e, h1, h2, h3, -, h4, -, -, -, -, h9, -⟩ :=
    dydt_spec h L pres y hT hp hY
  refine ⟨σ, _, e, h9 s hs, ?_⟩
  have hpos : ∀ i, i < D.nsp → (0 : K) < Dec.val (nth D.mech.weights i) ∧ (0 : K) < Dec.val (nth D.mech.recips i) :=
    fun i hi => close_pos (close_literals h) (fun i hi => molWeight_pos h i hi) i hi
  have hC : ∀ i, i < D.nsp → 0 ≤ C i := fun i hi => by
    rw [h3 i hi]
    exact mul_nonneg (mul_nonneg h1.le (hY i hi)) (hpos i hi).2.le
  have hCs : C s = 0 := by
    rw [h3 s (by omega)]
    simp only [complement, if_neg (by omega : ¬ s = D.nsp - 1), h0]
    simp
  have := production_nonneg D.nsp D.reactions C fwd rev pm s
    (fun r hr => ⟨(balance_sound (K := K) h r hr).1, (balance_sound (K := K) h r hr).2.1⟩) hC hCs h4.forward h4.reverse
    (fun n hn hm => by
      cases hk : n.r.kind with
      | elementary => simp [Reaction.modified, hk] at hm
      | thirdBody eff => rw [h4.third n hn eff hk]; exact thirdBody_nonneg _ _ _ hC
      | falloff eff =>
        obtain ⟨κ, F, kp, Fp, ef⟩ := h4.falloff n hn eff hk
        rw [ef]
        have := thirdBody_nonneg D.nsp eff C hC
        positivity)
  exact div_nonneg (mul_nonneg this (hpos s (by omega)).1.le) h1.le

/-- C52. Elements along the reactor equations: with the last species' rate included, the moles of every element are conserved by
dydt, in terms of its outputs: the rates `dy_i ρ / w_i` are those of a conservative vector. -/
theorem C52_dydt_conserves_elements (D : Package) (hD : D ∈ shipped) (L : CMathLaws K) :
    ∃ w r : Nat → K, CloseWeights D w r ∧ ∀ (pres : K) (y Y : Nat → K),
      Y = complement (D.nsp - 1) (fun i => y (i + 1)) → 0 < y 0 → 0 < pres → (∀ i, i < D.nsp → 0 ≤ Y i) →
      ∃ (σ : CMem K) (ρ : K) (ω : Nat → K), D.mech.callDydt pres y = some σ ∧ 0 < ρ ∧
        (∀ i, i < D.nsp - 1 → σ (.arr .dy (i + 1)) = some (ω i * w i / ρ)) ∧
        (∀ e, e < D.elements.length → ∑ s ∈ Finset.range D.nsp, (D.atomCount s e : K) * ω s = 0) ∧
        ∑ s ∈ Finset.range D.nsp, D.molWeight s * ω s = 0 := by
  have h := checked_of_shipped hD
  refine ⟨_, _, close_literals h, ?_⟩
  rintro pres y Y rfl hT hp hY
  obtain ⟨σ, σcp, σh, ρ, C, fwd, rev, pm, cp, enth, e, h1, h2, h3, -, h4, h5, h6, h7, h8, h9, h10⟩ :=
    dydt_spec h L pres y hT hp hY
  exact ⟨σ, ρ, _, e, h1, h9, fun e he => elements_conserved h fwd rev pm e he, mass_conserved h fwd rev pm⟩

/-- A state of gri30 over the reals: 1000 K, one atmosphere, equal mass fractions except for the absent species 0. -/
noncomputable def sampleState : Nat → ℝ
  | 0 => 1000
  | 1 => 0
  | _ => 1 / 53

theorem sampleState_ok : ∀ i, i < gri30.nsp → (0 : ℝ) ≤ complement (gri30.nsp - 1) (fun i => sampleState (i + 1)) i := by
  intro i _
  have e : gri30.nsp - 1 = 51 + 1 := rfl
  unfold complement
  rw [e]
  split
  · rw [Finset.sum_range_succ']
    simp only [sampleState, Finset.sum_const, Finset.card_range]; norm_num
  · cases i with
    | zero => simp [sampleState]
    | succ i => simp [sampleState]

example := C68_absent_species_not_consumed gri30 gri30_shipped realCMathLaws 101325 sampleState
  (by norm_num [sampleState]) (by norm_num) sampleState_ok 0 (by decide +kernel) rfl
example := (C67_reactor_equations gri30 gri30_shipped realCMathLaws).choose_spec.choose_spec.2 101325 sampleState _ rfl
  (by norm_num [sampleState]) (by norm_num) sampleState_ok

end dydt
end DLB
