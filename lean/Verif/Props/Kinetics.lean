import Verif.Lemmas.ReactorNear
import Verif.Props.Thermo
/-
C83: the right-hand side of the shipped mechanism libraries is that of the reactor with the chemistry of chem.cti.  Over the reals.
-/
set_option autoImplicit false
set_option linter.unusedSectionVars false

namespace DLB

theorem cpTerms_le (a : List SDec) (T : ℝ) (hT : 0 < T) : cpTerms a T ≤ 20 * gTerms a T := by
  unfold cpTerms gTerms
  have p : ∀ k : Nat, 0 < T ^ k := fun k => pow_pos hT k
  rw [abs_mul, abs_mul, abs_mul, abs_mul, abs_of_pos hT, abs_of_pos (p 2), abs_of_pos (p 3), abs_of_pos (p 4)]
  have q1 : 0 ≤ |(nasaCoeff a 1 : ℝ)| * T := by positivity
  have q2 : 0 ≤ |(nasaCoeff a 2 : ℝ)| * T ^ 2 := by positivity
  have q3 : 0 ≤ |(nasaCoeff a 3 : ℝ)| * T ^ 3 := by positivity
  have q4 : 0 ≤ |(nasaCoeff a 4 : ℝ)| * T ^ 4 := by positivity
  have q5 : 0 ≤ |(nasaCoeff a 5 : ℝ)| / T := by positivity
  have q6 : 0 ≤ (|(nasaCoeff a 0 : ℝ)| + 1) * |Real.log T| := by positivity
  linarith [abs_nonneg (nasaCoeff a 6 : ℝ), abs_nonneg (nasaCoeff a 0 : ℝ)]

theorem abs_hOverR_le (a : List SDec) (T : ℝ) : |hOverR a T| ≤ hTerms a T := by
  unfold hOverR hTerms
  refine (abs_add_le _ _).trans (add_le_add ?_ le_rfl)
  refine (abs_add_le _ _).trans (add_le_add ?_ le_rfl)
  refine (abs_add_le _ _).trans (add_le_add ?_ le_rfl)
  refine (abs_add_le _ _).trans (add_le_add ?_ le_rfl)
  exact abs_add_le _ _

/-- The heat capacity of a mixture. -/
theorem cp_near {D : Package} (hD : D ∈ shipped) (T : ℝ) (h1 : 200 ≤ T) (h2 : T ≤ 5000) (i : Nat) (hi : i < D.nsp) (c : ℝ)
    (hc : |c - gasR / D.molWeight i * cpOverR ((D.fit i).at T) T| ≤
      3 / 10 ^ 15 * (gasR / D.molWeight i * cpTerms ((D.fit i).at T) T))
    (hl : 12 / 5 * (gasR / D.molWeight i) ≤ c) : Near (6 / 10 ^ 11) c (D.chemistry.cp T i) := by
  have hT : 0 < T := by linarith
  have hk := kinetics_of_shipped hD
  simp only [kineticsOk, Bool.and_eq_true, List.all_eq_true] at hk
  have hg := Nat.le_of_ble_eq_true (hk.2 i (List.mem_range.2 hi))
  have hb : cpTerms ((D.fit i).at T) T ≤ 20000 := by
    have h3 := cpTerms_le ((D.fit i).at T) T hT
    have h4 := gBound_ge D i T h1 (by linarith)
    have h5 : (D.gBound i : ℝ) ≤ 1000 := by exact_mod_cast hg
    linarith
  have hq : 0 < (gasR : ℝ) / D.molWeight i := by
    have := molWeight_pos (K := ℝ) (checked_of_shipped hD) i hi
    have hg : (0 : ℝ) < gasR := by unfold gasR; positivity
    positivity
  have e : D.chemistry.cp T i = gasR / D.molWeight i * cpOverR ((D.fit i).at T) T := rfl
  rw [← e] at hc
  generalize (gasR : ℝ) / D.molWeight i = q at *
  have hc' : |c - D.chemistry.cp T i| ≤ 6 / 10 ^ 11 * q := by
    refine hc.trans ?_
    have := mul_le_mul_of_nonneg_left hb hq.le
    linarith
  have hlow : 2 * q ≤ D.chemistry.cp T i := by linarith [(abs_le.1 hc').2]
  refine (Near.of_abs (ε := 3 / 10 ^ 11) (by linarith) (by linarith) (by norm_num) (by norm_num) ?_).mono (by norm_num)
  refine hc'.trans ?_
  linarith

/-- C83. For every shipped mechanism, pressure, temperature from 200 K to 6000 K and mixture, with no falloff reaction at the pole of
Troe's formula: the derivatives of the mass fractions that dydt returns are those of the reactor with the reactions, rate coefficients, falloff parameters, thermodynamic data and molecular weights of
chem.cti, up to 10^-9 of the total turnover of the species. -/
theorem C83_species (D : Package) (hD : D ∈ shipped) (pres : ℝ) (y Y : Nat → ℝ)
    (hY : Y = complement (D.nsp - 1) (fun i => y (i + 1))) (h1 : 200 ≤ y 0) (h2 : y 0 ≤ 6000) (hp : 0 < pres)
    (hpos : ∀ i, i < D.nsp → 0 ≤ Y i) (hpole : D.chemistry.AwayFromPoles (y 0) (D.chemistry.concentrations (y 0) pres Y)) :
    ∃ σ, D.mech.callDydt pres y = some σ ∧ ∀ i, i < D.nsp - 1 → ∃ dY, σ (.arr .dy (i + 1)) = some dY ∧
      |dY - D.chemistry.dYdt (y 0) pres Y i| ≤ D.chemistry.dYdtTerms (y 0) pres Y i / 10 ^ 9 := by
  subst hY
  obtain ⟨σ, σcp, σh, ρ, C, F, R, P, cp, enth, e, hρ, hρe, hC, hsum, hR, hX, -, -, -, -, hdY, -⟩ :=
    dydt_full (checked_of_shipped hD) realCMathLaws pres y (by linarith) hp hpos
  refine ⟨σ, e, fun i hi => ⟨_, hdY i hi, ?_⟩⟩
  obtain ⟨k1, k2⟩ := dYdt_near hD (y 0) pres h1 h2 hp _ hpos ρ C F R P hρe hC hsum hR hX hpole i (by omega)
  refine k1.trans ?_
  have := (abs_nonneg _).trans k2
  linarith

/-- C83. From 200 K to 5000 K the derivative of the temperature that dydt returns is that of the reactor at constant pressure and
enthalpy with the data of chem.cti, up to 10^-9 of the sum of the absolute values of its terms. -/
theorem C83_temperature (D : Package) (hD : D ∈ shipped) (pres : ℝ) (y Y : Nat → ℝ)
    (hY : Y = complement (D.nsp - 1) (fun i => y (i + 1))) (h1 : 200 ≤ y 0) (h2 : y 0 ≤ 5000) (hp : 0 < pres)
    (hpos : ∀ i, i < D.nsp → 0 ≤ Y i) (hpole : D.chemistry.AwayFromPoles (y 0) (D.chemistry.concentrations (y 0) pres Y)) :
    ∃ σ dT, D.mech.callDydt pres y = some σ ∧ σ (.arr .dy 0) = some dT ∧
      |dT - D.chemistry.dTdt (y 0) pres Y| ≤ D.chemistry.dTdtTerms (y 0) pres Y / 10 ^ 9 := by
  subst hY
  have hc := checked_of_shipped hD
  obtain ⟨σ, σcp, σh, ρ, C, F, R, P, cp, enth, e, hρ, hρe, hC, hsum, hR, hX, ecp, vcp, eh, vh, -, hdT⟩ :=
    dydt_full hc realCMathLaws pres y (by linarith) hp hpos
  refine ⟨σ, _, e, hdT, ?_⟩
  obtain ⟨Y, hY⟩ : ∃ Y, Y = complement (D.nsp - 1) (fun i => y (i + 1)) := ⟨_, rfl⟩
  have hsum1 : ∑ i ∈ Finset.range D.nsp, Y i = 1 := by
    have h0 := nsp_pos hc
    have := complement_sum (D.nsp - 1) (fun i => y (i + 1))
    rw [hY]
    rwa [show D.nsp - 1 + 1 = D.nsp by omega] at this
  rw [← hY] at hpos hpole hρe hC ⊢
  generalize y 0 = T at *
  have hT : 0 < T := by linarith
  -- thermodynamics
  obtain ⟨σcp', σh', ecp', eh', ht⟩ := C75_nasa_polynomials (K := ℝ) D hD T
  obtain ⟨σc2, ec2, ht2⟩ := C76_heat_capacity_positive (K := ℝ) D hD T h1 h2
  rw [ecp] at ecp' ec2
  rw [eh] at eh'
  obtain rfl := Option.some.inj ecp'
  obtain rfl := Option.some.inj ec2
  obtain rfl := Option.some.inj eh'
  have hcp : ∀ i, i < D.nsp → Near (6 / 10 ^ 11) (cp i) (D.chemistry.cp T i) := by
    intro i hi
    obtain ⟨c, h', q1, q2, q3, -⟩ := ht i hi
    obtain ⟨c2, q4, q5, -⟩ := ht2 i hi
    rw [vcp i hi] at q1 q4
    obtain rfl := Option.some.inj q1
    obtain rfl := Option.some.inj q4
    exact cp_near hD T h1 h2 i hi _ q3 q5
  have hen : ∀ i, i < D.nsp → |enth i - D.chemistry.enthalpy T i| ≤ 3 / 10 ^ 15 * D.chemistry.enthalpyTerms T i ∧
      |D.chemistry.enthalpy T i| ≤ D.chemistry.enthalpyTerms T i := by
    intro i hi
    obtain ⟨c, h', q1, q2, -, q3⟩ := ht i hi
    rw [vh i hi] at q2
    obtain rfl := Option.some.inj q2
    refine ⟨q3, ?_⟩
    have hq : 0 < (gasR : ℝ) / D.molWeight i := by
      have := molWeight_pos (K := ℝ) hc i hi
      have hg : (0 : ℝ) < gasR := by unfold gasR; positivity
      positivity
    unfold Chemistry.enthalpy Chemistry.enthalpyTerms
    rw [abs_mul, show D.chemistry.weight i = D.molWeight i from rfl, abs_of_pos hq]
    exact mul_le_mul_of_nonneg_left (abs_hOverR_le _ _) hq.le
  -- the mean heat capacity
  have nc : Near (6 / 10 ^ 11) (∑ i ∈ Finset.range D.nsp, cp i * Y i) (∑ i ∈ Finset.range D.nsp, D.chemistry.cp T i * Y i) :=
    Near.sum fun i hi => ((hcp i hi).mul (Near.refl (hpos i hi))).mono (by norm_num)
  have ninv := nc.inv
  have dinv := ninv.abs_sub (by norm_num) (by norm_num)
  -- the sum of the enthalpies
  have hdY := fun i hi => dYdt_near hD T pres h1 (by linarith) hp _ hpos ρ C F R P hρe hC hsum hR hX hpole i hi
  obtain ⟨dY, hdYe⟩ : ∃ dY : Nat → ℝ, ∀ i, dY i = productionRate D.reactions F R P i * Dec.val (nth D.mech.weights i) / ρ :=
    ⟨_, fun _ => rfl⟩
  simp only [← hdYe] at hdY
  have eN : -(∑ i ∈ Finset.range D.nsp, enth i * (Dec.val (nth D.mech.weights i) : ℝ) * productionRate D.reactions F R P i) /
      (ρ * ∑ i ∈ Finset.range D.nsp, cp i * Y i) =
      -((∑ i ∈ Finset.range D.nsp, enth i * dY i) * (∑ i ∈ Finset.range D.nsp, cp i * Y i)⁻¹) := by
    have : ∑ i ∈ Finset.range D.nsp, enth i * dY i =
        (∑ i ∈ Finset.range D.nsp, enth i * (Dec.val (nth D.mech.weights i) : ℝ) * productionRate D.reactions F R P i) / ρ := by
      rw [Finset.sum_div]
      refine Finset.sum_congr rfl fun i _ => ?_
      rw [hdYe]
      ring
    rw [this, neg_div, div_mul_eq_div_div, div_eq_mul_inv (_ / ρ)]
  have eS : D.chemistry.dTdt T pres Y = -((∑ i ∈ Finset.range D.nsp, D.chemistry.enthalpy T i * D.chemistry.dYdt T pres Y i) *
      (∑ i ∈ Finset.range D.nsp, D.chemistry.cp T i * Y i)⁻¹) := by
    unfold Chemistry.dTdt
    rw [neg_div, div_eq_mul_inv]
    rfl
  have eT : D.chemistry.dTdtTerms T pres Y =
      (∑ i ∈ Finset.range D.nsp, D.chemistry.enthalpyTerms T i * D.chemistry.dYdtTerms T pres Y i) *
      (∑ i ∈ Finset.range D.nsp, D.chemistry.cp T i * Y i)⁻¹ := by
    unfold Chemistry.dTdtTerms
    rw [div_eq_mul_inv]
    rfl
  have dN : |∑ i ∈ Finset.range D.nsp, enth i * dY i - ∑ i ∈ Finset.range D.nsp, D.chemistry.enthalpy T i * D.chemistry.dYdt T pres Y i| ≤
      71 / 10 ^ 11 * ∑ i ∈ Finset.range D.nsp, D.chemistry.enthalpyTerms T i * D.chemistry.dYdtTerms T pres Y i := by
    rw [← Finset.sum_sub_distrib, Finset.mul_sum]
    refine (Finset.abs_sum_le_sum_abs _ _).trans (Finset.sum_le_sum fun i hi => ?_)
    obtain ⟨a1, a2⟩ := hdY i (Finset.mem_range.1 hi)
    obtain ⟨b1, b2⟩ := hen i (Finset.mem_range.1 hi)
    have pZ := (abs_nonneg _).trans a2
    have pH := (abs_nonneg _).trans b2
    generalize D.chemistry.dYdtTerms T pres Y i = Z at *
    generalize D.chemistry.enthalpyTerms T i = H at *
    generalize D.chemistry.enthalpy T i = h at *
    generalize D.chemistry.dYdt T pres Y i = d at *
    have e : enth i * dY i - h * d = (enth i - h) * (dY i - d) + (enth i - h) * d + h * (dY i - d) := by ring
    rw [e]
    refine (abs_add_le _ _).trans ?_
    have t1 := abs_add_le ((enth i - h) * (dY i - d)) ((enth i - h) * d)
    rw [abs_mul, abs_mul] at t1
    rw [abs_mul h]
    have m1 := mul_le_mul b1 a1 (abs_nonneg _) (by positivity)
    have m2 := mul_le_mul b1 a2 (abs_nonneg _) (by positivity)
    have m3 := mul_le_mul b2 a1 (abs_nonneg _) pH
    have := mul_nonneg pH pZ
    nlinarith
  have bN : |∑ i ∈ Finset.range D.nsp, D.chemistry.enthalpy T i * D.chemistry.dYdt T pres Y i| ≤
      ∑ i ∈ Finset.range D.nsp, D.chemistry.enthalpyTerms T i * D.chemistry.dYdtTerms T pres Y i := by
    refine (Finset.abs_sum_le_sum_abs _ _).trans (Finset.sum_le_sum fun i hi => ?_)
    obtain ⟨a1, a2⟩ := hdY i (Finset.mem_range.1 hi)
    obtain ⟨b1, b2⟩ := hen i (Finset.mem_range.1 hi)
    rw [abs_mul]
    exact mul_le_mul b2 a2 (abs_nonneg _) ((abs_nonneg _).trans b2)
  rw [eN, eS, eT]
  have pV := ninv.right
  generalize (∑ i ∈ Finset.range D.nsp, D.chemistry.enthalpyTerms T i * D.chemistry.dYdtTerms T pres Y i) = S at *
  generalize (∑ i ∈ Finset.range D.nsp, D.chemistry.enthalpy T i * D.chemistry.dYdt T pres Y i) = N at *
  generalize (∑ i ∈ Finset.range D.nsp, enth i * dY i) = N' at *
  generalize (∑ i ∈ Finset.range D.nsp, D.chemistry.cp T i * Y i)⁻¹ = v at *
  generalize (∑ i ∈ Finset.range D.nsp, cp i * Y i)⁻¹ = v' at *
  have e : -(N' * v') - -(N * v) = -((N' - N) * (v' - v) + (N' - N) * v + N * (v' - v)) := by ring
  rw [e, abs_neg]
  have pS := (abs_nonneg _).trans bN
  refine (abs_add_le _ _).trans ?_
  have t1 := abs_add_le ((N' - N) * (v' - v)) ((N' - N) * v)
  rw [abs_mul, abs_mul, abs_of_nonneg pV] at t1
  rw [abs_mul N]
  have m1 := mul_le_mul dN dinv (abs_nonneg _) (by positivity)
  have m2 := mul_le_mul_of_nonneg_right dN pV
  have m3 := mul_le_mul bN dinv (abs_nonneg _) pS
  have := mul_nonneg pS pV
  nlinarith

/-- C83. The exception: for every mixture and temperature there is a pressure below which no falloff reaction is at the pole, and at
any pressure there is none if no reduced pressure of a falloff reaction with Troe's parameters exceeds 10. -/
theorem C83_poles (D : Package) (hD : D ∈ shipped) (T : ℝ) (h1 : 200 ≤ T) (h2 : T ≤ 6000) (Y : Nat → ℝ) :
    (∃ p0 : ℝ, 0 < p0 ∧ ∀ p, 0 < p → p ≤ p0 → D.chemistry.AwayFromPoles T (D.chemistry.concentrations T p Y)) ∧
    ∀ p, (∀ n ∈ number D.reactions, ∀ eff kInf k0 t, n.r.kind = .falloff eff → D.law n.k = .falloff kInf k0 (some t) →
      D.chemistry.reducedPressure n kInf k0 eff T (D.chemistry.concentrations T p Y) ≤ 10) →
      D.chemistry.AwayFromPoles T (D.chemistry.concentrations T p Y) :=
  ⟨away_of_low_pressure hD T h1 h2 Y, fun _ h => away_of_low hD T h1 h2 _ h⟩

/-- A mixture in gri30 at 1000 K that meets the hypotheses, at low pressure. -/
example : ∃ p : ℝ, 0 < p ∧ ∃ σ, gri30.mech.callDydt p sampleState = some σ := by
  obtain ⟨p, hp, h⟩ := (C83_poles gri30 gri30_shipped 1000 (by norm_num) (by norm_num)
    (complement (gri30.nsp - 1) fun i => sampleState (i + 1))).1
  have e : sampleState 0 = 1000 := rfl
  obtain ⟨σ, hσ, -⟩ := C83_species gri30 gri30_shipped p sampleState _ rfl (by rw [e]; norm_num) (by rw [e]; norm_num) hp sampleState_ok
    (by rw [e]; exact h p hp le_rfl)
  obtain ⟨-⟩ := C83_temperature gri30 gri30_shipped p sampleState _ rfl (by rw [e]; norm_num) (by rw [e]; norm_num) hp sampleState_ok
    (by rw [e]; exact h p hp le_rfl)
  exact ⟨p, hp, σ, hσ⟩

end DLB
