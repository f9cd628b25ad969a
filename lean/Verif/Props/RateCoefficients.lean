import Verif.Lemmas.CheckRates
import Verif.Props.Mechanisms
/-
Rate coefficients of the shipped mechanisms (C80-C82): those of chem.cti, and consistent with thermodynamics.  Over the reals.
-/
set_option autoImplicit false
set_option linter.unusedSectionVars false

namespace DLB

/-! ### Arrhenius' law -/

/-- C80. For every mechanism, reaction and positive temperature: for all concentrations the forward rate computed by eval_rxn_rates is
`k(T) exp(eta)` times the product of the reactants' concentrations, with `k(T)` Arrhenius' law with the parameters of chem.cti (of the
limit of high pressure for a falloff reaction), and `|eta| <= (1 + |E| / (R T)) / 10^14` independent of the concentrations. -/
theorem C80_arrhenius (D : Package) (hD : D ∈ shipped) (T pres : ℝ) (hT : 0 < T) :
    ∀ n ∈ number D.reactions, ∃ η : ℝ, |η| ≤ (1 + |(D.law n.k).high.temperature| / T) / 10 ^ 14 ∧
      ∀ C : Nat → ℝ, ∃ σ, D.mech.callRxnRates T pres (fun i => some (C i)) = some σ ∧
        σ (.arr .fwd n.k) = some ((D.law n.k).high.coefficient n.r.order T * Real.exp η * (n.r.reactants.map C).prod) := by
  have h := checked_of_shipped hD
  intro n hn
  obtain ⟨kf, ⟨η, hη, hkf⟩, -, hf, -⟩ := laws_rates h (laws_of_shipped hD) T pres hT n hn
  refine ⟨η, hη, fun C => ?_⟩
  obtain ⟨σ, eσ, hσ⟩ := rxnRates_call h.rates h.ratesSafe T pres (fun i => some (C i)) C (fun _ _ => rfl)
  exact ⟨σ, eσ, by rw [(hσ n hn).1, hf, hkf]⟩

/-- C80. Between 200 K and 6000 K the rate coefficients are those of chem.cti up to a relative error of 10^-10. -/
theorem C80_relative_error (D : Package) (hD : D ∈ shipped) (T pres : ℝ) (h1 : 200 ≤ T) (h2 : T ≤ 6000) :
    ∀ n ∈ number D.reactions, ∃ kf : ℝ, |kf - (D.law n.k).high.coefficient n.r.order T| ≤
        (D.law n.k).high.coefficient n.r.order T / 10 ^ 10 ∧
      ∀ C : Nat → ℝ, ∃ σ, D.mech.callRxnRates T pres (fun i => some (C i)) = some σ ∧
        σ (.arr .fwd n.k) = some (kf * (n.r.reactants.map C).prod) := by
  intro n hn
  have hT : 0 < T := by linarith
  obtain ⟨kf, ⟨η, hη, hkf⟩, hpos, -⟩ := laws_rates (checked_of_shipped hD) (laws_of_shipped hD) T pres hT n hn
  have hk : 0 < (D.law n.k).high.coefficient n.r.order T := by
    rw [hkf] at hpos
    exact (pos_iff_pos_of_mul_pos hpos).2 (Real.exp_pos _)
  obtain ⟨η, hη, hC⟩ := C80_arrhenius D hD T pres hT n hn
  refine ⟨_, ?_, hC⟩
  have hb := (boundsOk_sound (bounds_of_shipped hD) n hn T h1 h2).2
  have h3 : |η| ≤ 1001 / 10 ^ 14 := hη.trans (div_le_div_of_nonneg_right (by linarith) (by positivity))
  have h4 := Real.abs_exp_sub_one_le (x := η) (h3.trans (by norm_num))
  have e : (D.law n.k).high.coefficient n.r.order T * Real.exp η - (D.law n.k).high.coefficient n.r.order T =
      (D.law n.k).high.coefficient n.r.order T * (Real.exp η - 1) := by ring
  rw [e, abs_mul, abs_of_pos hk, div_eq_mul_inv]
  refine mul_le_mul_of_nonneg_left ?_ hk.le
  have : (2 : ℝ) * (1001 / 10 ^ 14) ≤ (10 ^ 10)⁻¹ := by norm_num
  linarith

/-- O + H2 <=> H + OH of gri30 at 1000 K: `k = 38700 cm^3/mol/s T^2.7 exp(-6260 cal/mol / (R T))`. -/
example : (number gri30.reactions).getD 2 ⟨⟨[], [], false, .elementary⟩, 0, 0, 0⟩ ∈ number gri30.reactions ∧
    (gri30.law 2).high = ⟨(38700, 0), (27, 1), (6260, 0)⟩ := by decide +kernel
example (hn : (number gri30.reactions).getD 2 ⟨⟨[], [], false, .elementary⟩, 0, 0, 0⟩ ∈ number gri30.reactions) :=
  C80_relative_error gri30 gri30_shipped 1000 101325 (by norm_num) (by norm_num) _ hn

/-! ### Equilibrium constants -/

/-- C81. For every mechanism, reversible reaction and positive temperature there are positive `kf` and `kr` such that for all concentrations the
forward rate is `kf` times the product of the reactants' and the reverse rate `kr` times the product of the products' concentrations, and
`kf / kr` is the equilibrium constant of the thermodynamic data of chem.cti, times `exp(eps)` with `eps` of the order of rounding. -/
theorem C81_equilibrium (D : Package) (hD : D ∈ shipped) (T pres : ℝ) (hT : 0 < T) :
    ∀ n ∈ number D.reactions, n.r.reversible = true → ∃ kf kr ε : ℝ, 0 < kf ∧ 0 < kr ∧
      |ε| ≤ (1 + gibbsTerms D.nsp D.fit n.r T) / 10 ^ 14 ∧
      kf = kr * (equilibriumConstant D.nsp D.fit n.r T * Real.exp ε) ∧
      ∀ C : Nat → ℝ, ∃ σ, D.mech.callRxnRates T pres (fun i => some (C i)) = some σ ∧
        σ (.arr .fwd n.k) = some (kf * (n.r.reactants.map C).prod) ∧
        σ (.arr .rev n.j) = some (kr * (n.r.products.map C).prod) := by
  have h := checked_of_shipped hD
  intro n hn hr
  obtain ⟨kf, -, hpos, hf, hrev⟩ := laws_rates h (laws_of_shipped hD) T pres hT n hn
  obtain ⟨Kc, ⟨ε, hε, hKc⟩, hC⟩ := hrev hr
  have hK : 0 < Kc := by
    rw [hKc]
    unfold equilibriumConstant standardPressure gasR
    positivity
  refine ⟨kf, kf / Kc, ε, hpos, div_pos hpos hK, hε, ?_, fun C => ?_⟩
  · rw [← hKc]
    field_simp
  · obtain ⟨σ, eσ, hσ⟩ := rxnRates_call h.rates h.ratesSafe T pres (fun i => some (C i)) C (fun _ _ => rfl)
    exact ⟨σ, eσ, by rw [(hσ n hn).1, hf], by rw [(hσ n hn).2 hr, hC]⟩

/-- C81. Between 200 K and 6000 K the ratio of the rate coefficients is the equilibrium constant up to a relative error of 10^-10. -/
theorem C81_relative_error (D : Package) (hD : D ∈ shipped) (T pres : ℝ) (h1 : 200 ≤ T) (h2 : T ≤ 6000) :
    ∀ n ∈ number D.reactions, n.r.reversible = true → ∃ kf kr : ℝ, 0 < kf ∧ 0 < kr ∧
      |kf / kr - equilibriumConstant D.nsp D.fit n.r T| ≤ equilibriumConstant D.nsp D.fit n.r T / 10 ^ 10 ∧
      ∀ C : Nat → ℝ, ∃ σ, D.mech.callRxnRates T pres (fun i => some (C i)) = some σ ∧
        σ (.arr .fwd n.k) = some (kf * (n.r.reactants.map C).prod) ∧
        σ (.arr .rev n.j) = some (kr * (n.r.products.map C).prod) := by
  intro n hn hr
  have hT : 0 < T := by linarith
  obtain ⟨kf, kr, ε, p1, p2, hε, he, hC⟩ := C81_equilibrium D hD T pres hT n hn hr
  refine ⟨kf, kr, p1, p2, ?_, hC⟩
  have hb := (boundsOk_sound (bounds_of_shipped hD) n hn T h1 h2).1
  have h3 : |ε| ≤ 4001 / 10 ^ 14 := hε.trans (div_le_div_of_nonneg_right (by linarith) (by positivity))
  have h4 := Real.abs_exp_sub_one_le (x := ε) (h3.trans (by norm_num))
  have hk : 0 < equilibriumConstant D.nsp D.fit n.r T := by
    unfold equilibriumConstant standardPressure gasR
    positivity
  have e : kf / kr - equilibriumConstant D.nsp D.fit n.r T =
      equilibriumConstant D.nsp D.fit n.r T * (Real.exp ε - 1) := by
    rw [he, mul_div_cancel_left₀ _ p2.ne']
    ring
  rw [e, abs_mul, abs_of_pos hk, div_eq_mul_inv]
  refine mul_le_mul_of_nonneg_left ?_ hk.le
  have : (2 : ℝ) * (4001 / 10 ^ 14) ≤ (10 ^ 10)⁻¹ := by norm_num
  linarith

/-- C81. Detailed balance and the direction of reactions, between 200 K and 6000 K: in a mixture in which the reaction is in thermodynamic
equilibrium, forward and reverse rates agree up to 10^-10 of them; if the reactants exceed (the products exceed) their equilibrium by
more than that, the reaction runs forward (backward). -/
theorem C81_direction (D : Package) (hD : D ∈ shipped) (T pres : ℝ) (h1 : 200 ≤ T) (h2 : T ≤ 6000)
    (n : Numbered) (hn : n ∈ number D.reactions) (hr : n.r.reversible = true) (C : Nat → ℝ) (hC : ∀ i, 0 < C i) :
    ∃ σ fwd rev, D.mech.callRxnRates T pres (fun i => some (C i)) = some σ ∧
      σ (.arr .fwd n.k) = some fwd ∧ σ (.arr .rev n.j) = some rev ∧
      ((n.r.products.map C).prod = equilibriumConstant D.nsp D.fit n.r T * (n.r.reactants.map C).prod →
        |fwd - rev| ≤ rev / 10 ^ 10) ∧
      ((n.r.products.map C).prod < (1 - 1 / 10 ^ 10) * equilibriumConstant D.nsp D.fit n.r T * (n.r.reactants.map C).prod →
        rev < fwd) ∧
      ((1 + 1 / 10 ^ 10) * equilibriumConstant D.nsp D.fit n.r T * (n.r.reactants.map C).prod < (n.r.products.map C).prod →
        fwd < rev) := by
  obtain ⟨kf, kr, p1, p2, he, hσ⟩ := C81_relative_error D hD T pres h1 h2 n hn hr
  obtain ⟨σ, e1, e2, e3⟩ := hσ C
  have hpos : ∀ l : List Nat, 0 < (l.map C).prod := by
    intro l
    induction l with
    | nil => simp
    | cons a l ih => simpa using mul_pos (hC a) ih
  have hA := hpos n.r.reactants
  have hB := hpos n.r.products
  generalize (n.r.reactants.map C).prod = A at *
  generalize (n.r.products.map C).prod = B at *
  have hk : 0 < equilibriumConstant D.nsp D.fit n.r T := by
    unfold equilibriumConstant standardPressure gasR
    positivity
  generalize equilibriumConstant D.nsp D.fit n.r T = K at *
  obtain ⟨x, hx⟩ : ∃ x, x = kf / kr := ⟨_, rfl⟩
  have hkf : kf = kr * x := by rw [hx]; field_simp
  rw [← hx] at he
  obtain ⟨l, u⟩ := abs_le.1 he
  refine ⟨σ, _, _, e1, e2, e3, fun hb => ?_, fun hb => ?_, fun hb => ?_⟩
  · rw [hkf, hb]
    have e : kr * x * A - kr * (K * A) = kr * A * (x - K) := by ring
    rw [e, abs_mul, abs_of_pos (mul_pos p2 hA)]
    have : kr * (K * A) / 10 ^ 10 = kr * A * (K / 10 ^ 10) := by ring
    rw [this]
    exact mul_le_mul_of_nonneg_left he (mul_pos p2 hA).le
  · rw [hkf, mul_assoc]
    refine mul_lt_mul_of_pos_left (lt_of_lt_of_le hb ?_) p2
    refine mul_le_mul_of_nonneg_right ?_ hA.le
    linarith
  · rw [hkf, mul_assoc]
    refine mul_lt_mul_of_pos_left (lt_of_le_of_lt ?_ hb) p2
    refine mul_le_mul_of_nonneg_right ?_ hA.le
    linarith

/-- O + H2 <=> H + OH of gri30 is reversible; the hypotheses are met at 1000 K. -/
example : ((number gri30.reactions).getD 2 ⟨⟨[], [], false, .elementary⟩, 0, 0, 0⟩).r.reversible = true := by decide +kernel
example (n : Numbered) (hn : n ∈ number gri30.reactions) (hr : n.r.reversible = true) :=
  C81_direction gri30 gri30_shipped 1000 101325 (by norm_num) (by norm_num) n hn hr (fun _ => 1) (fun _ => one_pos)

/-! ### Falloff -/

/-- C82. For every mechanism, falloff reaction, and temperature up to 100000 K: chem.cti gives the limits of low and high pressure and possibly
Troe's parameters, and for all concentrations whose total is that of the ideal gas get_rxn_pres_mod computes `F Pr / (1 + Pr)`, where `Pr` is
`k0(T) [M] / kInf(T)` up to rounding, `[M]` is the sum of the concentrations weighted with the efficiencies, and `F` is 1 without parameters
and Troe's broadening factor with them (in which `Pr` is bounded from below by 10^-300). -/
theorem C82_falloff (D : Package) (hD : D ∈ shipped) (T pres : ℝ) (hT : 0 < T) (hT' : T ≤ 10 ^ 5) :
    ∀ n ∈ number D.reactions, ∀ eff, n.r.kind = .falloff eff → ∃ kInf k0 troe, D.law n.k = .falloff kInf k0 troe ∧
      ∃ η : ℝ, |η| ≤ (2 + (|k0.temperature| + |kInf.temperature|) / T) / 10 ^ 14 ∧ ∀ (C : Nat → ℝ) (Pr : ℝ),
        ∑ i ∈ Finset.range D.nsp, C i = pres / (gasR * T) →
        Pr = k0.coefficient (n.r.reactants.length + 1) T * thirdBody D.nsp eff C /
          kInf.coefficient n.r.reactants.length T * Real.exp η →
        ∃ σ, D.mech.callPresMod T pres (fun i => some (C i)) = some σ ∧ σ (.arr .presMod n.p) = some ((match troe with
          | none => 1
          | some t => Troe.factor (t.centre T) (max Pr (1 / 10 ^ 300))) * Pr / (1 + Pr)) := by
  have h := checked_of_shipped hD
  intro n hn eff hk
  obtain ⟨kInf, k0, troe, e1, η, hη, hs⟩ := laws_pres h (laws_of_shipped hD) T pres hT hT' n hn eff hk
  refine ⟨kInf, k0, troe, e1, η, hη, fun C Pr hC hPr => ?_⟩
  obtain ⟨σ, eσ, hσ⟩ := presMod_call h.presMod h.presSafe T pres (fun i => some (C i)) C (fun _ _ => rfl)
  exact ⟨σ, eσ, by rw [hσ n hn (by simp [Reaction.modified, hk]), hs C Pr hC.symm hPr]; rfl⟩

/-- gri30 has 29 falloff reactions, of which 26 with Troe's parameters. -/
example : (number gri30.reactions).countP (fun n => match n.r.kind with | .falloff _ => true | _ => false) = 29 ∧
    gri30.laws.countP (fun l => match l with | .falloff _ _ (some _) => true | _ => false) = 26 := by decide +kernel
example := C82_falloff gri30 gri30_shipped 1000 101325 (by norm_num) (by norm_num)

end DLB
