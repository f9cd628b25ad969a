import Verif.Lemmas.ThermoSound
import Verif.Props.Mechanisms
import Mathlib.Analysis.Calculus.Deriv.Add
import Mathlib.Analysis.Calculus.Deriv.Mul
/-
C75-C79: the thermodynamics of the shipped mechanism libraries.
-/
set_option autoImplicit false
set_option linter.unusedSectionVars false

namespace DLB

section
variable {K : Type} [Field K] [LinearOrder K] [IsStrictOrderedRing K] [CMath K]

/-- The facts of `checkFit` for one species. -/
theorem fit_facts {D : Package} (t : ThermoChecked D) (i : Nat) (hi : i < D.nsp) :
    (D.cpPiece i).tMid = (D.fit i).tMid ∧ (D.hPiece i).tMid = (D.fit i).tMid ∧ (D.fit i).tMid.2 = 0 ∧
    200 ≤ (D.fit i).tMid.1 ∧ (D.fit i).tMid.1 ≤ 5000 ∧
    QPoly.close (D.weight5 i) gas5 (D.cpPiece i).low (cpQ (D.fit i).low) = true ∧
    QPoly.close (D.weight5 i) gas5 (D.cpPiece i).high (cpQ (D.fit i).high) = true ∧
    QPoly.close (60 * D.weight5 i) gas5 (D.hPiece i).low (hQ (D.fit i).low) = true ∧
    QPoly.close (60 * D.weight5 i) gas5 (D.hPiece i).high (hQ (D.fit i).high) = true ∧
    QPoly.close (D.weight5 i) gas5 (D.hPiece i).low.deriv (cpQ (D.fit i).low) = true ∧
    QPoly.close (D.weight5 i) gas5 (D.hPiece i).high.deriv (cpQ (D.fit i).high) = true := by
  have := List.all_eq_true.1 t.fit i (List.mem_range.2 hi)
  simp only [Bool.and_eq_true, decide_eq_true_eq] at this
  obtain ⟨⟨⟨⟨⟨⟨⟨⟨⟨⟨h1, h2⟩, h3⟩, h4⟩, h5⟩, h6⟩, h7⟩, h8⟩, h9⟩, h10⟩, h11⟩ := this
  exact ⟨h1, h2, h3, h4, h5, h6, h7, h8, h9, h10, h11⟩

theorem cp_close {D : Package} (h : Checked D) (i : Nat) (hi : i < D.nsp) {p : QPoly} {a : List SDec}
    (hc : QPoly.close (D.weight5 i) gas5 p (cpQ a) = true) (T : K) :
    |p.eval T - gasR / D.molWeight i * cpOverR a T| ≤ 3 / 10 ^ 15 * (gasR / D.molWeight i * cpTerms a T) := by
  have := QPoly.close_eval hc (weight5_pos h i hi) (by norm_num [gas5]) T
  rwa [gas_ratio, cpQ_eval, cpQ_abs] at this

theorem h_close {D : Package} (h : Checked D) (i : Nat) (hi : i < D.nsp) {p : QPoly} {a : List SDec}
    (hc : QPoly.close (60 * D.weight5 i) gas5 p (hQ a) = true) (T : K) :
    |p.eval T - gasR / D.molWeight i * hOverR a T| ≤ 3 / 10 ^ 15 * (gasR / D.molWeight i * hTerms a T) := by
  have hw := weight5_pos h i hi
  have := QPoly.close_eval hc (by linarith) (by norm_num [gas5]) T
  have e : ((gas5 : Int) : K) / ((60 * D.weight5 i : Int) : K) = gasR / D.molWeight i / 60 := by
    rw [← gas_ratio]
    push_cast
    rw [div_div, mul_comm (60 : K)]
  rw [e, hQ_eval, hQ_abs] at this
  have e1 : gasR / D.molWeight i / 60 * (60 * hOverR a T) = gasR / D.molWeight i * hOverR a T := by ring
  have e2 : gasR / D.molWeight i / 60 * (60 * hTerms a T) = gasR / D.molWeight i * hTerms a T := by ring
  rwa [e1, e2] at this

/-- C75. For every shipped mechanism, every species and every temperature, eval_cp and eval_h return the heat capacity and enthalpy
per mass of the NASA polynomials that chem.cti gives for that species: the gas constant divided by the molecular weight
times `a_0 + a_1 T + ...` and `a_5 + a_0 T + a_1 T^2/2 + ...`, up to `3e-15` of the sum of the absolute values of the terms (rounding
of the literals). -/
theorem C75_nasa_polynomials (D : Package) (hD : D ∈ shipped) (T : K) :
    ∃ σcp σh, D.mech.callCp T = some σcp ∧ D.mech.callH T = some σh ∧ ∀ i, i < D.nsp →
      ∃ cp h, σcp (.arr .cp i) = some cp ∧ σh (.arr .h i) = some h ∧
        |cp - gasR / D.molWeight i * cpOverR ((D.fit i).at T) T| ≤
          3 / 10 ^ 15 * (gasR / D.molWeight i * cpTerms ((D.fit i).at T) T) ∧
        |h - gasR / D.molWeight i * hOverR ((D.fit i).at T) T| ≤
          3 / 10 ^ 15 * (gasR / D.molWeight i * hTerms ((D.fit i).at T) T) := by
  have hc := checked_of_shipped hD
  have ht := thermo_of_shipped hD
  obtain ⟨σcp, e1, v1⟩ := cp_value hc ht T
  obtain ⟨σh, e2, v2⟩ := h_value hc ht T
  refine ⟨σcp, σh, e1, e2, fun i hi => ⟨_, _, v1 i hi, v2 i hi, ?_⟩⟩
  obtain ⟨t1, t2, -, -, -, c1, c2, c3, c4, -, -⟩ := fit_facts ht i hi
  unfold Piece.eval Nasa.at
  rw [t1, t2]
  split
  · exact ⟨cp_close hc i hi c1 T, h_close hc i hi c3 T⟩
  · exact ⟨cp_close hc i hi c2 T, h_close hc i hi c4 T⟩

/-- Non-vacuity: hydrogen atoms in gri30 at 1500 K; the polynomial is 5/2 there, up to 1e-7. -/
example := @C75_nasa_polynomials ℚ _ _ _ ratCMath gri30 gri30_shipped 1500
example : |cpOverR ((gri30.fit 1).at (1500 : ℚ)) (1500 : ℚ) - 5 / 2| ≤ 1 / 10 ^ 7 := by decide +kernel
/-- Carbon dioxide in drm19 at the temperature where the polynomials change: its heat capacity is between 6 and 7 gas constants. -/
example : 6 < cpOverR ((drm19.fit 12).at (1000 : ℚ)) (1000 : ℚ) ∧ cpOverR ((drm19.fit 12).at (1000 : ℚ)) (1000 : ℚ) < 7 := by decide +kernel

/-- The heat capacity of a species is at least 12/5 of the gas constant, from 200 K to 5000 K. -/
theorem cp_lower {D : Package} (h : Checked D) (t : ThermoChecked D) (i : Nat) (hi : i < D.nsp) (T : K)
    (h1 : 200 ≤ T) (h2 : T ≤ 5000) : 12 / 5 * (gasR / D.molWeight i) ≤ (D.cpPiece i).eval T := by
  have hp := List.all_eq_true.1 t.positive i (List.mem_range.2 hi)
  simp only [Bool.and_eq_true] at hp
  obtain ⟨t1, -, t3, -⟩ := fit_facts t i hi
  have hw : (0 : K) < ((D.weight5 i : Int) : K) := by exact_mod_cast weight5_pos h i hi
  have key : ∀ c : QPoly, 0 ≤ IPoly.eval T (D.cpExcess i c).1 → 12 / 5 * (gasR / D.molWeight i) ≤ c.eval T := by
    intro c hc
    have hx : 0 ≤ (D.cpExcess i c).eval T := div_nonneg hc (pow_nonneg (by norm_num) _)
    unfold Package.cpExcess at hx
    rw [QPoly.eval_add, QPoly.eval_smul] at hx
    simp only [QPoly.eval, IPoly.eval] at hx
    rw [← gas_ratio]
    push_cast at hx ⊢
    rw [← mul_div_assoc, div_le_iff₀ (by exact_mod_cast hw)]
    unfold QPoly.eval
    linarith
  unfold Piece.eval
  have em : ((D.cpPiece i).tMid.1 : K) / 10 ^ (D.cpPiece i).tMid.2 = (D.cpPiece i).tMid.1 := by
    rw [t1, t3]; simp
  split
  · rename_i hT
    rw [em] at hT
    exact key _ (IPoly.nonneg_of_check _ _ _ _ hp.1 T (by exact_mod_cast h1) hT)
  · rename_i hT
    rw [em] at hT
    exact key _ (IPoly.nonneg_of_check _ _ _ _ hp.2 T (not_le.1 hT).le (by exact_mod_cast h2))

/-- C76. From 200 K to 5000 K the heat capacity eval_cp returns for any species is at least 12/5 times the gas constant over the
molecular weight; in particular it is positive. -/
theorem C76_heat_capacity_positive (D : Package) (hD : D ∈ shipped) (T : K) (h1 : 200 ≤ T) (h2 : T ≤ 5000) :
    ∃ σ, D.mech.callCp T = some σ ∧ ∀ i, i < D.nsp → ∃ cp, σ (.arr .cp i) = some cp ∧
      12 / 5 * (gasR / D.molWeight i) ≤ cp ∧ 0 < cp := by
  have hc := checked_of_shipped hD
  have ht := thermo_of_shipped hD
  obtain ⟨σ, e, v⟩ := cp_value hc ht T
  refine ⟨σ, e, fun i hi => ⟨_, v i hi, cp_lower hc ht i hi T h1 h2, ?_⟩⟩
  have hg : (0 : K) < gasR := by norm_num [gasR]
  have := molWeight_pos (K := K) hc i hi
  exact lt_of_lt_of_le (by positivity) (cp_lower hc ht i hi T h1 h2)

/-- C76. From 200 K to 5000 K the temperature equation of dydt never divides by zero and closes the energy balance:
density and mean heat capacity are positive, and the heat stored by the change of temperature plus the enthalpies of the species
produced is zero. -/
theorem C76_energy_balance (D : Package) (hD : D ∈ shipped) (L : CMathLaws K) :
    ∃ w r : Nat → K, CloseWeights D w r ∧ ∀ (pres : K) (y Y : Nat → K),
      Y = complement (D.nsp - 1) (fun i => y (i + 1)) → 200 ≤ y 0 → y 0 ≤ 5000 → 0 < pres → (∀ i, i < D.nsp → 0 ≤ Y i) →
      ∃ (σ σcp σh : CMem K) (ρ dT : K) (cp enth dY : Nat → K),
        D.mech.callDydt pres y = some σ ∧ D.mech.callCp (y 0) = some σcp ∧ D.mech.callH (y 0) = some σh ∧
        (∀ i, i < D.nsp → σcp (.arr .cp i) = some (cp i) ∧ σh (.arr .h i) = some (enth i)) ∧
        σ (.arr .dy 0) = some dT ∧ (∀ i, i < D.nsp - 1 → σ (.arr .dy (i + 1)) = some (dY i)) ∧
        ρ = pres / (gasR * y 0 * ∑ i ∈ Finset.range D.nsp, Y i * r i) ∧ 0 < ρ ∧
        0 < ∑ i ∈ Finset.range D.nsp, cp i * Y i ∧
        (∑ i ∈ Finset.range D.nsp, cp i * Y i) * dT + ∑ i ∈ Finset.range D.nsp, enth i * dY i = 0 ∧
        ∃ C fwd rev pm : Nat → K, (∀ i, i < D.nsp → C i = ρ * Y i * r i) ∧ RatesAt D.reactions D.nsp C fwd rev pm ∧
          ∀ i, i < D.nsp → dY i = productionRate D.reactions fwd rev pm i * w i / ρ := by
  have hc := checked_of_shipped hD
  have ht := thermo_of_shipped hD
  obtain ⟨w, r, hw, hall⟩ := C67_reactor_equations D hD L
  refine ⟨w, r, hw, fun pres y Y hY h1 h2 hp hpos => ?_⟩
  obtain ⟨σ, σcp, σh, ρ, C, fwd, rev, pm, cp, enth, e, hρ, hρe, hC, hR, ecp, vcp, eh, vh, hdY, hdT⟩ :=
    hall pres y Y hY (lt_of_lt_of_le (by norm_num) h1) hp hpos
  have hn := nsp_pos hc
  have hg : (0 : K) < gasR := by norm_num [gasR]
  have hcp : ∀ i, i < D.nsp → 0 < cp i := by
    intro i hi
    obtain ⟨σ', e', v'⟩ := cp_value hc ht (y 0)
    rw [ecp, Option.some.injEq] at e'
    subst e'
    have := v' i hi
    rw [vcp i hi, Option.some.injEq] at this
    rw [this]
    have hM := molWeight_pos (K := K) hc i hi
    exact lt_of_lt_of_le (by positivity) (cp_lower hc ht i hi (y 0) h1 h2)
  have hmean : 0 < ∑ i ∈ Finset.range D.nsp, cp i * Y i := by
    have := mean_pos (n := D.nsp - 1) (Y := fun i => y (i + 1)) (a := cp)
      (fun i hi => by have := hpos i (by omega); rwa [hY] at this) (fun i hi => hcp i (by omega))
    rw [show D.nsp - 1 + 1 = D.nsp by omega] at this
    rw [hY]
    refine lt_of_lt_of_le this (le_of_eq (Finset.sum_congr rfl fun i _ => mul_comm _ _))
  refine ⟨σ, σcp, σh, ρ, _, cp, enth, fun i => productionRate D.reactions fwd rev pm i * w i / ρ, e, ecp, eh,
    fun i hi => ⟨vcp i hi, vh i hi⟩, hdT, hdY, hρe, hρ, hmean, ?_, C, fwd, rev, pm, hC, hR, fun i _ => rfl⟩
  have e1 : ∑ i ∈ Finset.range D.nsp, enth i * (productionRate D.reactions fwd rev pm i * w i / ρ) =
      (∑ i ∈ Finset.range D.nsp, enth i * w i * productionRate D.reactions fwd rev pm i) / ρ := by
    rw [Finset.sum_div]
    exact Finset.sum_congr rfl fun i _ => by ring
  rw [e1]
  have := hmean.ne'
  have := hρ.ne'
  field_simp
  ring

/-- Non-vacuity: the temperature range. -/
example := @C76_heat_capacity_positive ℚ _ _ _ ratCMath yao yao_shipped 300 (by norm_num) (by norm_num)
/-- Non-vacuity: the sample state has 1500 K and nonnegative mass fractions. -/
example := (C76_energy_balance gri30 gri30_shipped realCMathLaws).choose_spec.choose_spec.2 101325 sampleState _ rfl
  (by norm_num [sampleState]) (by norm_num [sampleState]) (by norm_num) sampleState_ok

/-- The facts of `checkJump` for one species. -/
theorem jump_facts {D : Package} (t : ThermoChecked D) (i : Nat) (hi : i < D.nsp) (T : K) (hT : T = (D.cpPiece i).tMid.1) :
    1000 * |(D.cpPiece i).high.eval T - (D.cpPiece i).low.eval T| ≤ 2 * (D.cpPiece i).low.eval T ∧
    10 * |(D.hPiece i).high.eval T - (D.hPiece i).low.eval T| ≤ (D.cpPiece i).low.eval T := by
  have hj := List.all_eq_true.1 t.jump i (List.mem_range.2 hi)
  simp only [Bool.and_eq_true] at hj
  have h1 := within_sound (K := K) hj.1 (by norm_num) T hT.ge hT.le
  have h2 := within_sound (K := K) hj.2 (by norm_num) T hT.ge hT.le
  push_cast at h1 h2
  exact ⟨h1, by linarith⟩

/-- The pieces of polynomials of OpenFOAM and of the library agree. -/
theorem foam_facts {D : Package} (h : Checked D) (i : Nat) (hi : i < D.nsp) {c e : QPoly} {f : List SDec} {a b : Nat}
    (hf : D.foamClose i c e f a b = true) (T : K) (ha : (a : K) ≤ T) (hb : T ≤ b) :
    |c.eval T - gasR / D.molWeight i * cpOverR f T| ≤ 1 / 100 * c.eval T ∧
    |e.eval T - gasR / D.molWeight i * hOverR f T| ≤ 11 / 10 * c.eval T := by
  have hw : (0 : K) < ((D.weight5 i : Int) : K) := by exact_mod_cast weight5_pos h i hi
  simp only [Package.foamClose, Bool.and_eq_true] at hf
  have h1 := within_sound (K := K) hf.1 (by norm_num) T ha hb
  have h2 := within_sound (K := K) hf.2 (by norm_num) T ha hb
  simp only [QPoly.eval_smul, cpQ_eval, hQ_eval] at h1 h2
  rw [← gas_ratio]
  set W : K := ((D.weight5 i : Int) : K) with hW
  set G : K := ((gas5 : Int) : K)
  push_cast at h1 h2
  have hWc : (D.weight5 i : K) = W := by rw [hW]; push_cast; rfl
  rw [hWc] at h2
  constructor
  · have e1 : W * c.eval T - G * cpOverR f T = W * (c.eval T - G / W * cpOverR f T) := by field_simp
    rw [e1, abs_mul, abs_of_pos hw] at h1
    have h3 : W * (100 * |c.eval T - G / W * cpOverR f T|) ≤ W * c.eval T := by linarith
    have := le_of_mul_le_mul_left h3 hw
    linarith
  · have e1 : 60 * W * e.eval T - G * (60 * hOverR f T) = W * (60 * (e.eval T - G / W * hOverR f T)) := by field_simp
    rw [e1, abs_mul, abs_of_pos hw, abs_mul, abs_of_pos (by norm_num : (0 : K) < 60)] at h2
    have h3 : W * (10 * |e.eval T - G / W * hOverR f T|) ≤ W * (11 * c.eval T) := by linarith
    have := le_of_mul_le_mul_left h3 hw
    linarith

/-- C79. From 300 K to 3000 K, the range of foam/thermo.foam, the thermodynamics the chemistry uses (the library) and the one the flow solver uses
(the JANAF polynomials in foam/thermo.foam) describe the same gas: for every species the heat capacities differ by at most 1 % and the
enthalpies by no more than a change of temperature of 1.1 K. -/
theorem C79_consistent_with_OpenFOAM (D : Package) (hD : D ∈ shipped) (T : K) (h1 : 300 ≤ T) (h2 : T ≤ 3000) :
    ∃ σcp σh, D.mech.callCp T = some σcp ∧ D.mech.callH T = some σh ∧ ∀ i, i < D.nsp →
      ∃ cp h, σcp (.arr .cp i) = some cp ∧ σh (.arr .h i) = some h ∧
        |cp - gasR / D.molWeight i * cpOverR ((D.foamFit i).below T) T| ≤ 1 / 100 * cp ∧
        |h - gasR / D.molWeight i * hOverR ((D.foamFit i).below T) T| ≤ 11 / 10 * cp := by
  have hc := checked_of_shipped hD
  have ht := thermo_of_shipped hD
  obtain ⟨σcp, e1, v1⟩ := cp_value hc ht T
  obtain ⟨σh, e2, v2⟩ := h_value hc ht T
  refine ⟨σcp, σh, e1, e2, fun i hi => ⟨_, _, v1 i hi, v2 i hi, ?_⟩⟩
  obtain ⟨t1, t2, t3, -⟩ := fit_facts ht i hi
  have hf := List.all_eq_true.1 ht.foam i (List.mem_range.2 hi)
  simp only [Bool.and_eq_true, decide_eq_true_eq] at hf
  obtain ⟨⟨⟨⟨f1, f2⟩, f3⟩, f4⟩, f5⟩ := hf
  have em : ((D.cpPiece i).tMid.1 : K) / 10 ^ (D.cpPiece i).tMid.2 = (D.cpPiece i).tMid.1 := by
    rw [t1, t3]; simp
  have ef : ((D.foamFit i).tMid.1 : K) / 10 ^ (D.foamFit i).tMid.2 = (D.foamFit i).tMid.1 := by
    rw [f1]; simp
  have f2' : ((D.foamFit i).tMid.1 : K) ≤ (D.cpPiece i).tMid.1 := by exact_mod_cast f2
  unfold Piece.eval Nasa.below
  rw [show (D.hPiece i).tMid = (D.cpPiece i).tMid by rw [t1, t2], em, ef]
  by_cases hf : T < ((D.foamFit i).tMid.1 : K)
  · rw [if_pos (hf.le.trans f2'), if_pos (hf.le.trans f2'), if_pos hf]
    exact foam_facts hc i hi f3 T (by exact_mod_cast h1) hf.le
  · by_cases hm : T ≤ ((D.cpPiece i).tMid.1 : K)
    · rw [if_pos hm, if_pos hm, if_neg hf]
      exact foam_facts hc i hi f4 T (not_lt.1 hf) hm
    · rw [if_neg hm, if_neg hm, if_neg hf]
      exact foam_facts hc i hi f5 T (not_le.1 hm).le (by exact_mod_cast h2)

/-- Non-vacuity: both descriptions of gri30 at 300 K; they are different polynomials. -/
example := @C79_consistent_with_OpenFOAM ℚ _ _ _ ratCMath gri30 gri30_shipped 300 (by norm_num) (by norm_num)
example : cpOverR ((gri30.fit 0).at (300 : ℚ)) (300 : ℚ) ≠ cpOverR ((gri30.foamFit 0).below (300 : ℚ)) (300 : ℚ) := by decide +kernel

end

section real
variable [CMath ℝ]

theorem IPoly.hasDerivAt (p : IPoly) (x : ℝ) : HasDerivAt (fun x => IPoly.eval x p) (IPoly.eval x (IPoly.deriv p)) x := by
  induction p using IPoly.deriv.induct with
  | case1 => simpa [IPoly.eval, IPoly.deriv] using hasDerivAt_const x (0 : ℝ)
  | case2 c => simpa [IPoly.eval, IPoly.deriv] using hasDerivAt_const x (c : ℝ)
  | case3 c p hp ih =>
    have h1 := ((hasDerivAt_id x).mul ih).const_add (c : ℝ)
    have e : IPoly.deriv (c :: p) = IPoly.add p (0 :: IPoly.deriv p) := by
      cases p with
      | nil => exact absurd rfl hp
      | cons a p => rfl
    rw [e, IPoly.eval_add]
    simp only [IPoly.eval]
    exact h1.congr_deriv (by simp)

theorem QPoly.hasDerivAt (p : QPoly) (x : ℝ) : HasDerivAt (fun x => p.eval x) (p.deriv.eval x) x := by
  unfold QPoly.eval QPoly.deriv
  exact (IPoly.hasDerivAt p.1 x).div_const _

/-- C77. Heat capacity and enthalpy fit together: for every species there are functions `cp` and `h` of the temperature that eval_cp and eval_h compute
at every temperature; away from the temperature at which the polynomials change, `h` is differentiable and its derivative is `cp`, up
to `6e-15` of the sum of the absolute values of the terms of chem.cti's polynomial. -/
theorem C77_enthalpy_integrates_heat_capacity (D : Package) (hD : D ∈ shipped) (i : Nat) (hi : i < D.nsp) :
    ∃ cp h : ℝ → ℝ,
      (∀ T, ∃ σcp σh, D.mech.callCp T = some σcp ∧ D.mech.callH T = some σh ∧
        σcp (.arr .cp i) = some (cp T) ∧ σh (.arr .h i) = some (h T)) ∧
      ∀ T, T ≠ ((D.fit i).tMid.1 : ℝ) / 10 ^ (D.fit i).tMid.2 → ∃ d, HasDerivAt h d T ∧
        |d - cp T| ≤ 6 / 10 ^ 15 * (gasR / D.molWeight i * cpTerms ((D.fit i).at T) T) := by
  have hc := checked_of_shipped hD
  have ht := thermo_of_shipped hD
  refine ⟨(D.cpPiece i).eval, (D.hPiece i).eval, fun T => ?_, fun T hT => ?_⟩
  · obtain ⟨σcp, e1, v1⟩ := cp_value hc ht T
    obtain ⟨σh, e2, v2⟩ := h_value hc ht T
    exact ⟨σcp, σh, e1, e2, v1 i hi, v2 i hi⟩
  · obtain ⟨t1, t2, -, -, -, c1, c2, -, -, c5, c6⟩ := fit_facts ht i hi
    have key : ∀ {p q : QPoly} {a : List SDec}, QPoly.close (D.weight5 i) gas5 p (cpQ a) = true →
        QPoly.close (D.weight5 i) gas5 q.deriv (cpQ a) = true →
        |q.deriv.eval T - p.eval T| ≤ 6 / 10 ^ 15 * (gasR / D.molWeight i * cpTerms a T) := by
      intro p q a h1 h2
      have h3 := abs_le.1 (cp_close hc i hi h1 T)
      have h4 := abs_le.1 (cp_close hc i hi h2 T)
      have e : (6 : ℝ) / 10 ^ 15 * (gasR / D.molWeight i * cpTerms a T) =
        3 / 10 ^ 15 * (gasR / D.molWeight i * cpTerms a T) + 3 / 10 ^ 15 * (gasR / D.molWeight i * cpTerms a T) := by ring
      rw [e, abs_le]
      constructor <;> linarith [h3.1, h3.2, h4.1, h4.2]
    rcases lt_or_gt_of_ne hT with hlt | hgt
    · refine ⟨(D.hPiece i).low.deriv.eval T, ?_, ?_⟩
      · refine (QPoly.hasDerivAt _ T).congr_of_eventuallyEq ?_
        filter_upwards [Iio_mem_nhds hlt] with x hx
        unfold Piece.eval
        rw [t2, if_pos (le_of_lt hx)]
      · unfold Piece.eval Nasa.at
        rw [t1, if_pos hlt.le, if_pos hlt.le]
        exact key c1 c5
    · refine ⟨(D.hPiece i).high.deriv.eval T, ?_, ?_⟩
      · refine (QPoly.hasDerivAt _ T).congr_of_eventuallyEq ?_
        filter_upwards [Ioi_mem_nhds hgt] with x hx
        unfold Piece.eval
        rw [t2, if_neg (not_le.2 hx)]
      · unfold Piece.eval Nasa.at
        rw [t1, if_neg (not_le.2 hgt), if_neg (not_le.2 hgt)]
        exact key c2 c6

/-- Non-vacuity: the last species of yao. -/
example := C77_enthalpy_integrates_heat_capacity yao yao_shipped 53 (by decide +kernel)

theorem QPoly.continuous (p : QPoly) : Continuous fun x : ℝ => p.eval x :=
  continuous_iff_continuousAt.2 fun x => (QPoly.hasDerivAt p x).continuousAt

/-- C78. Heat capacity and enthalpy have no significant jumps: as functions of the temperature they are continuous except where the
polynomials change; there the limit from above exists and differs from the value by at most 0.2 % (heat capacity) and
by no more than a change of temperature of 0.1 K (enthalpy). -/
theorem C78_no_significant_jumps (D : Package) (hD : D ∈ shipped) (i : Nat) (hi : i < D.nsp) :
    ∃ cp h : ℝ → ℝ,
      (∀ T, ∃ σcp σh, D.mech.callCp T = some σcp ∧ D.mech.callH T = some σh ∧
        σcp (.arr .cp i) = some (cp T) ∧ σh (.arr .h i) = some (h T)) ∧
      ∀ tm : ℝ, tm = ((D.fit i).tMid.1 : ℝ) / 10 ^ (D.fit i).tMid.2 →
        (∀ T, T ≠ tm → ContinuousAt cp T ∧ ContinuousAt h T) ∧
        (ContinuousWithinAt cp (Set.Iic tm) tm ∧ ContinuousWithinAt h (Set.Iic tm) tm) ∧
        ∃ cr hr, Filter.Tendsto cp (nhdsWithin tm (Set.Ioi tm)) (nhds cr) ∧
          Filter.Tendsto h (nhdsWithin tm (Set.Ioi tm)) (nhds hr) ∧
          |cr - cp tm| ≤ 2 / 1000 * cp tm ∧ |hr - h tm| ≤ 1 / 10 * cp tm := by
  have hc := checked_of_shipped hD
  have ht := thermo_of_shipped hD
  refine ⟨(D.cpPiece i).eval, (D.hPiece i).eval, fun T => ?_, fun tm htm => ?_⟩
  · obtain ⟨σcp, e1, v1⟩ := cp_value hc ht T
    obtain ⟨σh, e2, v2⟩ := h_value hc ht T
    exact ⟨σcp, σh, e1, e2, v1 i hi, v2 i hi⟩
  · obtain ⟨t1, t2, t3, -⟩ := fit_facts ht i hi
    have low : ∀ q : Piece, q.tMid = (D.fit i).tMid → ∀ x, x ≤ tm → q.eval x = q.low.eval x := fun q hq x hx => by
      unfold Piece.eval
      rw [hq, if_pos (by rw [← htm]; exact hx)]
    have high : ∀ q : Piece, q.tMid = (D.fit i).tMid → ∀ x, tm < x → q.eval x = q.high.eval x := fun q hq x hx => by
      unfold Piece.eval
      rw [hq, if_neg (by rw [← htm]; exact not_le.2 hx)]
    have cont : ∀ q : Piece, q.tMid = (D.fit i).tMid → ∀ T, T ≠ tm → ContinuousAt (fun x : ℝ => q.eval x) T := by
      intro q hq T hT
      rcases lt_or_gt_of_ne hT with hlt | hgt
      · refine (q.low.continuous.continuousAt).congr ?_
        filter_upwards [Iio_mem_nhds hlt] with x hx
        exact (low q hq x (le_of_lt hx)).symm
      · refine (q.high.continuous.continuousAt).congr ?_
        filter_upwards [Ioi_mem_nhds hgt] with x hx
        exact (high q hq x hx).symm
    have left : ∀ q : Piece, q.tMid = (D.fit i).tMid → ContinuousWithinAt (fun x : ℝ => q.eval x) (Set.Iic tm) tm :=
      fun q hq => (q.low.continuous.continuousWithinAt).congr (fun x hx => low q hq x hx) (low q hq tm le_rfl)
    have right : ∀ q : Piece, q.tMid = (D.fit i).tMid →
        Filter.Tendsto (fun x : ℝ => q.eval x) (nhdsWithin tm (Set.Ioi tm)) (nhds (q.high.eval tm)) := fun q hq =>
      ((q.high.continuous.tendsto tm).mono_left nhdsWithin_le_nhds).congr'
        (by filter_upwards [self_mem_nhdsWithin] with x hx; exact (high q hq x hx).symm)
    have hj := jump_facts ht i hi tm (by rw [htm, t1, t3]; simp)
    refine ⟨fun T hT => ⟨cont _ t1 T hT, cont _ t2 T hT⟩, ⟨left _ t1, left _ t2⟩, _, _, right _ t1, right _ t2, ?_, ?_⟩
    · rw [low _ t1 tm le_rfl]
      linarith [hj.1]
    · rw [low _ t1 tm le_rfl, low _ t2 tm le_rfl]
      linarith [hj.2]

/-- Non-vacuity: water in gri30, whose polynomials change at 1000 K. -/
example := C78_no_significant_jumps gri30 gri30_shipped 5 (by decide +kernel)

end real

end DLB
