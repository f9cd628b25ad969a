import Verif.Lemmas.MoreSound
import Verif.Props.Thermo
/-
C89-C90: the functions of the shipped mechanism libraries that the chemistry model itself does not call.
-/
set_option autoImplicit false
set_option linter.unusedSectionVars false

namespace DLB

theorem gri30_more_shipped : (gri30, gri30More) ∈ shippedMore := by simp [shippedMore]

section
variable {K : Type} [Field K] [LinearOrder K] [IsStrictOrderedRing K] [CMath K]

/-- C89. For every shipped mechanism, every species and every temperature, the heat capacities that eval_cp and eval_cv return differ by
the gas constant over the molecular weight, and what eval_h and eval_u return by that times the temperature, up to `3e-15` of
the difference. -/
theorem C89_mayer (D : Package) (E : MechMore) (h : (D, E) ∈ shippedMore) (T : K) :
    ∃ σcp σcv σh σu, D.mech.callCp T = some σcp ∧ E.callCv D.mech T = some σcv ∧ D.mech.callH T = some σh ∧
      E.callU D.mech T = some σu ∧ ∀ i, i < D.nsp → ∃ cp cv enth u,
        σcp (.arr .cp i) = some cp ∧ σcv (.arr .cp i) = some cv ∧ σh (.arr .h i) = some enth ∧ σu (.arr .h i) = some u ∧
        |cp - cv - gasR / D.molWeight i| ≤ 3 / 10 ^ 15 * (gasR / D.molWeight i) ∧
        |enth - u - gasR / D.molWeight i * T| ≤ 3 / 10 ^ 15 * (gasR / D.molWeight i * |T|) := by
  obtain ⟨m, hD⟩ := more_of_shipped h
  have hc := checked_of_shipped hD
  have ht := thermo_of_shipped hD
  obtain ⟨σcp, e1, v1⟩ := cp_value hc ht T
  obtain ⟨σh, e2, v2⟩ := h_value hc ht T
  obtain ⟨σcv, e3, v3⟩ := cv_value m T
  obtain ⟨σu, e4, v4⟩ := u_value m T
  refine ⟨σcp, σcv, σh, σu, e1, e3, e2, e4, fun i hi => ⟨_, _, _, _, v1 i hi, v3 i hi, v2 i hi, v4 i hi, ?_⟩⟩
  exact mayer_value hc m T i hi

/-- C89. From 200 K to 5000 K the heat capacity eval_cv returns for any species is at least 1.39 times the gas constant over the molecular
weight. -/
theorem C89_cv_positive (D : Package) (E : MechMore) (h : (D, E) ∈ shippedMore) (T : K) (h1 : 200 ≤ T) (h2 : T ≤ 5000) :
    ∃ σ, E.callCv D.mech T = some σ ∧ ∀ i, i < D.nsp → ∃ cv, σ (.arr .cp i) = some cv ∧
      139 / 100 * (gasR / D.molWeight i) ≤ cv ∧ 0 < cv := by
  obtain ⟨m, hD⟩ := more_of_shipped h
  have hc := checked_of_shipped hD
  have ht := thermo_of_shipped hD
  obtain ⟨σ, e, v⟩ := cv_value m T
  refine ⟨σ, e, fun i hi => ⟨_, v i hi, ?_⟩⟩
  have hg : (0 : K) < gasR := by norm_num [gasR]
  have hW := molWeight_pos (K := K) hc i hi
  have hx : (0 : K) < gasR / D.molWeight i := by positivity
  have hl := cp_lower hc ht i hi T h1 h2
  have hm := (abs_le.1 (mayer_value hc m T i hi).1).2
  generalize (gasR / D.molWeight i : K) = x at *
  have hb : (3 : K) / 10 ^ 15 * x ≤ 1 / 100 * x := mul_le_mul_of_nonneg_right (by norm_num) hx.le
  have key : 139 / 100 * x ≤ (pieceAt E.evalCv i).eval T := by linarith
  exact ⟨key, lt_of_lt_of_le (by linarith) key⟩

/-- C89. With `r` the reciprocal molecular weights (up to rounding), eval_conc_rho returns the pressure `density R T sum Y_i r_i` and the
concentrations `density Y_i r_i`; and eval_conc called with that pressure returns the same density and concentrations. -/
theorem C89_from_density (D : Package) (E : MechMore) (h : (D, E) ∈ shippedMore) :
    ∃ w r : Nat → K, CloseWeights D w r ∧ ∀ (T ρ : K) (y : Nat → K),
      ∃ σ p, E.callEvalConcRho D.mech T ρ (fun i => some (y i)) = some σ ∧ σ (.var .pres) = some p ∧
        p = ρ * gasR * T * ∑ i ∈ Finset.range D.nsp, complement (D.nsp - 1) y i * r i ∧
        (∀ i, i < D.nsp → σ (.arr .C i) = some (ρ * complement (D.nsp - 1) y i * r i)) ∧
        σ (.var .yN) = some (complement (D.nsp - 1) y (D.nsp - 1)) ∧
        (T ≠ 0 → ∑ i ∈ Finset.range D.nsp, complement (D.nsp - 1) y i * r i ≠ 0 →
          ∃ σ', D.mech.callEvalConc T p (fun i => some (y i)) = some σ' ∧ σ' (.var .rho) = some ρ ∧
            ∀ i, i < D.nsp → σ' (.arr .C i) = σ (.arr .C i)) := by
  obtain ⟨m, hD⟩ := more_of_shipped h
  have hc := checked_of_shipped hD
  refine ⟨_, _, close_literals hc, fun T ρ y => ?_⟩
  obtain ⟨n, hn⟩ : ∃ n, D.nsp = n + 1 := ⟨D.nsp - 1, by have := nsp_pos hc; omega⟩
  have hn1 : D.nsp - 1 = n := by omega
  have hm := m.templates
  simp only [checkMoreTemplates, Bool.and_eq_true, decide_eq_true_eq] at hm
  have tr : E.evalConcRho = evalConcRhoT n D.mech.recips := by rw [hm.1.1.1]; exact congrArg (evalConcRhoT · _) hn1
  have ht := hc.templates
  simp only [checkTemplates, Bool.and_eq_true, decide_eq_true_eq] at ht
  obtain ⟨⟨⟨⟨⟨⟨⟨tc, -⟩, -⟩, -⟩, -⟩, -⟩, -⟩, -⟩ := ht
  have tc' : D.mech.evalConc = evalConcT n D.mech.recips := by rw [tc]; exact congrArg (evalConcT · _) hn1
  obtain ⟨σ, e, c1, c2, c3⟩ := concRho_call m.safe T ρ y
  rw [tr] at c1 c2 c3
  obtain ⟨v1, v2, v3⟩ := evalConcRhoT_val n D.mech.recips (inRho T ρ y)
  rw [v1] at c2
  rw [v2] at c3
  rw [hn1]
  obtain ⟨s, hs⟩ : ∃ s : K, s = ∑ i ∈ Finset.range (n + 1), complement n y i * Dec.val (nth D.mech.recips i) := ⟨_, rfl⟩
  have hp : inRho T ρ y (.var .rho) * gasR * inRho T ρ y (.var .T) / (1 / ∑ i ∈ Finset.range (n + 1),
      complement n (fun i => inRho T ρ y (.arr .y i)) i * Dec.val (nth D.mech.recips i)) = ρ * gasR * T * s := by
    show ρ * gasR * T / (1 / ∑ i ∈ Finset.range (n + 1), complement n y i * Dec.val (nth D.mech.recips i)) = _
    rw [← hs, one_div, div_inv_eq_mul]
  rw [hp] at c3
  have hC : ∀ i, i < D.nsp → σ (.arr .C i) = some (ρ * complement n y i * Dec.val (nth D.mech.recips i)) := fun i hi => by
    rw [c1 i hi, v3 i (by omega)]
    rfl
  rw [hn, ← hs]
  rw [hn] at hC
  refine ⟨σ, _, e, c3, rfl, hC, c2, fun hT h0 => ?_⟩
  obtain ⟨σ', e', d1, -, d3⟩ := evalConc_call hc.thermoSafe T (ρ * gasR * T * s) (fun i => some (y i)) y (fun i _ => rfl)
  obtain ⟨-, w2, w3⟩ := evalConcT_val n D.mech.recips (inT T (ρ * gasR * T * s) y)
  rw [tc'] at d1 d3
  rw [w2] at d3
  have hR0 : (gasR : K) ≠ 0 := by norm_num [gasR]
  have hρ : inT T (ρ * gasR * T * s) y (.var .pres) * (1 / ∑ i ∈ Finset.range (n + 1),
      complement n (fun i => inT T (ρ * gasR * T * s) y (.arr .y i)) i * Dec.val (nth D.mech.recips i)) /
        (gasR * inT T (ρ * gasR * T * s) y (.var .T)) = ρ := by
    show ρ * gasR * T * s * (1 / ∑ i ∈ Finset.range (n + 1), complement n y i * Dec.val (nth D.mech.recips i)) / (gasR * T) = ρ
    rw [← hs]
    field_simp
  rw [hρ] at d3
  refine ⟨σ', e', d3, fun i hi => ?_⟩
  rw [hC i hi, d1 i (by have : D.mech.nsp = n + 1 := hn; omega), w3 i (by omega), hρ]
  rfl

/-- Non-vacuity: gri30 at 1500 K. -/
example := @C89_mayer ℚ _ _ _ ratCMath gri30 gri30More gri30_more_shipped 1500
example := @C89_cv_positive ℚ _ _ _ ratCMath gri30 gri30More gri30_more_shipped 1500 (by norm_num) (by norm_num)
example := @C89_from_density ℚ _ _ _ ratCMath gri30 gri30More gri30_more_shipped
/-- The sum that must not vanish is positive for the pure last species. -/
example (w r : Nat → ℚ) (h : CloseWeights gri30 w r) :
    ∑ i ∈ Finset.range gri30.nsp, complement (gri30.nsp - 1) (fun _ => 0) i * r i ≠ 0 := by
  have hr := (close_pos h (fun i hi => molWeight_pos (checked_of_shipped gri30_shipped) i hi) 52 (by decide)).2
  have e : gri30.nsp = 52 + 1 := rfl
  rw [e, Finset.sum_range_succ, Finset.sum_eq_zero fun i hi => ?_]
  · simpa [complement] using hr.ne'
  · have := Finset.mem_range.1 hi
    simp [complement, this.ne]

/-- C90. For every shipped mechanism and any numbers, sparse_multiplier computes the product of the matrix that is stored column by column in
`A` with the vector `Vm`, over real numbers. -/
theorem C90_matrix_vector_exact (D : Package) (E : MechMore) (h : (D, E) ∈ shippedMore) (A Vm : Nat → K) :
    ∃ σ, E.callSparseMultiplier D.mech A Vm = some σ ∧ ∀ i, i < D.nsp →
      σ (.arr .dy i) = some (∑ j ∈ Finset.range D.nsp, A (j * D.nsp + i) * Vm j) := by
  obtain ⟨m, hD⟩ := more_of_shipped h
  obtain ⟨σ, e, v⟩ := sparse_call m.safe A Vm
  have hm := m.templates
  simp only [checkMoreTemplates, Bool.and_eq_true, decide_eq_true_eq] at hm
  refine ⟨σ, e, fun i hi => ?_⟩
  rw [v i hi, hm.1.1.2, sparseT_val _ _ i hi, evalT_sumExpr]
  unfold rowTerms
  rw [List.map_map, ← sum_range_list]
  simp only [Function.comp_def, CExpr.evalT, inSparse]
  congr 3
  funext j
  rw [Nat.add_comm, Nat.mul_comm]

end

section
variable {S : Type} [Add S] [Sub S] [Mul S] [Div S] [Neg S] [OfScientific S] [CMath S] [LE S] [DecidableLE S]

/-- C90. In any arithmetic, sparse_multiplier adds the products of a row and the vector from left to right. -/
theorem C90_matrix_vector (D : Package) (E : MechMore) (h : (D, E) ∈ shippedMore) (A Vm : Nat → S) :
    ∃ σ, E.callSparseMultiplier D.mech A Vm = some σ ∧ ∀ i, i < D.nsp →
      σ (.arr .dy i) = some ((List.range (D.nsp - 1)).foldl (fun s j => s + A ((j + 1) * D.nsp + i) * Vm (j + 1)) (A i * Vm 0)) := by
  obtain ⟨m, hD⟩ := more_of_shipped h
  have hc := checked_of_shipped hD
  obtain ⟨n, hn⟩ : ∃ n, D.nsp = n + 1 := ⟨D.nsp - 1, by have := nsp_pos hc; omega⟩
  obtain ⟨σ, e, v⟩ := sparse_call m.safe A Vm
  have hm := m.templates
  simp only [checkMoreTemplates, Bool.and_eq_true, decide_eq_true_eq] at hm
  refine ⟨σ, e, fun i hi => ?_⟩
  rw [v i hi, hm.1.1.2, sparseT_val _ _ i hi]
  show some ((sumExpr (rowTerms D.nsp i)).evalT (inSparse A Vm)) = _
  rw [hn, sumExpr_row]
  simp only [Nat.add_sub_cancel, Nat.mul_comm (n + 1), Nat.add_comm i]

end

example (A Vm : Nat → ℚ) := @C90_matrix_vector_exact ℚ _ _ _ ratCMath gri30 gri30More gri30_more_shipped A Vm
example (A Vm : Nat → ℚ) := @C90_matrix_vector ℚ _ _ _ _ _ _ ratCMath _ _ gri30 gri30More gri30_more_shipped A Vm

end DLB
