import Verif.Lemmas.JacobTemp
import Verif.Lemmas.JacobSFull
import Verif.Props.Kinetics
/-
The derivatives of the rate of change of the temperature that `eval_jacob` returns are near the exact ones.
-/
set_option autoImplicit false
set_option linter.unusedSectionVars false

namespace DLB

/-- What `eval_jacob` computes of heat capacities, enthalpies and rates. -/
structure TempAt (D : Package) (pres : ℝ) (Y : Nat → ℝ) (v : JacobVals ℝ) : Prop where
  cp : ∀ i, i < D.nsp → Rel (v.cp i) (D.chemistry.cp v.T i) (D.chemistry.cp v.T i) 1 (12 / 10 ^ 11)
  cp_pos : ∀ i, i < D.nsp → 0 ≤ D.chemistry.cp v.T i
  h : ∀ i, i < D.nsp → Rel (v.h i) (D.chemistry.enthalpy v.T i) (D.chemistry.enthalpyTerms v.T i) 1 (3 / 10 ^ 15)
  h_pos : ∀ i, i < D.nsp → 0 ≤ D.chemistry.enthalpyTerms v.T i
  mean : Rel (v.cpAvg)⁻¹ (D.chemistry.meanCp v.T Y)⁻¹ (D.chemistry.meanCp v.T Y)⁻¹ 1 (12 / 10 ^ 11)
  mean_pos : 0 < D.chemistry.meanCp v.T Y
  rate : ∀ k, k < D.nsp → ∀ w : ℝ, |w - D.molWeight k| ≤ D.molWeight k / 10 ^ 14 →
    Rel (v.ω k * w * v.rho⁻¹) (D.chemistry.dYdt v.T pres Y k) (D.chemistry.dYdtTerms v.T pres Y k) 1 (8 / 10 ^ 10)
  rate_pos : ∀ k, k < D.nsp → 0 ≤ D.chemistry.dYdtTerms v.T pres Y k

theorem temp_at {D : Package} (hD : D ∈ shipped) {J : JacobSrc} (hdb : dbOk D J = true) {n : Nat} (hn : D.nsp = n + 1) (hJ : cpAvgOk n J = true)
    (pres : ℝ) (y jac0 : Nat → ℝ) (h1 : 200 ≤ y 0) (h2 : y 0 ≤ 5000) (hp : 0 < pres)
    (hY : ∀ i, i < D.nsp → 0 ≤ complement (D.nsp - 1) (fun i => y (i + 1)) i)
    (hpole : D.chemistry.AwayFromPoles (y 0) (D.chemistry.concentrations (y 0) pres (complement (D.nsp - 1) fun i => y (i + 1))))
    {v : JacobVals ℝ} (hst : JacobStages D.mech J pres y jac0 v) : TempAt D pres (complement (D.nsp - 1) fun i => y (i + 1)) v := by
  have hc := checked_of_shipped hD
  have hT : 0 < y 0 := by linarith
  obtain ⟨hat, hyN⟩ := jacob_at hc hdb pres y jac0 hT hp hY hst
  obtain ⟨Y, hYd⟩ : ∃ Y, Y = complement (D.nsp - 1) fun i => y (i + 1) := ⟨_, rfl⟩
  have hn1 : D.nsp - 1 = n := by omega
  have hsum1 : ∑ i ∈ Finset.range D.nsp, Y i = 1 := by
    have := complement_sum (D.nsp - 1) (fun i => y (i + 1))
    rw [hYd]
    rwa [show D.nsp - 1 + 1 = D.nsp by omega] at this
  have hyv : ∀ i, i < n → v.y (i + 1) = Y i := by
    intro i hi
    rw [hst.hy, hYd]
    unfold complement
    rw [if_neg (by omega)]
  rw [← hYd] at hat hyN hY hpole ⊢
  rw [hn1] at hyN
  obtain ⟨σcp, ecp, vcp⟩ := hst.hcp
  obtain ⟨σh, eh, vh⟩ := hst.hh
  have hvT := hst.hT
  rw [← hvT] at hT h1 h2 hpole ecp eh
  obtain ⟨σcp', σh', ecp', eh', ht⟩ := C75_nasa_polynomials (K := ℝ) D hD v.T
  obtain ⟨σc2, ec2, ht2⟩ := C76_heat_capacity_positive (K := ℝ) D hD v.T h1 h2
  rw [ecp] at ecp' ec2
  rw [eh] at eh'
  obtain rfl := Option.some.inj ecp'
  obtain rfl := Option.some.inj ec2
  obtain rfl := Option.some.inj eh'
  have hcp : ∀ i, i < D.nsp → Near (6 / 10 ^ 11) (v.cp i) (D.chemistry.cp v.T i) ∧ 0 < v.cp i := by
    intro i hi
    obtain ⟨c, h', q1, q2, q3, -⟩ := ht i hi
    obtain ⟨c2, q4, q5, q6⟩ := ht2 i hi
    rw [vcp i hi] at q1 q4
    obtain rfl := Option.some.inj q1
    obtain rfl := Option.some.inj q4
    exact ⟨cp_near hD v.T h1 h2 i hi _ q3 q5, q6⟩
  have hcpos : ∀ i, i < D.nsp → 0 < D.chemistry.cp v.T i := by
    intro i hi
    obtain ⟨a, b⟩ := hcp i hi
    exact lt_of_le_of_ne a.right fun h0 => b.ne' (a.zero_iff.2 h0.symm)
  have hmean : v.cpAvg = ∑ i ∈ Finset.range D.nsp, v.cp i * Y i := by
    rw [hst.hcpAvg, cpAvg_sound hyv hyN hJ, hn]
  have nc : Near (6 / 10 ^ 11) v.cpAvg (D.chemistry.meanCp v.T Y) := by
    rw [hmean]
    exact Near.sum fun i hi => ((hcp i hi).1.mul (Near.refl (hY i hi))).mono (by norm_num)
  have hR0 : (0 : ℝ) < gasR := by unfold gasR; positivity
  have hq : ∀ i, i < D.nsp → 0 < (gasR : ℝ) / D.molWeight i := fun i hi => div_pos hR0 (molWeight_pos (K := ℝ) hc i hi)
  have hpr := fun k hk => dYdt_near hD v.T pres h1 (by linarith) hp _ hY v.rho v.C v.F v.R v.P hat.rho hat.conc hat.sum hat.rates hat.exec hpole k hk
  refine ⟨fun i hi => ?_, fun i hi => (hcpos i hi).le, fun i hi => ?_, fun i hi => ?_, ?_, ?_, fun k hk w hw => ?_, fun k hk => ?_⟩
  · have := Rel.of_near (hcp i hi).1 (by norm_num) (by norm_num)
    exact this.mono (hcpos i hi).le le_rfl (by norm_num)
  · obtain ⟨c, h', q1, q2, -, q3⟩ := ht i hi
    rw [vh i hi] at q2
    obtain rfl := Option.some.inj q2
    refine ⟨?_, q3⟩
    unfold Chemistry.enthalpy Chemistry.enthalpyTerms
    rw [abs_mul, show D.chemistry.weight i = D.molWeight i from rfl, abs_of_pos (hq i hi), one_mul]
    exact mul_le_mul_of_nonneg_left (abs_hOverR_le _ _) (hq i hi).le
  · unfold Chemistry.enthalpyTerms hTerms
    exact mul_nonneg (hq i hi).le (by positivity)
  · exact (Rel.of_near nc.inv (by norm_num) (by norm_num)).mono nc.inv.right le_rfl (by norm_num)
  · have hnn : ∀ i ∈ Finset.range D.nsp, 0 ≤ D.chemistry.cp v.T i * Y i := fun i hi =>
      mul_nonneg (hcpos i (Finset.mem_range.1 hi)).le (hY i (Finset.mem_range.1 hi))
    rcases (Finset.sum_nonneg hnn).lt_or_eq with h' | h'
    · exact h'
    · exfalso
      have hz := (Finset.sum_eq_zero_iff_of_nonneg hnn).1 h'.symm
      have : ∑ i ∈ Finset.range D.nsp, Y i = 0 := Finset.sum_eq_zero fun i hi =>
        (mul_eq_zero.1 (hz i hi)).resolve_left (hcpos i (Finset.mem_range.1 hi)).ne'
      rw [hsum1] at this
      exact one_ne_zero this
  · obtain ⟨k1, k2⟩ := hpr k hk
    refine ⟨by rw [one_mul]; exact k2, ?_⟩
    rw [hat.prod k hk]
    have nw := (weight_near hD k hk).1
    have hW := molWeight_pos (K := ℝ) hc k hk
    have hd0 := (close_pos (close_literals (K := ℝ) hc) (fun i hi => molWeight_pos hc i hi) k hk).1
    generalize (D.molWeight k : ℝ) = W at *
    generalize (Dec.val (nth D.mech.weights k) : ℝ) = wd at *
    have hwd := nw.abs_sub (by norm_num) (by norm_num)
    generalize productionRate D.reactions v.F v.R v.P k = ω at *
    generalize D.chemistry.dYdt v.T pres Y k = d at *
    generalize D.chemistry.dYdtTerms v.T pres Y k = Z at *
    have hZ : 0 ≤ Z := (abs_nonneg _).trans k2
    have e : ω * w * v.rho⁻¹ - d = (ω * wd / v.rho - d) + (ω * wd / v.rho) * ((w - wd) / wd) := by
      field_simp
      ring
    have hq : |(w - wd) / wd| ≤ 2 / 10 ^ 14 := by
      rw [abs_div, abs_of_pos hd0, div_le_iff₀ hd0]
      have := abs_sub_le w W wd
      rw [abs_sub_comm W wd] at this
      have h5 := (abs_le.1 hwd).1
      norm_num at hw hwd h5 ⊢
      linarith
    have hs : |ω * wd / v.rho| ≤ 2 * Z := by
      have e := abs_add_le (ω * wd / v.rho - d) d
      rw [sub_add_cancel] at e
      norm_num at k1
      linarith
    rw [e]
    refine (abs_add_le _ _).trans ?_
    rw [abs_mul]
    have := mul_le_mul hs hq (abs_nonneg _) (by positivity)
    norm_num at k1 this ⊢
    linarith
  · exact (abs_nonneg _).trans (hpr k hk).2

/-- A species that takes no part in any reaction in net. -/
theorem inert_zero {D : Package} {k : Nat} (h : ∀ n ∈ number D.reactions, n.r.net k = 0) (T p : ℝ) (Y : Nat → ℝ) :
    D.chemistry.dYdt T p Y k = 0 ∧ D.chemistry.dYdtTerms T p Y k = 0 ∧ ∀ j, D.chemistry.dYdtByTerms T p Y k j = 0 := by
  have z : ∀ n ∈ number D.reactions, (n.r.net k : ℝ) = 0 := fun n hn => by rw [h n hn]; simp
  have p0 : ∀ C, D.chemistry.production T C k = 0 := fun C => List.sum_eq_zero fun x hx => by
    obtain ⟨n, hn, rfl⟩ := List.mem_map.1 hx
    rw [z n hn, zero_mul]
  have t0 : ∀ C, D.chemistry.turnover T C k = 0 := fun C => List.sum_eq_zero fun x hx => by
    obtain ⟨n, hn, rfl⟩ := List.mem_map.1 hx
    rw [z n hn, abs_zero, zero_mul]
  have tt : D.chemistry.dYdtTerms T p Y k = 0 := by
    unfold Chemistry.dYdtTerms
    rw [t0, zero_mul, zero_div]
  refine ⟨?_, tt, fun j => ?_⟩
  · unfold Chemistry.dYdt
    rw [p0, zero_mul, zero_div]
  · unfold Chemistry.dYdtByTerms
    rw [tt, mul_zero, zero_add]
    exact List.sum_eq_zero fun x hx => by
      obtain ⟨n, hn, rfl⟩ := List.mem_map.1 hx
      rw [z n hn, abs_zero, zero_mul, zero_mul]

/-- By a mass fraction. -/
theorem jacob_tempS {D : Package} {pres : ℝ} {y : Nat → ℝ} {v : JacobVals ℝ} (hvT : v.T = y 0) {m : Nat} (hm : D.nsp = m + 2)
    (hv : TempAt D pres (complement (D.nsp - 1) fun i => y (i + 1)) v)
    (hin : ∀ n ∈ number D.reactions, n.r.net m = 0 ∧ n.r.net (m + 1) = 0) {jac : Nat → ℝ} {j : Nat} (hj : j < D.nsp - 1)
    (hS : ∀ k, k < D.nsp - 1 →
      ∃ d, HasDerivAt (fun x => D.chemistry.dYdt (y 0) pres (complement (D.nsp - 1) (Function.update (fun i => y (i + 1)) j x)) k) d (y (j + 1)) ∧
        |jac (D.nsp * (j + 1) + (k + 1)) - d| ≤ 1 / 10 ^ 7 * D.chemistry.dYdtByTerms (y 0) pres (complement (D.nsp - 1) fun i => y (i + 1)) k j ∧
        |d| ≤ 17 * D.chemistry.dYdtByTerms (y 0) pres (complement (D.nsp - 1) fun i => y (i + 1)) k j)
    {x : ℝ} (hx : EndSum D.nsp D.molWeight v jac j (endPairs D.nsp) x) :
    ∃ d, HasDerivAt (fun t => D.chemistry.dTdt (y 0) pres (complement (D.nsp - 1) (Function.update (fun i => y (i + 1)) j t))) d (y (j + 1)) ∧
      |-x - d| ≤ 2 / 10 ^ 7 * D.chemistry.dTdtByTerms (y 0) pres (complement (D.nsp - 1) fun i => y (i + 1)) j := by
  obtain ⟨w, hw, ex⟩ := EndSum.rows (D.nsp - 1) hj (D.nsp - 2) x hx
  choose! d hd using hS
  have hup : complement (D.nsp - 1) (Function.update (fun i => y (i + 1)) j (y (j + 1))) = complement (D.nsp - 1) fun i => y (i + 1) := by
    rw [Function.update_eq_self]
  have hin1 := fun n hn => (hin n hn).1
  have hin2 := fun n hn => (hin n hn).2
  have hder := D.chemistry.dTdt_along (T := y 0) (p := pres) (f := fun t => complement (D.nsp - 1) (Function.update (fun i => y (i + 1)) j t))
    (u := massShift (D.nsp - 1) j) (d := fun i => if i < m then d i else 0) (x := y (j + 1)) (complement_along (D.nsp - 1) j hj _ _)
    (by simp only [hup]; rw [← hvT]; exact hv.mean_pos.ne') (fun i hi => by
      have hi' : i < m + 2 := by rw [← hm]; exact hi
      by_cases him : i < m
      · rw [if_pos him]
        exact (hd i (by omega)).1
      · rw [if_neg him]
        have : ∀ n ∈ number D.reactions, n.r.net i = 0 := by
          rcases (show i = m ∨ i = m + 1 by omega) with rfl | rfl
          · exact hin1
          · exact hin2
        simp only [(inert_zero this _ _ _).1]
        exact hasDerivAt_const _ _)
  have hns : D.chemistry.nsp = m + 2 := hm
  have hshift : ∑ k ∈ Finset.range D.chemistry.nsp, D.chemistry.cp (y 0) k * massShift (D.nsp - 1) j k =
      D.chemistry.cp (y 0) j - D.chemistry.cp (y 0) (D.nsp - 1) := by
    rw [show D.chemistry.nsp = D.nsp - 1 + 1 by rw [hns]; omega]
    exact massShift_sum (D.nsp - 1) j hj _
  simp only [hup, hshift] at hder
  refine ⟨_, hder, ?_⟩
  have hd' := fun k hk => (hd k hk).2
  clear hder hd hx
  rw [← hvT] at *
  generalize complement (D.nsp - 1) (fun i => y (i + 1)) = Y at *
  have last : ∀ f : Nat → ℝ, f m = 0 → f (m + 1) = 0 → ∑ i ∈ Finset.range D.chemistry.nsp, f i = ∑ i ∈ Finset.range m, f i := by
    intro f f1 f2
    rw [hns, Finset.sum_range_succ, Finset.sum_range_succ, f1, f2, add_zero, add_zero]
  obtain ⟨a1, a2, a3⟩ := inert_zero hin1 v.T pres Y
  obtain ⟨b1, b2, b3⟩ := inert_zero hin2 v.T pres Y
  unfold Chemistry.dTdtByTerms
  rw [last _ (by rw [if_neg (by omega), a1]; ring) (by rw [if_neg (by omega), b1]; ring),
    last _ (by rw [a2, a3]; ring) (by rw [b2, b3]; ring), ex, show D.nsp - 2 = m by omega]
  have hN : D.nsp - 1 < D.nsp := by omega
  have hc0 := hv.mean_pos.le
  have hci0 : 0 ≤ (D.chemistry.meanCp v.T Y)⁻¹ := inv_nonneg.2 hc0
  have key := Rel.neg (Rel.sum (n := m) (K := 18) (ε := 2 / 10 ^ 7) (f' := fun k => v.h k * (1 / v.cpAvg * jac (D.nsp * (j + 1) + (k + 1)) -
        1 / (v.rho * v.cpAvg * v.cpAvg) * (v.cp j - v.cp (D.nsp - 1)) * v.ω k * w k))
      (f := fun i => D.chemistry.enthalpy v.T i * ((D.chemistry.meanCp v.T Y)⁻¹ * (if i < m then d i else 0) -
        (D.chemistry.meanCp v.T Y)⁻¹ * (D.chemistry.meanCp v.T Y)⁻¹ * (D.chemistry.cp v.T j - D.chemistry.cp v.T (D.nsp - 1)) *
          D.chemistry.dYdt v.T pres Y i))
      (g := fun i => D.chemistry.enthalpyTerms v.T i * (D.chemistry.dYdtByTerms v.T pres Y i j / D.chemistry.meanCp v.T Y +
        D.chemistry.dYdtTerms v.T pres Y i * (D.chemistry.cp v.T j + D.chemistry.cp v.T (D.chemistry.nsp - 1)) / D.chemistry.meanCp v.T Y ^ 2))
      fun k hk => ?_)
  · exact key.err
  · obtain ⟨d1, d2⟩ := hd' k (by omega)
    have hS0 : 0 ≤ D.chemistry.dYdtByTerms v.T pres Y k j := by have := abs_nonneg (d k); linarith
    rw [if_pos hk]
    have rA := (hv.mean.mul (⟨d2, d1⟩ : Rel (jac (D.nsp * (j + 1) + (k + 1))) (d k) (D.chemistry.dYdtByTerms v.T pres Y k j) 17 (1 / 10 ^ 7)) hci0
      (by norm_num) (by norm_num)).mono (L := 17) (δ := 104 / 10 ^ 9) (mul_nonneg hci0 hS0) (by norm_num) (by norm_num)
    have rcp := (hv.cp j (by omega)).sub (hv.cp (D.nsp - 1) hN)
    have pcp := add_nonneg (hv.cp_pos j (by omega)) (hv.cp_pos (D.nsp - 1) hN)
    have rB := (((hv.mean.mul hv.mean hci0 (by norm_num) (by norm_num)).mul rcp (mul_nonneg hci0 hci0) (by norm_num) (by norm_num)).mul
      (hv.rate k (by omega) (w k) (hw k (by omega))) (mul_nonneg (mul_nonneg hci0 hci0) pcp) (by norm_num) (by norm_num)).mono (L := 17) (δ := 104 / 10 ^ 9)
      (mul_nonneg (mul_nonneg (mul_nonneg hci0 hci0) pcp) (hv.rate_pos k (by omega))) (by norm_num) (by norm_num)
    have rC := ((hv.h k (by omega)).mul (rA.sub rB) (hv.h_pos k (by omega)) (by norm_num) (by norm_num)).mono (L := 18) (δ := 2 / 10 ^ 7)
      (mul_nonneg (hv.h_pos k (by omega)) (add_nonneg (mul_nonneg hci0 hS0)
        (mul_nonneg (mul_nonneg (mul_nonneg hci0 hci0) pcp) (hv.rate_pos k (by omega))))) (by norm_num) (by norm_num)
    convert rC using 1
    · simp only [one_div, mul_inv]
      ring
    · rw [show D.chemistry.nsp = D.nsp from rfl]
      simp only [div_eq_mul_inv, ← inv_pow]
      ring

/-- What the derivative of the rate of change of the temperature by the temperature is, from those of the rates of change of the mass fractions. -/
noncomputable def Chemistry.dTdtSlopeWith (X : Chemistry) (T p : ℝ) (Y e : Nat → ℝ) : ℝ :=
  -∑ i ∈ Finset.range X.nsp, (X.dYdt T p Y i * (X.cp T i - (∑ k ∈ Finset.range X.nsp, Y k * X.cpSlope T k) * X.enthalpy T i * (X.meanCp T Y)⁻¹) +
    e i * X.enthalpy T i) * (X.meanCp T Y)⁻¹

/-- The first entry is near what follows from the derivatives to which the other entries are near. -/
theorem tempT_near {D : Package} {pres : ℝ} {Y : Nat → ℝ} {v : JacobVals ℝ} {n : Nat} (hn : D.nsp = n + 1) (hT : 0 < v.T)
    (hpos : ∀ i, i < D.nsp → 0 ≤ Y i) (hW : ∀ i, i < D.nsp → (0 : ℝ) < D.molWeight i)
    (hv : TempAt D pres Y v) (hrho : v.rho ≠ 0) {q e : Nat → ℝ}
    (hq : ∀ k, k < n + 1 → |q k - e k| ≤ 1 / 10 ^ 5 * (D.chemistry.dYdtTerms v.T pres Y k / v.T) ∧
      |e k| ≤ 5001 * (D.chemistry.dYdtTerms v.T pres Y k / v.T))
    {s w : Nat → ℝ} (hs : ∀ i, i < n + 1 → |s i - gasR / D.molWeight i * cpSlope ((D.fit i).at v.T) v.T| ≤
        3 / 10 ^ 15 * (gasR / D.molWeight i * slopeTerms ((D.fit i).at v.T) v.T))
    (hw : ∀ i, i < n + 1 → |w i - D.molWeight i| ≤ D.molWeight i / 10 ^ 14) {x : ℝ}
    (hx : x = -(∑ k ∈ Finset.range (n + 1), v.ω k * w k * (-(∑ i ∈ Finset.range (n + 1), Y i * s i) * v.h k / v.cpAvg + v.cp k) +
        ∑ k ∈ Finset.range (n + 1), q k * v.h k * v.rho) / (v.rho * v.cpAvg)) :
    |x - D.chemistry.dTdtSlopeWith v.T pres Y e| ≤ 2 / 10 ^ 5 * D.chemistry.dTdtSlopeTerms v.T pres Y := by
  have hns : D.chemistry.nsp = n + 1 := hn
  have hc0 := hv.mean_pos.le
  have hci0 : 0 ≤ (D.chemistry.meanCp v.T Y)⁻¹ := inv_nonneg.2 hc0
  have hR0 : (0 : ℝ) < gasR := by unfold gasR; positivity
  have st0 : ∀ i, i < n + 1 → 0 ≤ D.chemistry.cpSlopeTerms v.T i := fun i hi =>
    mul_nonneg (div_pos hR0 (hW i (by omega))).le (by positivity)
  have rwt : Rel (∑ i ∈ Finset.range (n + 1), Y i * s i) (∑ k ∈ Finset.range (n + 1), Y k * D.chemistry.cpSlope v.T k)
      (∑ k ∈ Finset.range (n + 1), Y k * D.chemistry.cpSlopeTerms v.T k) 1 (3 / 10 ^ 15) := by
    refine Rel.sum fun i hi => ⟨?_, ?_⟩
    · rw [abs_mul, abs_of_nonneg (hpos i (by omega)), one_mul]
      refine mul_le_mul_of_nonneg_left ?_ (hpos i (by omega))
      unfold Chemistry.cpSlope Chemistry.cpSlopeTerms
      rw [abs_mul, show D.chemistry.weight i = D.molWeight i from rfl, abs_of_pos (div_pos hR0 (hW i (by omega)))]
      exact mul_le_mul_of_nonneg_left (cpSlope_abs _ _) (div_pos hR0 (hW i (by omega))).le
    · rw [← mul_sub, abs_mul, abs_of_nonneg (hpos i (by omega))]
      exact (mul_le_mul_of_nonneg_left (hs i hi) (hpos i (by omega))).trans (le_of_eq (mul_left_comm _ _ _))
  have hU0 : 0 ≤ ∑ k ∈ Finset.range (n + 1), Y k * D.chemistry.cpSlopeTerms v.T k := Finset.sum_nonneg fun i hi =>
    mul_nonneg (hpos i (by have := Finset.mem_range.1 hi; omega)) (st0 i (Finset.mem_range.1 hi))
  generalize hwt' : ∑ i ∈ Finset.range (n + 1), Y i * s i = wt at *
  have ex : x = -∑ k ∈ Finset.range (n + 1), (v.ω k * w k * v.rho⁻¹ * (v.cp k - wt * v.h k * v.cpAvg⁻¹) + q k * v.h k) * v.cpAvg⁻¹ := by
    rw [hx, ← Finset.sum_add_distrib, neg_div, Finset.sum_div]
    congr 1
    refine Finset.sum_congr rfl fun k _ => ?_
    generalize q k = q
    simp only [div_eq_mul_inv, mul_inv]
    have := mul_inv_cancel₀ hrho
    linear_combination (q * v.h k * v.cpAvg⁻¹) * this
  rw [ex]
  unfold Chemistry.dTdtSlopeTerms Chemistry.dTdtSlopeWith
  rw [hns]
  have key := Rel.neg (Rel.sum (n := n + 1) (K := 5100) (ε := 2 / 10 ^ 5)
      (f' := fun k => (v.ω k * w k * v.rho⁻¹ * (v.cp k - wt * v.h k * v.cpAvg⁻¹) + q k * v.h k) * v.cpAvg⁻¹)
      (f := fun i => (D.chemistry.dYdt v.T pres Y i * (D.chemistry.cp v.T i -
        (∑ k ∈ Finset.range (n + 1), Y k * D.chemistry.cpSlope v.T k) * D.chemistry.enthalpy v.T i * (D.chemistry.meanCp v.T Y)⁻¹) +
        e i * D.chemistry.enthalpy v.T i) * (D.chemistry.meanCp v.T Y)⁻¹)
      (g := fun i => D.chemistry.enthalpyTerms v.T i * (D.chemistry.dYdtTerms v.T pres Y i / v.T) / D.chemistry.meanCp v.T Y +
        D.chemistry.cp v.T i * D.chemistry.dYdtTerms v.T pres Y i / D.chemistry.meanCp v.T Y +
        D.chemistry.enthalpyTerms v.T i * D.chemistry.dYdtTerms v.T pres Y i * (∑ k ∈ Finset.range (n + 1), Y k * D.chemistry.cpSlopeTerms v.T k) /
          D.chemistry.meanCp v.T Y ^ 2)
      fun k hk => ?_)
  · exact key.err
  · have hk' : k < D.nsp := by omega
    have hZ0 := hv.rate_pos k hk'
    have hH0 := hv.h_pos k hk'
    have hp0 := hv.cp_pos k hk'
    have hZT : 0 ≤ D.chemistry.dYdtTerms v.T pres Y k / v.T := div_nonneg hZ0 hT.le
    obtain ⟨q1, q2⟩ := hq k hk
    have rJ : Rel (q k) (e k) (D.chemistry.dYdtTerms v.T pres Y k / v.T) 5001 (1 / 10 ^ 5) := ⟨q2, q1⟩
    have rP := ((rwt.mul (hv.h k hk') hU0 (by norm_num) (by norm_num)).mul hv.mean (mul_nonneg hU0 hH0) (by norm_num) (by norm_num)).mono
      (L := 1) (δ := 2 / 10 ^ 10) (mul_nonneg (mul_nonneg hU0 hH0) hci0) (by norm_num) (by norm_num)
    have rQ := ((hv.cp k hk').mono (L := 1) (δ := 2 / 10 ^ 10) hp0 le_rfl (by norm_num)).sub rP
    have pQ := add_nonneg hp0 (mul_nonneg (mul_nonneg hU0 hH0) hci0)
    have rR := ((hv.rate k hk' (w k) (hw k hk)).mul rQ hZ0 (by norm_num) (by norm_num)).mono (L := 5001) (δ := 11 / 10 ^ 6) (mul_nonneg hZ0 pQ)
      (by norm_num) (by norm_num)
    have rS := (rJ.mul (hv.h k hk') hZT (by norm_num) (by norm_num)).mono (L := 5001) (δ := 11 / 10 ^ 6) (mul_nonneg hZT hH0) (by norm_num) (by norm_num)
    have rT := ((rR.add rS).mul hv.mean (add_nonneg (mul_nonneg hZ0 pQ) (mul_nonneg hZT hH0)) (by norm_num) (by norm_num)).mono (L := 5100)
      (δ := 2 / 10 ^ 5) (mul_nonneg (add_nonneg (mul_nonneg hZ0 pQ) (mul_nonneg hZT hH0)) hci0) (by norm_num) (by norm_num)
    convert rT using 1
    simp only [div_eq_mul_inv, ← inv_pow]
    ring

/-- By the temperature. -/
theorem jacob_tempT {D : Package} {pres : ℝ} {y : Nat → ℝ} {v : JacobVals ℝ} (hvT : v.T = y 0) {n : Nat} (hn : D.nsp = n + 1) (hT : 0 < y 0)
    (hpos : ∀ i, i < D.nsp → 0 ≤ complement (D.nsp - 1) (fun i => y (i + 1)) i) (hW : ∀ i, i < D.nsp → (0 : ℝ) < D.molWeight i)
    (hv : TempAt D pres (complement (D.nsp - 1) fun i => y (i + 1)) v) (hmid : D.chemistry.BetweenFits (y 0)) (hrho : v.rho ≠ 0)
    (hin : ∀ n' ∈ number D.reactions, n'.r.net n = 0) {jac : Nat → ℝ}
    (hS : ∀ k, k < n → ∃ d, HasDerivAt (fun T => D.chemistry.dYdt T pres (complement (D.nsp - 1) fun i => y (i + 1)) k) d (y 0) ∧
      |jac (k + 1) - d| ≤ 1 / 10 ^ 5 * (D.chemistry.dYdtTerms (y 0) pres (complement (D.nsp - 1) fun i => y (i + 1)) k / y 0) ∧
      |d| ≤ 5001 * (D.chemistry.dYdtTerms (y 0) pres (complement (D.nsp - 1) fun i => y (i + 1)) k / y 0))
    {s w : Nat → ℝ} (hs : ∀ i, i < n + 1 → |s i - gasR / D.molWeight i * cpSlope ((D.fit i).at v.T) v.T| ≤
        3 / 10 ^ 15 * (gasR / D.molWeight i * slopeTerms ((D.fit i).at v.T) v.T))
    (hw : ∀ i, i < n + 1 → |w i - D.molWeight i| ≤ D.molWeight i / 10 ^ 14) {x : ℝ}
    (hx : x = -(∑ k ∈ Finset.range (n + 1), v.ω k * w k *
        (-(∑ i ∈ Finset.range (n + 1), complement (D.nsp - 1) (fun i => y (i + 1)) i * s i) * v.h k / v.cpAvg + v.cp k) +
        ∑ k ∈ Finset.range n, jac (k + 1) * v.h k * v.rho) / (v.rho * v.cpAvg)) :
    ∃ d, HasDerivAt (fun T => D.chemistry.dTdt T pres (complement (D.nsp - 1) fun i => y (i + 1))) d (y 0) ∧
      |x - d| ≤ 2 / 10 ^ 5 * D.chemistry.dTdtSlopeTerms (y 0) pres (complement (D.nsp - 1) fun i => y (i + 1)) := by
  choose! d hd using hS
  have hns : D.chemistry.nsp = n + 1 := hn
  have hder := D.chemistry.dTdt_deriv (T := y 0) (p := pres) (Y := complement (D.nsp - 1) fun i => y (i + 1))
    (d := fun i => if i < n then d i else 0) hmid (by rw [← hvT]; exact hv.mean_pos.ne') (fun i hi => by
      have hi' : i < n + 1 := by rw [← hns]; exact hi
      by_cases him : i < n
      · rw [if_pos him]
        exact (hd i him).1
      · rw [if_neg him]
        obtain rfl : i = n := by omega
        simp only [(inert_zero hin _ _ _).1]
        exact hasDerivAt_const _ _)
  refine ⟨_, hder, ?_⟩
  have e1 : ∑ k ∈ Finset.range n, jac (k + 1) * v.h k * v.rho = ∑ k ∈ Finset.range (n + 1), (if k < n then jac (k + 1) else 0) * v.h k * v.rho := by
    rw [Finset.sum_range_succ, if_neg (lt_irrefl n), zero_mul, zero_mul, add_zero]
    exact Finset.sum_congr rfl fun k hk => by rw [if_pos (Finset.mem_range.1 hk)]
  rw [e1] at hx
  rw [← hvT] at hT ⊢
  refine tempT_near hn hT hpos hW hv hrho (fun k hk => ?_) hs hw hx
  by_cases hkn : k < n
  · rw [if_pos hkn, if_pos hkn, hvT]
    exact (hd k hkn).2
  · rw [if_neg hkn, if_neg hkn]
    have := div_nonneg (hv.rate_pos k (by omega)) hT.le
    exact ⟨by rw [sub_zero, abs_zero]; positivity, by rw [abs_zero]; positivity⟩

/-- The first entry that `eval_jacob` returns. -/
theorem result_first {D : Package} {n : Nat} (hn : D.nsp = n + 1) {ws : List Nat} (hw : (List.range D.nsp).map D.weight5 = ws) {J : JacobSrc}
    (h : lastOk D n ws J = true) (h4 : onlyFirst J.last = true) {v : JacobVals ℝ} {Y : Nat → ℝ}
    (hy : ∀ i, i < n → v.y (i + 1) = Y i) (hN : v.yN = Y n) (jac0 : Nat → ℝ) :
    ∃ s w : Nat → ℝ, (∀ i, i < n + 1 → |s i - gasR / D.molWeight i * cpSlope ((D.fit i).at v.T) v.T| ≤
        3 / 10 ^ 15 * (gasR / D.molWeight i * slopeTerms ((D.fit i).at v.T) v.T)) ∧ (∀ i, i < n + 1 → |w i - D.molWeight i| ≤ D.molWeight i / 10 ^ 14) ∧
      v.result J jac0 0 = -(∑ k ∈ Finset.range (n + 1), v.ω k * w k *
        (-(∑ i ∈ Finset.range (n + 1), Y i * s i) * v.h k / v.cpAvg + v.cp k) +
        ∑ k ∈ Finset.range n, v.result J jac0 (k + 1) * v.h k * v.rho) / (v.rho * v.cpAvg) := by
  have hW : ∀ i, i < n + 1 → D.molWeight i = (ws.getD i 0 : ℝ) / 10 ^ 5 := by
    intro i hi
    have : ws.getD i 0 = D.weight5 i := by rw [← hw, List.getD_eq_getElem?_getD]; simp [hn, hi]
    rw [this]
    rfl
  obtain ⟨s, w, q1, q2, q3⟩ := last_sound hW h hy hN
    (fun i => execT (J.endStart ++ J.endRows.flatten) (v.mem fun i => execT J.cpAvg (v.mem (v.partsT J.parts jac0)) (.arr .jac i)) (.arr .jac i))
  refine ⟨s, w, q1, q2, ?_⟩
  have e : ∀ k, v.result J jac0 (k + 1) =
      execT (J.endStart ++ J.endRows.flatten) (v.mem fun i => execT J.cpAvg (v.mem (v.partsT J.parts jac0)) (.arr .jac i)) (.arr .jac (k + 1)) := by
    intro k
    unfold JacobVals.result
    rw [onlyFirst_sound h4 _ (k + 1) (Nat.succ_ne_zero k)]
    rfl
  simp only [e]
  exact q3

end DLB
