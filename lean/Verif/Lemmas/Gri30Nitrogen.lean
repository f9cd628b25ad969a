import Verif.Lemmas.JacobTempNear
import Verif.Lemmas.JacobDomain
/-
A mixture of N and NH in the chemistry of gri30: only the reaction NH + N <=> N2 + H runs.
-/
set_option autoImplicit false
set_option linter.unusedSectionVars false
set_option maxRecDepth 100000
set_option maxHeartbeats 2000000

namespace DLB

/-- A reaction with a reactant and a product other than two species. -/
def offPair (a b : Nat) (n : Numbered) : Bool :=
  n.r.reactants.any (fun i => i != a && i != b) && n.r.products.any (fun i => i != a && i != b)

theorem offPair_zero (X : Chemistry) {a b : Nat} {n : Numbered} (h : offPair a b n = true) (T : ℝ) {C : Nat → ℝ}
    (hC : ∀ i, i ≠ a → i ≠ b → C i = 0) : X.forward n T C = 0 ∧ X.reverse n T C = 0 := by
  simp only [offPair, Bool.and_eq_true, List.any_eq_true, bne_iff_ne] at h
  obtain ⟨⟨i, hi, i1, i2⟩, ⟨j, hj, j1, j2⟩⟩ := h
  have e1 : (n.r.reactants.map C).prod = 0 := List.prod_eq_zero (List.mem_map.2 ⟨i, hi, hC i i1 i2⟩)
  have e2 : (n.r.products.map C).prod = 0 := List.prod_eq_zero (List.mem_map.2 ⟨j, hj, hC j j1 j2⟩)
  unfold Chemistry.forward Chemistry.reverse
  rw [e1, e2, mul_zero, mul_zero, ite_self]
  exact ⟨rfl, rfl⟩

/-- The reactions, with the number 195 in the middle. -/
theorem gri30_split : ∃ m, number gri30.reactions = (number gri30.reactions).take 195 ++ m :: (number gri30.reactions).drop 196 ∧ m.k = 195 ∧
    m.r.reactants = [31, 30] ∧ m.r.products = [52, 1] ∧ m.r.kind = .elementary := by
  have h : 195 < (number gri30.reactions).length := by decide +kernel
  have e : ((number gri30.reactions)[195]?.map fun m => (m.k, m.r.reactants, m.r.products, m.r.kind)) =
    some (195, [31, 30], [52, 1], .elementary) := by decide +kernel
  rw [List.getElem?_eq_getElem h, Option.map_some, Option.some.injEq, Prod.mk.injEq, Prod.mk.injEq, Prod.mk.injEq] at e
  refine ⟨(number gri30.reactions)[195], ?_, e.1, e.2.1, e.2.2.1, e.2.2.2⟩
  rw [← List.drop_eq_getElem_cons h, List.take_append_drop]

theorem gri30_off1 : ((number gri30.reactions).take 195).all (offPair 30 31) = true := by decide +kernel

theorem gri30_off2 : ((number gri30.reactions).drop 196).all (offPair 30 31) = true := by decide +kernel

theorem gri30_law195 : gri30.law 195 = .simple ⟨(15000000000000, 0), (0, 0), (0, 0)⟩ := by decide +kernel

/-- A mass of N and the same mass of NH at 2000 K. -/
noncomputable def hotNitrogen : Nat → ℝ := fun i => if i = 0 then 2000 else if i = 31 then 1 / 2 else if i = 32 then 1 / 2 else 0

/-- Its mass fractions. -/
noncomputable def halfHalf : Nat → ℝ := complement (gri30.nsp - 1) fun i => hotNitrogen (i + 1)

theorem halfHalf_eq (i : Nat) : halfHalf i = if i = 30 ∨ i = 31 then 1 / 2 else 0 := by
  show complement 52 _ i = _
  unfold complement hotNitrogen
  by_cases h : i = 52
  · subst h
    rw [if_pos rfl, if_neg (by omega), Finset.sum_eq_add_of_mem 30 31 (by decide) (by decide) (by decide)]
    · norm_num
    · intro b _ hb
      rw [if_neg (by omega), if_neg (by omega), if_neg (by omega)]
  · rw [if_neg h]
    dsimp only
    rw [if_neg (by omega)]
    by_cases h1 : i = 30
    · rw [if_pos (by omega), if_pos (by omega)]
    · by_cases h2 : i = 31
      · rw [if_neg (by omega), if_pos (by omega), if_pos (by omega)]
      · rw [if_neg (by omega), if_neg (by omega), if_neg (by omega)]

theorem halfHalf_sum (f : Nat → ℝ) : ∑ i ∈ Finset.range 53, halfHalf i * f i = (f 30 + f 31) / 2 := by
  rw [Finset.sum_eq_add_of_mem 30 31 (by decide) (by decide) (by decide)]
  · rw [halfHalf_eq, halfHalf_eq, if_pos (by omega), if_pos (by omega)]
    ring
  · intro b _ hb
    rw [halfHalf_eq, if_neg (by omega), zero_mul]

/-- The rates of change at every temperature. -/
theorem halfHalf_rates (p : ℝ) (hp : 0 < p) : ∃ c : ℝ, 0 < c ∧ ∃ net : Nat → ℝ, (∀ i, net i = if i = 1 ∨ i = 52 then 1 else if i = 30 ∨ i = 31 then -1 else 0) ∧
    ∀ T, 0 < T → ∀ i, gri30.chemistry.dYdt T p halfHalf i = net i * gri30.chemistry.weight i * (c / T) ∧
      gri30.chemistry.dYdtTerms T p halfHalf i = |net i| * gri30.chemistry.weight i * (c / T) ∧
      ∀ n ∈ number gri30.reactions, n.k = 260 → gri30.chemistry.dYdtFrom n T p halfHalf i = 0 := by
  obtain ⟨m, hm, k, re, pr, ki⟩ := gri30_split
  have hc : Checked gri30 := checked_of_shipped (by simp [shipped])
  have hw : ∀ i, i < 53 → 0 < gri30.chemistry.weight i := fun i hi => molWeight_pos hc i hi
  have w30 := hw 30 (by decide)
  have w31 := hw 31 (by decide)
  have hR0 : (0 : ℝ) < gasR := by unfold gasR; positivity
  have hZ : ∑ i ∈ Finset.range gri30.chemistry.nsp, halfHalf i / gri30.chemistry.weight i =
      ((gri30.chemistry.weight 30)⁻¹ + (gri30.chemistry.weight 31)⁻¹) / 2 := by
    simp only [div_eq_mul_inv]
    exact (halfHalf_sum _).trans (by ring)
  obtain ⟨Z, hZ'⟩ : ∃ Z, Z = ((gri30.chemistry.weight 30)⁻¹ + (gri30.chemistry.weight 31)⁻¹) / 2 := ⟨_, rfl⟩
  rw [← hZ'] at hZ
  have hZ0 : 0 < Z := by rw [hZ']; positivity
  refine ⟨15000000000 * (p / (gasR * Z)) / 4 / (gri30.chemistry.weight 30 * gri30.chemistry.weight 31), by positivity,
    fun i => if i = 1 ∨ i = 52 then 1 else if i = 30 ∨ i = 31 then -1 else 0, fun _ => rfl, fun T hT i => ?_⟩
  have hρ : gri30.chemistry.density T p halfHalf = p / (gasR * T * Z) := by
    unfold Chemistry.density
    rw [hZ]
  have hρ0 : 0 < gri30.chemistry.density T p halfHalf := by rw [hρ]; positivity
  have hC : ∀ i, i ≠ 30 → i ≠ 31 → gri30.chemistry.concentrations T p halfHalf i = 0 := by
    intro i h1 h2
    unfold Chemistry.concentrations
    rw [halfHalf_eq, if_neg (by omega), mul_zero, zero_div]
  have hnet : (m.r.net i : ℝ) = if i = 1 ∨ i = 52 then 1 else if i = 30 ∨ i = 31 then -1 else 0 := by
    unfold Reaction.net
    rw [re, pr]
    by_cases h1 : i = 1
    · subst h1; simp
    by_cases h2 : i = 52
    · subst h2; simp
    by_cases h3 : i = 30
    · subst h3; simp
    by_cases h4 : i = 31
    · subst h4; simp
    rw [if_neg (by omega), if_neg (by omega), List.count_eq_zero.2 (by simp; omega), List.count_eq_zero.2 (by simp; omega)]
    simp
  have hf : gri30.chemistry.forward m T (gri30.chemistry.concentrations T p halfHalf) =
      15000000000 * (gri30.chemistry.density T p halfHalf ^ 2 / 4 / (gri30.chemistry.weight 30 * gri30.chemistry.weight 31)) := by
    unfold Chemistry.forward Chemistry.coefficient
    rw [k, show gri30.chemistry.law 195 = _ from gri30_law195, re]
    simp only [RateLaw.high, Arrhenius.coefficient, Arrhenius.temperature, Reaction.order, re, ki, SDec.val, Chemistry.concentrations, List.map_cons,
      List.map_nil, List.prod_cons, List.prod_nil, List.length_cons, List.length_nil]
    rw [halfHalf_eq, halfHalf_eq, if_pos (by omega), if_pos (by omega)]
    norm_num
    ring
  have hr : gri30.chemistry.reverse m T (gri30.chemistry.concentrations T p halfHalf) = 0 := by
    unfold Chemistry.reverse
    rw [pr]
    simp [hC 52 (by omega) (by omega)]
  have hM : gri30.chemistry.modification m T (gri30.chemistry.concentrations T p halfHalf) = 1 := by
    unfold Chemistry.modification
    rw [ki]
  have z1 : ∀ n ∈ (number gri30.reactions).take 195, _ := fun n hn => offPair_zero gri30.chemistry (List.all_eq_true.1 gri30_off1 n hn) T hC
  have z2 : ∀ n ∈ (number gri30.reactions).drop 196, _ := fun n hn => offPair_zero gri30.chemistry (List.all_eq_true.1 gri30_off2 n hn) T hC
  refine ⟨?_, ?_, fun n hn hk => ?_⟩
  · unfold Chemistry.dYdt Chemistry.production
    rw [show gri30.chemistry.reactions = gri30.reactions from rfl, hm, List.map_append, List.map_cons, List.sum_append, List.sum_cons,
      List.sum_eq_zero, List.sum_eq_zero, hf, hr, hM, hnet, hρ]
    · field_simp
      ring
    · intro x hx
      obtain ⟨n, hn, rfl⟩ := List.mem_map.1 hx
      obtain ⟨a, b⟩ := z2 n hn
      rw [a, b]
      ring
    · intro x hx
      obtain ⟨n, hn, rfl⟩ := List.mem_map.1 hx
      obtain ⟨a, b⟩ := z1 n hn
      rw [a, b]
      ring
  · unfold Chemistry.dYdtTerms Chemistry.turnover
    rw [show gri30.chemistry.reactions = gri30.reactions from rfl, hm, List.map_append, List.map_cons, List.sum_append, List.sum_cons,
      List.sum_eq_zero, List.sum_eq_zero, hf, hr, hM, hnet, hρ]
    · field_simp
      ring
    · intro x hx
      obtain ⟨n, hn, rfl⟩ := List.mem_map.1 hx
      obtain ⟨a, b⟩ := z2 n hn
      rw [a, b]
      ring
    · intro x hx
      obtain ⟨n, hn, rfl⟩ := List.mem_map.1 hx
      obtain ⟨a, b⟩ := z1 n hn
      rw [a, b]
      ring
  · have hz : gri30.chemistry.forward n T (gri30.chemistry.concentrations T p halfHalf) = 0 ∧
        gri30.chemistry.reverse n T (gri30.chemistry.concentrations T p halfHalf) = 0 := by
      rw [hm] at hn
      rcases List.mem_append.1 hn with hn | hn
      · exact z1 n hn
      · rcases List.mem_cons.1 hn with rfl | hn
        · omega
        · exact z2 n hn
    unfold Chemistry.dYdtFrom
    rw [hz.1, hz.2]
    ring

theorem gri30_fit1 : (gri30.fit 1).tMid = (1000, 0) ∧ (gri30.fit 1).high = [(250000001, 8), (-230842973, 19), (161561948, 22), (-473515235, 26),
    (498197357, 30), (254736599, 4), (-446682914, 9)] := by decide +kernel

theorem gri30_fit30 : (gri30.fit 30).tMid = (1000, 0) ∧ (gri30.fit 30).high = [(24159429, 7), (17489065, 11), (-11902369, 14), (30226245, 18),
    (-20360982, 22), (56133773, 3), (46496096, 7)] := by decide +kernel

theorem gri30_fit31 : (gri30.fit 31).tMid = (1000, 0) ∧ (gri30.fit 31).high = [(27836928, 7), (1329843, 9), (-42478047, 14), (78348501, 18),
    (-5504447, 21), (42120848, 3), (57407799, 7)] := by decide +kernel

theorem gri30_fit52 : (gri30.fit 52).tMid = (1000, 0) ∧ (gri30.fit 52).high = [(292664, 5), (14879768, 10), (-568476, 12), (10097038, 17),
    (-6753351, 21), (-9227977, 4), (5980528, 6)] := by decide +kernel

theorem at_high {f : Nasa} {h : List SDec} (e : f.tMid = (1000, 0) ∧ f.high = h) : f.at (2000 : ℝ) = h := by
  unfold Nasa.at
  rw [e.1, if_neg (by norm_num), e.2]

/-- The enthalpy of N2 is not small. -/
theorem nitrogen_numbers :
    101 / 10000 * ((3 * hTerms ((gri30.fit 1).at (2000 : ℝ)) (2000 : ℝ) / 2000 + cpOverR ((gri30.fit 1).at (2000 : ℝ)) (2000 : ℝ)) +
      (3 * hTerms ((gri30.fit 30).at (2000 : ℝ)) (2000 : ℝ) / 2000 + cpOverR ((gri30.fit 30).at (2000 : ℝ)) (2000 : ℝ)) +
      (3 * hTerms ((gri30.fit 31).at (2000 : ℝ)) (2000 : ℝ) / 2000 + cpOverR ((gri30.fit 31).at (2000 : ℝ)) (2000 : ℝ)) +
      (3 * hTerms ((gri30.fit 52).at (2000 : ℝ)) (2000 : ℝ) / 2000 + cpOverR ((gri30.fit 52).at (2000 : ℝ)) (2000 : ℝ))) <
    hOverR ((gri30.fit 52).at (2000 : ℝ)) (2000 : ℝ) / 2000 := by
  rw [at_high gri30_fit1, at_high gri30_fit30, at_high gri30_fit31, at_high gri30_fit52]
  simp only [hTerms, cpOverR, hOverR, nasaCoeff, SDec.val, List.getD_cons_zero, List.getD_cons_succ]
  norm_num [abs_of_pos, abs_of_neg]

theorem cpSlope_small : 1000 * gri30.chemistry.cpSlopeTerms 2000 30 ≤ gri30.chemistry.cp 2000 30 ∧
    1000 * gri30.chemistry.cpSlopeTerms 2000 31 ≤ gri30.chemistry.cp 2000 31 := by
  have hc : Checked gri30 := checked_of_shipped (by simp [shipped])
  have hR0 : (0 : ℝ) < gasR := by unfold gasR; positivity
  have h30 : (0 : ℝ) < gasR / gri30.chemistry.weight 30 := div_pos hR0 (molWeight_pos hc 30 (by decide))
  have h31 : (0 : ℝ) < gasR / gri30.chemistry.weight 31 := div_pos hR0 (molWeight_pos hc 31 (by decide))
  unfold Chemistry.cpSlopeTerms Chemistry.cp
  rw [show gri30.chemistry.fit = gri30.fit from rfl, at_high gri30_fit30, at_high gri30_fit31]
  dsimp only
  constructor
  · rw [mul_left_comm]
    refine mul_le_mul_of_nonneg_left ?_ h30.le
    simp only [cpOverR, nasaCoeff, SDec.val, List.getD_cons_zero, List.getD_cons_succ]
    norm_num [abs_of_pos, abs_of_neg]
  · rw [mul_left_comm]
    refine mul_le_mul_of_nonneg_left ?_ h31.le
    simp only [cpOverR, nasaCoeff, SDec.val, List.getD_cons_zero, List.getD_cons_succ]
    norm_num [abs_of_pos, abs_of_neg]

theorem cp_numbers : 0 < cpOverR ((gri30.fit 1).at (2000 : ℝ)) (2000 : ℝ) ∧ 0 < cpOverR ((gri30.fit 30).at (2000 : ℝ)) (2000 : ℝ) ∧
    0 < cpOverR ((gri30.fit 31).at (2000 : ℝ)) (2000 : ℝ) ∧ 0 < cpOverR ((gri30.fit 52).at (2000 : ℝ)) (2000 : ℝ) := by
  rw [at_high gri30_fit1, at_high gri30_fit30, at_high gri30_fit31, at_high gri30_fit52]
  simp only [cpOverR, nasaCoeff, SDec.val, List.getD_cons_zero, List.getD_cons_succ]
  norm_num

theorem sum_four {f : Nat → ℝ} (h : ∀ i, i ≠ 1 → i ≠ 30 → i ≠ 31 → i ≠ 52 → f i = 0) :
    ∑ i ∈ Finset.range gri30.chemistry.nsp, f i = f 1 + f 30 + f 31 + f 52 := by
  show ∑ i ∈ Finset.range 53, f i = _
  rw [← Finset.sum_subset (s₁ := ({1, 30, 31, 52} : Finset Nat)) (by decide)]
  · rw [Finset.sum_insert (by decide), Finset.sum_insert (by decide), Finset.sum_insert (by decide), Finset.sum_singleton, ← add_assoc, ← add_assoc]
  · intro i _ hi
    simp only [Finset.mem_insert, Finset.mem_singleton, not_or] at hi
    exact h i hi.1 hi.2.1 hi.2.2.1 hi.2.2.2

theorem gri30_acts30 : lastActs gri30 30 = true := by decide +kernel

theorem gri30_noMid2000 : noMid gri30 2000 = true := by decide +kernel

/-- The heat that belongs to the derivative for N2 is not small. -/
theorem halfHalf_gap {p : ℝ} (hp : 0 < p) {dN d' : ℝ} (h1 : HasDerivAt (fun T => gri30.chemistry.dYdt T p halfHalf 52) dN (hotNitrogen 0))
    {n : Numbered} (hn : n ∈ number gri30.reactions) (hk : n.k = 260)
    (h2 : HasDerivAt (fun T => gri30.chemistry.dYdtFrom n T p halfHalf 52) d' (hotNitrogen 0)) :
    0 ≤ gri30.chemistry.dTdtSlopeTerms 2000 p halfHalf ∧
    101 / 10000 * gri30.chemistry.dTdtSlopeTerms 2000 p halfHalf <
      |(dN - d') * gri30.chemistry.enthalpy 2000 52 / gri30.chemistry.meanCp 2000 halfHalf| := by
  obtain ⟨c, hc, net, hnet, hr⟩ := halfHalf_rates p hp
  have e0 : hotNitrogen 0 = 2000 := rfl
  rw [e0] at h1 h2
  have hpos : ∀ᶠ T : ℝ in nhds 2000, 0 < T := lt_mem_nhds (by norm_num)
  have hw : ∀ i, i < 53 → 0 < gri30.chemistry.weight i := fun i hi => molWeight_pos (checked_of_shipped (by simp [shipped])) i hi
  have hR0 : (0 : ℝ) < gasR := by unfold gasR; positivity
  have hd' : d' = 0 := h2.unique ((hasDerivAt_const (2000 : ℝ) (0 : ℝ)).congr_of_eventuallyEq
    (hpos.mono fun T hT => (hr T hT 52).2.2 n hn hk))
  have hdN : dN = -(gri30.chemistry.weight 52 * (c / 2000 ^ 2)) := by
    have h := ((hasDerivAt_inv (show (2000 : ℝ) ≠ 0 by norm_num)).const_mul (gri30.chemistry.weight 52 * c)).congr_of_eventuallyEq
      (f₁ := fun T => gri30.chemistry.dYdt T p halfHalf 52) (hpos.mono fun T hT => by
        show gri30.chemistry.dYdt T p halfHalf 52 = gri30.chemistry.weight 52 * c * T⁻¹
        rw [(hr T hT 52).1, hnet, if_pos (by omega)]
        ring)
    rw [h1.unique h]
    ring
  have hm : gri30.chemistry.meanCp 2000 halfHalf = (gri30.chemistry.cp 2000 30 + gri30.chemistry.cp 2000 31) / 2 := by
    rw [← halfHalf_sum]
    unfold Chemistry.meanCp
    exact Finset.sum_congr rfl fun i _ => mul_comm _ _
  have hU : ∑ k ∈ Finset.range gri30.chemistry.nsp, halfHalf k * gri30.chemistry.cpSlopeTerms 2000 k =
      (gri30.chemistry.cpSlopeTerms 2000 30 + gri30.chemistry.cpSlopeTerms 2000 31) / 2 := halfHalf_sum _
  obtain ⟨s1, s2⟩ := cpSlope_small
  obtain ⟨p1, p30, p31, p52⟩ := cp_numbers
  have hcp : ∀ i, gri30.chemistry.cp 2000 i = gasR / gri30.chemistry.weight i * cpOverR ((gri30.fit i).at (2000 : ℝ)) (2000 : ℝ) := fun _ => rfl
  have cp30 : 0 < gri30.chemistry.cp 2000 30 := mul_pos (div_pos hR0 (hw 30 (by decide))) p30
  have cp31 : 0 < gri30.chemistry.cp 2000 31 := mul_pos (div_pos hR0 (hw 31 (by decide))) p31
  have slope0 : ∀ i, i < 53 → 0 ≤ gri30.chemistry.cpSlopeTerms 2000 i := fun i hi => mul_nonneg (div_pos hR0 (hw i hi)).le (by positivity)
  have slope30 := slope0 30 (by decide)
  have slope31 := slope0 31 (by decide)
  have hm0 : 0 < gri30.chemistry.meanCp 2000 halfHalf := by rw [hm]; linarith
  have hU1 : 1000 * ∑ k ∈ Finset.range gri30.chemistry.nsp, halfHalf k * gri30.chemistry.cpSlopeTerms 2000 k ≤ gri30.chemistry.meanCp 2000 halfHalf := by
    rw [hm, hU]
    linarith
  have hU0 : 0 ≤ ∑ k ∈ Finset.range gri30.chemistry.nsp, halfHalf k * gri30.chemistry.cpSlopeTerms 2000 k := by rw [hU]; linarith
  obtain ⟨S, hsum⟩ : ∃ S, S = gri30.chemistry.dTdtSlopeTerms 2000 p halfHalf := ⟨_, rfl⟩
  rw [← hsum]
  unfold Chemistry.dTdtSlopeTerms at hsum
  generalize ∑ k ∈ Finset.range gri30.chemistry.nsp, halfHalf k * gri30.chemistry.cpSlopeTerms 2000 k = U at *
  generalize gri30.chemistry.meanCp 2000 halfHalf = m at *
  have term : ∀ i, i < 53 → |net i| = 1 → 0 < cpOverR ((gri30.fit i).at (2000 : ℝ)) (2000 : ℝ) →
      0 ≤ gri30.chemistry.enthalpyTerms 2000 i * (gri30.chemistry.dYdtTerms 2000 p halfHalf i / 2000) / m +
        gri30.chemistry.cp 2000 i * gri30.chemistry.dYdtTerms 2000 p halfHalf i / m +
        gri30.chemistry.enthalpyTerms 2000 i * gri30.chemistry.dYdtTerms 2000 p halfHalf i * U / m ^ 2 ∧
      gri30.chemistry.enthalpyTerms 2000 i * (gri30.chemistry.dYdtTerms 2000 p halfHalf i / 2000) / m +
        gri30.chemistry.cp 2000 i * gri30.chemistry.dYdtTerms 2000 p halfHalf i / m +
        gri30.chemistry.enthalpyTerms 2000 i * gri30.chemistry.dYdtTerms 2000 p halfHalf i * U / m ^ 2 ≤
      gasR * (c / 2000) / m * (3 * hTerms ((gri30.fit i).at (2000 : ℝ)) (2000 : ℝ) / 2000 + cpOverR ((gri30.fit i).at (2000 : ℝ)) (2000 : ℝ)) := by
    intro i hi h0 hcpi
    rw [(hr 2000 (by norm_num) i).2.1, h0, one_mul, hcp]
    unfold Chemistry.enthalpyTerms
    rw [show gri30.chemistry.fit i = gri30.fit i from rfl]
    have hH : 0 ≤ hTerms ((gri30.fit i).at (2000 : ℝ)) (2000 : ℝ) := by unfold hTerms; positivity
    have hwi := hw i hi
    generalize hTerms ((gri30.fit i).at (2000 : ℝ)) (2000 : ℝ) = H at *
    generalize cpOverR ((gri30.fit i).at (2000 : ℝ)) (2000 : ℝ) = q at *
    generalize gri30.chemistry.weight i = W at *
    have hUm : U / m ≤ 1 / 1000 := by rw [div_le_iff₀ hm0]; linarith
    have e : gasR / W * H * (W * (c / 2000) / 2000) / m + gasR / W * q * (W * (c / 2000)) / m + gasR / W * H * (W * (c / 2000)) * U / m ^ 2 =
        gasR * (c / 2000) / m * (H / 2000 + q + H * (U / m)) := by
      field_simp
    rw [e]
    refine ⟨by positivity, mul_le_mul_of_nonneg_left ?_ (by positivity)⟩
    have := mul_le_mul_of_nonneg_left hUm hH
    linarith
  have four := hsum.trans (sum_four fun i i1 i2 i3 i4 => by
    have : gri30.chemistry.dYdtTerms 2000 p halfHalf i = 0 := by
      rw [(hr 2000 (by norm_num) i).2.1, hnet, if_neg (by omega), if_neg (by omega)]
      simp
    rw [this]
    ring)
  obtain ⟨a1, b1⟩ := term 1 (by decide) (by rw [hnet, if_pos (by omega)]; norm_num) p1
  obtain ⟨a30, b30⟩ := term 30 (by decide) (by rw [hnet, if_neg (by omega), if_pos (by omega)]; norm_num) p30
  obtain ⟨a31, b31⟩ := term 31 (by decide) (by rw [hnet, if_neg (by omega), if_pos (by omega)]; norm_num) p31
  obtain ⟨a52, b52⟩ := term 52 (by decide) (by rw [hnet, if_pos (by omega)]; norm_num) p52
  have num := nitrogen_numbers
  have w52 := hw 52 (by decide)
  refine ⟨by rw [four]; linarith, ?_⟩
  have e : (dN - d') * gri30.chemistry.enthalpy 2000 52 / m = -(gasR * (c / 2000) / m * (hOverR ((gri30.fit 52).at (2000 : ℝ)) (2000 : ℝ) / 2000)) := by
    rw [hdN, hd', sub_zero]
    unfold Chemistry.enthalpy
    rw [show gri30.chemistry.fit 52 = gri30.fit 52 from rfl]
    field_simp
  rw [e, abs_neg]
  refine lt_of_lt_of_le ?_ (le_abs_self _)
  have hk : 0 < gasR * (c / 2000) / m := by positivity
  have num' := mul_lt_mul_of_pos_left num hk
  generalize gasR * (c / 2000) / m = k at *
  rw [four]
  linarith

end DLB
