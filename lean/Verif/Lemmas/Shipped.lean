import Verif.Lemmas.CheckDrm19
import Verif.Lemmas.CheckGri30
import Verif.Lemmas.CheckYao
import Mathlib.Algebra.Order.Field.Basic
import Mathlib.Algebra.Order.AbsoluteValue.Basic
import Mathlib.Algebra.BigOperators.Field
import Mathlib.Data.List.GetD
import Mathlib.Tactic.Linarith
/-
Consequences of the checks of the shipped mechanisms.
-/
set_option autoImplicit false
set_option linter.unusedSectionVars false

namespace DLB

theorem checked_of_shipped {D : Package} (h : D ∈ shipped) : Checked D := by
  simp only [shipped, List.mem_cons, List.not_mem_nil, or_false] at h
  rcases h with rfl | rfl | rfl
  · exact drm19_checked
  · exact gri30_checked
  · exact yao_checked

section
variable {K : Type} [Field K] [LinearOrder K] [IsStrictOrderedRing K]

theorem weightOk_sound {mw5 : Nat} {w : Dec} (h : weightOk mw5 w = true) :
    0 < mw5 ∧ |(Dec.val w : K) - (mw5 : K) / 10 ^ 5| ≤ (mw5 : K) / 10 ^ 5 / 10 ^ 15 := by
  simp only [weightOk, Bool.and_eq_true, decide_eq_true_eq] at h
  obtain ⟨h0, h⟩ := h
  refine ⟨h0, ?_⟩
  have h' : |((w.1 : K) * 10 ^ 5 - (mw5 : K) * 10 ^ w.2)| * 10 ^ 15 ≤ (mw5 : K) * 10 ^ w.2 := by
    have : (((((w.1 * 10 ^ 5 : Nat) : Int) - ((mw5 * 10 ^ w.2 : Nat) : Int)).natAbs * 10 ^ 15 : Nat) : K) ≤
        ((mw5 * 10 ^ w.2 : Nat) : K) := by exact_mod_cast h
    rw [Nat.cast_mul, Nat.cast_natAbs] at this
    push_cast at this
    norm_num at this ⊢
    exact this
  have p : (0 : K) < 10 ^ w.2 := by positivity
  have e : (Dec.val w : K) - (mw5 : K) / 10 ^ 5 = ((w.1 : K) * 10 ^ 5 - (mw5 : K) * 10 ^ w.2) / (10 ^ w.2 * 10 ^ 5) := by
    unfold Dec.val
    field_simp
  rw [e, abs_div, abs_of_pos (by positivity : (0 : K) < 10 ^ w.2 * 10 ^ 5), div_le_iff₀ (by positivity)]
  have e2 : (mw5 : K) / 10 ^ 5 / 10 ^ 15 * (10 ^ w.2 * 10 ^ 5) = (mw5 : K) * 10 ^ w.2 / 10 ^ 15 := by
    field_simp
  rw [e2, le_div_iff₀ (by positivity)]
  exact h'

theorem recipOk_sound {mw5 : Nat} {r : Dec} (h : recipOk mw5 r = true) :
    |(Dec.val r : K) * ((mw5 : K) / 10 ^ 5) - 1| ≤ 1 / 10 ^ 15 := by
  simp only [recipOk, decide_eq_true_eq] at h
  have h' : |((r.1 : K) * mw5 - 10 ^ 5 * 10 ^ r.2)| * 10 ^ 15 ≤ (10 : K) ^ 5 * 10 ^ r.2 := by
    have : (((((r.1 * mw5 : Nat) : Int) - ((10 ^ 5 * 10 ^ r.2 : Nat) : Int)).natAbs * 10 ^ 15 : Nat) : K) ≤
        ((10 ^ 5 * 10 ^ r.2 : Nat) : K) := by exact_mod_cast h
    rw [Nat.cast_mul, Nat.cast_natAbs] at this
    push_cast at this
    norm_num at this ⊢
    exact this
  have p : (0 : K) < 10 ^ r.2 := by positivity
  have e : (Dec.val r : K) * ((mw5 : K) / 10 ^ 5) - 1 = ((r.1 : K) * mw5 - 10 ^ 5 * 10 ^ r.2) / (10 ^ 5 * 10 ^ r.2) := by
    unfold Dec.val
    field_simp
  rw [e, abs_div, abs_of_pos (by positivity : (0 : K) < 10 ^ 5 * 10 ^ r.2), div_le_iff₀ (by positivity)]
  rw [div_mul_eq_mul_div, le_div_iff₀ (by positivity), one_mul]
  exact h'

theorem close_pos {D : Package} {w r : Nat → K} (h : CloseWeights D w r) (hp : ∀ i, i < D.nsp → (0 : K) < D.molWeight i)
    (i : Nat) (hi : i < D.nsp) : 0 < w i ∧ 0 < r i := by
  obtain ⟨h1, h2⟩ := h i hi
  have hW := hp i hi
  constructor
  · have := (abs_le.1 h1).1
    have hlt : (D.molWeight i : K) / 10 ^ 15 < D.molWeight i := by
      rw [div_lt_iff₀ (by positivity)]
      have : (1 : K) < 10 ^ 15 := by norm_num
      nlinarith
    linarith
  · have := (abs_le.1 h2).1
    have hlt : (1 : K) / 10 ^ 15 < 1 := by norm_num
    have : 0 < r i * D.molWeight i := by linarith
    exact pos_of_mul_pos_left this hW.le

theorem molWeight_pos {D : Package} (h : Checked D) (i : Nat) (hi : i < D.nsp) : (0 : K) < D.molWeight i := by
  have := List.all_eq_true.1 h.weights i (List.mem_range.2 hi)
  simp only [Bool.and_eq_true] at this
  have h0 := (weightOk_sound (K := K) this.1.1.1).1
  unfold Package.molWeight
  have : (0 : K) < D.weight5 i := by exact_mod_cast h0
  positivity

theorem close_literals {D : Package} (h : Checked D) :
    CloseWeights D (fun i => (Dec.val (nth D.mech.weights i) : K)) (fun i => Dec.val (nth D.mech.recips i)) := by
  intro i hi
  have := List.all_eq_true.1 h.weights i (List.mem_range.2 hi)
  simp only [Bool.and_eq_true] at this
  exact ⟨(weightOk_sound this.1.1.1).2, recipOk_sound this.1.2⟩

theorem nsp_pos {D : Package} (h : Checked D) : 0 < D.nsp := by
  have := h.sizes
  simp only [checkSizes, Bool.and_eq_true, decide_eq_true_eq] at this
  exact this.1.1.1

theorem balance_sound {D : Package} (h : Checked D) :
    ∀ r ∈ D.reactions, (∀ s ∈ r.reactants, s < D.nsp) ∧ (∀ s ∈ r.products, s < D.nsp) ∧
      ∀ e, e < D.elements.length → (r.products.map fun s => (D.atomCount s e : K)).sum =
        (r.reactants.map fun s => (D.atomCount s e : K)).sum := by
  intro r hr
  have := List.all_eq_true.1 h.balance r hr
  simp only [Bool.and_eq_true, List.all_eq_true, decide_eq_true_eq, List.mem_range] at this
  refine ⟨this.1.1, this.1.2, fun e he => ?_⟩
  have h3 := this.2 e he
  have cast : ∀ l : List Nat, (((l.map fun s => D.atomCount s e).sum : Nat) : K) =
      (l.map fun s => (D.atomCount s e : K)).sum := by
    intro l
    induction l with
    | nil => simp
    | cons a l ih => simp [ih]
  rw [← cast, ← cast, h3]

theorem elements_conserved {D : Package} (h : Checked D) (fwd rev pm : Nat → K) (e : Nat)
    (he : e < D.elements.length) :
    ∑ s ∈ Finset.range D.nsp, (D.atomCount s e : K) * productionRate D.reactions fwd rev pm s = 0 :=
  production_conserves D.nsp D.reactions _ (fun r hr => by
    obtain ⟨h1, h2, h3⟩ := balance_sound (K := K) h r hr
    exact ⟨h1, h2, h3 e he⟩) fwd rev pm

theorem zipWith_sum (as : List Nat) (es : List String) (f : String → Nat) (h : as.length = es.length) :
    (List.zipWith (fun a e => a * f e) as es).sum =
      ∑ e ∈ Finset.range es.length, as.getD e 0 * f (es.getD e "") := by
  induction es generalizing as with
  | nil =>
    cases as with
    | nil => rfl
    | cons => simp at h
  | cons x es ih =>
    cases as with
    | nil => simp at h
    | cons a as =>
      simp only [List.length_cons, Nat.add_right_cancel_iff] at h
      simp only [List.zipWith_cons_cons, List.sum_cons, List.length_cons, Finset.sum_range_succ']
      rw [ih as h]
      simp only [List.getD_cons_succ, List.getD_cons_zero]
      exact Nat.add_comm _ _

theorem weight_sum {D : Package} (h : Checked D) (s : Nat) (hs : s < D.nsp) :
    (D.molWeight s : K) =
      ∑ e ∈ Finset.range D.elements.length, (D.atomCount s e : K) * ((atomicWeight5 (D.elements.getD e "") : K) / 10 ^ 5) := by
  have hn := h.names
  simp only [checkNames, Bool.and_eq_true, decide_eq_true_eq, List.all_eq_true] at hn
  obtain ⟨⟨⟨-, hl⟩, ha⟩, -⟩ := hn
  have hlen : (D.atoms.getD s []).length = D.elements.length := by
    have hs' : s < D.atoms.length := by rw [hl]; exact hs
    rw [List.getD_eq_getElem _ _ hs']
    exact ha _ (List.getElem_mem hs')
  unfold Package.molWeight Package.weight5 molWeight5
  rw [zipWith_sum _ _ _ hlen]
  push_cast
  rw [Finset.sum_div]
  refine Finset.sum_congr rfl fun e _ => ?_
  unfold Package.atomCount
  ring

theorem mass_conserved {D : Package} (h : Checked D) (fwd rev pm : Nat → K) :
    ∑ s ∈ Finset.range D.nsp, D.molWeight s * productionRate D.reactions fwd rev pm s = 0 := by
  have : ∀ s ∈ Finset.range D.nsp, (D.molWeight s : K) * productionRate D.reactions fwd rev pm s =
      ∑ e ∈ Finset.range D.elements.length, ((atomicWeight5 (D.elements.getD e "") : K) / 10 ^ 5) *
        ((D.atomCount s e : K) * productionRate D.reactions fwd rev pm s) := by
    intro s hs
    rw [weight_sum h s (Finset.mem_range.1 hs), Finset.sum_mul]
    exact Finset.sum_congr rfl fun e _ => by ring
  rw [Finset.sum_congr rfl this, Finset.sum_comm]
  refine Finset.sum_eq_zero fun e he => ?_
  rw [← Finset.mul_sum, elements_conserved h fwd rev pm e (Finset.mem_range.1 he), mul_zero]

theorem mass_conserved_literals {D : Package} (h : Checked D) {w r : Nat → K} (hw : CloseWeights D w r)
    (fwd rev pm : Nat → K) :
    |∑ s ∈ Finset.range D.nsp, w s * productionRate D.reactions fwd rev pm s| ≤
      (∑ s ∈ Finset.range D.nsp, D.molWeight s * |productionRate D.reactions fwd rev pm s|) / 10 ^ 15 := by
  have e : ∑ s ∈ Finset.range D.nsp, w s * productionRate D.reactions fwd rev pm s =
      ∑ s ∈ Finset.range D.nsp, (w s - D.molWeight s) * productionRate D.reactions fwd rev pm s := by
    rw [← sub_zero (∑ s ∈ Finset.range D.nsp, w s * _), ← mass_conserved h fwd rev pm, ← Finset.sum_sub_distrib]
    exact Finset.sum_congr rfl fun s _ => by ring
  rw [e, Finset.sum_div]
  refine (Finset.abs_sum_le_sum_abs _ _).trans (Finset.sum_le_sum fun s hs => ?_)
  rw [abs_mul, mul_div_right_comm]
  exact mul_le_mul_of_nonneg_right (hw s (Finset.mem_range.1 hs)).1 (abs_nonneg _)

theorem heat_sum {D : Package} (h : Checked D) (fwd rev pm : Nat → K) (g : Nat → K) :
    (D.mech.heatSpecies.map fun i => productionRate D.reactions fwd rev pm i * g i).sum =
      ∑ i ∈ Finset.range D.nsp, productionRate D.reactions fwd rev pm i * g i := by
  have hh := h.heat
  simp only [checkHeat, Bool.and_eq_true, decide_eq_true_eq, List.all_eq_true, Bool.or_eq_true,
    List.contains_iff_mem, List.mem_range] at hh
  obtain ⟨⟨h1, h2⟩, h3⟩ := hh
  rw [← List.sum_toFinset _ h1]
  refine Finset.sum_subset ?_ ?_
  · intro i hi
    exact Finset.mem_range.2 (h2 i (List.mem_toFinset.1 hi))
  · intro i hi hni
    have : productionRate D.reactions fwd rev pm i = 0 := by
      rcases h3 i (Finset.mem_range.1 hi) with h' | h'
      · exact absurd (List.mem_toFinset.2 h') hni
      · unfold productionRate
        refine List.sum_eq_zero fun x hx => ?_
        obtain ⟨n, hn, rfl⟩ := List.mem_map.1 hx
        rw [h' n.r (mem_numberFrom D.reactions 0 0 0 n hn)]
        simp
    rw [this, zero_mul]

variable [CMath K]

/-- Everything about `dydt`, with the rates and factors as the calls compute them. -/
theorem dydt_full {D : Package} (h : Checked D) (L : CMathLaws K) (pres : K) (y : Nat → K) (hT : 0 < y 0) (hp : 0 < pres)
    (hY : ∀ i, i < D.nsp → 0 ≤ complement (D.nsp - 1) (fun i => y (i + 1)) i) :
    let Y := complement (D.nsp - 1) fun i => y (i + 1)
    let w := fun i => (Dec.val (nth D.mech.weights i) : K)
    let r := fun i => (Dec.val (nth D.mech.recips i) : K)
    ∃ (σ σcp σh : CMem K) (ρ : K) (C fwd rev pm cp enth : Nat → K),
      D.mech.callDydt pres y = some σ ∧
      0 < ρ ∧ ρ = pres / (gasR * y 0 * ∑ i ∈ Finset.range D.nsp, Y i * r i) ∧
      (∀ i, i < D.nsp → C i = ρ * Y i * r i) ∧
      ∑ i ∈ Finset.range D.nsp, C i = pres / (gasR * y 0) ∧
      RatesAt D.reactions D.nsp C fwd rev pm ∧
      (∀ m ∈ number D.reactions,
        fwd m.k = execT (D.mech.rateStart ++ D.mech.rateBlocks.flatten) (inT (y 0) pres C) (.arr .fwd m.k) ∧
        (m.r.reversible = true →
          rev m.j = execT (D.mech.rateStart ++ D.mech.rateBlocks.flatten) (inT (y 0) pres C) (.arr .rev m.j)) ∧
        (m.r.modified = true →
          pm m.p = execT (D.mech.presModStart ++ D.mech.presModBlocks.flatten) (inT (y 0) pres C) (.arr .presMod m.p))) ∧
      D.mech.callCp (y 0) = some σcp ∧ (∀ i, i < D.nsp → σcp (.arr .cp i) = some (cp i)) ∧
      D.mech.callH (y 0) = some σh ∧ (∀ i, i < D.nsp → σh (.arr .h i) = some (enth i)) ∧
      (∀ i, i < D.nsp - 1 → σ (.arr .dy (i + 1)) = some (productionRate D.reactions fwd rev pm i * w i / ρ)) ∧
      σ (.arr .dy 0) = some (-(∑ i ∈ Finset.range D.nsp, enth i * w i * productionRate D.reactions fwd rev pm i) /
        (ρ * ∑ i ∈ Finset.range D.nsp, cp i * Y i)) := by
  intro Y w r
  obtain ⟨n, hn⟩ : ∃ n, D.nsp = n + 1 := ⟨D.nsp - 1, by have := nsp_pos h; omega⟩
  have hn1 : D.nsp - 1 = n := by omega
  have hnm : D.mech.nsp = n + 1 := hn
  have ht := h.templates
  simp only [checkTemplates, Bool.and_eq_true, decide_eq_true_eq] at ht
  obtain ⟨⟨⟨⟨⟨⟨⟨tc, -⟩, -⟩, -⟩, tcp⟩, td⟩, -⟩, -⟩ := ht
  obtain ⟨σ, e, ⟨σc, σr, σp, σs, σcp, σh, C0, F, R, P, ω, cp, enth, yN, rho, ec, er, ep, es, ecp, eh, c1, c2, c3, hF, hR,
    hP, hω, hcp, henth, hdy⟩⟩ := dydt_call (rs := D.reactions) h.sizes h.rates h.ratesSafe h.presMod h.presSafe h.spec
      h.specSafe h.thermoSafe pres y
  have hpos : ∀ i, i < D.nsp → 0 < w i ∧ 0 < r i := fun i hi =>
    close_pos (close_literals h) (fun i hi => molWeight_pos h i hi) i hi
  -- concentrations
  obtain ⟨σc', ec', c1', c2', c3'⟩ := evalConc_call h.thermoSafe (y 0) pres (fun i => some (y (i + 1)))
    (fun i => y (i + 1)) (fun i _ => rfl)
  rw [ec] at ec'
  obtain rfl := Option.some.inj ec'
  obtain ⟨v1, v2, v3⟩ := evalConcT_val n D.mech.recips (inT (y 0) pres (fun i => y (i + 1)))
  rw [tc, hn1] at c1' c2' c3'
  have hYe : complement n (fun i => inT (y 0) pres (fun i => y (i + 1)) (.arr .y i)) = Y := by
    simp only [Y, hn1]
    rfl
  rw [hYe] at v1 v2 v3
  have hsum1 : ∑ i ∈ Finset.range D.nsp, Y i = 1 := by
    have := complement_sum n (fun i => y (i + 1))
    rw [hn]
    simpa only [Y, hn1] using this
  have hmw : 0 < ∑ i ∈ Finset.range D.nsp, Y i * r i := by
    have hnn : ∀ i ∈ Finset.range D.nsp, 0 ≤ Y i * r i := fun i hi =>
      mul_nonneg (hY i (Finset.mem_range.1 hi)) (hpos i (Finset.mem_range.1 hi)).2.le
    rcases (Finset.sum_nonneg hnn).lt_or_eq with h' | h'
    · exact h'
    · exfalso
      have hz := (Finset.sum_eq_zero_iff_of_nonneg hnn).1 h'.symm
      have : ∑ i ∈ Finset.range D.nsp, Y i = 0 := Finset.sum_eq_zero fun i hi =>
        (mul_eq_zero.1 (hz i hi)).resolve_right (hpos i (Finset.mem_range.1 hi)).2.ne'
      rw [hsum1] at this
      exact one_ne_zero this
  have hR0 : (0 : K) < gasR := by unfold gasR; positivity
  have hrho : rho = pres / (gasR * y 0 * ∑ i ∈ Finset.range D.nsp, Y i * r i) := by
    have := Option.some.inj (c3.symm.trans c3')
    rw [this, v2]
    simp only [inT, hn]
    rw [hn] at hmw
    have h2 : ∑ i ∈ Finset.range (n + 1), Y i * (Dec.val (nth D.mech.recips i) : K) ≠ 0 := hmw.ne'
    show pres * (1 / ∑ i ∈ Finset.range (n + 1), Y i * (Dec.val (nth D.mech.recips i) : K)) / (gasR * y 0) =
      pres / (gasR * y 0 * ∑ i ∈ Finset.range (n + 1), Y i * (Dec.val (nth D.mech.recips i) : K))
    field_simp
  have hrho0 : 0 < rho := by rw [hrho]; positivity
  have hyN : yN = Y n := by
    have := Option.some.inj (c2.symm.trans c2')
    rw [this, v1]
  have hrho' : rho = inT (y 0) pres (fun i => y (i + 1)) (.var .pres) * (1 / ∑ i ∈ Finset.range (n + 1), Y i * Dec.val (nth D.mech.recips i)) /
      (gasR * inT (y 0) pres (fun i => y (i + 1)) (.var .T)) := by
    rw [← v2]
    exact Option.some.inj (c3.symm.trans c3')
  have hC : ∀ i, i < D.nsp → C0 i = rho * Y i * r i := by
    intro i hi
    have := Option.some.inj ((c1 i hi).symm.trans (c1' i hi))
    rw [this, v3 i (by omega), ← hrho']
  have hCsum : ∑ i ∈ Finset.range D.nsp, C0 i = pres / (gasR * y 0) := by
    rw [Finset.sum_congr rfl fun i hi => hC i (Finset.mem_range.1 hi)]
    have : ∑ i ∈ Finset.range D.nsp, rho * Y i * r i = rho * ∑ i ∈ Finset.range D.nsp, Y i * r i := by
      rw [Finset.mul_sum]
      exact Finset.sum_congr rfl fun i _ => by ring
    rw [this, hrho]
    have := hmw.ne'
    field_simp
  -- rates
  have hsz := h.sizes
  simp only [checkSizes, Bool.and_eq_true, decide_eq_true_eq] at hsz
  obtain ⟨⟨⟨-, z1⟩, z2⟩, z3⟩ := hsz
  have num_lt : ∀ (rs : List Reaction) (k j p : Nat), ∀ n ∈ numberFrom rs k j p, n.k < k + rs.length ∧
      (n.r.reversible = true → n.j < j + rs.countP (·.reversible)) ∧
      (n.r.modified = true → n.p < p + rs.countP (·.modified)) := by
    intro rs
    induction rs with
    | nil => intro k j p n hn; exact absurd hn (by simp [numberFrom])
    | cons r rs ih =>
      intro k j p n hn
      rw [numberFrom, List.mem_cons] at hn
      simp only [List.length_cons, List.countP_cons]
      rcases hn with rfl | hn
      · dsimp only
        refine ⟨by omega, fun h => ?_, fun h => ?_⟩ <;> simp only [h, if_true] <;> omega
      · obtain ⟨h1, h2, h3⟩ := ih _ _ _ n hn
        refine ⟨by omega, fun h => ?_, fun h => ?_⟩
        · have := h2 h
          split at this <;> split <;> simp_all <;> omega
        · have := h3 h
          split at this <;> split <;> simp_all <;> omega
  obtain ⟨σr', er', r1⟩ := rxnRates_call h.rates h.ratesSafe (y 0) pres (fun i => σc (.arr .C i)) C0 c1
  rw [er] at er'
  obtain rfl := Option.some.inj er'
  obtain ⟨σp', ep', p1⟩ := presMod_call h.presMod h.presSafe (y 0) pres (fun i => σc (.arr .C i)) C0 c1
  rw [ep] at ep'
  obtain rfl := Option.some.inj ep'
  have hma := rates_massAction L h.rates (y 0) pres
  have hpf := pres_factor L h.presMod (y 0) pres
  have hrates : RatesAt D.reactions D.nsp C0 F R P := by
    refine ⟨fun m hm => ?_, fun m hm hr => ?_, fun m hm eff hk => ?_, fun m hm eff hk => ?_⟩
    · obtain ⟨kf, kp, ek⟩ := (hma m hm).1
      have hlt := (num_lt _ _ _ _ m hm).1
      have := Option.some.inj ((hF m.k (by omega)).symm.trans (r1 m hm).1)
      exact ⟨kf, kp, this.trans (ek C0)⟩
    · obtain ⟨kf, kp, ek⟩ := (hma m hm).2 hr
      have hlt := (num_lt _ _ _ _ m hm).2.1 hr
      have := Option.some.inj ((hR m.j (by omega)).symm.trans ((r1 m hm).2 hr))
      exact ⟨kf, kp, this.trans (ek C0)⟩
    · have hmod : m.r.modified = true := by simp [Reaction.modified, hk]
      have hlt := (num_lt _ _ _ _ m hm).2.2 hmod
      have := Option.some.inj ((hP m.p (by omega)).symm.trans (p1 m hm hmod))
      have hf := hpf m hm
      rw [hk] at hf
      exact this.trans (hf C0 hCsum)
    · have hmod : m.r.modified = true := by simp [Reaction.modified, hk]
      have hlt := (num_lt _ _ _ _ m hm).2.2 hmod
      have := Option.some.inj ((hP m.p (by omega)).symm.trans (p1 m hm hmod))
      have hf := hpf m hm
      rw [hk] at hf
      obtain ⟨κ, kp, G, Gp, eG⟩ := hf
      exact ⟨κ, G C0, kp, Gp C0, this.trans (eG C0 hCsum)⟩
  have hexec : ∀ m ∈ number D.reactions,
      F m.k = execT (D.mech.rateStart ++ D.mech.rateBlocks.flatten) (inT (y 0) pres C0) (.arr .fwd m.k) ∧
      (m.r.reversible = true →
        R m.j = execT (D.mech.rateStart ++ D.mech.rateBlocks.flatten) (inT (y 0) pres C0) (.arr .rev m.j)) ∧
      (m.r.modified = true →
        P m.p = execT (D.mech.presModStart ++ D.mech.presModBlocks.flatten) (inT (y 0) pres C0) (.arr .presMod m.p)) := by
    intro m hm
    obtain ⟨l1, l2, l3⟩ := num_lt _ _ _ _ m hm
    refine ⟨Option.some.inj ((hF m.k (by omega)).symm.trans (r1 m hm).1), fun hr => ?_, fun hmod => ?_⟩
    · have := l2 hr
      exact Option.some.inj ((hR m.j (by omega)).symm.trans ((r1 m hm).2 hr))
    · have := l3 hmod
      exact Option.some.inj ((hP m.p (by omega)).symm.trans (p1 m hm hmod))
  have hωv : ∀ s, s < D.nsp → ω s = productionRate D.reactions F R P s := by
    intro s hs
    obtain ⟨σs', es', s1⟩ := specRates_call h.spec h.specSafe (y 0) _ _ _ F R P hF hR hP
    rw [es] at es'
    obtain rfl := Option.some.inj es'
    have := Option.some.inj ((hω s hs).symm.trans (s1 s hs))
    rw [this, checkSpec_sound h.spec _ hs]
    rfl
  refine ⟨σ, σcp, σh, rho, C0, F, R, P, cp, enth, e, hrho0, hrho, hC, hCsum, hrates, hexec, ecp, hcp, eh, henth, ?_, ?_⟩
  · intro i hi
    rw [hdy (i + 1) (by omega), tcp, td, hn1]
    obtain ⟨-, d2⟩ := dydtT_val n D.mech.weights D.mech.heatSpecies
      (inDydt (y 0) y yN rho (ω (D.mech.nsp - 1)) ω cp enth)
    rw [hn1] at d2
    rw [d2 i (by omega)]
    simp only [inDydt]
    rw [hωv i (by omega), mul_div_assoc]
  · rw [hdy 0 (by omega), tcp, td, hn1]
    obtain ⟨d1, -⟩ := dydtT_val n D.mech.weights D.mech.heatSpecies
      (inDydt (y 0) y yN rho (ω (D.mech.nsp - 1)) ω cp enth)
    rw [hn1] at d1
    rw [d1]
    have hcpm : (∑ i ∈ Finset.range n, inDydt (y 0) y yN rho (ω n) ω cp enth (.arr .cp i) *
        inDydt (y 0) y yN rho (ω n) ω cp enth (.arr .y (i + 1))) +
        inDydt (y 0) y yN rho (ω n) ω cp enth (.arr .cp n) * inDydt (y 0) y yN rho (ω n) ω cp enth (.var .yN) =
        ∑ i ∈ Finset.range D.nsp, cp i * Y i := by
      rw [hn, Finset.sum_range_succ]
      simp only [inDydt, hyN]
      congr 1
      refine Finset.sum_congr rfl fun i hi => ?_
      have := Finset.mem_range.1 hi
      simp only [Y, hn1, complement, if_neg (by omega : ¬ i = n)]
    rw [hcpm]
    have hheat : (D.mech.heatSpecies.map fun i => (if i = n then inDydt (y 0) y yN rho (ω n) ω cp enth (.var .dyN)
        else inDydt (y 0) y yN rho (ω n) ω cp enth (.arr .dy (i + 1))) *
        inDydt (y 0) y yN rho (ω n) ω cp enth (.arr .h i) * Dec.val (nth D.mech.weights i)) =
        D.mech.heatSpecies.map fun i => productionRate D.reactions F R P i * (enth i * w i) := by
      refine List.map_congr_left fun i hi => ?_
      have hh := h.heat
      simp only [checkHeat, Bool.and_eq_true, decide_eq_true_eq, List.all_eq_true] at hh
      have hlt := hh.1.2 i hi
      rw [← hωv i hlt]
      by_cases hin : i = n
      · simp only [hin, if_true, inDydt, w]; ring
      · simp only [hin, if_false, inDydt, w]; ring
    rw [hheat, heat_sum h F R P fun i => enth i * w i]
    simp only [inDydt]
    congr 1
    have : ∑ i ∈ Finset.range D.nsp, productionRate D.reactions F R P i * (enth i * w i) =
        ∑ i ∈ Finset.range D.nsp, enth i * w i * productionRate D.reactions F R P i :=
      Finset.sum_congr rfl fun i _ => by ring
    rw [this]
    ring

/-- Everything about `dydt`. -/
theorem dydt_spec {D : Package} (h : Checked D) (L : CMathLaws K) (pres : K) (y : Nat → K) (hT : 0 < y 0) (hp : 0 < pres)
    (hY : ∀ i, i < D.nsp → 0 ≤ complement (D.nsp - 1) (fun i => y (i + 1)) i) :
    let Y := complement (D.nsp - 1) fun i => y (i + 1)
    let w := fun i => (Dec.val (nth D.mech.weights i) : K)
    let r := fun i => (Dec.val (nth D.mech.recips i) : K)
    ∃ (σ σcp σh : CMem K) (ρ : K) (C fwd rev pm cp enth : Nat → K),
      D.mech.callDydt pres y = some σ ∧
      0 < ρ ∧ ρ = pres / (gasR * y 0 * ∑ i ∈ Finset.range D.nsp, Y i * r i) ∧
      (∀ i, i < D.nsp → C i = ρ * Y i * r i) ∧
      ∑ i ∈ Finset.range D.nsp, C i = pres / (gasR * y 0) ∧
      RatesAt D.reactions D.nsp C fwd rev pm ∧
      D.mech.callCp (y 0) = some σcp ∧ (∀ i, i < D.nsp → σcp (.arr .cp i) = some (cp i)) ∧
      D.mech.callH (y 0) = some σh ∧ (∀ i, i < D.nsp → σh (.arr .h i) = some (enth i)) ∧
      (∀ i, i < D.nsp - 1 → σ (.arr .dy (i + 1)) = some (productionRate D.reactions fwd rev pm i * w i / ρ)) ∧
      σ (.arr .dy 0) = some (-(∑ i ∈ Finset.range D.nsp, enth i * w i * productionRate D.reactions fwd rev pm i) /
        (ρ * ∑ i ∈ Finset.range D.nsp, cp i * Y i)) := by
  intro Y w r
  obtain ⟨σ, σcp, σh, ρ, C, F, R, P, cp, enth, h1, h2, h3, h4, h5, h6, -, h7⟩ := dydt_full h L pres y hT hp hY
  exact ⟨σ, σcp, σh, ρ, C, F, R, P, cp, enth, h1, h2, h3, h4, h5, h6, h7⟩

end
end DLB
