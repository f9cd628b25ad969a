import Verif.Lemmas.MechCalls
import Mathlib.Algebra.Order.BigOperators.Group.Finset
import Mathlib.Algebra.Order.BigOperators.Ring.Finset
import Mathlib.Algebra.Order.BigOperators.Group.List
import Mathlib.Algebra.Order.BigOperators.Ring.List
/-
Mass action, conservation and positivity for a mechanism that passes the checks, over a linearly ordered field.
-/
set_option autoImplicit false
set_option linter.unusedSectionVars false

namespace DLB

section
variable {K : Type} [Field K] [LinearOrder K] [IsStrictOrderedRing K] [CMath K]
variable {M : Mech} {rs : List Reaction}

/-- eval_rxn_rates obeys the law of mass action. -/
theorem rates_massAction (L : CMathLaws K) (h : checkRates M rs = true) (T pres : K) :
    ∀ n ∈ number rs,
      (∃ kf, 0 < kf ∧ ∀ C : Nat → K, execT (M.rateStart ++ M.rateBlocks.flatten) (inT T pres C) (.arr .fwd n.k) =
        kf * (n.r.reactants.map C).prod) ∧
      (n.r.reversible = true → ∃ kr, 0 < kr ∧ ∀ C : Nat → K,
        execT (M.rateStart ++ M.rateBlocks.flatten) (inT T pres C) (.arr .rev n.j) =
          kr * (n.r.products.map C).prod) := by
  have hstart := rates_start h
  have hok : ratesOk M.rateBlocks (number rs) = true := by
    simp only [checkRates, Bool.and_eq_true] at h
    exact h.2
  intro n hn
  have hC : ∀ i (C : Nat → K), execF M.rateStart (fun l C => inT T pres C l) (.arr .C i) C = C i := by
    intro i C
    rw [hstart, execF_set, if_neg (by simp)]
    rfl
  have hμ : AMem.Sound T [] (execF M.rateStart (fun l C => inT T pres C l)) := by
    intro l
    rw [hstart, execF_set]
    show (baseAV l).holds _ _
    unfold baseAV
    split
    · exact ⟨T, fun C => rfl⟩
    · exact ⟨pres, fun C => rfl⟩
    · exact ⟨CMath.log T, fun C => rfl⟩
    · intro C
      rw [if_neg (by simp)]
      simp [inT, linVal]
    · refine ⟨1, one_pos, fun C => ?_⟩
      rw [if_neg (by simp)]
      simp [inT]
    · trivial
  obtain ⟨h1, h2⟩ := rates_sound L M.rateBlocks rs 0 0 0 hok hμ hC n hn
  have e : ∀ l C, execT (M.rateStart ++ M.rateBlocks.flatten) (inT T pres C) l =
      execF M.rateBlocks.flatten (execF M.rateStart (fun l C => inT T pres C l)) l C := by
    intro l C
    rw [execT_append]
    rfl
  refine ⟨?_, fun hr => ?_⟩
  · obtain ⟨κ, p, hk⟩ := h1
    exact ⟨κ, p, fun C => (e _ C).trans (hk C)⟩
  · obtain ⟨κ, p, hk⟩ := h2 hr
    exact ⟨κ, p, fun C => (e _ C).trans (hk C)⟩

/-- What get_rxn_pres_mod computes. -/
theorem pres_factor (L : CMathLaws K) (h : checkPresMod M rs = true) (T pres : K) :
    ∀ n ∈ number rs, PressureFactor M.nsp (pres / (gasR * T)) n.r.kind
      fun C => execT (M.presModStart ++ M.presModBlocks.flatten) (inT T pres C) (.arr .presMod n.p) := by
  have hstart := pres_start h
  have hok : presOk M.nsp M.presModBlocks (number rs) = true := by
    simp only [checkPresMod, Bool.and_eq_true] at h
    exact h.2
  intro n hn
  have hst : ∀ l, execF M.presModStart (fun l C => inT T pres C l) l = fun C =>
      if l = .var .m then pres / (gasR * T) else if l = .var .logT then CMath.log T else inT T pres C l := by
    intro l
    rw [hstart, execF_cons, execF_set]
    funext C
    by_cases h1 : l = .var .m
    · subst h1
      rw [if_pos rfl, if_pos rfl]
      simp only [CExpr.evalT, evalT_gas]
      rw [execF_set, if_neg (by simp), execF_set, if_neg (by simp)]
      rfl
    · rw [if_neg h1, if_neg h1, execF_set]
      by_cases h2 : l = .var .logT
      · subst h2
        rw [if_pos rfl, if_pos rfl]
        rfl
      · rw [if_neg h2, if_neg h2]
  have hC : ∀ i (C : Nat → K), execF M.presModStart (fun l C => inT T pres C l) (.arr .C i) C = C i := by
    intro i C
    rw [hst]
    simp [inT]
  have hμ : AMem.Sound (pres / (gasR * T)) [] (execF M.presModStart (fun l C => inT T pres C l)) := by
    intro l
    rw [hst]
    show (baseAV l).holds _ _
    unfold baseAV
    split
    · exact ⟨T, fun C => by simp [inT]⟩
    · exact ⟨pres, fun C => by simp [inT]⟩
    · exact ⟨CMath.log T, fun C => by simp⟩
    · intro C
      simp [linVal]
    · refine ⟨1, one_pos, fun C => ?_⟩
      simp [inT]
    · trivial
  have h1 := pres_sound L M.nsp M.presModBlocks rs 0 0 0 hok hμ hC n hn
  have e : (fun C => execT (M.presModStart ++ M.presModBlocks.flatten) (inT T pres C) (.arr .presMod n.p)) =
      execF M.presModBlocks.flatten (execF M.presModStart (fun l C => inT T pres C l)) (.arr .presMod n.p) := by
    funext C
    rw [execT_append]
    rfl
  rw [e]
  unfold presSpec at h1
  unfold PressureFactor
  split
  · trivial
  · rename_i eff hk
    rw [hk] at h1
    obtain ⟨cs, hm, hl⟩ := h1
    intro C hsum
    rw [hl C]
    exact effMatches_sound hm C hsum.symm
  · rename_i eff hk
    rw [hk] at h1
    obtain ⟨cs, hm, κ, hκ, F, hF, hl⟩ := h1
    refine ⟨κ, hκ, F, hF, fun C hsum => ?_⟩
    rw [hl C, effMatches_sound hm C hsum.symm]

end

/-! ### Conservation -/

section conservation
variable {K : Type} [Field K]

theorem sum_count (nsp : Nat) (l : List Nat) (a : Nat → K) (hl : ∀ s ∈ l, s < nsp) :
    ∑ s ∈ Finset.range nsp, a s * (l.count s : K) = (l.map a).sum := by
  induction l with
  | nil => simp
  | cons x l ih =>
    simp only [List.map_cons, List.sum_cons]
    rw [← ih fun s hs => hl s (List.mem_cons_of_mem _ hs)]
    have : ∀ s, a s * ((x :: l).count s : K) = a s * (l.count s : K) + if s = x then a s else 0 := by
      intro s
      rw [List.count_cons]
      by_cases h : s = x
      · subst h; simp; ring
      · have : ¬ x = s := fun e => h e.symm
        simp [h, this]
    simp only [this, Finset.sum_add_distrib, Finset.sum_ite_eq']
    rw [if_pos (Finset.mem_range.2 (hl x List.mem_cons_self))]
    ring

theorem sum_net (nsp : Nat) (r : Reaction) (a : Nat → K) (h1 : ∀ s ∈ r.reactants, s < nsp)
    (h2 : ∀ s ∈ r.products, s < nsp) :
    ∑ s ∈ Finset.range nsp, a s * (r.net s : K) = (r.products.map a).sum - (r.reactants.map a).sum := by
  rw [← sum_count nsp _ a h1, ← sum_count nsp _ a h2, ← Finset.sum_sub_distrib]
  refine Finset.sum_congr rfl fun s _ => ?_
  simp only [Reaction.net]
  push_cast
  ring

theorem sum_weighted (nsp : Nat) (ns : List Numbered) (a : Nat → K) (q : Numbered → K) :
    ∑ s ∈ Finset.range nsp, a s * (ns.map fun n => (n.r.net s : K) * q n).sum =
      (ns.map fun n => (∑ s ∈ Finset.range nsp, a s * (n.r.net s : K)) * q n).sum := by
  induction ns with
  | nil => simp
  | cons n ns ih =>
    simp only [List.map_cons, List.sum_cons, mul_add, Finset.sum_add_distrib, ih, Finset.sum_mul]
    congr 1
    exact Finset.sum_congr rfl fun s _ => by ring

theorem mem_numberFrom (rs : List Reaction) (k j p : Nat) : ∀ n ∈ numberFrom rs k j p, n.r ∈ rs := by
  induction rs generalizing k j p with
  | nil => intro n hn; exact absurd hn (by simp [numberFrom])
  | cons r rs ih =>
    intro n hn
    rw [numberFrom, List.mem_cons] at hn
    rcases hn with rfl | hn
    · exact List.mem_cons_self
    · exact List.mem_cons_of_mem _ (ih _ _ _ n hn)

/-- A quantity that every reaction conserves is conserved by the production rates. -/
theorem production_conserves (nsp : Nat) (rs : List Reaction) (a : Nat → K)
    (hr : ∀ r ∈ rs, (∀ s ∈ r.reactants, s < nsp) ∧ (∀ s ∈ r.products, s < nsp) ∧
      (r.products.map a).sum = (r.reactants.map a).sum) (fwd rev pm : Nat → K) :
    ∑ s ∈ Finset.range nsp, a s * productionRate rs fwd rev pm s = 0 := by
  unfold productionRate
  rw [sum_weighted nsp (number rs) a fun n => n.progress fwd rev pm]
  have : ((number rs).map fun n => (∑ s ∈ Finset.range nsp, a s * (n.r.net s : K)) * n.progress fwd rev pm) =
      (number rs).map fun _ => (0 : K) := by
    refine List.map_congr_left fun n hn => ?_
    obtain ⟨h1, h2, h3⟩ := hr n.r (mem_numberFrom rs 0 0 0 n hn)
    rw [sum_net nsp n.r a h1 h2, h3]
    ring
  rw [this]
  simp

end conservation

section positive
variable {K : Type} [Field K] [LinearOrder K] [IsStrictOrderedRing K]

theorem prod_nonneg_of (l : List Nat) (C : Nat → K) (h : ∀ i ∈ l, 0 ≤ C i) : 0 ≤ (l.map C).prod :=
  List.prod_nonneg fun x hx => by
    obtain ⟨i, hi, rfl⟩ := List.mem_map.1 hx
    exact h i hi

theorem prod_eq_zero_of {l : List Nat} {C : Nat → K} {s : Nat} (h : s ∈ l) (h0 : C s = 0) : (l.map C).prod = 0 :=
  List.prod_eq_zero (List.mem_map.2 ⟨s, h, h0⟩)

/-- A species that is absent is not consumed. -/
theorem production_nonneg (nsp : Nat) (rs : List Reaction) (C fwd rev pm : Nat → K) (s : Nat)
    (hlt : ∀ r ∈ rs, (∀ s ∈ r.reactants, s < nsp) ∧ (∀ s ∈ r.products, s < nsp))
    (hC : ∀ i, i < nsp → 0 ≤ C i) (hs : C s = 0)
    (hf : ∀ n ∈ number rs, ∃ kf, 0 < kf ∧ fwd n.k = kf * (n.r.reactants.map C).prod)
    (hv : ∀ n ∈ number rs, n.r.reversible = true → ∃ kr, 0 < kr ∧ rev n.j = kr * (n.r.products.map C).prod)
    (hp : ∀ n ∈ number rs, n.r.modified = true → 0 ≤ pm n.p) :
    0 ≤ productionRate rs fwd rev pm s := by
  refine List.sum_nonneg fun x hx => ?_
  obtain ⟨n, hn, rfl⟩ := List.mem_map.1 hx
  obtain ⟨l1, l2⟩ := hlt n.r (mem_numberFrom rs 0 0 0 n hn)
  obtain ⟨kf, kfp, ef⟩ := hf n hn
  have f0 : 0 ≤ fwd n.k := ef ▸ mul_nonneg kfp.le (prod_nonneg_of _ _ fun i hi => hC i (l1 i hi))
  have p0 : 0 ≤ (if n.r.modified = true then pm n.p else 1 : K) := by
    split
    · rename_i h; exact hp n hn h
    · exact zero_le_one
  have r0 : n.r.reversible = true → 0 ≤ rev n.j := by
    intro h
    obtain ⟨kr, krp, er⟩ := hv n hn h
    exact er ▸ mul_nonneg krp.le (prod_nonneg_of _ _ fun i hi => hC i (l2 i hi))
  have core : 0 ≤ (n.r.net s : K) * (if n.r.reversible = true then fwd n.k - rev n.j else fwd n.k) := by
    rcases lt_trichotomy (n.r.net s) 0 with h | h | h
    · have hmem : s ∈ n.r.reactants := by
        by_contra hc
        have := List.count_eq_zero_of_not_mem hc
        simp only [Reaction.net, this] at h
        omega
      have fz : fwd n.k = 0 := by rw [ef, prod_eq_zero_of hmem hs, mul_zero]
      have hneg : (n.r.net s : K) < 0 := by exact_mod_cast h
      rw [fz]
      split
      · rename_i hr
        have := r0 hr
        nlinarith
      · simp
    · rw [h]; simp
    · have hmem : s ∈ n.r.products := by
        by_contra hc
        have := List.count_eq_zero_of_not_mem hc
        simp only [Reaction.net, this] at h
        omega
      have hpos : (0 : K) < n.r.net s := by exact_mod_cast h
      split
      · rename_i hr
        obtain ⟨kr, krp, er⟩ := hv n hn hr
        rw [er, prod_eq_zero_of hmem hs, mul_zero, sub_zero]
        exact mul_nonneg hpos.le f0
      · exact mul_nonneg hpos.le f0
  unfold Numbered.progress
  rw [← mul_assoc]
  exact mul_nonneg core p0

theorem efficiency_nonneg (eff : List (Nat × Nat × Nat)) (i : Nat) : (0 : K) ≤ efficiency eff i := by
  unfold efficiency
  positivity

theorem thirdBody_nonneg (nsp : Nat) (eff : List (Nat × Nat × Nat)) (C : Nat → K) (hC : ∀ i, i < nsp → 0 ≤ C i) :
    0 ≤ thirdBody nsp eff C :=
  Finset.sum_nonneg fun i hi => mul_nonneg (efficiency_nonneg eff i) (hC i (Finset.mem_range.1 hi))

theorem pressureFactor_nonneg {nsp : Nat} {total : K} {kind : ReactionKind} {f : (Nat → K) → K}
    (h : PressureFactor nsp total kind f) (hk : kind ≠ .elementary) (C : Nat → K) (hC : ∀ i, i < nsp → 0 ≤ C i)
    (hs : ∑ i ∈ Finset.range nsp, C i = total) : 0 ≤ f C := by
  cases kind with
  | elementary => exact absurd rfl hk
  | thirdBody eff => rw [h C hs]; exact thirdBody_nonneg nsp eff C hC
  | falloff eff =>
    obtain ⟨κ, kp, F, Fp, e⟩ := h
    rw [e C hs]
    have := thirdBody_nonneg nsp eff C hC
    have hF := Fp C
    positivity

end positive
end DLB
