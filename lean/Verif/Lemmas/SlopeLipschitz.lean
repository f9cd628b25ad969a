import Verif.Lemmas.ReactorSolution
/-
The terms of the derivatives of the rates of change in the reactor are locally Lipschitz continuous.
-/
set_option autoImplicit false
set_option linter.unusedSectionVars false

namespace DLB
open scoped Topology NNReal

section
variable {E : Type} [PseudoEMetricSpace E] {z : E} {T p : E → ℝ} {C Y : E → Nat → ℝ} {X : Chemistry}

theorem productBy_lipAt (l : List Nat) (hl : ∀ s ∈ l, s < X.nsp) (hC : ∀ i, i < X.nsp → LipAt (fun x => C x i) z) (j : Nat) :
    LipAt (fun x => Chemistry.productBy l (C x) j) z :=
  (LipAt.const _ z).mul (LipAt.list_prod fun s hs => hC s (hl s (List.mem_of_mem_erase hs)))

/-- The third bodies of every falloff reaction are present. -/
def Chemistry.ThirdBodies (X : Chemistry) (C : Nat → ℝ) : Prop :=
  ∀ n ∈ number X.reactions, ∀ eff, n.r.kind = .falloff eff → 0 < thirdBody X.nsp eff C

theorem modificationPer_lipAt (n : Numbered) (hn : n ∈ number X.reactions) (hX : X.ProperAt (T z)) (hT : LipAt T z)
    (hC : ∀ i, i < X.nsp → LipAt (fun x => C x i) z) (hC0 : ∀ i, i < X.nsp → 0 ≤ C z i)
    (hp : X.AwayFromPoles (T z) (C z)) (hb : X.ThirdBodies (C z)) : LipAt (fun x => X.modificationPer n (T x) (C x)) z := by
  unfold Chemistry.modificationPer
  split
  · exact LipAt.const _ z
  · exact LipAt.const _ z
  · rename_i eff e
    exact (modification_lipAt n hn hX hT hC hC0 hp).div (thirdBody_lipAt _ _ hC) (hb n hn eff e).ne'

theorem cpSlopeTerms_lipAt (i : Nat) (hi : i < X.nsp) (hm : X.BetweenFits (T z)) (hT : LipAt T z) :
    LipAt (fun x => X.cpSlopeTerms (T x) i) z := by
  unfold Chemistry.cpSlopeTerms
  refine (LipAt.const _ z).mul (fit_lipAt (X.fit i) (fun a T => |nasaCoeff a 1| + |2 * nasaCoeff a 2 * T| +
    |3 * nasaCoeff a 3 * T ^ 2| + |4 * nasaCoeff a 4 * T ^ 3|) hT (hm i hi) fun a => ?_)
  exact (((LipAt.const _ z).add ((LipAt.const _ z).mul hT).abs).add ((LipAt.const _ z).mul (hT.pow 2)).abs).add
    ((LipAt.const _ z).mul (hT.pow 3)).abs

variable (h : X.RegularAt (T z) (p z) (Y z)) (hb : X.ThirdBodies (X.concentrations (T z) (p z) (Y z)))
  (hT : LipAt T z) (hp : LipAt p z) (hY : ∀ i, i < X.nsp → LipAt (fun x => Y x i) z)
include h hb hT hp hY

theorem dYdtByTerms_lipAt (i j : Nat) (hj : j < X.nsp) : LipAt (fun x => X.dYdtByTerms (T x) (p x) (Y x) i j) z := by
  have hC := concentrations_lipAt h hT hp hY
  have hC0 := concentrations_nonneg h hT hp hY
  have hw : ∀ k, k < X.nsp → X.weight k ≠ 0 := fun k hk => (h.proper.weight k hk).ne'
  have hl : X.nsp - 1 < X.nsp := by omega
  have two : ∀ l : List Nat, (∀ s ∈ l, s < X.nsp) → LipAt (fun x =>
      Chemistry.productBy l (X.concentrations (T x) (p x) (Y x)) j / X.weight j +
        Chemistry.productBy l (X.concentrations (T x) (p x) (Y x)) (X.nsp - 1) / X.weight (X.nsp - 1)) z := fun l hs =>
    ((productBy_lipAt l hs hC j).div (LipAt.const _ z) (hw j hj)).add
      ((productBy_lipAt l hs hC _).div (LipAt.const _ z) (hw _ hl))
  unfold Chemistry.dYdtByTerms
  refine LipAt.add (LipAt.mul (LipAt.div (LipAt.const _ z) (LipAt.sum fun k hk => (hY k hk).div (LipAt.const _ z) (hw k hk))
    (moles_pos h.proper h.fractions h.some_pos).ne') (dYdtTerms_lipAt h hT hp hY i)) (LipAt.list_sum fun n hn => ?_)
  have hk := coefficient_lipAt (X.law n.k).high n.r.order hT h.proper.temperature
  have he := equilibriumConstant_lipAt X.nsp X.fit n.r hT h.proper.temperature h.fits
  have hs := h.proper.species n hn
  refine (LipAt.const _ z).mul (LipAt.add ?_ ?_)
  · exact (modification_lipAt n hn h.proper hT hC hC0 h.poles).mul ((hk.mul (two _ hs.1)).add
      ((hk.div he (equilibriumConstant_pos _ _ _ h.proper.temperature).ne').mul (two _ hs.2)))
  · exact (modificationPer_lipAt n hn h.proper hT hC hC0 h.poles hb).mul ((LipAt.const _ z).mul
      ((forward_lipAt n hn h.proper hT hC).add (reverse_lipAt n hn h.proper h.fits hT hC)))

omit hb in
theorem cp_lipAt (i : Nat) (hi : i < X.nsp) : LipAt (fun x => X.cp (T x) i) z :=
  (LipAt.const _ z).mul (fit_lipAt (X.fit i) cpOverR hT (h.fits i hi) fun a => cpOverR_lipAt a hT)

omit hb in
theorem enthalpyTerms_lipAt (i : Nat) (hi : i < X.nsp) : LipAt (fun x => X.enthalpyTerms (T x) i) z :=
  (LipAt.const _ z).mul (fit_lipAt (X.fit i) hTerms hT (h.fits i hi) fun a => hTerms_lipAt a hT)

theorem dTdtByTerms_lipAt (j : Nat) (hj : j < X.nsp) : LipAt (fun x => X.dTdtByTerms (T x) (p x) (Y x) j) z := by
  have hq := heat_lipAt h hT hp hY
  have h0 := (heat_pos h.proper h.fractions h.some_pos).ne'
  unfold Chemistry.dTdtByTerms Chemistry.meanCp
  refine LipAt.sum fun i hi => (enthalpyTerms_lipAt h hT hp hY i hi).mul (LipAt.add ?_ ?_)
  · exact (dYdtByTerms_lipAt h hb hT hp hY i j hj).div hq h0
  · exact ((dYdtTerms_lipAt h hT hp hY i).mul ((cp_lipAt h hT hp hY j hj).add (cp_lipAt h hT hp hY _ (by omega)))).div
      (hq.pow 2) (pow_ne_zero 2 h0)

omit hb in
theorem dTdtSlopeTerms_lipAt : LipAt (fun x => X.dTdtSlopeTerms (T x) (p x) (Y x)) z := by
  have hq := heat_lipAt h hT hp hY
  have h0 := (heat_pos h.proper h.fractions h.some_pos).ne'
  unfold Chemistry.dTdtSlopeTerms Chemistry.meanCp
  refine LipAt.sum fun i hi => ?_
  have he := enthalpyTerms_lipAt h hT hp hY i hi
  have hd := dYdtTerms_lipAt h hT hp hY i
  refine LipAt.add (LipAt.add ?_ ?_) ?_
  · exact (he.mul (hd.div hT h.proper.temperature.ne')).div hq h0
  · exact ((cp_lipAt h hT hp hY i hi).mul hd).div hq h0
  · exact ((he.mul hd).mul (LipAt.sum fun k hk => (hY k hk).mul (cpSlopeTerms_lipAt k hk h.fits hT))).div (hq.pow 2)
      (pow_ne_zero 2 h0)

omit hb in
/-- The condition on the cut off of Troe's formula holds in a neighbourhood. -/
theorem cutOff_eventually (hc : X.AboveCutOff (T z) (X.concentrations (T z) (p z) (Y z))) :
    ∀ᶠ x in 𝓝 z, X.AboveCutOff (T x) (X.concentrations (T x) (p x) (Y x)) := by
  have one : ∀ n ∈ number X.reactions, ∀ᶠ x in 𝓝 z, ∀ eff kInf k0 t, n.r.kind = .falloff eff →
      X.law n.k = .falloff kInf k0 (some t) →
      1 / 10 ^ 300 < X.reducedPressure n kInf k0 eff (T x) (X.concentrations (T x) (p x) (Y x)) := by
    intro n hn
    by_cases hex : ∃ eff kInf k0 t, n.r.kind = .falloff eff ∧ X.law n.k = .falloff kInf k0 (some t)
    · obtain ⟨eff, kInf, k0, t, e1, e2⟩ := hex
      have h1 := reducedPressure_lipAt n hn h.proper hT (concentrations_lipAt h hT hp hY) e1 e2
      filter_upwards [h1.continuousAt.eventually_const_lt (hc n hn eff kInf k0 t e1 e2)] with x hx
      intro eff' kInf' k0' t' e1' e2'
      rw [e1] at e1'
      rw [e2] at e2'
      cases e1'; cases e2'
      exact hx
    · exact Filter.Eventually.of_forall fun x eff kInf k0 t e1 e2 => absurd ⟨eff, kInf, k0, t, e1, e2⟩ hex
  have all : ∀ l : List Numbered, (∀ n ∈ l, n ∈ number X.reactions) → ∀ᶠ x in 𝓝 z, ∀ n ∈ l, ∀ eff kInf k0 t,
      n.r.kind = .falloff eff → X.law n.k = .falloff kInf k0 (some t) →
      1 / 10 ^ 300 < X.reducedPressure n kInf k0 eff (T x) (X.concentrations (T x) (p x) (Y x)) := by
    intro l
    induction l with
    | nil => intro _; exact Filter.Eventually.of_forall fun x n hn => absurd hn (by simp)
    | cons a l ih =>
      intro hl
      filter_upwards [one a (hl a (by simp)), ih fun n hn => hl n (by simp [hn])] with x h1 h2
      intro n hn
      rcases List.mem_cons.1 hn with rfl | hn
      · exact h1
      · exact h2 n hn
  exact all _ fun n hn => hn

end

/-- The temperatures between those at which polynomials change make up a neighbourhood. -/
theorem fits_eventually (X : Chemistry) {T : ℝ} (h : X.BetweenFits T) : ∀ᶠ x in 𝓝 T, X.BetweenFits x := by
  have : ∀ n, (∀ i, i < n → T ≠ ((X.fit i).tMid.1 : ℝ) / 10 ^ (X.fit i).tMid.2) →
      ∀ᶠ x in 𝓝 T, ∀ i, i < n → x ≠ ((X.fit i).tMid.1 : ℝ) / 10 ^ (X.fit i).tMid.2 := by
    intro n
    induction n with
    | zero => intro _; exact Filter.Eventually.of_forall fun x i hi => absurd hi (by omega)
    | succ n ih =>
      intro hn
      filter_upwards [ih fun i hi => hn i (by omega), eventually_ne_nhds (hn n (by omega))] with x h1 h2
      intro i hi
      rcases Nat.lt_succ_iff_lt_or_eq.1 hi with hi | rfl
      · exact h1 i hi
      · exact h2
  exact this _ h

section
variable {m : Nat} {X : Chemistry} (hn : X.nsp = m + 1) {z : Fin (m + 2) → ℝ}
  (hX : ∀ t, 200 ≤ t → t ≤ 5000 → X.ProperAt t)
include hn hX

/-- Near a state inside the domain, as far as no mass fraction is negative, the rates of change are differentiable. -/
theorem smooth_eventually (h : X.Interior z)
    (hc : X.AboveCutOff (z 0) (X.concentrations (z 0) (z (Fin.last (m + 1))) (stateComposition z))) :
    ∀ᶠ x in 𝓝 z, NonNegative x → X.Smooth x := by
  have hR := regularAt_of hn hX h
  filter_upwards [admissible_eventually hn hX h,
    (lipAt_entry z 0).continuousAt.eventually (fits_eventually X h.fits),
    cutOff_eventually hR (lipAt_entry z 0) (lipAt_entry z _) (fun i _ => stateComposition_lipAt z i) hc] with x h1 h2 h3 hx
  exact ⟨(h1 hx).1, h2, h3⟩

theorem stateSlopeTerms_lipAt (h : X.Interior z)
    (hb : X.ThirdBodies (X.concentrations (z 0) (z (Fin.last (m + 1))) (stateComposition z)))
    (i j : Fin (m + 2)) : LipAt (fun x : Fin (m + 2) → ℝ => X.stateSlopeTerms x i j) z := by
  obtain ⟨T, eT⟩ : ∃ T : (Fin (m + 2) → ℝ) → ℝ, T = fun x => x 0 := ⟨_, rfl⟩
  obtain ⟨p, ep⟩ : ∃ p : (Fin (m + 2) → ℝ) → ℝ, p = fun x => x (Fin.last (m + 1)) := ⟨_, rfl⟩
  obtain ⟨Y, eY⟩ : ∃ Y : (Fin (m + 2) → ℝ) → Nat → ℝ, Y = fun x => stateComposition x := ⟨_, rfl⟩
  have hR : X.RegularAt (T z) (p z) (Y z) := by rw [eT, ep, eY]; exact regularAt_of hn hX h
  have hT : LipAt T z := by rw [eT]; exact lipAt_entry z 0
  have hp : LipAt p z := by rw [ep]; exact lipAt_entry z (Fin.last (m + 1))
  have hY : ∀ i, i < X.nsp → LipAt (fun x => Y x i) z := by rw [eY]; exact fun i _ => stateComposition_lipAt z i
  have hb' : X.ThirdBodies (X.concentrations (T z) (p z) (Y z)) := by rw [eT, ep, eY]; exact hb
  have hj' : j.val - 1 < X.nsp := by have := j.isLt; omega
  have e : (fun x : Fin (m + 2) → ℝ => X.stateSlopeTerms x i j) = fun x => if i.val = m + 1 then 0
      else if i.val = 0 then
        if j.val = 0 then X.dTdtSlopeTerms (T x) (p x) (Y x) else X.dTdtByTerms (T x) (p x) (Y x) (j.val - 1)
      else
        if j.val = 0 then X.dYdtTerms (T x) (p x) (Y x) (i.val - 1) / T x
        else X.dYdtByTerms (T x) (p x) (Y x) (i.val - 1) (j.val - 1) := by
    funext x
    rw [eT, ep, eY]
    unfold Chemistry.stateSlopeTerms
    rfl
  rw [e]
  split_ifs
  · exact LipAt.const _ z
  · exact dTdtSlopeTerms_lipAt hR hT hp hY
  · exact dTdtByTerms_lipAt hR hb' hT hp hY _ hj'
  · exact (dYdtTerms_lipAt hR hT hp hY _).div hT hR.proper.temperature.ne'
  · exact dYdtByTerms_lipAt hR hb' hT hp hY _ _ hj'

end
end DLB
