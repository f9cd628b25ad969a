import Verif.Lemmas.JacobRate
import Verif.Lemmas.JacobFrame
/-
The values that `eval_jacob` computes before the reactions.
-/
set_option autoImplicit false
set_option linter.unusedSectionVars false

namespace DLB

theorem jacob_at {D : Package} (h : Checked D) {J : JacobSrc} (hdb : dbOk D J = true) (pres : ℝ) (y jac0 : Nat → ℝ) (hT : 0 < y 0)
    (hp : 0 < pres) (hY : ∀ i, i < D.nsp → 0 ≤ complement (D.nsp - 1) (fun i => y (i + 1)) i) {v : JacobVals ℝ}
    (hst : JacobStages D.mech J pres y jac0 v) : JacobAt D pres (complement (D.nsp - 1) fun i => y (i + 1)) v ∧
      v.yN = complement (D.nsp - 1) (fun i => y (i + 1)) (D.nsp - 1) := by
  have L := realCMathLaws
  obtain ⟨Y, hYd⟩ : ∃ Y, Y = complement (D.nsp - 1) fun i => y (i + 1) := ⟨_, rfl⟩
  rw [← hYd] at hY ⊢
  obtain ⟨r, hrd⟩ : ∃ r : Nat → ℝ, r = fun i => Dec.val (nth D.mech.recips i) := ⟨_, rfl⟩
  obtain ⟨n, hn⟩ : ∃ n, D.nsp = n + 1 := ⟨D.nsp - 1, by have := nsp_pos h; omega⟩
  have hn1 : D.nsp - 1 = n := by omega
  have hnm : D.mech.nsp = n + 1 := hn
  have ht := h.templates
  simp only [checkTemplates, Bool.and_eq_true, decide_eq_true_eq] at ht
  obtain ⟨⟨⟨⟨⟨⟨⟨tc, -⟩, -⟩, -⟩, tcp⟩, td⟩, -⟩, -⟩ := ht
  have hpos : ∀ i, i < D.nsp → 0 < (Dec.val (nth D.mech.weights i) : ℝ) ∧ 0 < r i := fun i hi => by
    rw [hrd]
    exact close_pos (close_literals h) (fun i hi => molWeight_pos h i hi) i hi
  obtain ⟨hvT, -, -, hconc, hvmw, hvrho, hvyN, ⟨σc, σr, σp, σs, ec, er, ep, es, c1, hF, hR, hP, hω⟩, -, -, hvm, hvdB, -, -⟩ := hst
  obtain ⟨v1, v2, v3⟩ := evalConcT_val n D.mech.recips (inT (y 0) pres (fun i => y (i + 1)))
  have v4 := evalConcT_mw n D.mech.recips (inT (y 0) pres (fun i => y (i + 1)))
  rw [tc, hn1] at hvmw hvrho hvyN hconc
  have hYe : complement n (fun i => inT (y 0) pres (fun i => y (i + 1)) (.arr .y i)) = Y := by
    rw [hYd, hn1]
    rfl
  rw [hYe] at v1 v2 v3 v4
  have hsum1 : ∑ i ∈ Finset.range D.nsp, Y i = 1 := by
    have := complement_sum n (fun i => y (i + 1))
    rw [hn]
    rw [hYd, hn1]
    exact this
  have hmw : 0 < ∑ i ∈ Finset.range D.nsp, Y i * r i := by
    have hnn : ∀ i ∈ Finset.range D.nsp, 0 ≤ Y i * r i := fun i hi =>
      mul_nonneg (hY i (Finset.mem_range.1 hi)) (hpos i (Finset.mem_range.1 hi)).2.le
    rcases (Finset.sum_nonneg hnn).lt_or_eq with h' | h'
    · exact h'
    · exfalso
      have hz := (Finset.sum_eq_zero_iff_of_nonneg hnn).1 h'.symm
      have : ∑ i ∈ Finset.range D.nsp, Y i = 0 := Finset.sum_eq_zero fun i hi =>
        (mul_eq_zero.1 (hz i hi)).resolve_right (hpos i (Finset.mem_range.1 hi)).2.ne'
      rw [hsum1] at this
      exact one_ne_zero this
  have hR0 : (0 : ℝ) < gasR := by unfold gasR; positivity
  have hrho : v.rho = pres / (gasR * y 0 * ∑ i ∈ Finset.range D.nsp, Y i * r i) := by
    rw [hvrho, v2]
    simp only [inT, hn]
    rw [hn] at hmw
    rw [hrd] at hmw ⊢
    have h2 : ∑ i ∈ Finset.range (n + 1), Y i * (Dec.val (nth D.mech.recips i) : ℝ) ≠ 0 := hmw.ne'
    show pres * (1 / ∑ i ∈ Finset.range (n + 1), Y i * (Dec.val (nth D.mech.recips i) : ℝ)) / (gasR * y 0) =
      pres / (gasR * y 0 * ∑ i ∈ Finset.range (n + 1), Y i * (Dec.val (nth D.mech.recips i) : ℝ))
    field_simp
  have hC : ∀ i, i < D.nsp → v.C i = v.rho * Y i * r i := by
    intro i hi
    rw [hconc i hi, v3 i (by omega), ← v2, ← hvrho, hrd]
  have hCsum : ∑ i ∈ Finset.range D.nsp, v.C i = pres / (gasR * y 0) := by
    rw [Finset.sum_congr rfl fun i hi => hC i (Finset.mem_range.1 hi)]
    have : ∑ i ∈ Finset.range D.nsp, v.rho * Y i * r i = v.rho * ∑ i ∈ Finset.range D.nsp, Y i * r i := by
      rw [Finset.mul_sum]
      exact Finset.sum_congr rfl fun i _ => by ring
    rw [this, hrho]
    have := hmw.ne'
    field_simp
  -- rates
  have hsz := h.sizes
  simp only [checkSizes, Bool.and_eq_true, decide_eq_true_eq] at hsz
  obtain ⟨⟨⟨-, z1⟩, z2⟩, z3⟩ := hsz
  have num_lt : ∀ (rs : List Reaction) (k j p : Nat), ∀ n ∈ numberFrom rs k j p, n.k < k + rs.length ∧
      (n.r.reversible = true → n.j < j + rs.countP (·.reversible)) ∧
      (n.r.modified = true → n.p < p + rs.countP (·.modified)) := by
    intro rs
    induction rs with
    | nil => intro k j p n hn; exact absurd hn (by simp [numberFrom])
    | cons r rs ih =>
      intro k j p n hn
      rw [numberFrom, List.mem_cons] at hn
      simp only [List.length_cons, List.countP_cons]
      rcases hn with rfl | hn
      · dsimp only
        refine ⟨by omega, fun h => ?_, fun h => ?_⟩ <;> simp only [h, if_true] <;> omega
      · obtain ⟨h1, h2, h3⟩ := ih _ _ _ n hn
        refine ⟨by omega, fun h => ?_, fun h => ?_⟩
        · have := h2 h
          split at this <;> split <;> simp_all <;> omega
        · have := h3 h
          split at this <;> split <;> simp_all <;> omega
  obtain ⟨σr', er', r1⟩ := rxnRates_call h.rates h.ratesSafe (y 0) pres (fun i => σc (.arr .C i)) v.C c1
  rw [er] at er'
  obtain rfl := Option.some.inj er'
  obtain ⟨σp', ep', p1⟩ := presMod_call h.presMod h.presSafe (y 0) pres (fun i => σc (.arr .C i)) v.C c1
  rw [ep] at ep'
  obtain rfl := Option.some.inj ep'
  have hma := rates_massAction L h.rates (y 0) pres
  have hpf := pres_factor L h.presMod (y 0) pres
  have hrates : RatesAt D.reactions D.nsp v.C v.F v.R v.P := by
    refine ⟨fun m hm => ?_, fun m hm hr => ?_, fun m hm eff hk => ?_, fun m hm eff hk => ?_⟩
    · obtain ⟨kf, kp, ek⟩ := (hma m hm).1
      have hlt := (num_lt _ _ _ _ m hm).1
      have := Option.some.inj ((hF m.k (by omega)).symm.trans (r1 m hm).1)
      exact ⟨kf, kp, this.trans (ek v.C)⟩
    · obtain ⟨kf, kp, ek⟩ := (hma m hm).2 hr
      have hlt := (num_lt _ _ _ _ m hm).2.1 hr
      have := Option.some.inj ((hR m.j (by omega)).symm.trans ((r1 m hm).2 hr))
      exact ⟨kf, kp, this.trans (ek v.C)⟩
    · have hmod : m.r.modified = true := by simp [Reaction.modified, hk]
      have hlt := (num_lt _ _ _ _ m hm).2.2 hmod
      have := Option.some.inj ((hP m.p (by omega)).symm.trans (p1 m hm hmod))
      have hf := hpf m hm
      rw [hk] at hf
      exact this.trans (hf v.C hCsum)
    · have hmod : m.r.modified = true := by simp [Reaction.modified, hk]
      have hlt := (num_lt _ _ _ _ m hm).2.2 hmod
      have := Option.some.inj ((hP m.p (by omega)).symm.trans (p1 m hm hmod))
      have hf := hpf m hm
      rw [hk] at hf
      obtain ⟨κ, kp, G, Gp, eG⟩ := hf
      exact ⟨κ, G v.C, kp, Gp v.C, this.trans (eG v.C hCsum)⟩
  have hexec : ∀ m ∈ number D.reactions,
      v.F m.k = execT (D.mech.rateStart ++ D.mech.rateBlocks.flatten) (inT (y 0) pres v.C) (.arr .fwd m.k) ∧
      (m.r.reversible = true →
        v.R m.j = execT (D.mech.rateStart ++ D.mech.rateBlocks.flatten) (inT (y 0) pres v.C) (.arr .rev m.j)) ∧
      (m.r.modified = true →
        v.P m.p = execT (D.mech.presModStart ++ D.mech.presModBlocks.flatten) (inT (y 0) pres v.C) (.arr .presMod m.p)) := by
    intro m hm
    obtain ⟨l1, l2, l3⟩ := num_lt _ _ _ _ m hm
    refine ⟨Option.some.inj ((hF m.k (by omega)).symm.trans (r1 m hm).1), fun hr => ?_, fun hmod => ?_⟩
    · have := l2 hr
      exact Option.some.inj ((hR m.j (by omega)).symm.trans ((r1 m hm).2 hr))
    · have := l3 hmod
      exact Option.some.inj ((hP m.p (by omega)).symm.trans (p1 m hm hmod))
  have hωv : ∀ s, s < D.nsp → v.ω s = productionRate D.reactions v.F v.R v.P s := by
    intro s hs
    obtain ⟨σs', es', s1⟩ := specRates_call h.spec h.specSafe (y 0) _ _ _ v.F v.R v.P hF hR hP
    rw [es] at es'
    obtain rfl := Option.some.inj es'
    have := Option.some.inj ((hω s hs).symm.trans (s1 s hs))
    rw [this, checkSpec_sound h.spec _ hs]
    rfl
  obtain ⟨b1, b2⟩ := dbOk_sound hdb (inT (y 0) pres fun _ => y 0) hT
  refine ⟨⟨?_, ?_, ?_, ?_, ?_, hrates, ?_, fun m hm hrev i hi hnet => ?_, hωv, ?_⟩, ?_⟩
  · rw [hrho, hvT, hrd]
  · rw [hrho]
    positivity
  · rw [hrd] at hC
    exact hC
  · rw [hCsum, hvm, b1]
    rfl
  · rw [hCsum, hvT]
  · rw [hvT]
    exact hexec
  · rw [hvT, hvdB i hi]
    exact b2 m.r (mem_numberFrom D.reactions 0 0 0 m hm) hrev i hnet
  · rw [hvmw, v4, hn]
  · rw [hvyN, v1, hn1]

/-- Entries of `jac` that are not assigned after the reactions. -/
def afterOk (J : JacobSrc) (l : Nat) : Bool :=
  unassigned J.cpAvg (.arr .jac l) && unassigned (J.endStart ++ J.endRows.flatten) (.arr .jac l) && unassigned J.last (.arr .jac l)

theorem after_sound {J : JacobSrc} {l : Nat} (h : afterOk J l = true) (v : JacobVals ℝ) (jac0 : Nat → ℝ) :
    v.result J jac0 l = v.partsT J.parts jac0 l := by
  simp only [afterOk, Bool.and_eq_true] at h
  unfold JacobVals.result
  rw [execT_frame _ _ _ h.2]
  show execT (J.endStart ++ J.endRows.flatten) _ (.arr .jac l) = _
  rw [execT_frame _ _ _ h.1.2]
  show execT J.cpAvg _ (.arr .jac l) = _
  rw [execT_frame _ _ _ h.1.1]
  rfl

theorem BlocksAdd.vals {D : Package} {ws : List Nat} {v : JacobVals ℝ} {bs : List (List CStmt × List CStmt)} {ns : List Numbered}
    {cs : List (Nat → ℝ)} (h : BlocksAdd D ws v bs ns cs) : ∀ n ∈ ns, ∃ x, TVal D n v x := by
  induction h with
  | nil => intro n hn; exact absurd hn (by simp)
  | cons h1 _ ih =>
    intro n hn
    rcases List.mem_cons.1 hn with rfl | hn
    · obtain ⟨x, hx, -⟩ := h1.1
      exact ⟨x, hx⟩
    · exact ih n hn

section
variable {D : Package} (hD : D ∈ shipped) (hz : sizesOk D = true) {pres : ℝ} {Y : Nat → ℝ} {v : JacobVals ℝ} (hv : JacobAt D pres Y v)
  (h1 : 200 ≤ v.T) (h2 : v.T ≤ 6000) (hp : 0 < pres) (hY : ∀ i, i < D.nsp → 0 ≤ Y i)
  (hpole : D.chemistry.AwayFromPoles v.T (D.chemistry.concentrations v.T pres Y))
  (hcut : D.chemistry.AboveCutOff v.T (D.chemistry.concentrations v.T pres Y))
include hD hv h1 h2 hp hY hpole hcut

theorem regular_of (hb : ∀ n ∈ number D.reactions, ∃ x, TVal D n v x) :
    D.chemistry.Regular v.T (D.chemistry.concentrations v.T pres Y) := by
  intro n hn eff kInf k0 troe hk hl
  obtain ⟨x, hx⟩ := hb n hn
  have hl' : D.law n.k = .falloff kInf k0 troe := hl
  unfold TVal at hx
  rw [hk, hl'] at hx
  cases troe with
  | none =>
    obtain ⟨q0, q1, -⟩ := hx
    have hT : 0 < v.T := by linarith
    obtain ⟨-, nC⟩ := density_near hD v.T pres hT hp Y hY v.rho v.C hv.rho hv.conc
    refine ⟨q0.ne', ?_, fun t ht => absurd ht (by simp)⟩
    refine div_nonneg (mul_nonneg q1.le (Finset.sum_nonneg fun i hi => mul_nonneg ?_ (nC i (Finset.mem_range.1 hi)).right)) q0.le
    unfold efficiency
    positivity
  | some t =>
    obtain ⟨-, -, -, -, -, -, ⟨q0, -, -, -⟩, -⟩ := hx
    have hc := hcut n hn eff kInf k0 t hk hl
    have hk' := kinetics_of_shipped hD
    simp only [kineticsOk, Bool.and_eq_true, List.all_eq_true] at hk'
    have k3 := (hk'.1 n hn).2
    rw [hl'] at k3
    simp only [Bool.and_eq_true] at k3
    refine ⟨q0.ne', (lt_trans (by positivity) hc).le, fun t' ht => ?_⟩
    obtain rfl := Option.some.inj ht
    refine ⟨lt_of_lt_of_le (by positivity) (centreBig_sound k3.1.2 v.T (by linarith) (by linarith)), hc, fun h0 => ?_⟩
    have := exactB_away hD hv h1 h2 hp hY hpole hcut n hn eff kInf k0 t hk hl
    rw [h0, abs_zero] at this
    norm_num at this

end

/-- The derivatives by the temperature of the rates of change of the mass fractions. -/
theorem jacob_rowT {D : Package} (hD : D ∈ shipped) (hz : sizesOk D = true) {J : JacobSrc} (hdb : dbOk D J = true) {ws : List Nat}
    (hw : (List.range D.nsp).map D.weight5 = ws) (hJ : partsOk D ws J.parts (number D.reactions) 0 = true) (pres : ℝ) (y : Nat → ℝ)
    (h1 : 200 ≤ y 0) (h2 : y 0 ≤ 6000) (hp : 0 < pres) (hY : ∀ i, i < D.nsp → 0 ≤ complement (D.nsp - 1) (fun i => y (i + 1)) i)
    (hmid : D.chemistry.BetweenFits (y 0))
    (hpole : D.chemistry.AwayFromPoles (y 0) (D.chemistry.concentrations (y 0) pres (complement (D.nsp - 1) fun i => y (i + 1))))
    (hcut : D.chemistry.AboveCutOff (y 0) (D.chemistry.concentrations (y 0) pres (complement (D.nsp - 1) fun i => y (i + 1))))
    {v : JacobVals ℝ} (hst : JacobStages D.mech J pres y (fun _ => 0) v) (k : Nat) (hk : k < D.nsp - 1) (hafter : afterOk J (k + 1) = true) :
    ∃ d, HasDerivAt (fun T => D.chemistry.dYdt T pres (complement (D.nsp - 1) fun i => y (i + 1)) k) d (y 0) ∧
      |v.result J (fun _ => 0) (k + 1) - d| ≤
        1 / 10 ^ 5 * (D.chemistry.dYdtTerms (y 0) pres (complement (D.nsp - 1) fun i => y (i + 1)) k / y 0) ∧
      |d| ≤ 5001 * (D.chemistry.dYdtTerms (y 0) pres (complement (D.nsp - 1) fun i => y (i + 1)) k / y 0) := by
  have hc := checked_of_shipped hD
  have hT : 0 < y 0 := by linarith
  obtain ⟨hat, -⟩ := jacob_at hc hdb pres y _ hT hp hY hst
  have hvT := hst.hT
  rw [← hvT] at hT h1 h2 hmid hpole hcut ⊢
  obtain ⟨cs, hb, hj⟩ := parts_sound J.parts hJ (v := v) (jac := fun _ => 0) (fun _ _ => rfl) hat.m hT
  have hreg := regular_of hD hat h1 h2 hp hY hpole hcut hb.vals
  obtain ⟨nρ, -⟩ := density_near hD v.T pres hT hp _ hY v.rho v.C hat.rho hat.conc
  generalize complement (D.nsp - 1) (fun i => y (i + 1)) = Y at *
  have hρ : D.chemistry.density v.T pres Y ≠ 0 := by
    intro h0
    exact hat.rho_pos.ne' (nρ.zero_iff.2 h0)
  refine ⟨_, D.chemistry.dYdt_deriv pres Y hT hρ hmid hreg k, ?_⟩
  rw [after_sound hafter, hj, zero_add]
  obtain ⟨t1, t2⟩ := tRow_near hD hz hat h1 h2 hp hY hpole hcut hw hb (fun n hn => hn) k hk
  have e : ((number D.reactions).map fun n => |(n.r.net k : ℝ)| * D.chemistry.weight k *
        ((D.chemistry.forward n v.T (D.chemistry.concentrations v.T pres Y) +
          D.chemistry.reverse n v.T (D.chemistry.concentrations v.T pres Y)) *
        D.chemistry.modification n v.T (D.chemistry.concentrations v.T pres Y) / (D.chemistry.density v.T pres Y * v.T))).sum =
      D.chemistry.dYdtTerms v.T pres Y k / v.T := by
    unfold Chemistry.dYdtTerms Chemistry.turnover
    rw [mul_div_assoc, mul_div_assoc, list_sum_mul]
    congr 1
    refine List.map_congr_left fun n _ => ?_
    simp only [div_eq_mul_inv, mul_inv]
    show _ = _ * ((D.chemistry.weight k) * _ * _)
    ring
  rw [e] at t1 t2
  exact ⟨t1, t2⟩

end DLB
