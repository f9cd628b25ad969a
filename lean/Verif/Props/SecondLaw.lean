import Verif.Lemmas.SecondLaw
import Verif.Props.Kinetics
/-
C112: the second law of thermodynamics.  Over the reals.
-/
set_option autoImplicit false
set_option linter.unusedSectionVars false

namespace DLB

/-! ### Lemmas -/

theorem sum_split (l : List Numbered) (f : Numbered → ℝ) :
    (l.map f).sum = ((l.filter fun n => n.r.reversible).map f).sum + ((l.filter fun n => !n.r.reversible).map f).sum := by
  induction l with
  | nil => simp
  | cons n l ih =>
    by_cases h : n.r.reversible = true
    · simp only [List.map_cons, List.sum_cons, List.filter_cons, h, if_true, ih, Bool.not_true, Bool.false_eq_true, if_false]
      ring
    · have h' : n.r.reversible = false := by simpa using h
      simp only [List.map_cons, List.sum_cons, List.filter_cons, h', if_true, ih, Bool.not_false, Bool.false_eq_true, if_false]
      ring

theorem list_sum_le (l : List Numbered) (f g : Numbered → ℝ) (h : ∀ n ∈ l, f n ≤ g n) : (l.map f).sum ≤ (l.map g).sum := by
  induction l with
  | nil => simp
  | cons a l ih =>
    simp only [List.map_cons, List.sum_cons]
    exact add_le_add (h a (by simp)) (ih fun n hn => h n (by simp [hn]))

/-- Every reaction conserves mass. -/
theorem mass_net {D : Package} (h : Checked D) (n : Numbered) (hn : n ∈ number D.reactions) :
    ∑ s ∈ Finset.range D.nsp, D.molWeight s * (n.r.net s : ℝ) = 0 := by
  obtain ⟨b1, b2, b3⟩ := balance_sound (K := ℝ) h n.r (mem_numberFrom D.reactions 0 0 0 n hn)
  have : ∀ s ∈ Finset.range D.nsp, (D.molWeight s : ℝ) * (n.r.net s : ℝ) =
      ∑ e ∈ Finset.range D.elements.length, ((atomicWeight5 (D.elements.getD e "") : ℝ) / 10 ^ 5) *
        ((D.atomCount s e : ℝ) * (n.r.net s : ℝ)) := by
    intro s hs
    rw [weight_sum h s (Finset.mem_range.1 hs), Finset.sum_mul]
    exact Finset.sum_congr rfl fun e _ => by ring
  rw [Finset.sum_congr rfl this, Finset.sum_comm]
  refine Finset.sum_eq_zero fun e he => ?_
  rw [← Finset.mul_sum, sum_net D.nsp n.r (fun s => (D.atomCount s e : ℝ)) b1 b2, b3 e (Finset.mem_range.1 he), sub_self, mul_zero]

/-! ### The Gibbs energy -/

/-- C112. At every temperature from 200 K to 6000 K and for every mixture: the production rates that the library computes do not increase the
Gibbs energy of the mixture, except for the irreversible reactions (which can, as nothing ties them to thermodynamics) and up to 10^-10 of
the rates of progress: `sum of mu_i omega_i / (R T) <= - sum over irreversible reactions of affinity times rate + sum of |rates| / 10^10`. -/
theorem C112_gibbs_energy (D : Package) (hD : D ∈ shipped) (T pres : ℝ) (h1 : 200 ≤ T) (h2 : T ≤ 6000) (C : Nat → ℝ)
    (hC : ∀ i, i < D.nsp → 0 < C i) (hsum : ∑ i ∈ Finset.range D.nsp, C i = pres / (gasR * T)) :
    ∃ (σr σp σs : CMem ℝ) (fwd rev pm ω : Nat → ℝ),
      D.mech.callRxnRates T pres (fun i => some (C i)) = some σr ∧
      (∀ n ∈ number D.reactions, σr (.arr .fwd n.k) = some (fwd n.k) ∧ (n.r.reversible = true → σr (.arr .rev n.j) = some (rev n.j))) ∧
      D.mech.callPresMod T pres (fun i => some (C i)) = some σp ∧
      (∀ n ∈ number D.reactions, n.r.modified = true → σp (.arr .presMod n.p) = some (pm n.p)) ∧
      D.mech.callSpecRates (fun i => some (fwd i)) (fun i => some (rev i)) (fun i => some (pm i)) = some σs ∧
      (∀ s, s < D.nsp → σs (specLoc D.nsp s) = some (ω s)) ∧
      ∑ i ∈ Finset.range D.nsp, D.chemistry.potential T C i * ω i ≤
        -(((number D.reactions).filter fun n => !n.r.reversible).map fun n => D.chemistry.affinity n T C * n.progress fwd rev pm).sum +
          (((number D.reactions).filter fun n => n.r.reversible).map fun n => |n.progress fwd rev pm|).sum / 10 ^ 10 := by
  have hT : 0 < T := by linarith
  have hc := checked_of_shipped hD
  obtain ⟨σr, er, hr⟩ := rxnRates_call hc.rates hc.ratesSafe T pres (fun i => some (C i)) C (fun _ _ => rfl)
  obtain ⟨σp, ep, hp⟩ := presMod_call hc.presMod hc.presSafe T pres (fun i => some (C i)) C (fun _ _ => rfl)
  obtain ⟨fwd, hf⟩ : ∃ fwd : Nat → ℝ, fwd = fun k => execT (D.mech.rateStart ++ D.mech.rateBlocks.flatten) (inT T pres C) (.arr .fwd k) := ⟨_, rfl⟩
  obtain ⟨rev, hv⟩ : ∃ rev : Nat → ℝ, rev = fun k => execT (D.mech.rateStart ++ D.mech.rateBlocks.flatten) (inT T pres C) (.arr .rev k) := ⟨_, rfl⟩
  obtain ⟨pm, hm⟩ : ∃ pm : Nat → ℝ, pm = fun k => execT (D.mech.presModStart ++ D.mech.presModBlocks.flatten) (inT T pres C) (.arr .presMod k) :=
    ⟨_, rfl⟩
  obtain ⟨σs, es, hs⟩ := C62_species_rates D hD fwd rev pm
  refine ⟨σr, σp, σs, fwd, rev, pm, _, er, fun n hn => ?_, ep, fun n hn h => ?_, es, hs, ?_⟩
  · rw [hf, hv]
    exact hr n hn
  · rw [hm]
    exact hp n hn h
  have hpot := potential_sum (X := D.chemistry) (T := T) (C := C) (number D.reactions) fun n => n.progress fwd rev pm
  have e : ∑ i ∈ Finset.range D.nsp, D.chemistry.potential T C i * productionRate D.reactions fwd rev pm i =
      -((number D.reactions).map fun n => D.chemistry.affinity n T C * n.progress fwd rev pm).sum := hpot
  rw [e, sum_split]
  have hle : ((((number D.reactions).filter fun n => n.r.reversible).map fun n => -|n.progress fwd rev pm| * (1 / 10 ^ 10)).sum) ≤
      (((number D.reactions).filter fun n => n.r.reversible).map fun n => D.chemistry.affinity n T C * n.progress fwd rev pm).sum := by
    refine list_sum_le _ _ _ fun n hn => ?_
    obtain ⟨hn, hrev⟩ := List.mem_filter.1 hn
    obtain ⟨b1, b2, -⟩ := balance_sound (K := ℝ) hc n.r (mem_numberFrom D.reactions 0 0 0 n hn)
    obtain ⟨kf, -, hk, hkf, hK⟩ := laws_rates hc (laws_of_shipped hD) T pres hT n hn
    obtain ⟨Kc, ⟨ε, hε, hKc⟩, hkr⟩ := hK hrev
    have hb := (boundsOk_sound (bounds_of_shipped hD) n hn T h1 h2).1
    have h3 : |ε| ≤ 1 / 10 ^ 10 := by
      refine hε.trans ?_
      rw [div_le_div_iff₀ (by positivity) (by positivity)]
      linarith
    have hpm : 0 ≤ (if n.r.modified then pm n.p else 1) := by
      by_cases h : n.r.modified = true
      · rw [if_pos h, hm]
        have hpf := pres_factor realCMathLaws hc.presMod T pres n hn
        have h0 : ∀ i, i < D.nsp → 0 ≤ C i := fun i hi => (hC i hi).le
        cases hkd : n.r.kind with
        | elementary => simp [Reaction.modified, hkd] at h
        | thirdBody eff =>
          rw [hkd] at hpf
          have := hpf C hsum
          rw [this]
          exact thirdBody_nonneg _ _ _ h0
        | falloff eff =>
          rw [hkd] at hpf
          obtain ⟨κ, kp, F, Fp, ef⟩ := hpf
          have := ef C hsum
          rw [this]
          have := thirdBody_nonneg D.nsp eff C h0
          have h3 := Fp C
          have : 0 ≤ thirdBody D.mech.nsp eff C := this
          positivity
      · rw [if_neg h]
        exact zero_le_one
    have hq := affinity_progress (X := D.chemistry) (n := n) hT hC b1 b2 hk hKc hpm
    have e2 : n.progress fwd rev pm = (kf * (n.r.reactants.map C).prod - kf / Kc * (n.r.products.map C).prod) *
        (if n.r.modified then pm n.p else 1) := by
      unfold Numbered.progress
      rw [if_pos hrev]
      have h3 : fwd n.k = kf * (n.r.reactants.map C).prod := by rw [hf]; exact hkf C
      have h4 : rev n.j = kf / Kc * (n.r.products.map C).prod := by rw [hv]; exact hkr C
      rw [h3, h4]
    rw [e2]
    refine le_trans ?_ hq
    have := mul_le_mul_of_nonneg_right h3 (abs_nonneg ((kf * (n.r.reactants.map C).prod - kf / Kc * (n.r.products.map C).prod) *
        (if n.r.modified then pm n.p else 1)))
    linarith
  rw [← list_sum_mul] at hle
  have e3 : (((number D.reactions).filter fun n => n.r.reversible).map fun n => -|n.progress fwd rev pm|).sum =
      -(((number D.reactions).filter fun n => n.r.reversible).map fun n => |n.progress fwd rev pm|).sum := by
    induction (number D.reactions).filter fun n => n.r.reversible with
    | nil => simp
    | cons n l ih =>
      simp only [List.map_cons, List.sum_cons, ih]
      ring
  rw [e3] at hle
  linarith

/-! ### The entropy of the reactor -/

/-- C112. The entropy of the adiabatic reactor. For every state with positive mass fractions, from 200 K to 5000 K and away from the exceptions of C83
and from the temperatures at which the thermodynamic polynomials change: let the state move in the direction given by `dydt`, with the last
mass fraction as complement. Then the entropy of the mixture, with the data of chem.cti, does not decrease, except for irreversible reactions and up to 10^-9 of the absolute values of the terms. -/
theorem C112_entropy (D : Package) (hD : D ∈ shipped) (pres : ℝ) (y Y : Nat → ℝ)
    (hY : Y = complement (D.nsp - 1) (fun i => y (i + 1))) (h1 : 200 ≤ y 0) (h2 : y 0 ≤ 5000) (hp : 0 < pres)
    (hpos : ∀ i, i < D.nsp → 0 < Y i) (hpole : D.chemistry.AwayFromPoles (y 0) (D.chemistry.concentrations (y 0) pres Y))
    (hmid : ∀ i, i < D.nsp → y 0 ≠ ((D.fit i).tMid.1 : ℝ) / 10 ^ (D.fit i).tMid.2) :
    ∃ (σ : CMem ℝ) (dy : Nat → ℝ) (s' : ℝ), D.mech.callDydt pres y = some σ ∧ (∀ i, i < D.nsp → σ (.arr .dy i) = some (dy i)) ∧
      HasDerivAt (fun t => D.chemistry.entropy (y 0 + t * dy 0) pres (complement (D.nsp - 1) fun i => y (i + 1) + t * dy (i + 1))) s' 0 ∧
      gasR / D.chemistry.density (y 0) pres Y * (((number D.reactions).filter fun n => !n.r.reversible).map fun n =>
          D.chemistry.affinity n (y 0) (D.chemistry.concentrations (y 0) pres Y) *
            (D.chemistry.forward n (y 0) (D.chemistry.concentrations (y 0) pres Y) *
              D.chemistry.modification n (y 0) (D.chemistry.concentrations (y 0) pres Y))).sum -
        (∑ i ∈ Finset.range (D.nsp - 1), (|D.chemistry.partialEntropy (y 0) pres Y i| + |D.chemistry.partialEntropy (y 0) pres Y (D.nsp - 1)|) *
            D.chemistry.dYdtTerms (y 0) pres Y i +
          D.chemistry.mixtureCp (y 0) Y / y 0 * D.chemistry.dTdtTerms (y 0) pres Y) / 10 ^ 9 ≤ s' := by
  have hT : 0 < y 0 := by linarith
  have hc := checked_of_shipped hD
  have hn := nsp_pos hc
  obtain ⟨m, hm⟩ : ∃ m, D.nsp = m + 1 := ⟨D.nsp - 1, by omega⟩
  have hm1 : D.nsp - 1 = m := by omega
  have hnn : ∀ i, i < D.nsp → 0 ≤ Y i := fun i hi => (hpos i hi).le
  have hW : ∀ i, i < D.chemistry.nsp → 0 < D.chemistry.weight i := fun i hi => molWeight_pos hc i hi
  obtain ⟨σ, e, hsp⟩ := C83_species D hD pres y Y hY h1 (by linarith) hp hnn hpole
  obtain ⟨σ', dT, e', hdT, hte⟩ := C83_temperature D hD pres y Y hY h1 h2 hp hnn hpole
  rw [e] at e'
  obtain rfl := Option.some.inj e'
  choose! d hd using hsp
  obtain ⟨dy, hdy⟩ : ∃ dy : Nat → ℝ, dy = fun i => if i = 0 then dT else d (i - 1) := ⟨_, rfl⟩
  have hdy0 : dy 0 = dT := by rw [hdy]; rfl
  have hdyS : ∀ i, dy (i + 1) = d i := by intro i; rw [hdy]; simp
  obtain ⟨b, hb⟩ : ∃ b : Nat → ℝ, b = fun i => if i = m then -∑ j ∈ Finset.range m, d j else d i := ⟨_, rfl⟩
  have hline : ∀ t : ℝ, (complement (D.nsp - 1) fun i => y (i + 1) + t * dy (i + 1)) = fun i => Y i + t * b i := by
    intro t
    funext i
    rw [hY, hb, hm1]
    unfold complement
    by_cases hi : i = m
    · simp only [if_pos hi, hdyS, Finset.sum_add_distrib, ← Finset.mul_sum]
      ring
    · simp only [if_neg hi, hdyS]
  -- heat capacity
  have hcp : 0 < D.chemistry.mixtureCp (y 0) Y := by
    refine Finset.sum_pos (fun i hi => ?_) ⟨0, Finset.mem_range.2 hn⟩
    have hi : i < D.nsp := Finset.mem_range.1 hi
    refine mul_pos ?_ (hpos i hi)
    obtain ⟨σcp', σh', ecp', eh', ht⟩ := C75_nasa_polynomials (K := ℝ) D hD (y 0)
    obtain ⟨σc2, ec2, ht2⟩ := C76_heat_capacity_positive (K := ℝ) D hD (y 0) h1 h2
    rw [ecp'] at ec2
    obtain rfl := Option.some.inj ec2
    obtain ⟨c, h', q1, q2, q3, -⟩ := ht i hi
    obtain ⟨c2, q4, q5, q6⟩ := ht2 i hi
    rw [q1] at q4
    obtain rfl := Option.some.inj q4
    have := (cp_near hD (y 0) h1 h2 i hi _ q3 q5).le
    by_contra hneg
    have h0 := mul_nonpos_of_nonpos_of_nonneg (not_lt.1 hneg) (Real.exp_pos (6 / 10 ^ 11)).le
    linarith
  have hder := entropy_deriv (X := D.chemistry) hT hp hW hpos hn hmid dT b
  have hprod := entropy_production (X := D.chemistry) hT hp hW hpos hn hcp.ne'
  have hw : (fun t => D.chemistry.entropy (y 0 + t * dy 0) pres (complement (D.nsp - 1) fun i => y (i + 1) + t * dy (i + 1))) =
      fun t => D.chemistry.entropy (y 0 + t * dT) pres fun i => Y i + t * b i := by
    funext t
    rw [hline, hdy0]
  rw [← hw] at hder
  refine ⟨σ, dy, _, e, fun i hi => ?_, hder, ?_⟩
  · cases i with
    | zero => rw [hdy0]; exact hdT
    | succ i => rw [hdyS]; exact (hd i (by omega)).1
  have hns : D.chemistry.nsp = m + 1 := hm
  rw [hm1] at hd ⊢
  clear hder hw
  generalize y 0 = T at *
  -- affinities
  have hρ : 0 < D.chemistry.density T pres Y := by
    have hNp : 0 < ∑ j ∈ Finset.range D.chemistry.nsp, Y j / D.chemistry.weight j :=
      Finset.sum_pos (fun i hi => div_pos (hpos i (Finset.mem_range.1 hi)) (hW i (Finset.mem_range.1 hi))) ⟨0, Finset.mem_range.2 hn⟩
    have hR : (0 : ℝ) < gasR := by unfold gasR; positivity
    unfold Chemistry.density
    positivity
  obtain ⟨C, hCe⟩ : ∃ C, C = D.chemistry.concentrations T pres Y := ⟨_, rfl⟩
  rw [← hCe] at hprod hpole ⊢
  have hCp : ∀ i, i < D.nsp → 0 < C i := by
    intro i hi
    rw [hCe]
    unfold Chemistry.concentrations
    exact div_pos (mul_pos hρ (hpos i hi)) (hW i hi)
  have hR : (0 : ℝ) < gasR := by unfold gasR; positivity
  have hCs : ∑ i ∈ Finset.range D.nsp, C i = pres / (gasR * T) := by
    have hNp : 0 < ∑ j ∈ Finset.range D.chemistry.nsp, Y j / D.chemistry.weight j :=
      Finset.sum_pos (fun i hi => div_pos (hpos i (Finset.mem_range.1 hi)) (hW i (Finset.mem_range.1 hi))) ⟨0, Finset.mem_range.2 hn⟩
    rw [hCe]
    have : ∀ i ∈ Finset.range D.nsp, D.chemistry.concentrations T pres Y i = D.chemistry.density T pres Y * (Y i / D.chemistry.weight i) := by
      intro i _
      unfold Chemistry.concentrations
      ring
    rw [Finset.sum_congr rfl this, ← Finset.mul_sum]
    unfold Chemistry.density
    have e : (∑ i ∈ Finset.range D.nsp, Y i / D.chemistry.weight i) = ∑ j ∈ Finset.range D.chemistry.nsp, Y j / D.chemistry.weight j := rfl
    rw [e]
    field_simp
  have hrevn : ∀ n ∈ (number D.reactions).filter fun n => n.r.reversible, (0 : ℝ) ≤ D.chemistry.affinity n T C *
      ((D.chemistry.forward n T C - D.chemistry.reverse n T C) * D.chemistry.modification n T C) := by
    intro n hn
    obtain ⟨hn, hrev⟩ := List.mem_filter.1 hn
    obtain ⟨b1, b2, -⟩ := balance_sound (K := ℝ) hc n.r (mem_numberFrom D.reactions 0 0 0 n hn)
    obtain ⟨kf, ⟨η, hη, hkf⟩, hk, -⟩ := laws_rates hc (laws_of_shipped hD) T pres hT n hn
    have hcoef : 0 < D.chemistry.coefficient n T := by
      rw [hkf] at hk
      exact (pos_iff_pos_of_mul_pos hk).2 (Real.exp_pos _)
    have hmod : 0 ≤ D.chemistry.modification n T C := by
      obtain ⟨-, -, k3, k4, k5⟩ := kinetics_near hD T pres h1 (by linarith) C C (fun i hi => (Near.refl (hCp i hi).le).mono (by norm_num))
        hCs.symm hpole n hn
      cases hkd : n.r.kind with
      | elementary => rw [k5 (by simp [Reaction.modified, hkd])]; exact zero_le_one
      | thirdBody eff => exact (k3 eff hkd).right
      | falloff eff => exact (k4 eff hkd).right
    have hq := affinity_progress (X := D.chemistry) (n := n) (ε := 0) (Kc := equilibriumConstant D.chemistry.nsp D.chemistry.fit n.r T) hT hCp b1 b2
      hcoef (by rw [Real.exp_zero, mul_one]) hmod
    rw [abs_zero, zero_mul, neg_zero] at hq
    unfold Chemistry.forward Chemistry.reverse
    rw [if_pos hrev]
    exact hq
  have hirr : ((number D.reactions).filter fun n => !n.r.reversible).map (fun n => D.chemistry.affinity n T C *
      ((D.chemistry.forward n T C - D.chemistry.reverse n T C) * D.chemistry.modification n T C)) =
      ((number D.reactions).filter fun n => !n.r.reversible).map (fun n => D.chemistry.affinity n T C *
      (D.chemistry.forward n T C * D.chemistry.modification n T C)) := by
    refine List.map_congr_left fun n hn => ?_
    have hrev := (List.mem_filter.1 hn).2
    have hrev : ¬ n.r.reversible = true := by simpa using hrev
    have : D.chemistry.reverse n T C = 0 := by
      unfold Chemistry.reverse
      rw [if_neg hrev]
    rw [this, sub_zero]
  have hrx : D.chemistry.reactions = D.reactions := rfl
  rw [hrx, sum_split, hirr] at hprod
  have hnonneg : 0 ≤ gasR / D.chemistry.density T pres Y * (((number D.reactions).filter fun n => n.r.reversible).map fun n =>
      D.chemistry.affinity n T C * ((D.chemistry.forward n T C - D.chemistry.reverse n T C) * D.chemistry.modification n T C)).sum := by
    refine mul_nonneg (by positivity) ?_
    have := list_sum_le _ (fun _ => (0 : ℝ)) _ hrevn
    simpa using this
  -- differences
  have hmass : ∑ i ∈ Finset.range D.chemistry.nsp, D.chemistry.dYdt T pres Y i = 0 := by
    have e1 : ∀ i ∈ Finset.range D.chemistry.nsp, D.chemistry.dYdt T pres Y i =
        D.molWeight i * D.chemistry.production T C i * (1 / D.chemistry.density T pres Y) := by
      intro i _
      rw [hCe]
      have : D.chemistry.weight i = D.molWeight i := rfl
      unfold Chemistry.dYdt
      rw [this]
      ring
    rw [Finset.sum_congr rfl e1, ← Finset.sum_mul]
    have e2 := sum_weighted D.nsp (number D.reactions) (fun i => (D.molWeight i : ℝ)) fun n =>
      (D.chemistry.forward n T C - D.chemistry.reverse n T C) * D.chemistry.modification n T C
    have e3 : ∑ i ∈ Finset.range D.chemistry.nsp, (D.molWeight i : ℝ) * D.chemistry.production T C i = 0 := by
      refine e2.trans (List.sum_eq_zero ?_)
      intro v hv
      obtain ⟨n, hn, rfl⟩ := List.mem_map.1 hv
      rw [mass_net hc n hn, zero_mul]
    rw [e3, zero_mul]
  rw [hns, Finset.sum_range_succ] at hmass hprod ⊢
  have hbm : b m = -∑ j ∈ Finset.range m, d j := by rw [hb]; simp
  have hbi : ∀ i ∈ Finset.range m, b i = d i := by
    intro i hi
    rw [hb]
    have := Finset.mem_range.1 hi
    simp only [if_neg (by omega : ¬ i = m)]
  have eb : ∑ i ∈ Finset.range m, D.chemistry.partialEntropy T pres Y i * b i = ∑ i ∈ Finset.range m, D.chemistry.partialEntropy T pres Y i * d i :=
    Finset.sum_congr rfl fun i hi => by rw [hbi i hi]
  rw [eb, hbm]
  have hlast : D.chemistry.dYdt T pres Y m = -∑ i ∈ Finset.range m, D.chemistry.dYdt T pres Y i := by linarith
  rw [hlast] at hprod
  have hdiff : -((∑ i ∈ Finset.range m, (|D.chemistry.partialEntropy T pres Y i| + |D.chemistry.partialEntropy T pres Y m|) *
      D.chemistry.dYdtTerms T pres Y i) / 10 ^ 9) ≤
      ∑ i ∈ Finset.range m, (D.chemistry.partialEntropy T pres Y i - D.chemistry.partialEntropy T pres Y m) *
        (d i - D.chemistry.dYdt T pres Y i) := by
    rw [Finset.sum_div, ← Finset.sum_neg_distrib]
    refine Finset.sum_le_sum fun i hi => ?_
    have h3 := (hd i (Finset.mem_range.1 hi)).2
    have h4 := abs_mul (D.chemistry.partialEntropy T pres Y i - D.chemistry.partialEntropy T pres Y m) (d i - D.chemistry.dYdt T pres Y i)
    have h5 := neg_abs_le ((D.chemistry.partialEntropy T pres Y i - D.chemistry.partialEntropy T pres Y m) * (d i - D.chemistry.dYdt T pres Y i))
    have h6 := mul_le_mul (abs_sub (D.chemistry.partialEntropy T pres Y i) (D.chemistry.partialEntropy T pres Y m)) h3 (abs_nonneg _) (by positivity)
    rw [h4] at h5
    rw [mul_div_assoc]
    linarith
  have esum : ∑ i ∈ Finset.range m, (D.chemistry.partialEntropy T pres Y i - D.chemistry.partialEntropy T pres Y m) *
        (d i - D.chemistry.dYdt T pres Y i) =
      (∑ i ∈ Finset.range m, D.chemistry.partialEntropy T pres Y i * d i - D.chemistry.partialEntropy T pres Y m * ∑ i ∈ Finset.range m, d i) -
      (∑ i ∈ Finset.range m, D.chemistry.partialEntropy T pres Y i * D.chemistry.dYdt T pres Y i -
        D.chemistry.partialEntropy T pres Y m * ∑ i ∈ Finset.range m, D.chemistry.dYdt T pres Y i) := by
    rw [Finset.mul_sum, Finset.mul_sum, ← Finset.sum_sub_distrib, ← Finset.sum_sub_distrib, ← Finset.sum_sub_distrib]
    exact Finset.sum_congr rfl fun i _ => by ring
  rw [esum] at hdiff
  have hcT : 0 ≤ D.chemistry.mixtureCp T Y / T := div_nonneg hcp.le hT.le
  have htemp := mul_le_mul_of_nonneg_left (abs_le.1 hte).1 hcT
  have e4 : D.chemistry.mixtureCp T Y / T * (dT - D.chemistry.dTdt T pres Y) =
      D.chemistry.mixtureCp T Y / T * dT - D.chemistry.mixtureCp T Y / T * D.chemistry.dTdt T pres Y := by ring
  have e5 : D.chemistry.mixtureCp T Y / T * -(D.chemistry.dTdtTerms T pres Y / 10 ^ 9) =
      -(D.chemistry.mixtureCp T Y / T * D.chemistry.dTdtTerms T pres Y / 10 ^ 9) := by ring
  rw [e4, e5] at htemp
  rw [mul_add] at hprod
  rw [add_div]
  linarith

/-! ### Mechanisms with and without irreversible reactions -/

/-- C112. drm19 has no irreversible reactions: neither does the Gibbs energy of a mixture increase, nor the entropy of the reactor decrease, but for the
errors stated. -/
theorem C112_drm19 :
    (∀ (T pres : ℝ), 200 ≤ T → T ≤ 6000 → ∀ C : Nat → ℝ, (∀ i, i < drm19.nsp → 0 < C i) →
      ∑ i ∈ Finset.range drm19.nsp, C i = pres / (gasR * T) →
      ∃ (σr σp σs : CMem ℝ) (fwd rev pm ω : Nat → ℝ),
        drm19.mech.callRxnRates T pres (fun i => some (C i)) = some σr ∧
        (∀ n ∈ number drm19.reactions, σr (.arr .fwd n.k) = some (fwd n.k) ∧ σr (.arr .rev n.j) = some (rev n.j)) ∧
        drm19.mech.callPresMod T pres (fun i => some (C i)) = some σp ∧
        (∀ n ∈ number drm19.reactions, n.r.modified = true → σp (.arr .presMod n.p) = some (pm n.p)) ∧
        drm19.mech.callSpecRates (fun i => some (fwd i)) (fun i => some (rev i)) (fun i => some (pm i)) = some σs ∧
        (∀ s, s < drm19.nsp → σs (specLoc drm19.nsp s) = some (ω s)) ∧
        ∑ i ∈ Finset.range drm19.nsp, drm19.chemistry.potential T C i * ω i ≤
          ((number drm19.reactions).map fun n => |n.progress fwd rev pm|).sum / 10 ^ 10) ∧
    ∀ (pres : ℝ) (y Y : Nat → ℝ), Y = complement (drm19.nsp - 1) (fun i => y (i + 1)) → 200 ≤ y 0 → y 0 ≤ 5000 → y 0 ≠ 1000 → 0 < pres →
      (∀ i, i < drm19.nsp → 0 < Y i) → drm19.chemistry.AwayFromPoles (y 0) (drm19.chemistry.concentrations (y 0) pres Y) →
      ∃ (σ : CMem ℝ) (dy : Nat → ℝ) (s' : ℝ), drm19.mech.callDydt pres y = some σ ∧ (∀ i, i < drm19.nsp → σ (.arr .dy i) = some (dy i)) ∧
        HasDerivAt (fun t => drm19.chemistry.entropy (y 0 + t * dy 0) pres
          (complement (drm19.nsp - 1) fun i => y (i + 1) + t * dy (i + 1))) s' 0 ∧
        -((∑ i ∈ Finset.range (drm19.nsp - 1),
            (|drm19.chemistry.partialEntropy (y 0) pres Y i| + |drm19.chemistry.partialEntropy (y 0) pres Y (drm19.nsp - 1)|) *
              drm19.chemistry.dYdtTerms (y 0) pres Y i +
            drm19.chemistry.mixtureCp (y 0) Y / y 0 * drm19.chemistry.dTdtTerms (y 0) pres Y) / 10 ^ 9) ≤ s' := by
  have hr : ∀ n ∈ number drm19.reactions, n.r.reversible = true := by decide +kernel
  have f1 : ((number drm19.reactions).filter fun n => !n.r.reversible) = [] :=
    List.filter_eq_nil_iff.2 fun n hn => by simp [hr n hn]
  have f2 : ((number drm19.reactions).filter fun n => n.r.reversible) = number drm19.reactions :=
    List.filter_eq_self.2 hr
  constructor
  · intro T pres h1 h2 C hC hsum
    obtain ⟨σr, σp, σs, fwd, rev, pm, ω, e1, e2, e3, e4, e5, e6, h⟩ := C112_gibbs_energy drm19 drm19_shipped T pres h1 h2 C hC hsum
    rw [f1, f2] at h
    exact ⟨σr, σp, σs, fwd, rev, pm, ω, e1, fun n hn => ⟨(e2 n hn).1, (e2 n hn).2 (hr n hn)⟩, e3, e4, e5, e6, by simpa using h⟩
  · intro pres y Y hY h1 h2 h3 hp hpos hpole
    have hm : ∀ i, i < drm19.nsp → (drm19.fit i).tMid = (1000, 0) := by decide +kernel
    obtain ⟨σ, dy, s', e1, e2, e3, h⟩ := C112_entropy drm19 drm19_shipped pres y Y hY h1 h2 hp hpos hpole
      (fun i hi => by rw [hm i hi]; simpa using h3)
    rw [f1] at h
    exact ⟨σ, dy, s', e1, e2, e3, by simpa using h⟩

/-- C112. The exception is real: every irreversible reaction of a shipped mechanism runs forward in some mixtures in which its affinity is negative, i.e.
there it destroys entropy. (drm19 has none, gri30 16, yao 19.) -/
theorem C112_irreversible (D : Package) (hD : D ∈ shipped) (n : Numbered) (hn : n ∈ number D.reactions) (hr : n.r.reversible = false)
    (T pres : ℝ) (hT : 0 < T) :
    ∃ (C : Nat → ℝ) (σ : CMem ℝ) (q : ℝ), (∀ i, 0 < C i) ∧ D.mech.callRxnRates T pres (fun i => some (C i)) = some σ ∧
      σ (.arr .fwd n.k) = some q ∧ 0 < q ∧ D.chemistry.affinity n T C < 0 := by
  have hex : ∃ s, s < D.nsp ∧ 0 < n.r.net s := by
    have h : ∀ D ∈ shipped, ((number D.reactions).all fun n => n.r.reversible || (List.range D.nsp).any fun s => decide (0 < n.r.net s)) = true := by
      unfold shipped
      intro D hD
      simp only [List.mem_cons, List.not_mem_nil, or_false] at hD
      rcases hD with rfl | rfl | rfl <;> decide +kernel
    have := List.all_eq_true.1 (h D hD) n hn
    rw [hr, Bool.false_or, List.any_eq_true] at this
    obtain ⟨s, h1, h2⟩ := this
    exact ⟨s, List.mem_range.1 h1, of_decide_eq_true h2⟩
  obtain ⟨s, hs, hpos⟩ := hex
  have hR : (0 : ℝ) < gasR := by unfold gasR; positivity
  have hp : (0 : ℝ) < standardPressure := by unfold standardPressure; positivity
  have hq : 0 < standardPressure / (gasR * T) := by positivity
  obtain ⟨G, hG⟩ : ∃ G, G = ∑ i ∈ Finset.range D.nsp, (n.r.net i : ℝ) * gOverRT ((D.fit i).at T) T := ⟨_, rfl⟩
  have hC : ∀ i, 0 < standardPressure / (gasR * T) * if i = s then Real.exp (|G| + 1) else 1 := by
    intro i
    split <;> positivity
  obtain ⟨kf, hk, hf⟩ := (C63_mass_action D hD realCMathLaws T pres n hn).1
  obtain ⟨σ, e1, e2⟩ := hf fun i => standardPressure / (gasR * T) * if i = s then Real.exp (|G| + 1) else 1
  refine ⟨_, σ, _, hC, e1, e2, mul_pos hk (prod_pos_of fun i _ => hC i), ?_⟩
  have e : ∀ i ∈ Finset.range D.nsp, (n.r.net i : ℝ) * D.chemistry.potential T
      (fun i => standardPressure / (gasR * T) * if i = s then Real.exp (|G| + 1) else 1) i =
      (n.r.net i : ℝ) * gOverRT ((D.fit i).at T) T + if i = s then (n.r.net i : ℝ) * (|G| + 1) else 0 := by
    intro i _
    have hf : D.chemistry.fit = D.fit := rfl
    unfold Chemistry.potential
    have : standardPressure / (gasR * T) * (if i = s then Real.exp (|G| + 1) else 1) * (gasR * T) / standardPressure =
        if i = s then Real.exp (|G| + 1) else 1 := by field_simp
    rw [this, hf]
    by_cases hi : i = s
    · simp only [if_pos hi, Real.log_exp]
      ring
    · simp only [if_neg hi, Real.log_one]
      ring
  have hns : D.chemistry.nsp = D.nsp := rfl
  unfold Chemistry.affinity
  rw [hns, Finset.sum_congr rfl e, Finset.sum_add_distrib, Finset.sum_ite_eq', if_pos (Finset.mem_range.2 hs), ← hG]
  have h1 : (1 : ℝ) ≤ n.r.net s := by exact_mod_cast hpos
  have h2 := neg_abs_le G
  have h3 := abs_nonneg G
  nlinarith

/-! ### Concrete cases -/

/-- drm19 at 1200 K with all species in equal parts, at low pressure, meets the hypotheses. -/
example : ∃ (p s' : ℝ), 0 < p ∧ ∃ (σ : CMem ℝ) (dy : Nat → ℝ), drm19.mech.callDydt p (fun i => if i = 0 then 1200 else 1 / 21) = some σ ∧
    HasDerivAt (fun t => drm19.chemistry.entropy (1200 + t * dy 0) p (complement 20 fun i => 1 / 21 + t * dy (i + 1))) s' 0 := by
  obtain ⟨p, hp, h⟩ := (C83_poles drm19 drm19_shipped 1200 (by norm_num) (by norm_num)
    (complement (drm19.nsp - 1) fun i => if i + 1 = 0 then 1200 else 1 / 21)).1
  have hn : drm19.nsp = 21 := by decide +kernel
  obtain ⟨σ, dy, s', e1, -, e3, -⟩ := C112_drm19.2 p (fun i => if i = 0 then 1200 else 1 / 21) _ rfl (by norm_num) (by norm_num) (by norm_num) hp
    (fun i hi => by
      rw [hn]
      simp only [complement]
      split
      · norm_num
      · norm_num) (h p hp le_rfl)
  refine ⟨p, s', hp, σ, dy, e1, ?_⟩
  rw [hn] at e3
  simpa using e3

/-- A mixture for the first part. -/
example : ∃ (T pres : ℝ) (C : Nat → ℝ), 200 ≤ T ∧ T ≤ 6000 ∧ (∀ i, i < drm19.nsp → 0 < C i) ∧
    ∑ i ∈ Finset.range drm19.nsp, C i = pres / (gasR * T) := by
  have hn : drm19.nsp = 21 := by decide +kernel
  have hg : (gasR : ℝ) ≠ 0 := by norm_num [gasR]
  refine ⟨1200, 21 * (gasR * 1200), fun _ => 1, by norm_num, by norm_num, fun _ _ => one_pos, ?_⟩
  rw [hn]
  field_simp
  simp

/-- gri30 has irreversible reactions. -/
example : ∃ n ∈ number gri30.reactions, n.r.reversible = false := by
  refine ⟨(number gri30.reactions).getD ((number gri30.reactions).findIdx fun n => !n.r.reversible) ⟨⟨[], [], true, .elementary⟩, 0, 0, 0⟩, ?_, ?_⟩ <;>
    decide +kernel

end DLB
