import Verif.Lemmas.TroeBound
import Verif.Lemmas.RateBounds
import Verif.Lemmas.CheckRates
/-
The rates that the shipped libraries compute are near those of chem.cti.
-/
set_option autoImplicit false
set_option linter.unusedSectionVars false

namespace DLB

/-- What chem.cti says, as a `Chemistry`. -/
noncomputable def Package.chemistry (D : Package) : Chemistry where
  nsp := D.nsp
  reactions := D.reactions
  law := D.law
  fit := D.fit
  weight := D.molWeight

/-- Sizes that bound the sensitivity to rounding. -/
def kineticsOk (D : Package) : Bool :=
  ((number D.reactions).all fun n => Nat.ble n.r.reactants.length 40 && Nat.ble n.r.products.length 40 && match D.law n.k with
    | .simple _ => true
    | .falloff _ k0 none => k0.small && decide (0 ≤ k0.A.1)
    | .falloff _ k0 (some t) => k0.small && decide (0 ≤ k0.A.1) && centreBig t && centreSmall t) &&
  (List.range D.nsp).all fun s => Nat.ble (D.gBound s) 1000

theorem kinetics_of_shipped {D : Package} (h : D ∈ shipped) : kineticsOk D = true := by
  simp only [shipped, List.mem_cons, List.mem_nil_iff, or_false] at h
  rcases h with rfl | rfl | rfl <;> decide +kernel

/-- Concentrations near each other give rates near each other. -/
theorem kinetics_near {D : Package} (hD : D ∈ shipped) (T pres : ℝ) (h1 : 200 ≤ T) (h2 : T ≤ 6000) (C C' : Nat → ℝ)
    (hC : ∀ i, i < D.nsp → Near (4 / 10 ^ 15) (C i) (C' i)) (hsum : pres / (gasR * T) = ∑ i ∈ Finset.range D.nsp, C i)
    (hpole : D.chemistry.AwayFromPoles T C') (n : Numbered) (hn : n ∈ number D.reactions) :
    Near (1 / 10 ^ 10) (execT (D.mech.rateStart ++ D.mech.rateBlocks.flatten) (inT T pres C) (.arr .fwd n.k))
      (D.chemistry.forward n T C') ∧
    (n.r.reversible = true →
      Near (1 / 10 ^ 10) (execT (D.mech.rateStart ++ D.mech.rateBlocks.flatten) (inT T pres C) (.arr .rev n.j))
        (D.chemistry.reverse n T C')) ∧
    (∀ eff, n.r.kind = .thirdBody eff → Near (1 / 10 ^ 10) (thirdBody D.nsp eff C) (D.chemistry.modification n T C')) ∧
    (∀ eff, n.r.kind = .falloff eff →
      Near (2 / 10 ^ 10) (execT (D.mech.presModStart ++ D.mech.presModBlocks.flatten) (inT T pres C) (.arr .presMod n.p))
        (D.chemistry.modification n T C')) ∧
    (n.r.modified = false → D.chemistry.modification n T C' = 1) := by
  have hT : 0 < T := by linarith
  have hc := checked_of_shipped hD
  have hl := laws_of_shipped hD
  have hk := kinetics_of_shipped hD
  simp only [kineticsOk, Bool.and_eq_true, List.all_eq_true] at hk
  obtain ⟨⟨k1, k2⟩, k3⟩ := hk.1 n hn
  have k1 := Nat.le_of_ble_eq_true k1
  have k2 := Nat.le_of_ble_eq_true k2
  obtain ⟨hre, hpr, -⟩ := balance_sound (K := ℝ) hc n.r (mem_numberFrom D.reactions 0 0 0 n hn)
  obtain ⟨hb1, hb2⟩ := boundsOk_sound (bounds_of_shipped hD) n hn T h1 h2
  -- products of concentrations
  have hprod : ∀ l : List Nat, (∀ s ∈ l, s < D.nsp) → l.length ≤ 40 →
      Near (160 / 10 ^ 15) (l.map C).prod (l.map C').prod := by
    intro l hl1 hl2
    refine (Near.prod l fun i hi => hC i (hl1 i hi)).mono ?_
    have : (l.length : ℝ) ≤ 40 := by exact_mod_cast hl2
    linarith
  have hthird : ∀ eff, Near (4 / 10 ^ 15) (thirdBody D.nsp eff C) (thirdBody D.nsp eff C') := by
    intro eff
    refine Near.sum fun i hi => ?_
    have h0 : (0 : ℝ) ≤ efficiency eff i := by unfold efficiency; positivity
    exact ((Near.refl h0).mul (hC i hi)).mono (by norm_num)
  obtain ⟨kf, ⟨η, hη, hkf⟩, hkpos, hfwd, hrev⟩ := laws_rates hc hl T pres hT n hn
  have hcoef : 0 < (D.law n.k).high.coefficient n.r.order T := by
    rw [hkf] at hkpos
    exact (pos_iff_pos_of_mul_pos hkpos).2 (Real.exp_pos _)
  have hη' : |η| ≤ 1001 / 10 ^ 14 := hη.trans (div_le_div_of_nonneg_right (by linarith) (by positivity))
  have nkf : Near (1001 / 10 ^ 14) kf ((D.law n.k).high.coefficient n.r.order T) := Near.of_exp hcoef.le hη' hkf
  refine ⟨?_, fun hr => ?_, fun eff he => ?_, fun eff he => ?_, fun hm => ?_⟩
  · rw [hfwd C]
    exact (nkf.mul (hprod _ hre k1)).mono (by norm_num)
  · obtain ⟨Kc, ⟨ε, hε, hKc⟩, hval⟩ := hrev hr
    rw [hval C]
    unfold Chemistry.reverse
    rw [if_pos hr]
    have hε' : |ε| ≤ 4001 / 10 ^ 14 := hε.trans (div_le_div_of_nonneg_right (by linarith) (by positivity))
    have hKpos : 0 ≤ equilibriumConstant D.nsp D.fit n.r T := by
      unfold equilibriumConstant standardPressure gasR
      positivity
    have nK : Near (4001 / 10 ^ 14) Kc (equilibriumConstant D.nsp D.fit n.r T) := Near.of_exp hKpos hε' hKc
    exact ((nkf.div nK).mul (hprod _ hpr k2)).mono (by norm_num)
  · unfold Chemistry.modification
    rw [he]
    exact (hthird eff).mono (by norm_num)
  · obtain ⟨kInf, k0, troe, hlaw, η2, hη2, hval⟩ := laws_pres hc hl T pres hT (by linarith) n hn eff he
    rw [hval C _ hsum rfl]
    have hs : k0.small = true ∧ 0 ≤ k0.A.1 := by
      rw [hlaw] at k3
      cases troe with
      | none =>
        simp only [Bool.and_eq_true, decide_eq_true_eq] at k3
        exact k3
      | some t =>
        simp only [Bool.and_eq_true, decide_eq_true_eq] at k3
        exact k3.1.1
    have ht0 := small_sound hs.1 T h1
    have ht1 : |kInf.temperature| / T ≤ 1000 := by
      rw [hlaw] at hb2
      exact hb2
    have hη2' : |η2| ≤ 2002 / 10 ^ 14 := by
      refine hη2.trans (div_le_div_of_nonneg_right ?_ (by positivity))
      rw [add_div]
      linarith
    have hord : n.r.order = n.r.reactants.length := by
      unfold Reaction.order
      rw [he]
      rfl
    have hkInf : 0 < kInf.coefficient n.r.reactants.length T := by
      rw [hlaw, hord] at hcoef
      exact hcoef
    -- the reduced pressures
    obtain ⟨Q, hQ⟩ : ∃ Q, Q = D.chemistry.reducedPressure n kInf k0 eff T C' := ⟨_, rfl⟩
    obtain ⟨P, hP⟩ : ∃ P, P = k0.coefficient (n.r.reactants.length + 1) T * thirdBody D.nsp eff C /
      kInf.coefficient n.r.reactants.length T * Real.exp η2 := ⟨_, rfl⟩
    have hk0 : 0 ≤ k0.coefficient (n.r.reactants.length + 1) T := by
      have hA : (0 : ℝ) ≤ SDec.val k0.A := div_nonneg (by exact_mod_cast hs.2) (by positivity)
      have hTb := Real.rpow_nonneg hT.le (SDec.val k0.b : ℝ)
      unfold Arrhenius.coefficient
      positivity
    have nP : Near (21 / 10 ^ 12) P Q := by
      have a : Near (2002 / 10 ^ 14) (Real.exp η2) 1 := Near.of_exp zero_le_one hη2' (one_mul _).symm
      have b := (((Near.refl hk0).mul (hthird eff)).div (Near.refl hkInf.le)).mul a
      rw [hP, hQ]
      rw [mul_one] at b
      exact b.mono (by norm_num)
    rw [← hP]
    have nS := nP.saturate (by norm_num)
    unfold Chemistry.modification
    rw [he]
    have hlaw' : D.chemistry.law n.k = .falloff kInf k0 troe := hlaw
    rw [hlaw']
    cases troe with
    | none =>
      simp only [broadening, one_mul]
      rw [← hQ]
      exact nS.mono (by norm_num)
    | some t =>
      simp only [broadening]
      rw [← hQ]
      rw [hlaw] at k3
      simp only [Bool.and_eq_true] at k3
      have hF3 := centreSmall_sound k3.2 T h1
      have hF0 : 0 < t.centre T := lt_of_lt_of_le (by positivity) (centreBig_sound k3.1.2 T hT (by linarith))
      have nM : Near (21 / 10 ^ 12) (max P (1 / 10 ^ 300)) (max Q (1 / 10 ^ 300)) :=
        nP.max ((Near.refl (by positivity)).mono (by norm_num))
      have hM : 0 < max Q (1 / 10 ^ 300) := lt_max_of_lt_right (by positivity)
      have hpq := hpole n hn eff kInf k0 t he hlaw'
      rw [← hQ] at hpq
      have hlg := lg_near nM hM
      have hten : 1 ≤ Real.log 10 := by
        rw [Real.le_log_iff_exp_le (by norm_num)]
        linarith [Real.exp_one_lt_d9]
      have hlg' : |lg (max P (1 / 10 ^ 300)) - lg (max Q (1 / 10 ^ 300))| ≤ 21 / 10 ^ 12 :=
        (le_mul_of_one_le_right (abs_nonneg _) hten).trans hlg
      have nF := troe_near nM hM hF0 hF3 (fun e => by
          rw [← e, abs_sub_comm] at hpq
          norm_num at hpq hlg'
          linarith) (fun e => by
          rw [e, sub_self, abs_zero] at hpq
          norm_num at hpq)
      rw [mul_div_assoc, mul_div_assoc]
      exact (nF.mul nS).mono (by norm_num)
  · unfold Chemistry.modification
    have : n.r.kind = .elementary := by
      unfold Reaction.modified at hm
      simpa using hm
    rw [this]

end DLB
