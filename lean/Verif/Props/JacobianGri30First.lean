import Verif.Props.JacobianGri30
import Verif.Lemmas.CheckGri30JacobL
import Verif.Lemmas.Gri30Nitrogen
/-
C94: the first entry of the analytical Jacobian of the shipped gri30 library (over the reals).
-/
set_option autoImplicit false
set_option linter.unusedSectionVars false

namespace DLB

/-- C94. For every pressure, temperature from 200 K to 5000 K and mixture at which the reactor is differentiable: the first entry that `eval_jacob` of gri30
leaves in a buffer of zeros is near the derivative `d` by the temperature of the rate of change of the temperature, plus the heat that
belongs to the derivative `dN` of the rate of change of the mass fraction of nitrogen without the contribution `d'` of reaction 260
(HCNN + H <=> CH2 + N2), up to 2·10^-5 of the sum of the sizes of the terms of `d`.

Missing: that the entry is near `d` alone.  This is false, see `C94_gri30_not_the_derivative`. -/
theorem C94_gri30_temperature_by_temperature_partial (pres : ℝ) (y Y : Nat → ℝ) (hY : Y = complement (gri30.nsp - 1) (fun i => y (i + 1)))
    (h1 : 200 ≤ y 0) (h2 : y 0 ≤ 5000) (hp : 0 < pres) (hpos : ∀ i, i < gri30.nsp → 0 ≤ Y i) (hmid : gri30.chemistry.BetweenFits (y 0))
    (hpole : gri30.chemistry.AwayFromPoles (y 0) (gri30.chemistry.concentrations (y 0) pres Y))
    (hcut : gri30.chemistry.AboveCutOff (y 0) (gri30.chemistry.concentrations (y 0) pres Y)) :
    ∃ σ x d dN d', gri30JacobColumn pres y (fun _ => some 0) = some σ ∧ σ (.arr .jac 0) = some x ∧
      HasDerivAt (fun T => gri30.chemistry.dTdt T pres Y) d (y 0) ∧
      HasDerivAt (fun T => gri30.chemistry.dYdt T pres Y 52) dN (y 0) ∧
      (∃ n ∈ number gri30.reactions, n.k = 260 ∧ HasDerivAt (fun T => gri30.chemistry.dYdtFrom n T pres Y 52) d' (y 0)) ∧
      |x - (d + (dN - d') * gri30.chemistry.enthalpy (y 0) 52 / gri30.chemistry.meanCp (y 0) Y)| ≤
        2 / 10 ^ 5 * gri30.chemistry.dTdtSlopeTerms (y 0) pres Y := by
  subst hY
  have hD : gri30 ∈ shipped := by simp [shipped]
  have hc := gri30_checked
  obtain ⟨σ, v, e, hst, h⟩ := jacob_call hc.sizes hc.rates hc.ratesSafe hc.presMod hc.presSafe hc.spec hc.specSafe hc.thermoSafe
    gri30_jacobSafe pres y (fun _ => (0 : ℝ))
  obtain ⟨hat, hyN⟩ := jacob_at hc gri30_db pres y _ (by linarith) hp hpos hst
  have hyv : ∀ i, i < 52 → v.y (i + 1) = complement (gri30.nsp - 1) (fun i => y (i + 1)) i := by
    intro i hi
    rw [hst.hy]
    show _ = complement 52 _ i
    unfold complement
    rw [if_neg (by omega)]
  obtain ⟨s, w, q1, q2, q3⟩ := result_first_groups (n := 52) (by decide) gri30_weights5 gri30_last gri30_lastFirst hyv hyN (fun _ => 0)
  rw [if_pos rfl] at q3
  have hS := fun k hk => jacob_rowT hD gri30_jacobSizes gri30_db gri30_weights5 gri30_parts pres y h1 (by linarith) hp hpos hmid hpole hcut
      hst k hk (List.all_eq_true.1 gri30_rowT k (List.mem_range.2 hk))
  obtain ⟨⟨dN, hdN⟩, m, hm, hk, d', hd', n1, n2⟩ := jacob_lastN hD gri30_jacobSizes gri30_db gri30_weights5 gri30_parts (show 52 < gri30.nsp by decide) gri30_lastN
    gri30_startN pres y h1 (by linarith) hp hpos hmid hpole hcut hst
  choose! g hg using hS
  have hv := temp_at hD gri30_db (n := 52) (by decide) gri30_cpAvg pres y _ h1 h2 hp hpos hpole hst
  have hvT := hst.hT
  have hder := gri30.chemistry.dTdt_deriv (T := y 0) (p := pres) (Y := complement (gri30.nsp - 1) fun i => y (i + 1))
    (d := fun i => if i < 52 then g i else dN) hmid (by rw [← hvT]; exact hv.mean_pos.ne') (fun i hi => by
      have hi' : i < 53 := hi
      by_cases him : i < 52
      · rw [if_pos him]
        exact (hg i him).1
      · rw [if_neg him]
        obtain rfl : i = 52 := by omega
        exact hdN)
  refine ⟨σ, _, _, dN, d', e, h 0 (by decide), hder, hdN, ⟨m, hm, hk, hd'⟩, ?_⟩
  have e1 : ∑ k ∈ Finset.range 52, v.result Mech.Gri30.jacobSlice (fun _ => 0) (k + 1) * v.h k * v.rho + v.jN * v.h 52 * v.rho =
      ∑ k ∈ Finset.range 53, (if k < 52 then v.result Mech.Gri30.jacobSlice (fun _ => 0) (k + 1) else v.jN) * v.h k * v.rho := by
    rw [Finset.sum_range_succ _ 52, if_neg (lt_irrefl 52)]
    exact congrArg (· + _) (Finset.sum_congr rfl fun k hk => by rw [if_pos (Finset.mem_range.1 hk)])
  rw [add_assoc, e1] at q3
  have near := tempT_near (n := 52) (by decide) (by rw [hvT]; linarith) hpos (fun i hi => molWeight_pos (K := ℝ) hc i hi) hv hat.rho_pos.ne'
    (e := fun i => if i < 52 then g i else d') (fun k hk => by
      rw [hvT]
      by_cases hkn : k < 52
      · rw [if_pos hkn, if_pos hkn]
        exact (hg k hkn).2
      · rw [if_neg hkn, if_neg hkn]
        obtain rfl : k = 52 := by omega
        exact ⟨n1, n2⟩) q1 q2 q3
  rw [hvT] at near
  convert near using 3
  unfold Chemistry.dTdtSlopeWith
  generalize ∑ k ∈ Finset.range gri30.chemistry.nsp, complement (gri30.nsp - 1) (fun i => y (i + 1)) k * gri30.chemistry.cpSlope (y 0) k = U
  rw [show gri30.chemistry.nsp = 52 + 1 from rfl, Finset.sum_range_succ _ 52, Finset.sum_range_succ _ 52]
  simp only [lt_self_iff_false, if_false]
  have e2 : ∀ (f h' : Nat → ℝ) (c : ℝ), ∑ i ∈ Finset.range 52, (f i + (if i < 52 then g i else dN) * h' i) * c =
      ∑ i ∈ Finset.range 52, (f i + (if i < 52 then g i else d') * h' i) * c := fun f h' c =>
    Finset.sum_congr rfl fun i hi => by rw [if_pos (Finset.mem_range.1 hi), if_pos (Finset.mem_range.1 hi)]
  rw [e2, div_eq_mul_inv]
  ring

/-- Compressed air with methane at 1200 K meets the hypotheses. -/
example : ∃ p : ℝ, 0 < p ∧ ∃ σ x d dN d', gri30JacobColumn p hotFuel (fun _ => some 0) = some σ ∧ σ (.arr .jac 0) = some x ∧
    HasDerivAt (fun T => gri30.chemistry.dTdt T p (complement (gri30.nsp - 1) fun i => hotFuel (i + 1))) d 1200 ∧
    HasDerivAt (fun T => gri30.chemistry.dYdt T p (complement (gri30.nsp - 1) fun i => hotFuel (i + 1)) 52) dN 1200 ∧
    (∃ n ∈ number gri30.reactions, n.k = 260 ∧
      HasDerivAt (fun T => gri30.chemistry.dYdtFrom n T p (complement (gri30.nsp - 1) fun i => hotFuel (i + 1)) 52) d' 1200) ∧
    |x - (d + (dN - d') * gri30.chemistry.enthalpy 1200 52 / gri30.chemistry.meanCp 1200 (complement (gri30.nsp - 1) fun i => hotFuel (i + 1)))| ≤
      2 / 10 ^ 5 * gri30.chemistry.dTdtSlopeTerms 1200 p (complement (gri30.nsp - 1) fun i => hotFuel (i + 1)) := by
  have e : hotFuel 0 = 1200 := rfl
  obtain ⟨p, hp, h⟩ := C91_gri30_domain (hotFuel 0) (by rw [e]; norm_num) _ hotFuel_ok (by rw [hotFuel_nitrogen]; norm_num)
  obtain ⟨h1, h2⟩ := h p le_rfl
  have hmid : gri30.chemistry.BetweenFits (hotFuel 0) := by
    have := noMid_sound gri30_noMid
    rw [e]
    exact_mod_cast this
  exact ⟨p, hp, C94_gri30_temperature_by_temperature_partial p hotFuel _ rfl (by rw [e]; norm_num) (by rw [e]; norm_num) hp hotFuel_ok hmid h1 h2⟩

/-- C94. The first entry is not the derivative: for a mixture of N and NH at 2000 K and high pressure, where everything is differentiable, it differs
from the derivative by the temperature of the rate of change of the temperature by more than a hundredth of the sum of the sizes of the terms of
that derivative.  (The statement `*J_nplusone = ...` in jacob.c of gri30 replaces the value where `+=` was meant.) -/
theorem C94_gri30_not_the_derivative : ∃ (pres : ℝ) (y Y : Nat → ℝ), Y = complement (gri30.nsp - 1) (fun i => y (i + 1)) ∧
    200 ≤ y 0 ∧ y 0 ≤ 5000 ∧ 0 < pres ∧ (∀ i, i < gri30.nsp → 0 ≤ Y i) ∧ gri30.chemistry.BetweenFits (y 0) ∧
    gri30.chemistry.AwayFromPoles (y 0) (gri30.chemistry.concentrations (y 0) pres Y) ∧
    gri30.chemistry.AboveCutOff (y 0) (gri30.chemistry.concentrations (y 0) pres Y) ∧
    ∃ σ x d, gri30JacobColumn pres y (fun _ => some 0) = some σ ∧ σ (.arr .jac 0) = some x ∧
      HasDerivAt (fun T => gri30.chemistry.dTdt T pres Y) d (y 0) ∧
      1 / 100 * gri30.chemistry.dTdtSlopeTerms (y 0) pres Y < |x - d| := by
  have e : hotNitrogen 0 = 2000 := rfl
  have hpos : ∀ i, i < gri30.nsp → 0 ≤ halfHalf i := fun i _ => by
    rw [halfHalf_eq]
    split_ifs <;> norm_num
  have hc := gri30_checked
  obtain ⟨p, hp, h⟩ := high_pressure gri30.chemistry (hotNitrogen 0) halfHalf
    (lastActs_sound hc gri30_acts30 (by decide) (hotNitrogen 0) (by rw [e]; norm_num) _ hpos (by rw [halfHalf_eq, if_pos (by omega)]; norm_num))
  obtain ⟨h1, h2⟩ := h p le_rfl
  have hmid : gri30.chemistry.BetweenFits (hotNitrogen 0) := by
    have := noMid_sound gri30_noMid2000
    rw [e]
    exact_mod_cast this
  obtain ⟨σ, x, d, dN, d', c1, c2, c3, c4, ⟨n, hn, hk, c5⟩, c6⟩ := C94_gri30_temperature_by_temperature_partial p hotNitrogen halfHalf rfl
    (by rw [e]; norm_num) (by rw [e]; norm_num) hp hpos hmid h1 h2
  refine ⟨p, hotNitrogen, halfHalf, rfl, by rw [e]; norm_num, by rw [e]; norm_num, hp, hpos, hmid, h1, h2, σ, x, d, c1, c2, c3, ?_⟩
  have big := halfHalf_gap hp c4 hn hk c5
  rw [e] at c6 ⊢
  have q := abs_sub_abs_le_abs_sub ((dN - d') * gri30.chemistry.enthalpy 2000 52 / gri30.chemistry.meanCp 2000 halfHalf) (-(x - (d + (dN - d') *
    gri30.chemistry.enthalpy 2000 52 / gri30.chemistry.meanCp 2000 halfHalf)))
  rw [abs_neg, sub_neg_eq_add, add_comm _ (x - _), ← sub_sub, sub_add_cancel] at q
  have S0 := big.1
  have big := big.2
  rw [← sub_sub] at c6
  norm_num at c6 ⊢
  linarith

end DLB
