import Verif.Lemmas.RealMath
import Verif.Lemmas.CheckYaoJacobT
import Verif.Lemmas.CheckYaoJacobN
import Verif.Lemmas.CheckYaoJacobL
/-
C92, C93: the temperature column of the analytical Jacobian of the shipped yao library (over the reals).
-/
set_option autoImplicit false
set_option linter.unusedSectionVars false

namespace DLB

/-- `eval_jacob` of the yao library, called with a buffer `jac`, without the statements on which the entries 0 to 53 do not depend. -/
noncomputable abbrev yaoJacobColumn (pres : ℝ) (y : Nat → ℝ) (jac : Nat → Option ℝ) : Option (CMem ℝ) :=
  yao.mech.callJacob Mech.Yao.jacobSlice pres y jac

/-- C92. For every pressure, temperature from 200 K to 6000 K and mixture at which the reactor is differentiable (the temperature is none at
which the thermodynamic polynomials change, no falloff reaction is at the pole of Troe's formula, no reduced pressure is cut off): the
entries 1 to 53 that `eval_jacob` of yao leaves in a buffer of zeros are the derivatives by the temperature of the rates of change of the mass
fractions of the reactor with the chemistry of chem.cti, up to 10^-5 of the total turnover of the species per temperature. -/
theorem C92_yao_species_by_temperature (pres : ℝ) (y Y : Nat → ℝ) (hY : Y = complement (yao.nsp - 1) (fun i => y (i + 1)))
    (h1 : 200 ≤ y 0) (h2 : y 0 ≤ 6000) (hp : 0 < pres) (hpos : ∀ i, i < yao.nsp → 0 ≤ Y i) (hmid : yao.chemistry.BetweenFits (y 0))
    (hpole : yao.chemistry.AwayFromPoles (y 0) (yao.chemistry.concentrations (y 0) pres Y))
    (hcut : yao.chemistry.AboveCutOff (y 0) (yao.chemistry.concentrations (y 0) pres Y)) :
    ∃ σ, yaoJacobColumn pres y (fun _ => some 0) = some σ ∧ ∀ i, i < 53 → ∃ x d, σ (.arr .jac (i + 1)) = some x ∧
      HasDerivAt (fun T => yao.chemistry.dYdt T pres Y i) d (y 0) ∧
      |x - d| ≤ 1 / 10 ^ 5 * (yao.chemistry.dYdtTerms (y 0) pres Y i / y 0) := by
  subst hY
  have hc := yao_checked
  obtain ⟨σ, v, e, hst, h⟩ := jacob_call hc.sizes hc.rates hc.ratesSafe hc.presMod hc.presSafe hc.spec hc.specSafe hc.thermoSafe
    yao_jacobSafe pres y (fun _ => (0 : ℝ))
  refine ⟨σ, e, fun i hi => ?_⟩
  obtain ⟨d, hd, hle, -⟩ := jacob_rowT (show yao ∈ shipped by simp [shipped]) yao_jacobSizes yao_db yao_weights5 yao_parts
    pres y h1 h2 hp hpos hmid hpole hcut hst i hi (List.all_eq_true.1 yao_rowT i (List.mem_range.2 hi))
  exact ⟨_, d, h (i + 1) (by show _ < 54 * 54; omega), hd, hle⟩

/-- C92. The hypotheses can be met: at every temperature and for every mixture with nitrogen, there is a pressure above
which no falloff reaction is at a pole or cut off. -/
theorem C92_yao_domain (T : ℝ) (hT : 0 < T) (Y : Nat → ℝ) (hY : ∀ i, i < yao.nsp → 0 ≤ Y i) (hN : 0 < Y 53) :
    ∃ p1 : ℝ, 0 < p1 ∧ ∀ p, p1 ≤ p → yao.chemistry.AwayFromPoles T (yao.chemistry.concentrations T p Y) ∧
      yao.chemistry.AboveCutOff T (yao.chemistry.concentrations T p Y) :=
  high_pressure _ T Y (lastActs_sound yao_checked yao_lastActs (by decide) T hT Y hY hN)

/-- Air with dodecane at 1200 K. -/
noncomputable def hotDodecane : Nat → ℝ := fun i => if i = 0 then 1200 else if i = 9 then 1 / 5 else if i = 45 then 1 / 20 else 0

theorem hotDodecane_nitrogen : complement (yao.nsp - 1) (fun i => hotDodecane (i + 1)) 53 = 3 / 4 := by
  show complement 53 _ 53 = _
  unfold complement hotDodecane
  rw [if_pos rfl, Finset.sum_eq_add_of_mem 8 44 (by decide) (by decide) (by decide)]
  · norm_num
  · intro b _ hb
    rw [if_neg (by omega), if_neg (by omega), if_neg (by omega)]

theorem hotDodecane_ok : ∀ i, i < yao.nsp → 0 ≤ complement (yao.nsp - 1) (fun i => hotDodecane (i + 1)) i := by
  intro i hi
  by_cases h : i = 53
  · subst h
    rw [hotDodecane_nitrogen]
    norm_num
  · show 0 ≤ complement 53 _ i
    unfold complement
    rw [if_neg h]
    unfold hotDodecane
    dsimp only
    split_ifs <;> norm_num

/-- Compressed air with dodecane at 1200 K meets the hypotheses. -/
example : ∃ p : ℝ, 0 < p ∧ ∃ σ, yaoJacobColumn p hotDodecane (fun _ => some 0) = some σ ∧ ∀ i, i < 53 → ∃ x d, σ (.arr .jac (i + 1)) = some x ∧
    HasDerivAt (fun T => yao.chemistry.dYdt T p (complement (yao.nsp - 1) fun i => hotDodecane (i + 1)) i) d 1200 ∧
    |x - d| ≤ 1 / 10 ^ 5 * (yao.chemistry.dYdtTerms 1200 p (complement (yao.nsp - 1) fun i => hotDodecane (i + 1)) i / 1200) := by
  have e : hotDodecane 0 = 1200 := rfl
  obtain ⟨p, hp, h⟩ := C92_yao_domain (hotDodecane 0) (by rw [e]; norm_num) _ hotDodecane_ok (by rw [hotDodecane_nitrogen]; norm_num)
  obtain ⟨h1, h2⟩ := h p le_rfl
  have hmid : yao.chemistry.BetweenFits (hotDodecane 0) := by
    have := noMid_sound yao_noMid
    rw [e]
    exact_mod_cast this
  exact ⟨p, hp, C92_yao_species_by_temperature p hotDodecane _ rfl (by rw [e]; norm_num) (by rw [e]; norm_num) hp hotDodecane_ok hmid h1 h2⟩

/-- C93. For every pressure, temperature from 200 K to 5000 K and mixture at which the reactor is differentiable: the first entry that `eval_jacob` of yao
leaves in a buffer of zeros is the derivative by the temperature of the rate of change of the temperature of the reactor with the chemistry of chem.cti,
up to 2·10^-5 of the sum of the sizes of the terms of that derivative. -/
theorem C93_yao_temperature_by_temperature (pres : ℝ) (y Y : Nat → ℝ) (hY : Y = complement (yao.nsp - 1) (fun i => y (i + 1))) (h1 : 200 ≤ y 0)
    (h2 : y 0 ≤ 5000) (hp : 0 < pres) (hpos : ∀ i, i < yao.nsp → 0 ≤ Y i) (hmid : yao.chemistry.BetweenFits (y 0))
    (hpole : yao.chemistry.AwayFromPoles (y 0) (yao.chemistry.concentrations (y 0) pres Y))
    (hcut : yao.chemistry.AboveCutOff (y 0) (yao.chemistry.concentrations (y 0) pres Y)) :
    ∃ σ x d, yaoJacobColumn pres y (fun _ => some 0) = some σ ∧ σ (.arr .jac 0) = some x ∧
      HasDerivAt (fun T => yao.chemistry.dTdt T pres Y) d (y 0) ∧
      |x - d| ≤ 2 / 10 ^ 5 * yao.chemistry.dTdtSlopeTerms (y 0) pres Y := by
  subst hY
  have hD : yao ∈ shipped := by simp [shipped]
  have hc := yao_checked
  obtain ⟨σ, v, e, hst, h⟩ := jacob_call hc.sizes hc.rates hc.ratesSafe hc.presMod hc.presSafe hc.spec hc.specSafe hc.thermoSafe
    yao_jacobSafe pres y (fun _ => (0 : ℝ))
  obtain ⟨hat, hyN⟩ := jacob_at hc yao_db pres y _ (by linarith) hp hpos hst
  have hyv : ∀ i, i < 53 → v.y (i + 1) = complement (yao.nsp - 1) (fun i => y (i + 1)) i := by
    intro i hi
    rw [hst.hy]
    show _ = complement 53 _ i
    unfold complement
    rw [if_neg (by omega)]
  obtain ⟨s, w, q1, q2, q3⟩ := result_first_groups (n := 53) (by decide) yao_weights5 yao_last yao_lastFirst hyv hyN (fun _ => 0)
  rw [if_neg (by decide), add_zero] at q3
  obtain ⟨d, hd, hle⟩ := jacob_tempT hst.hT (n := 53) (by decide) (by linarith) hpos (fun i hi => molWeight_pos (K := ℝ) hc i hi)
    (temp_at hD yao_db (by decide) yao_cpAvg pres y _ h1 h2 hp hpos hpole hst) hmid hat.rho_pos.ne'
    (fun n hn => by simpa using List.all_eq_true.1 yao_inert n hn)
    (fun k hk => jacob_rowT hD yao_jacobSizes yao_db yao_weights5 yao_parts pres y h1 (by linarith) hp hpos hmid hpole hcut
      hst k hk (List.all_eq_true.1 yao_rowT k (List.mem_range.2 hk))) q1 q2 q3
  exact ⟨σ, _, d, e, h 0 (by decide), hd, hle⟩

/-- Compressed air with dodecane at 1200 K. -/
example : ∃ p : ℝ, 0 < p ∧ ∃ σ x d, yaoJacobColumn p hotDodecane (fun _ => some 0) = some σ ∧ σ (.arr .jac 0) = some x ∧
    HasDerivAt (fun T => yao.chemistry.dTdt T p (complement (yao.nsp - 1) fun i => hotDodecane (i + 1))) d 1200 ∧
    |x - d| ≤ 2 / 10 ^ 5 * yao.chemistry.dTdtSlopeTerms 1200 p (complement (yao.nsp - 1) fun i => hotDodecane (i + 1)) := by
  have e : hotDodecane 0 = 1200 := rfl
  obtain ⟨p, hp, h⟩ := C92_yao_domain (hotDodecane 0) (by rw [e]; norm_num) _ hotDodecane_ok (by rw [hotDodecane_nitrogen]; norm_num)
  obtain ⟨h1, h2⟩ := h p le_rfl
  have hmid : yao.chemistry.BetweenFits (hotDodecane 0) := by
    have := noMid_sound yao_noMid
    rw [e]
    exact_mod_cast this
  exact ⟨p, hp, C93_yao_temperature_by_temperature p hotDodecane _ rfl (by rw [e]; norm_num) (by rw [e]; norm_num) hp hotDodecane_ok hmid h1 h2⟩

end DLB
