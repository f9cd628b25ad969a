import Verif.Lemmas.RealMath
import Verif.Lemmas.CheckGri30JacobT
import Verif.Lemmas.CheckGri30JacobN
/-
C91: the temperature column of the analytical Jacobian of the shipped gri30 library (over the reals).
-/
set_option autoImplicit false
set_option linter.unusedSectionVars false

namespace DLB

/-- `eval_jacob` of the gri30 library, called with a buffer `jac`, without the statements on which the entries 0 to 52 do not depend. -/
noncomputable abbrev gri30JacobColumn (pres : ℝ) (y : Nat → ℝ) (jac : Nat → Option ℝ) : Option (CMem ℝ) :=
  gri30.mech.callJacob Mech.Gri30.jacobSlice pres y jac

/-- C91. For every pressure, temperature from 200 K to 6000 K and mixture at which the reactor is differentiable (the temperature is none at
which the thermodynamic polynomials change, no falloff reaction is at the pole of Troe's formula, no reduced pressure is cut off): the
entries 1 to 52 that `eval_jacob` of gri30 leaves in a buffer of zeros are the derivatives by the temperature of the rates of change of the mass
fractions of the reactor with the chemistry of chem.cti, up to 10^-5 of the total turnover of the species per temperature. -/
theorem C91_gri30_species_by_temperature (pres : ℝ) (y Y : Nat → ℝ) (hY : Y = complement (gri30.nsp - 1) (fun i => y (i + 1)))
    (h1 : 200 ≤ y 0) (h2 : y 0 ≤ 6000) (hp : 0 < pres) (hpos : ∀ i, i < gri30.nsp → 0 ≤ Y i) (hmid : gri30.chemistry.BetweenFits (y 0))
    (hpole : gri30.chemistry.AwayFromPoles (y 0) (gri30.chemistry.concentrations (y 0) pres Y))
    (hcut : gri30.chemistry.AboveCutOff (y 0) (gri30.chemistry.concentrations (y 0) pres Y)) :
    ∃ σ, gri30JacobColumn pres y (fun _ => some 0) = some σ ∧ ∀ i, i < 52 → ∃ x d, σ (.arr .jac (i + 1)) = some x ∧
      HasDerivAt (fun T => gri30.chemistry.dYdt T pres Y i) d (y 0) ∧
      |x - d| ≤ 1 / 10 ^ 5 * (gri30.chemistry.dYdtTerms (y 0) pres Y i / y 0) := by
  subst hY
  have hc := gri30_checked
  obtain ⟨σ, v, e, hst, h⟩ := jacob_call hc.sizes hc.rates hc.ratesSafe hc.presMod hc.presSafe hc.spec hc.specSafe hc.thermoSafe
    gri30_jacobSafe pres y (fun _ => (0 : ℝ))
  refine ⟨σ, e, fun i hi => ?_⟩
  obtain ⟨d, hd, hle, -⟩ := jacob_rowT (show gri30 ∈ shipped by simp [shipped]) gri30_jacobSizes gri30_db gri30_weights5 gri30_parts
    pres y h1 h2 hp hpos hmid hpole hcut hst i hi (List.all_eq_true.1 gri30_rowT i (List.mem_range.2 hi))
  exact ⟨_, d, h (i + 1) (by show _ < 53 * 53; omega), hd, hle⟩

/-- C91. The hypotheses can be met: at every temperature and for every mixture with nitrogen, there is a pressure above
which no falloff reaction is at a pole or cut off. -/
theorem C91_gri30_domain (T : ℝ) (hT : 0 < T) (Y : Nat → ℝ) (hY : ∀ i, i < gri30.nsp → 0 ≤ Y i) (hN : 0 < Y 52) :
    ∃ p1 : ℝ, 0 < p1 ∧ ∀ p, p1 ≤ p → gri30.chemistry.AwayFromPoles T (gri30.chemistry.concentrations T p Y) ∧
      gri30.chemistry.AboveCutOff T (gri30.chemistry.concentrations T p Y) :=
  high_pressure _ T Y (lastActs_sound gri30_checked gri30_lastActs (by decide) T hT Y hY hN)

/-- Air with methane at 1200 K. -/
noncomputable def hotFuel : Nat → ℝ := fun i => if i = 0 then 1200 else if i = 4 then 1 / 5 else if i = 14 then 1 / 20 else 0

theorem hotFuel_nitrogen : complement (gri30.nsp - 1) (fun i => hotFuel (i + 1)) 52 = 3 / 4 := by
  show complement 52 _ 52 = _
  unfold complement hotFuel
  rw [if_pos rfl, Finset.sum_eq_add_of_mem 3 13 (by decide) (by decide) (by decide)]
  · norm_num
  · intro b _ hb
    rw [if_neg (by omega), if_neg (by omega), if_neg (by omega)]

theorem hotFuel_ok : ∀ i, i < gri30.nsp → 0 ≤ complement (gri30.nsp - 1) (fun i => hotFuel (i + 1)) i := by
  intro i hi
  by_cases h : i = 52
  · subst h
    rw [hotFuel_nitrogen]
    norm_num
  · show 0 ≤ complement 52 _ i
    unfold complement
    rw [if_neg h]
    unfold hotFuel
    dsimp only
    split_ifs <;> norm_num

/-- Compressed air with methane at 1200 K meets the hypotheses. -/
example : ∃ p : ℝ, 0 < p ∧ ∃ σ, gri30JacobColumn p hotFuel (fun _ => some 0) = some σ ∧ ∀ i, i < 52 → ∃ x d, σ (.arr .jac (i + 1)) = some x ∧
    HasDerivAt (fun T => gri30.chemistry.dYdt T p (complement (gri30.nsp - 1) fun i => hotFuel (i + 1)) i) d 1200 ∧
    |x - d| ≤ 1 / 10 ^ 5 * (gri30.chemistry.dYdtTerms 1200 p (complement (gri30.nsp - 1) fun i => hotFuel (i + 1)) i / 1200) := by
  have e : hotFuel 0 = 1200 := rfl
  obtain ⟨p, hp, h⟩ := C91_gri30_domain (hotFuel 0) (by rw [e]; norm_num) _ hotFuel_ok (by rw [hotFuel_nitrogen]; norm_num)
  obtain ⟨h1, h2⟩ := h p le_rfl
  have hmid : gri30.chemistry.BetweenFits (hotFuel 0) := by
    have := noMid_sound gri30_noMid
    rw [e]
    exact_mod_cast this
  exact ⟨p, hp, C91_gri30_species_by_temperature p hotFuel _ rfl (by rw [e]; norm_num) (by rw [e]; norm_num) hp hotFuel_ok hmid h1 h2⟩

end DLB
