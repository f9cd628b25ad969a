import Verif.Lemmas.JacobFrame
import Verif.Lemmas.RealMath
import Verif.Lemmas.CheckDrm19JacobT
import Verif.Lemmas.CheckDrm19JacobN
import Verif.Lemmas.CheckDrm19JacobS
import Verif.Lemmas.CheckDrm19JacobE
import Verif.Lemmas.CheckDrm19JacobL
import Verif.Lemmas.JacobTempNear
/-
C84, C85, C86, C87: the analytical Jacobian of the shipped drm19 library as a C program, and as the Jacobian of the reactor with the chemistry of
chem.cti (over the reals).
-/
set_option autoImplicit false
set_option linter.unusedSectionVars false

namespace DLB

section
variable {S : Type} [Add S] [Sub S] [Mul S] [Div S] [Neg S] [OfScientific S] [CMath S] [LE S] [DecidableLE S]

/-- `eval_jacob` of the drm19 library, called with a buffer `jac`. -/
abbrev drm19Jacob (pres : S) (y : Nat → S) (jac : Nat → Option S) : Option (CMem S) :=
  drm19.mech.callJacob Mech.Drm19.jacob pres y jac

theorem drm19_jacob_call (pres : S) (y jac0 : Nat → S) :
    ∃ σ v, drm19Jacob pres y (fun i => some (jac0 i)) = some σ ∧ JacobStages drm19.mech Mech.Drm19.jacob pres y jac0 v ∧
      ∀ i, i < drm19.mech.nsp * drm19.mech.nsp → σ (.arr .jac i) = some (v.result Mech.Drm19.jacob jac0 i) :=
  have h := drm19_checked
  jacob_call h.sizes h.rates h.ratesSafe h.presMod h.presSafe h.spec h.specSafe h.thermoSafe drm19_jacobSafe pres y jac0

/-- C84. For every pressure, temperature and composition, in every arithmetic: `eval_jacob` of the shipped drm19 library, called with a buffer
of 21 x 21 initialised numbers, returns without undefined behaviour, and every entry of the buffer is defined. -/
theorem C84_no_undefined_behaviour (pres : S) (y jac0 : Nat → S) :
    ∃ σ, drm19Jacob pres y (fun i => some (jac0 i)) = some σ ∧ ∀ i, i < 21 * 21 → ∃ x, σ (.arr .jac i) = some x := by
  obtain ⟨σ, v, e, -, h⟩ := drm19_jacob_call pres y jac0
  exact ⟨σ, e, fun i hi => ⟨_, h i hi⟩⟩

/-- C84. The derivatives of the last but one species (argon, which does not react) are not assigned: they keep the values that the
caller has put into the buffer. -/
theorem C84_kept_entries (pres : S) (y jac0 : Nat → S) :
    ∃ σ, drm19Jacob pres y (fun i => some (jac0 i)) = some σ ∧
      ∀ j, j < 21 → σ (.arr .jac (21 * j + 20)) = some (jac0 (21 * j + 20)) := by
  obtain ⟨σ, v, e, -, h⟩ := drm19_jacob_call pres y jac0
  refine ⟨σ, e, fun j hj => ?_⟩
  exact (h (21 * j + 20) (by show _ < 21 * 21; omega)).trans (congrArg some (result_frame drm19_unassigned v jac0 j hj))

/-- C84. So the buffer has to be initialised by the caller: with the entry 20 of the buffer uninitialised the call has undefined
behaviour, whatever the rest. -/
theorem C84_buffer_must_be_initialised (pres : S) (y : Nat → S) (jac : Nat → Option S) (h : jac 20 = none) :
    drm19Jacob pres y jac = none :=
  jacob_uninitialised drm19_unassigned (by decide) drm19_lastReads pres y jac h

end

/-- A hot mixture of oxygen and nitrogen with a buffer of zeros: the derivative of argon stays zero. -/
example : ∃ σ, drm19Jacob (S := ℝ) 101325 (fun i => if i = 0 then 1200 else if i = 4 then 1 / 5 else 0) (fun _ => some 0) = some σ ∧
    σ (.arr .jac 20) = some 0 := by
  obtain ⟨σ, e, h⟩ := C84_kept_entries (S := ℝ) 101325 (fun i => if i = 0 then 1200 else if i = 4 then 1 / 5 else 0) (fun _ => 0)
  exact ⟨σ, e, h 0 (by decide)⟩

/-- One uninitialised number in the buffer is enough for undefined behaviour. -/
example : drm19Jacob (S := ℝ) 101325 (fun _ => 1200) (fun i => if i = 20 then none else some 0) = none :=
  C84_buffer_must_be_initialised _ _ _ rfl

/-- C85. For every pressure, temperature from 200 K to 6000 K and mixture at which the reactor is differentiable (the temperature is none at
which the thermodynamic polynomials change, no falloff reaction is at the pole of Troe's formula, no reduced pressure is cut off): the
entries 1 to 20 that `eval_jacob` of drm19 leaves in a buffer of zeros are the derivatives by the temperature of the rates of change of the mass
fractions of the reactor with the chemistry of chem.cti, up to 10^-5 of the total turnover of the species per temperature. -/
theorem C85_species_by_temperature (pres : ℝ) (y Y : Nat → ℝ) (hY : Y = complement (drm19.nsp - 1) (fun i => y (i + 1))) (h1 : 200 ≤ y 0)
    (h2 : y 0 ≤ 6000) (hp : 0 < pres) (hpos : ∀ i, i < drm19.nsp → 0 ≤ Y i) (hmid : drm19.chemistry.BetweenFits (y 0))
    (hpole : drm19.chemistry.AwayFromPoles (y 0) (drm19.chemistry.concentrations (y 0) pres Y))
    (hcut : drm19.chemistry.AboveCutOff (y 0) (drm19.chemistry.concentrations (y 0) pres Y)) :
    ∃ σ, drm19Jacob pres y (fun _ => some 0) = some σ ∧ ∀ i, i < 20 → ∃ x d, σ (.arr .jac (i + 1)) = some x ∧
      HasDerivAt (fun T => drm19.chemistry.dYdt T pres Y i) d (y 0) ∧
      |x - d| ≤ 1 / 10 ^ 5 * (drm19.chemistry.dYdtTerms (y 0) pres Y i / y 0) := by
  subst hY
  obtain ⟨σ, v, e, hst, h⟩ := drm19_jacob_call pres y (fun _ => (0 : ℝ))
  refine ⟨σ, e, fun i hi => ?_⟩
  obtain ⟨d, hd, hle, -⟩ := jacob_rowT (show drm19 ∈ shipped from List.mem_cons_self) drm19_jacobSizes drm19_db drm19_weights5 drm19_parts pres y h1 h2 hp hpos hmid hpole hcut
    hst i hi (List.all_eq_true.1 drm19_rowT i (List.mem_range.2 hi))
  exact ⟨_, d, h (i + 1) (by show _ < 21 * 21; omega), hd, hle⟩

/-- C85. The hypotheses can be met: at every temperature and for every mixture with nitrogen, there is a pressure above
which no falloff reaction is at a pole or cut off. -/
theorem C85_domain (T : ℝ) (hT : 0 < T) (Y : Nat → ℝ) (hY : ∀ i, i < drm19.nsp → 0 ≤ Y i) (hN : 0 < Y 20) :
    ∃ p1 : ℝ, 0 < p1 ∧ ∀ p, p1 ≤ p → drm19.chemistry.AwayFromPoles T (drm19.chemistry.concentrations T p Y) ∧
      drm19.chemistry.AboveCutOff T (drm19.chemistry.concentrations T p Y) :=
  high_pressure _ T Y (lastActs_sound drm19_checked drm19_lastActs (by decide) T hT Y hY hN)

/-- Air at 1200 K. -/
noncomputable def hotAir : Nat → ℝ := fun i => if i = 0 then 1200 else if i = 4 then 1 / 5 else 0

theorem hotAir_nitrogen : complement (drm19.nsp - 1) (fun i => hotAir (i + 1)) 20 = 4 / 5 := by
  show complement 20 _ 20 = _
  unfold complement hotAir
  rw [if_pos rfl, Finset.sum_eq_single 3]
  · norm_num
  · intro b _ hb
    rw [if_neg (by omega), if_neg (by omega)]
  · intro h
    exact absurd (Finset.mem_range.2 (by decide)) h

theorem hotAir_ok : ∀ i, i < drm19.nsp → 0 ≤ complement (drm19.nsp - 1) (fun i => hotAir (i + 1)) i := by
  intro i hi
  by_cases h : i = 20
  · subst h
    rw [hotAir_nitrogen]
    norm_num
  · show 0 ≤ complement 20 _ i
    unfold complement
    rw [if_neg h]
    unfold hotAir
    dsimp only
    split_ifs <;> norm_num

/-- Compressed air at 1200 K meets the hypotheses. -/
example : ∃ p : ℝ, 0 < p ∧ ∃ σ, drm19Jacob p hotAir (fun _ => some 0) = some σ ∧ ∀ i, i < 20 → ∃ x d, σ (.arr .jac (i + 1)) = some x ∧
    HasDerivAt (fun T => drm19.chemistry.dYdt T p (complement (drm19.nsp - 1) fun i => hotAir (i + 1)) i) d 1200 ∧
    |x - d| ≤ 1 / 10 ^ 5 * (drm19.chemistry.dYdtTerms 1200 p (complement (drm19.nsp - 1) fun i => hotAir (i + 1)) i / 1200) := by
  have e : hotAir 0 = 1200 := rfl
  obtain ⟨p, hp, h⟩ := C85_domain (hotAir 0) (by rw [e]; norm_num) _ hotAir_ok (by rw [hotAir_nitrogen]; norm_num)
  obtain ⟨h1, h2⟩ := h p le_rfl
  have hmid : drm19.chemistry.BetweenFits (hotAir 0) := by
    have := noMid_sound drm19_noMid
    rw [e]
    exact_mod_cast this
  exact ⟨p, hp, C85_species_by_temperature p hotAir _ rfl (by rw [e]; norm_num) (by rw [e]; norm_num) hp hotAir_ok hmid h1 h2⟩

theorem drm19_colS (pres : ℝ) (y : Nat → ℝ) (h1 : 200 ≤ y 0)
    (h2 : y 0 ≤ 6000) (hp : 0 < pres) (hY : ∀ i, i < drm19.nsp → 0 ≤ complement (drm19.nsp - 1) (fun i => y (i + 1)) i)
    (hpole : drm19.chemistry.AwayFromPoles (y 0) (drm19.chemistry.concentrations (y 0) pres (complement (drm19.nsp - 1) fun i => y (i + 1))))
    (hcut : drm19.chemistry.AboveCutOff (y 0) (drm19.chemistry.concentrations (y 0) pres (complement (drm19.nsp - 1) fun i => y (i + 1))))
    {v : JacobVals ℝ} (hst : JacobStages drm19.mech Mech.Drm19.jacob pres y (fun _ => 0) v) (j : Nat) (hj : j < drm19.nsp - 1) :
    (∀ k, k < drm19.nsp - 1 →
      ∃ d, HasDerivAt (fun x => drm19.chemistry.dYdt (y 0) pres (complement (drm19.nsp - 1) (Function.update (fun i => y (i + 1)) j x)) k) d (y (j + 1)) ∧
        |v.result Mech.Drm19.jacob (fun _ => 0) (drm19.nsp * (j + 1) + (k + 1)) - d| ≤
          1 / 10 ^ 7 * drm19.chemistry.dYdtByTerms (y 0) pres (complement (drm19.nsp - 1) fun i => y (i + 1)) k j ∧
        |d| ≤ 17 * drm19.chemistry.dYdtByTerms (y 0) pres (complement (drm19.nsp - 1) fun i => y (i + 1)) k j) ∧
    ∃ x, EndSum drm19.nsp drm19.molWeight v (v.result Mech.Drm19.jacob fun _ => 0) j (endPairs drm19.nsp) x ∧
      v.result Mech.Drm19.jacob (fun _ => 0) (drm19.nsp * (j + 1)) = -x :=
  jacob_colS (show drm19 ∈ shipped from List.mem_cons_self) drm19_jacobSizes drm19_db drm19_weights5 drm19_parts drm19_sBlocks
    (by decide +kernel) (by decide) drm19_cpAvgFirst drm19_endStart drm19_endRows drm19_lastFirst
    (fun n hn => by
      have := List.all_eq_true.1 drm19_inert n hn
      simp only [Bool.and_eq_true, decide_eq_true_eq] at this
      exact this.1)
    pres y h1 h2 hp hY hpole hcut hst j hj

/-- C86. For every pressure, temperature from 200 K to 6000 K and mixture at which the reactor is differentiable (no falloff reaction is at the pole of Troe's
formula, no reduced pressure is cut off): the entries 1 to 20 of the columns 1 to 20 that `eval_jacob` of drm19 leaves in a buffer of zeros are the
derivatives of the rates of change of the mass fractions of the reactor with the chemistry of chem.cti by the mass fraction of one of the
first 20 species, the last species making up for the rest, up to 10^-7 of the sum of the sizes of the terms of that derivative. -/
theorem C86_species_by_species (pres : ℝ) (y Y : Nat → ℝ) (hY : Y = complement (drm19.nsp - 1) (fun i => y (i + 1))) (h1 : 200 ≤ y 0)
    (h2 : y 0 ≤ 6000) (hp : 0 < pres) (hpos : ∀ i, i < drm19.nsp → 0 ≤ Y i)
    (hpole : drm19.chemistry.AwayFromPoles (y 0) (drm19.chemistry.concentrations (y 0) pres Y))
    (hcut : drm19.chemistry.AboveCutOff (y 0) (drm19.chemistry.concentrations (y 0) pres Y)) :
    ∃ σ, drm19Jacob pres y (fun _ => some 0) = some σ ∧ ∀ i j, i < 20 → j < 20 → ∃ x d, σ (.arr .jac (21 * (j + 1) + (i + 1))) = some x ∧
      HasDerivAt (fun t => drm19.chemistry.dYdt (y 0) pres (complement (drm19.nsp - 1) (Function.update (fun i => y (i + 1)) j t)) i) d
        (y (j + 1)) ∧
      |x - d| ≤ 1 / 10 ^ 7 * drm19.chemistry.dYdtByTerms (y 0) pres Y i j := by
  subst hY
  obtain ⟨σ, v, e, hst, h⟩ := drm19_jacob_call pres y (fun _ => (0 : ℝ))
  refine ⟨σ, e, fun i j hi hj => ?_⟩
  obtain ⟨d, hd, hle, -⟩ := (drm19_colS pres y h1 h2 hp hpos hpole hcut hst j hj).1 i hi
  exact ⟨_, d, h (21 * (j + 1) + (i + 1)) (by show _ < 21 * 21; omega), hd, hle⟩

/-- Compressed air at 1200 K: the derivative of the rate of change of oxygen atoms (species 2) by the mass fraction of oxygen molecules (species 3), among
the others. -/
example : ∃ p : ℝ, 0 < p ∧ ∃ σ, drm19Jacob p hotAir (fun _ => some 0) = some σ ∧ ∀ i j, i < 20 → j < 20 → ∃ x d,
    σ (.arr .jac (21 * (j + 1) + (i + 1))) = some x ∧
    HasDerivAt (fun t => drm19.chemistry.dYdt 1200 p (complement (drm19.nsp - 1) (Function.update (fun i => hotAir (i + 1)) j t)) i) d (hotAir (j + 1)) ∧
    |x - d| ≤ 1 / 10 ^ 7 * drm19.chemistry.dYdtByTerms 1200 p (complement (drm19.nsp - 1) fun i => hotAir (i + 1)) i j := by
  have e : hotAir 0 = 1200 := rfl
  obtain ⟨p, hp, h⟩ := C85_domain (hotAir 0) (by rw [e]; norm_num) _ hotAir_ok (by rw [hotAir_nitrogen]; norm_num)
  obtain ⟨h1, h2⟩ := h p le_rfl
  exact ⟨p, hp, C86_species_by_species p hotAir _ rfl (by rw [e]; norm_num) (by rw [e]; norm_num) hp hotAir_ok h1 h2⟩

theorem drm19_tempAt (pres : ℝ) (y : Nat → ℝ) (h1 : 200 ≤ y 0) (h2 : y 0 ≤ 5000) (hp : 0 < pres)
    (hpos : ∀ i, i < drm19.nsp → 0 ≤ complement (drm19.nsp - 1) (fun i => y (i + 1)) i)
    (hpole : drm19.chemistry.AwayFromPoles (y 0) (drm19.chemistry.concentrations (y 0) pres (complement (drm19.nsp - 1) fun i => y (i + 1))))
    {v : JacobVals ℝ} (hst : JacobStages drm19.mech Mech.Drm19.jacob pres y (fun _ => 0) v) :
    TempAt drm19 pres (complement (drm19.nsp - 1) fun i => y (i + 1)) v :=
  temp_at (show drm19 ∈ shipped from List.mem_cons_self) drm19_db (n := 20) (by decide) drm19_cpAvg pres y _ h1 h2 hp hpos hpole hst

theorem drm19_inert' : ∀ n ∈ number drm19.reactions, n.r.net 19 = 0 ∧ n.r.net 20 = 0 := fun n hn => by
  have := List.all_eq_true.1 drm19_inert n hn
  simp only [Bool.and_eq_true, decide_eq_true_eq] at this
  exact this

/-- C87. For every pressure, temperature from 200 K to 5000 K and mixture at which the reactor is differentiable (no falloff reaction is at the pole of
Troe's formula, no reduced pressure is cut off): the first entries of the columns 1 to 20 that `eval_jacob` of drm19 leaves in a buffer of zeros are the
derivatives of the rate of change of the temperature of the reactor with the chemistry of chem.cti by the mass fraction of one of the first 20 species, the last
species making up for the rest, up to 2·10^-7 of the sum of the sizes of the terms of that derivative. -/
theorem C87_temperature_by_species (pres : ℝ) (y Y : Nat → ℝ) (hY : Y = complement (drm19.nsp - 1) (fun i => y (i + 1))) (h1 : 200 ≤ y 0)
    (h2 : y 0 ≤ 5000) (hp : 0 < pres) (hpos : ∀ i, i < drm19.nsp → 0 ≤ Y i)
    (hpole : drm19.chemistry.AwayFromPoles (y 0) (drm19.chemistry.concentrations (y 0) pres Y))
    (hcut : drm19.chemistry.AboveCutOff (y 0) (drm19.chemistry.concentrations (y 0) pres Y)) :
    ∃ σ, drm19Jacob pres y (fun _ => some 0) = some σ ∧ ∀ j, j < 20 → ∃ x d, σ (.arr .jac (21 * (j + 1))) = some x ∧
      HasDerivAt (fun t => drm19.chemistry.dTdt (y 0) pres (complement (drm19.nsp - 1) (Function.update (fun i => y (i + 1)) j t))) d (y (j + 1)) ∧
      |x - d| ≤ 2 / 10 ^ 7 * drm19.chemistry.dTdtByTerms (y 0) pres Y j := by
  subst hY
  obtain ⟨σ, v, e, hst, h⟩ := drm19_jacob_call pres y (fun _ => (0 : ℝ))
  refine ⟨σ, e, fun j hj => ?_⟩
  obtain ⟨hS, x, hx, ex⟩ := drm19_colS pres y h1 (by linarith) hp hpos hpole hcut hst j hj
  obtain ⟨d, hd, hle⟩ := jacob_tempS hst.hT (m := 19) (by decide) (drm19_tempAt pres y h1 h2 hp hpos hpole hst) drm19_inert' hj hS hx
  refine ⟨_, d, h (21 * (j + 1)) (by show _ < 21 * 21; omega), hd, ?_⟩
  rw [show 21 * (j + 1) = drm19.nsp * (j + 1) from rfl, ex]
  exact hle

/-- C87. And, if moreover the temperature is none at which the thermodynamic polynomials change, the first entry of the buffer is the derivative of the rate
of change of the temperature by the temperature, up to 2·10^-5 of the sum of the sizes of the terms of that derivative. -/
theorem C87_temperature_by_temperature (pres : ℝ) (y Y : Nat → ℝ) (hY : Y = complement (drm19.nsp - 1) (fun i => y (i + 1))) (h1 : 200 ≤ y 0)
    (h2 : y 0 ≤ 5000) (hp : 0 < pres) (hpos : ∀ i, i < drm19.nsp → 0 ≤ Y i) (hmid : drm19.chemistry.BetweenFits (y 0))
    (hpole : drm19.chemistry.AwayFromPoles (y 0) (drm19.chemistry.concentrations (y 0) pres Y))
    (hcut : drm19.chemistry.AboveCutOff (y 0) (drm19.chemistry.concentrations (y 0) pres Y)) :
    ∃ σ x d, drm19Jacob pres y (fun _ => some 0) = some σ ∧ σ (.arr .jac 0) = some x ∧
      HasDerivAt (fun T => drm19.chemistry.dTdt T pres Y) d (y 0) ∧
      |x - d| ≤ 2 / 10 ^ 5 * drm19.chemistry.dTdtSlopeTerms (y 0) pres Y := by
  subst hY
  have hD : drm19 ∈ shipped := List.mem_cons_self
  obtain ⟨σ, v, e, hst, h⟩ := drm19_jacob_call pres y (fun _ => (0 : ℝ))
  have hc := checked_of_shipped hD
  obtain ⟨hat, hyN⟩ := jacob_at hc drm19_db pres y _ (by linarith) hp hpos hst
  have hyv : ∀ i, i < 20 → v.y (i + 1) = complement (drm19.nsp - 1) (fun i => y (i + 1)) i := by
    intro i hi
    rw [hst.hy]
    show _ = complement 20 _ i
    unfold complement
    rw [if_neg (by omega)]
  obtain ⟨s, w, q1, q2, q3⟩ := result_first (n := 20) (by decide) drm19_weights5 drm19_last drm19_lastFirst hyv hyN (fun _ => 0)
  obtain ⟨d, hd, hle⟩ := jacob_tempT hst.hT (n := 20) (by decide) (by linarith) hpos (fun i hi => molWeight_pos (K := ℝ) hc i hi)
    (drm19_tempAt pres y h1 h2 hp hpos hpole hst) hmid hat.rho_pos.ne' (fun n hn => (drm19_inert' n hn).2)
    (fun k hk => jacob_rowT hD drm19_jacobSizes drm19_db drm19_weights5 drm19_parts pres y h1 (by linarith) hp hpos hmid hpole hcut
      hst k hk (List.all_eq_true.1 drm19_rowT k (List.mem_range.2 hk))) q1 q2 q3
  exact ⟨σ, _, d, e, h 0 (by decide), hd, hle⟩

/-- Compressed air at 1200 K. -/
example : ∃ p : ℝ, 0 < p ∧ ∃ σ x d, drm19Jacob p hotAir (fun _ => some 0) = some σ ∧ σ (.arr .jac 0) = some x ∧
    HasDerivAt (fun T => drm19.chemistry.dTdt T p (complement (drm19.nsp - 1) fun i => hotAir (i + 1))) d 1200 ∧
    |x - d| ≤ 2 / 10 ^ 5 * drm19.chemistry.dTdtSlopeTerms 1200 p (complement (drm19.nsp - 1) fun i => hotAir (i + 1)) ∧
    ∀ j, j < 20 → ∃ x d, σ (.arr .jac (21 * (j + 1))) = some x ∧
      HasDerivAt (fun t => drm19.chemistry.dTdt 1200 p (complement (drm19.nsp - 1) (Function.update (fun i => hotAir (i + 1)) j t))) d (hotAir (j + 1)) ∧
      |x - d| ≤ 2 / 10 ^ 7 * drm19.chemistry.dTdtByTerms 1200 p (complement (drm19.nsp - 1) fun i => hotAir (i + 1)) j := by
  have e : hotAir 0 = 1200 := rfl
  obtain ⟨p, hp, h⟩ := C85_domain (hotAir 0) (by rw [e]; norm_num) _ hotAir_ok (by rw [hotAir_nitrogen]; norm_num)
  obtain ⟨h1, h2⟩ := h p le_rfl
  have hmid : drm19.chemistry.BetweenFits (hotAir 0) := by
    have := noMid_sound drm19_noMid
    rw [e]
    exact_mod_cast this
  obtain ⟨σ, x, d, c1, c2, c3, c4⟩ := C87_temperature_by_temperature p hotAir _ rfl (by rw [e]; norm_num) (by rw [e]; norm_num) hp hotAir_ok hmid h1 h2
  obtain ⟨σ', c1', c5⟩ := C87_temperature_by_species p hotAir _ rfl (by rw [e]; norm_num) (by rw [e]; norm_num) hp hotAir_ok h1 h2
  obtain rfl := Option.some.inj (c1.symm.trans c1')
  exact ⟨p, hp, σ, x, d, c1, c2, c3, c4, c5⟩

end DLB
