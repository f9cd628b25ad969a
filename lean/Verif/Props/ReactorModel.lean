import Verif.Spec.ReactorState
import Verif.Model.ShippedJacobian
import Verif.Props.Jacobian
import Verif.Props.PyJac
/-
C88: the right-hand side and the Jacobian that the integrator gets from the pyJac chemistry model with a shipped library.
-/
set_option autoImplicit false
set_option linter.unusedSectionVars false

namespace DLB

theorem complement_congr {n : Nat} {f g : Nat → ℝ} (h : ∀ i, i ≠ n → f i = g i) : complement n f = complement n g := by
  funext i
  unfold complement
  by_cases hi : i = n
  · rw [if_pos hi, if_pos hi]
    congr 1
    exact Finset.sum_congr rfl fun j hj => h j (Finset.mem_range.1 hj).ne
  · rw [if_neg hi, if_neg hi, h i hi]

/-- The array handed to the library, as the functions of the library see it. -/
noncomputable def handed {m : Nat} (z : Vec ℝ (m + 2)) (j : Nat) : ℝ :=
  if h : j < m + 2 then toPyJac (z 0) (modelComposition z) ⟨j, h⟩ else 0

theorem handed_zero {m : Nat} (z : Vec ℝ (m + 2)) : handed z 0 = z 0 := by simp [handed, toPyJac]

theorem handed_succ {m : Nat} {z : Vec ℝ (m + 2)} (hz : ∀ i, i < m + 1 → 0 ≤ stateComposition z i) {i : Nat} (hi : i ≠ m) :
    handed z (i + 1) = if h : i < m then z ⟨i + 1, by omega⟩ else 0 := by
  unfold handed
  by_cases h : i < m
  · rw [dif_pos (by omega), dif_pos h]
    have := hz i (by omega)
    unfold stateComposition complement at this
    rw [if_neg hi] at this
    dsimp only at this
    rw [dif_pos h] at this
    have e : toPyJac (z 0) (modelComposition z) ⟨i + 1, by omega⟩ = foamMax (z ⟨i + 1, by omega⟩) 0 := by
      unfold toPyJac modelComposition
      rw [dif_neg (by simp)]
      simp only [Nat.add_sub_cancel]
      rw [dif_pos h]
      rfl
    rw [e, foamMax_zero_right, max_eq_right this]
  · rw [dif_neg (by omega), dif_neg h]

theorem handed_composition {m : Nat} {z : Vec ℝ (m + 2)} (hz : ∀ i, i < m + 1 → 0 ≤ stateComposition z i) :
    complement m (fun i => handed z (i + 1)) = stateComposition z :=
  complement_congr fun _ hi => handed_succ hz hi

theorem handed_update {m : Nat} {z : Vec ℝ (m + 2)} (hz : ∀ i, i < m + 1 → 0 ≤ stateComposition z i) {j : Nat} (hj : j < m) (x : ℝ) :
    complement m (Function.update (fun i => handed z (i + 1)) j x) = stateComposition (Function.update z ⟨j + 1, by omega⟩ x) := by
  refine complement_congr fun i hi => ?_
  by_cases hij : i = j
  · subst hij
    rw [Function.update_self, dif_pos hj, Function.update_self]
  · rw [Function.update_of_ne hij]
    rw [handed_succ hz hi]
    by_cases h : i < m
    · rw [dif_pos h, dif_pos h, Function.update_of_ne]
      intro e
      have := congrArg Fin.val e
      dsimp only at this
      omega
    · rw [dif_neg h, dif_neg h]

/-- C88. For every shipped mechanism and every admissible state: the rate of change of the state that the integrator gets from `derivatives` is that of the
reactor with the chemistry of chem.cti, up to 10^-9 of the sum of the absolute values of its terms; the pressure does not change. -/
theorem C88_right_hand_side (D : Package) (hD : D ∈ shipped) {m : Nat} (hm : D.nsp = m + 1) (evalJacob : ℝ → Vec ℝ (m + 2) → Nat → ℝ) (t : ℝ)
    (z : Vec ℝ (m + 2)) (hz : D.chemistry.Admissible z) (i : Fin (m + 2)) :
    |pyJacDerivatives (D.lib m evalJacob) t z i - D.chemistry.stateRate z i| ≤ D.chemistry.stateTerms z i / 10 ^ 9 := by
  have hn : D.nsp - 1 = m := by omega
  have hY : stateComposition z = complement (D.nsp - 1) fun i => handed z (i + 1) := by rw [hn, handed_composition hz.fractions]
  have h1 : 200 ≤ handed z 0 := by rw [handed_zero]; exact hz.temperature.1
  have h2 : handed z 0 ≤ 5000 := by rw [handed_zero]; exact hz.temperature.2
  have hpos : ∀ i, i < D.nsp → 0 ≤ stateComposition z i := fun i hi => hz.fractions i (by omega)
  have hpole := hz.poles
  rw [← handed_zero z] at hpole
  unfold pyJacDerivatives Chemistry.stateRate Chemistry.stateTerms
  by_cases h0 : i.val = 0
  · obtain ⟨σ, dT, e, q, h⟩ := C83_temperature D hD (z (Fin.last (m + 1))) (handed z) _ hY h1 h2 hz.pressure hpos hpole
    rw [if_pos h0, if_pos h0]
    have e' : D.mech.callDydt (z (pressurePos m)) (fun j => if h : j < m + 2 then toPyJac (z 0) (modelComposition z) ⟨j, h⟩ else 0) = some σ := e
    dsimp only [Package.lib]
    rw [dif_pos (by omega), e', Option.bind_some, h0, q, Option.getD_some]
    rw [handed_zero] at h
    exact h
  · by_cases hl : i.val = m + 1
    · rw [if_neg h0, if_pos hl, if_neg h0, if_pos hl]
      rw [dif_neg (by omega)]
      simp
    · have hi : i.val - 1 < D.nsp - 1 := by omega
      obtain ⟨σ, e, h⟩ := C83_species D hD (z (Fin.last (m + 1))) (handed z) _ hY h1 (by linarith) hz.pressure hpos hpole
      obtain ⟨dY, q, h⟩ := h (i.val - 1) hi
      rw [Nat.sub_add_cancel (by omega)] at q
      rw [if_neg h0, if_neg hl, if_neg h0, if_neg hl]
      have e' : D.mech.callDydt (z (pressurePos m)) (fun j => if h : j < m + 2 then toPyJac (z 0) (modelComposition z) ⟨j, h⟩ else 0) = some σ := e
      dsimp only [Package.lib]
      rw [dif_pos (by omega), e', Option.bind_some, q, Option.getD_some]
      rw [handed_zero] at h
      exact h

/-- C88. With the drm19 library, at every state at which the rate of change is differentiable: the entry `(i, j)` of the matrix that the integrator gets
from `jacobian` is the derivative of the rate of change of entry `i` of the state by entry `j`, up to 2·10^-5 of the sum of the sizes of its terms.  (The column of the
pressure, which does not change, is left zero.) -/
theorem C88_jacobian (t : ℝ) (z : Vec ℝ 22) (hz : drm19.chemistry.Smooth z) (i j : Fin 22) (hj : j ≠ Fin.last 21) :
    ∃ d, HasDerivAt (fun x => drm19.chemistry.stateRate (Function.update z j x) i) d (z j) ∧
      |pyJacJacobian drm19Lib t z i j - d| ≤ 2 / 10 ^ 5 * drm19.chemistry.stateSlopeTerms z i j := by
  have hjv : j.val < 21 := by
    have := Fin.val_ne_of_ne hj
    have := j.isLt
    rw [Fin.val_last] at *
    omega
  have hY : stateComposition z = complement (drm19.nsp - 1) fun i => handed z (i + 1) := (handed_composition hz.fractions).symm
  have h1 : 200 ≤ handed z 0 := by rw [handed_zero]; exact hz.temperature.1
  have h2 : handed z 0 ≤ 5000 := by rw [handed_zero]; exact hz.temperature.2
  have hpos : ∀ i, i < drm19.nsp → 0 ≤ stateComposition z i := hz.fractions
  have hpole := hz.poles
  have hcut := hz.cutOff
  have hmid := hz.fits
  rw [← handed_zero z] at hpole hcut hmid
  by_cases hl : i.val = 21
  · refine ⟨0, ?_, ?_⟩
    · have : (fun x => drm19.chemistry.stateRate (Function.update z j x) i) = fun _ => 0 := by
        funext x
        unfold Chemistry.stateRate
        rw [if_neg (by omega), if_pos hl]
      rw [this]
      exact hasDerivAt_const _ _
    · unfold pyJacJacobian Chemistry.stateSlopeTerms
      rw [if_pos hl]
      rw [if_neg (by omega)]
      simp
  have hi : i.val < 21 := by have := i.isLt; omega
  obtain ⟨σ, e, hsp⟩ := C86_species_by_species (z (Fin.last 21)) (handed z) _ hY h1 (by linarith) hz.pressure hpos hpole hcut
  have hval : ∀ k x, σ (.arr .jac k) = some x → k = j.val * 21 + i.val → pyJacJacobian drm19Lib t z i j = x := by
    intro k x hk hkij
    unfold pyJacJacobian
    rw [if_pos ⟨hi, hjv⟩, ← hkij]
    have e' : drm19.mech.callJacob Mech.Drm19.jacob (z (pressurePos 20))
      (fun j => if h : j < 20 + 2 then toPyJac (z 0) (modelComposition z) ⟨j, h⟩ else 0) (fun _ => some 0) = some σ := e
    dsimp only [drm19Lib, Package.lib, Package.evalJacob]
    rw [e', Option.bind_some, hk, Option.getD_some]
  have hlast : ∀ x, Function.update z j x (Fin.last 21) = z (Fin.last 21) := fun x => Function.update_of_ne (Ne.symm hj) _ _
  have weaken : ∀ a b s : ℝ, |a| ≤ b * s → 0 < b → b ≤ 2 / 10 ^ 5 → |a| ≤ 2 / 10 ^ 5 * s := by
    intro a b s h hb hb2
    have hs : 0 ≤ s := by
      by_contra hs
      have := mul_neg_of_pos_of_neg hb (not_le.1 hs)
      have := abs_nonneg a
      linarith
    exact h.trans (mul_le_mul_of_nonneg_right hb2 hs)
  by_cases hj0 : j.val = 0
  · have hj' : j = 0 := Fin.ext hj0
    have hT : ∀ x, Function.update z j x 0 = x := fun x => by rw [hj', Function.update_self]
    have hC : ∀ x, stateComposition (Function.update z j x) = stateComposition z := by
      intro x
      refine complement_congr fun k _ => ?_
      by_cases hk : k < 20
      · rw [dif_pos hk, dif_pos hk, Function.update_of_ne]
        intro e
        have := congrArg Fin.val e
        dsimp only at this
        omega
      · rw [dif_neg hk, dif_neg hk]
    by_cases hi0 : i.val = 0
    · obtain ⟨σ', x, d, e', q, hd, hle⟩ :=
        C87_temperature_by_temperature (z (Fin.last 21)) (handed z) _ hY h1 h2 hz.pressure hpos hmid hpole hcut
      obtain rfl := Option.some.inj (e'.symm.trans e)
      refine ⟨d, ?_, ?_⟩
      · have : (fun x => drm19.chemistry.stateRate (Function.update z j x) i) =
            fun T => drm19.chemistry.dTdt T (z (Fin.last 21)) (stateComposition z) := by
          funext x
          unfold Chemistry.stateRate
          rw [if_pos hi0, hT, hlast, hC]
        rw [this, hj', ← handed_zero z]
        exact hd
      · rw [hval 0 x q (by omega)]
        unfold Chemistry.stateSlopeTerms
        rw [if_neg hl, if_pos hi0, if_pos hj0]
        rw [handed_zero] at hle
        exact hle
    · obtain ⟨σ', e', h⟩ := C85_species_by_temperature (z (Fin.last 21)) (handed z) _ hY h1 (by linarith) hz.pressure hpos hmid hpole hcut
      obtain rfl := Option.some.inj (e'.symm.trans e)
      obtain ⟨x, d, q, hd, hle⟩ := h (i.val - 1) (by omega)
      refine ⟨d, ?_, ?_⟩
      · have : (fun x => drm19.chemistry.stateRate (Function.update z j x) i) =
            fun T => drm19.chemistry.dYdt T (z (Fin.last 21)) (stateComposition z) (i.val - 1) := by
          funext x
          unfold Chemistry.stateRate
          rw [if_neg hi0, if_neg hl, hT, hlast, hC]
        rw [this, hj', ← handed_zero z]
        exact hd
      · rw [hval _ x q (by omega)]
        unfold Chemistry.stateSlopeTerms
        rw [if_neg hl, if_neg hi0, if_pos hj0]
        rw [handed_zero] at hle
        exact weaken _ _ _ hle (by norm_num) (by norm_num)
  · have hj' : j = ⟨j.val - 1 + 1, by omega⟩ := Fin.ext (by dsimp only; omega)
    have hjz : handed z (j.val - 1 + 1) = z j := by
      rw [handed_succ hz.fractions (by omega), dif_pos (by omega), ← hj']
    have hT : ∀ x, Function.update z j x 0 = z 0 := fun x => Function.update_of_ne (fun h => hj0 (by rw [← h]; rfl)) _ _
    have hC : ∀ x, complement (drm19.nsp - 1) (Function.update (fun i => handed z (i + 1)) (j.val - 1) x) = stateComposition (Function.update z j x) := by
      intro x
      have := handed_update hz.fractions (j := j.val - 1) (by omega) x
      rw [← hj'] at this
      exact this
    by_cases hi0 : i.val = 0
    · obtain ⟨σ', e', h⟩ := C87_temperature_by_species (z (Fin.last 21)) (handed z) _ hY h1 h2 hz.pressure hpos hpole hcut
      obtain rfl := Option.some.inj (e'.symm.trans e)
      obtain ⟨x, d, q, hd, hle⟩ := h (j.val - 1) (by omega)
      refine ⟨d, ?_, ?_⟩
      · have : (fun x => drm19.chemistry.stateRate (Function.update z j x) i) = fun t => drm19.chemistry.dTdt (handed z 0) (z (Fin.last 21))
            (complement (drm19.nsp - 1) (Function.update (fun i => handed z (i + 1)) (j.val - 1) t)) := by
          funext x
          unfold Chemistry.stateRate
          rw [if_pos hi0, hT, hlast, hC, handed_zero]
        rw [this, ← hjz]
        exact hd
      · rw [hval _ x q (by omega)]
        unfold Chemistry.stateSlopeTerms
        rw [if_neg hl, if_pos hi0, if_neg hj0]
        rw [handed_zero] at hle
        exact weaken _ _ _ hle (by norm_num) (by norm_num)
    · obtain ⟨x, d, q, hd, hle⟩ := hsp (i.val - 1) (j.val - 1) (by omega) (by omega)
      refine ⟨d, ?_, ?_⟩
      · have : (fun x => drm19.chemistry.stateRate (Function.update z j x) i) = fun t => drm19.chemistry.dYdt (handed z 0) (z (Fin.last 21))
            (complement (drm19.nsp - 1) (Function.update (fun i => handed z (i + 1)) (j.val - 1) t)) (i.val - 1) := by
          funext x
          unfold Chemistry.stateRate
          rw [if_neg hi0, if_neg hl, hT, hlast, hC, handed_zero]
        rw [this, ← hjz]
        exact hd
      · rw [hval _ x q (by omega)]
        unfold Chemistry.stateSlopeTerms
        rw [if_neg hl, if_neg hi0, if_neg hj0]
        rw [handed_zero] at hle
        exact weaken _ _ _ hle (by norm_num) (by norm_num)

/-- Hot compressed air as a state of the integrator. -/
noncomputable def hotAirState (p : ℝ) : Vec ℝ 22 := fun i => if i = Fin.last 21 then p else hotAir i.val

theorem hotAirState_composition (p : ℝ) : stateComposition (hotAirState p) = complement (drm19.nsp - 1) fun i => hotAir (i + 1) := by
  refine complement_congr fun i hi => ?_
  by_cases h : i < 20
  · rw [dif_pos h]
    unfold hotAirState
    rw [if_neg]
    intro e
    have := congrArg Fin.val e
    dsimp only [Fin.val_last] at this
    omega
  · rw [dif_neg h]
    unfold hotAir
    rw [if_neg (by omega), if_neg (by omega)]

/-- It meets the hypotheses of both theorems. -/
example : ∃ p : ℝ, drm19.chemistry.Smooth (hotAirState p) := by
  have e : hotAir 0 = 1200 := rfl
  obtain ⟨p, hp, h⟩ := C85_domain (hotAir 0) (by rw [e]; norm_num) _ hotAir_ok (by rw [hotAir_nitrogen]; norm_num)
  obtain ⟨h1, h2⟩ := h p le_rfl
  have e0 : hotAirState p 0 = hotAir 0 := rfl
  have ep : hotAirState p (Fin.last 21) = p := if_pos rfl
  have hmid : drm19.chemistry.BetweenFits (hotAir 0) := by
    have := noMid_sound drm19_noMid
    rw [e]
    exact_mod_cast this
  refine ⟨p, ⟨⟨by rw [e0, e]; norm_num, by rw [ep]; exact hp, ?_, ?_⟩, ?_, ?_⟩⟩
  · rw [hotAirState_composition]
    exact hotAir_ok
  · rw [hotAirState_composition, e0, ep]
    exact h1
  · rw [e0]
    exact hmid
  · rw [hotAirState_composition, e0, ep]
    exact h2

end DLB
