import Verif.Model.ShippedLib
import Verif.Lemmas.Shipped
/-
The right-hand side of a shipped mechanism: species rates without any assumption on the state, and
states without reactions.
-/
set_option autoImplicit false
set_option linter.unusedSectionVars false

namespace DLB

section
variable {K : Type} [Field K] [LinearOrder K] [IsStrictOrderedRing K] [CMath K]

/-- The species part of `dydt` in any state whatever. -/
theorem dydt_species {D : Package} (h : Checked D) (pres : K) (y : Nat → K) :
    ∃ (σ : CMem K) (ρ : K) (fwd rev pm : Nat → K), D.mech.callDydt pres y = some σ ∧
      (∀ i, i < D.nsp → ∃ v, σ (.arr .dy i) = some v) ∧
      ∀ i, i < D.nsp - 1 → σ (.arr .dy (i + 1)) =
        some (productionRate D.reactions fwd rev pm i * Dec.val (nth D.mech.weights i) / ρ) := by
  obtain ⟨n, hn⟩ : ∃ n, D.nsp = n + 1 := ⟨D.nsp - 1, by have := nsp_pos h; omega⟩
  have hn1 : D.nsp - 1 = n := by omega
  have hnm : D.mech.nsp = n + 1 := hn
  have ht := h.templates
  simp only [checkTemplates, Bool.and_eq_true, decide_eq_true_eq] at ht
  obtain ⟨⟨⟨⟨⟨⟨⟨-, -⟩, -⟩, -⟩, tcp⟩, td⟩, -⟩, -⟩ := ht
  obtain ⟨σ, e, ⟨σc, σr, σp, σs, σcp, σh, C0, F, R, P, ω, cp, enth, yN, rho, ec, er, ep, es, ecp, eh, c1, c2, c3, hF, hR,
    hP, hω, hcp, henth, hdy⟩⟩ := dydt_call (rs := D.reactions) h.sizes h.rates h.ratesSafe h.presMod h.presSafe h.spec
      h.specSafe h.thermoSafe pres y
  refine ⟨σ, rho, F, R, P, e, fun i hi => ⟨_, hdy i hi⟩, ?_⟩
  intro i hi
  have hωv : ω i = productionRate D.reactions F R P i := by
    obtain ⟨σs', es', s1⟩ := specRates_call h.spec h.specSafe (y 0) _ _ _ F R P hF hR hP
    rw [es] at es'
    obtain rfl := Option.some.inj es'
    have := Option.some.inj ((hω i (by omega)).symm.trans (s1 i (by omega)))
    rw [this, checkSpec_sound h.spec _ (by omega)]
    rfl
  rw [hdy (i + 1) (by omega), tcp, td, hn1]
  obtain ⟨-, d2⟩ := dydtT_val n D.mech.weights D.mech.heatSpecies
    (inDydt (y 0) y yN rho (ω (D.mech.nsp - 1)) ω cp enth)
  rw [hn1] at d2
  rw [d2 i (by omega)]
  simp only [inDydt]
  rw [hωv, mul_div_assoc]

/-- If every reaction lacks one of its reactants and, if reversible, one of its products, nothing is produced. -/
theorem production_zero {rs : List Reaction} {nsp : Nat} {C fwd rev pm : Nat → K} (h : RatesAt rs nsp C fwd rev pm)
    (hd : ∀ r ∈ rs, (∃ s ∈ r.reactants, C s = 0) ∧ (r.reversible = true → ∃ s ∈ r.products, C s = 0)) (s : Nat) :
    productionRate rs fwd rev pm s = 0 := by
  refine List.sum_eq_zero fun x hx => ?_
  obtain ⟨n, hn, rfl⟩ := List.mem_map.1 hx
  obtain ⟨⟨a, ha, ha0⟩, hr⟩ := hd n.r (mem_numberFrom rs 0 0 0 n hn)
  obtain ⟨kf, -, ef⟩ := h.forward n hn
  have f0 : fwd n.k = 0 := by rw [ef, prod_eq_zero_of ha ha0, mul_zero]
  unfold Numbered.progress
  by_cases hv : n.r.reversible = true
  · obtain ⟨b, hb, hb0⟩ := hr hv
    obtain ⟨kr, -, er⟩ := h.reverse n hn hv
    have r0 : rev n.j = 0 := by rw [er, prod_eq_zero_of hb hb0, mul_zero]
    rw [if_pos hv, f0, r0]
    simp
  · rw [if_neg hv, f0]
    simp

end
end DLB
