import Verif.Lemmas.ReactorSolution
import Verif.Props.Kinetics
/-
The rate laws of the shipped mechanisms are meaningful from 200 K to 5000 K.
-/
set_option autoImplicit false
set_option linter.unusedSectionVars false

namespace DLB

theorem cp_pos_of_shipped {D : Package} (hD : D ∈ shipped) (T : ℝ) (h1 : 200 ≤ T) (h2 : T ≤ 5000) (i : Nat)
    (hi : i < D.nsp) : 0 < D.chemistry.cp T i := by
  obtain ⟨σcp, σh, ecp, -, ht⟩ := C75_nasa_polynomials (K := ℝ) D hD T
  obtain ⟨σc2, ec2, ht2⟩ := C76_heat_capacity_positive (K := ℝ) D hD T h1 h2
  rw [ecp] at ec2
  obtain rfl := Option.some.inj ec2
  obtain ⟨c, h', q1, q2, q3, -⟩ := ht i hi
  obtain ⟨c2, q4, q5, q6⟩ := ht2 i hi
  rw [q1] at q4
  obtain rfl := Option.some.inj q4
  have a := cp_near hD T h1 h2 i hi _ q3 q5
  exact lt_of_le_of_ne a.right fun h0 => q6.ne' (a.zero_iff.2 h0.symm)

theorem proper_of_shipped {D : Package} (hD : D ∈ shipped) (T : ℝ) (h1 : 200 ≤ T) (h2 : T ≤ 5000) :
    D.chemistry.ProperAt T := by
  have hT : 0 < T := by linarith
  have hc := checked_of_shipped hD
  have hk := kinetics_of_shipped hD
  simp only [kineticsOk, Bool.and_eq_true, List.all_eq_true] at hk
  have hcoef : ∀ n ∈ number D.reactions, 0 < D.chemistry.coefficient n T := by
    intro n hn
    obtain ⟨kf, ⟨η, hη, hkf⟩, hk, -⟩ := laws_rates hc (laws_of_shipped hD) T 1 hT n hn
    rw [hkf] at hk
    exact (pos_iff_pos_of_mul_pos hk).2 (Real.exp_pos _)
  refine ⟨hT, fun i hi => molWeight_pos hc i hi, fun n hn => ?_, hcoef, fun n hn eff kInf k0 troe e1 e2 => ⟨?_, ?_⟩,
    fun n hn eff kInf k0 t e1 e2 => ?_, cp_pos_of_shipped hD T h1 h2⟩
  · obtain ⟨b1, b2, -⟩ := balance_sound (K := ℝ) hc n.r (mem_numberFrom D.reactions 0 0 0 n hn)
    exact ⟨b1, b2⟩
  · have := hcoef n hn
    have hord : n.r.order = n.r.reactants.length := by
      unfold Reaction.order
      rw [e1]
      rfl
    unfold Chemistry.coefficient at this
    rw [e2, hord] at this
    exact this
  · have k3 := (hk.1 n hn).2
    have e2' : D.law n.k = .falloff kInf k0 troe := e2
    rw [e2'] at k3
    have hA : 0 ≤ k0.A.1 := by
      cases troe with
      | none =>
        simp only [Bool.and_eq_true, decide_eq_true_eq] at k3
        exact k3.2
      | some t =>
        simp only [Bool.and_eq_true, decide_eq_true_eq] at k3
        exact k3.1.1.2
    have hA' : (0 : ℝ) ≤ SDec.val k0.A := div_nonneg (by exact_mod_cast hA) (by positivity)
    have hTb := Real.rpow_nonneg hT.le (SDec.val k0.b : ℝ)
    unfold Arrhenius.coefficient
    positivity
  · have k3 := (hk.1 n hn).2
    have e2' : D.law n.k = .falloff kInf k0 (some t) := e2
    rw [e2'] at k3
    simp only [Bool.and_eq_true] at k3
    exact lt_of_lt_of_le (by positivity) (centreBig_sound k3.1.2 T hT (by linarith))

end DLB
