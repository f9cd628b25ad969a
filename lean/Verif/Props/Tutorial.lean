import Verif.Lemmas.Tutorial
import Verif.Lemmas.ReactorNear
import Verif.Props.Mechanisms
/-
C109: the reactions of the tutorial shearlayer_DLB (constant/reactionsYao) and those of the mechanism yao (utilities/mechanisms/yao/chem.cti).
-/
set_option autoImplicit false
set_option linter.unusedSectionVars false

namespace DLB

/-- C109. The file of the tutorial has as many reactions as the mechanism, and reaction by reaction the same reactants and products, the same
reversibility, and for every mixture the same concentration of third bodies. -/
theorem C109_same_reactions :
    Mech.Yao.tutorial.length = yao.reactions.length ∧
    ∀ n ∈ number yao.reactions, ∃ f, Mech.Yao.tutorial[n.k]? = some f ∧
      f.reactants = n.r.reactants ∧ f.products = n.r.products ∧ f.reversible = n.r.reversible ∧
      match n.r.kind with
      | .elementary => f.law.efficiencies = none
      | .thirdBody eff | .falloff eff => ∃ eff', f.law.efficiencies = some eff' ∧ (eff'.map (·.1)).Nodup ∧ eff'.length = yao.nsp ∧
          ∀ C : Nat → ℝ, thirdBody yao.nsp eff' C = thirdBody yao.nsp eff C := by
  have hlen : Mech.Yao.tutorial.length = yao.reactions.length := by decide +kernel
  refine ⟨hlen, fun n hn => ?_⟩
  have hk : n.k < Mech.Yao.tutorial.length := by
    have h : (number yao.reactions).all (fun n => decide (n.k < 269)) = true := by decide +kernel
    have h' : Mech.Yao.tutorial.length = 269 := by decide +kernel
    rw [h']
    exact of_decide_eq_true (List.all_eq_true.1 h n hn)
  have hf : Mech.Yao.tutorial[n.k]? = some (tutorialReaction n.k) := by
    unfold tutorialReaction
    rw [List.getD_eq_getElem?_getD, List.getElem?_eq_getElem hk]
    rfl
  refine ⟨_, hf, ?_⟩
  have h := tutorial_close n hn
  generalize tutorialReaction n.k = f at h
  simp only [closeReaction, Bool.and_eq_true, decide_eq_true_eq] at h
  obtain ⟨⟨⟨⟨a, b⟩, c⟩, -⟩, hl⟩ := h
  refine ⟨a, b, c, ?_⟩
  have eff : ∀ e e', sameEff yao.nsp e' e = true → (e'.map (·.1)).Nodup ∧ e'.length = yao.nsp ∧
      ∀ C : Nat → ℝ, thirdBody yao.nsp e' C = thirdBody yao.nsp e C := by
    intro e e' h
    refine ⟨?_, ?_, sameEff_sound h⟩ <;>
      simp only [sameEff, Bool.and_eq_true, decide_eq_true_eq] at h
    · exact h.1.1
    · exact h.1.2
  split at hl
  · rename_i h1 h2 h3
    rw [h1, h3]
    rfl
  · rename_i h1 h2 h3
    rw [h1, h3]
    exact ⟨_, rfl, eff _ _ (Bool.and_eq_true _ _ ▸ hl).2⟩
  · rename_i h1 h2 h3
    rw [h1, h3]
    simp only [Bool.and_eq_true] at hl
    exact ⟨_, rfl, eff _ _ hl.2⟩
  · rename_i h1 h2 h3
    rw [h1, h3]
    simp only [Bool.and_eq_true] at hl
    exact ⟨_, rfl, eff _ _ hl.1.2⟩
  · simp at hl

/-- C109. For every temperature from 300 K to 6000 K and every mixture, outside the poles of Troe's formula, the forward rate of progress of
each reaction of the tutorial differs from that of the mechanism by at most `8 K / T` (0.8 % at 1000 K) and 10^-4. -/
theorem C109_forward_rates (T : ℝ) (h1 : 300 ≤ T) (h2 : T ≤ 6000) (C : Nat → ℝ) (hC : ∀ i, i < yao.nsp → 0 ≤ C i)
    (hp : yao.chemistry.AwayFromPoles T C) (hf : ∀ f ∈ Mech.Yao.tutorial, ¬ f.AtPole yao.nsp T C) :
    ∀ n ∈ number yao.reactions, ∃ f, Mech.Yao.tutorial[n.k]? = some f ∧
      |f.rate yao.nsp T C - yao.chemistry.forward n T C * yao.chemistry.modification n T C| ≤
        (1 / 10 ^ 4 + 8 / T) * (yao.chemistry.forward n T C * yao.chemistry.modification n T C) := by
  intro n hn
  obtain ⟨f, ef, -⟩ := C109_same_reactions.2 n hn
  have ef' : tutorialReaction n.k = f := by
    unfold tutorialReaction
    rw [List.getD_eq_getElem?_getD, ef]
    rfl
  refine ⟨f, ef, ?_⟩
  have hT : 0 < T := by linarith
  have near := tutorial_near f yao.chemistry n (ef' ▸ tutorial_close n hn) T h1 h2 C hC (fun eff kInf k0 t a b e => by
    have := hp n hn eff kInf k0 t a b
    rw [e, sub_self, abs_zero] at this
    exact absurd this (not_lt.2 (by positivity))) (hf f (List.mem_of_getElem? ef))
  have hT' : 1 / T ≤ 1 / 300 := one_div_le_one_div_of_le (by norm_num) h1
  have e1 : 263 / 100 / T = 263 / 100 * (1 / T) := by ring
  have e2 : 8 / T = 8 * (1 / T) := by ring
  have pT : 0 < 1 / T := by positivity
  refine (near.relative (by positivity) (by rw [e1]; linarith)).trans (mul_le_mul_of_nonneg_right ?_ near.right)
  rw [e1, e2]
  linarith

/-- C109. Of an elementary or third-body reaction the rate coefficient alone differs by at most `3 K / T` and 3 10^-5. -/
theorem C109_rate_coefficients (T : ℝ) (h1 : 300 ≤ T) :
    ∀ n ∈ number yao.reactions, ∃ f, Mech.Yao.tutorial[n.k]? = some f ∧
      ∀ g, (f.law = .arrhenius g ∨ ∃ eff, f.law = .thirdBody g eff) →
        |g.coefficient T - yao.chemistry.coefficient n T| ≤ (3 / 10 ^ 5 + 3 / T) * yao.chemistry.coefficient n T := by
  intro n hn
  obtain ⟨f, ef, -⟩ := C109_same_reactions.2 n hn
  have ef' : tutorialReaction n.k = f := by
    unfold tutorialReaction
    rw [List.getD_eq_getElem?_getD, ef]
    rfl
  refine ⟨f, ef, fun g hg => ?_⟩
  have h := ef' ▸ tutorial_close n hn
  simp only [closeReaction, Bool.and_eq_true] at h
  have hl := h.2
  have hT : 0 < T := by linarith
  have key : ∃ k, yao.law n.k = .simple k ∧ closeRate g k n.r.order = true := by
    split at hl
    · rename_i k g' e1 e2 e3
      rw [e3] at hg
      simp only [FoamLaw.arrhenius.injEq, reduceCtorEq, exists_false, or_false] at hg
      exact ⟨k, e2, hg ▸ hl⟩
    · rename_i e k g' e' e1 e2 e3
      rw [e3] at hg
      simp only [reduceCtorEq, FoamLaw.thirdBody.injEq, false_or] at hg
      obtain ⟨-, hg, -⟩ := hg
      simp only [Bool.and_eq_true] at hl
      exact ⟨k, e2, hg ▸ hl.1⟩
    · rename_i e3
      rw [e3] at hg
      simp at hg
    · rename_i e3
      rw [e3] at hg
      simp at hg
    · simp at hl
  obtain ⟨k, ek, hk⟩ := key
  have near := (closeRate_sound hk T hT).2
  have e : yao.chemistry.coefficient n T = k.coefficient n.r.order T := by
    unfold Chemistry.coefficient
    rw [show yao.chemistry.law n.k = .simple k from ek]
    rfl
  rw [e]
  have hT' : 1 / T ≤ 1 / 300 := one_div_le_one_div_of_le (by norm_num) h1
  have e1 : 263 / 100 / T = 263 / 100 * (1 / T) := by ring
  have e2 : 3 / T = 3 * (1 / T) := by ring
  have pT : 0 < 1 / T := by positivity
  refine (near.relative (by positivity) (by rw [e1]; linarith)).trans (mul_le_mul_of_nonneg_right ?_ near.right)
  rw [e1, e2]
  linarith

/-- C109. The exception: no reaction of the mechanism or of the tutorial is at a pole if no reduced pressure exceeds 10. -/
theorem C109_poles (T : ℝ) (h1 : 300 ≤ T) (h2 : T ≤ 6000) (C : Nat → ℝ) (hC : ∀ i, i < yao.nsp → 0 ≤ C i)
    (h : ∀ n ∈ number yao.reactions, ∀ eff kInf k0 t, n.r.kind = .falloff eff → yao.law n.k = .falloff kInf k0 (some t) →
      yao.chemistry.reducedPressure n kInf k0 eff T C ≤ 10) :
    yao.chemistry.AwayFromPoles T C ∧ ∀ f ∈ Mech.Yao.tutorial, ¬ f.AtPole yao.nsp T C := by
  refine ⟨away_of_low yao_shipped T (by linarith) h2 C h, fun f hf => ?_⟩
  obtain ⟨n, hn, e⟩ := tutorial_numbered f hf
  exact tutorial_low f yao.chemistry n (e ▸ tutorial_close n hn) T h1 h2 C hC (h n hn)

/-- C109. The difference is real: at every temperature the tutorial's first reaction, H + O2 = OH + O, is faster than that of the mechanism. -/
theorem C109_not_equal (T : ℝ) (hT : 0 < T) (C : Nat → ℝ) (hH : 0 < C 1) (hO : 0 < C 8) :
    ∃ n ∈ number yao.reactions, ∃ f, Mech.Yao.tutorial[n.k]? = some f ∧
      yao.chemistry.forward n T C * yao.chemistry.modification n T C < f.rate yao.nsp T C := by
  have hn : (number yao.reactions)[0]? = some ⟨yao.reactions.head (by decide +kernel), 0, 0, 0⟩ := by decide +kernel
  refine ⟨_, List.mem_of_getElem? hn, tutorialReaction 0, by decide +kernel, ?_⟩
  have hk : (yao.reactions.head (by decide +kernel)).kind = .elementary := by decide +kernel
  have hr : (yao.reactions.head (by decide +kernel)).reactants = [1, 8] := by decide +kernel
  have hl : yao.chemistry.law 0 = .simple ⟨(97560000000000, 0), (0, 0), (1484226, 2)⟩ := by
    show yao.law 0 = _
    decide +kernel
  have hg : (tutorialReaction 0).law = .arrhenius ⟨(97560000000, 0), (0, 0), (74685, 1)⟩ := by decide +kernel
  have hr' : (tutorialReaction 0).reactants = [1, 8] := by decide +kernel
  unfold FoamReaction.rate Chemistry.forward Chemistry.coefficient Chemistry.modification
  simp only [hl, hg, hk, hr, hr', RateLaw.high, mul_one]
  refine mul_lt_mul_of_pos_right ?_ (by simpa using mul_pos hH hO)
  unfold FoamRate.coefficient Arrhenius.coefficient Arrhenius.temperature Reaction.order gasR
  simp only [hk, hr, SDec.val]
  norm_num
  rw [div_lt_div_iff_of_pos_right hT]
  norm_num

/-- The hypotheses can be met: at 1000 K there is a mixture of all species for which the rates are those of the mechanism up to 0.81 %. -/
example : ∃ c : ℝ, 0 < c ∧ ∀ n ∈ number yao.reactions, ∃ f, Mech.Yao.tutorial[n.k]? = some f ∧
    |f.rate yao.nsp 1000 (fun _ => c) - yao.chemistry.forward n 1000 (fun _ => c) * yao.chemistry.modification n 1000 (fun _ => c)| ≤
      (1 / 10 ^ 4 + 8 / 1000) * (yao.chemistry.forward n 1000 (fun _ => c) * yao.chemistry.modification n 1000 (fun _ => c)) := by
  obtain ⟨c, hc, h⟩ := low_concentrations yao.chemistry 1000 (number yao.reactions)
  obtain ⟨h1, h2⟩ := C109_poles 1000 (by norm_num) (by norm_num) (fun _ => c) (fun _ _ => hc.le) h
  exact ⟨c, hc, C109_forward_rates 1000 (by norm_num) (by norm_num) (fun _ => c) (fun _ _ => hc.le) h1 h2⟩

example (T : ℝ) (h : 300 ≤ T) := C109_rate_coefficients T h

example : ∃ n ∈ number yao.reactions, ∃ f, Mech.Yao.tutorial[n.k]? = some f ∧
    yao.chemistry.forward n 1000 (fun _ => 1) * yao.chemistry.modification n 1000 (fun _ => 1) < f.rate yao.nsp 1000 (fun _ => 1) :=
  C109_not_equal 1000 (by norm_num) _ one_pos one_pos

end DLB
