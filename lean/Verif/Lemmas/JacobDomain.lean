import Verif.Lemmas.JacobFull
/-
At high pressure no falloff reaction is at a pole or cut off.
-/
set_option autoImplicit false
set_option linter.unusedSectionVars false

namespace DLB

theorem reducedPressure_lin (X : Chemistry) (T : ℝ) (Y : Nat → ℝ) (n : Numbered) (kInf k0 : Arrhenius) (eff : List (Nat × Nat × Nat)) (p : ℝ) :
    X.reducedPressure n kInf k0 eff T (X.concentrations T p Y) = p * X.reducedPressure n kInf k0 eff T (X.concentrations T 1 Y) := by
  have hd : ∀ i, X.concentrations T p Y i = p * X.concentrations T 1 Y i := by
    intro i
    unfold Chemistry.concentrations Chemistry.density
    ring
  unfold Chemistry.reducedPressure thirdBody
  have : ∑ i ∈ Finset.range X.nsp, efficiency eff i * X.concentrations T p Y i =
      p * ∑ i ∈ Finset.range X.nsp, efficiency eff i * X.concentrations T 1 Y i := by
    rw [Finset.mul_sum]
    refine Finset.sum_congr rfl fun i _ => ?_
    rw [hd]
    ring
  rw [this]
  ring

theorem high_pressure (X : Chemistry) (T : ℝ) (Y : Nat → ℝ)
    (hpos : ∀ n ∈ number X.reactions, ∀ eff kInf k0 t, n.r.kind = .falloff eff → X.law n.k = .falloff kInf k0 (some t) →
      0 < X.reducedPressure n kInf k0 eff T (X.concentrations T 1 Y)) :
    ∃ p1 : ℝ, 0 < p1 ∧ ∀ p, p1 ≤ p → X.AwayFromPoles T (X.concentrations T p Y) ∧ X.AboveCutOff T (X.concentrations T p Y) := by
  have one : ∀ n : Numbered, ∃ p1 : ℝ, 0 < p1 ∧ ∀ p, p1 ≤ p → ∀ eff kInf k0 t, n.r.kind = .falloff eff →
      X.law n.k = .falloff kInf k0 (some t) → 0 < X.reducedPressure n kInf k0 eff T (X.concentrations T 1 Y) →
      1 / 10 ^ 9 < |lg (max (X.reducedPressure n kInf k0 eff T (X.concentrations T p Y)) (1 / 10 ^ 300)) - Troe.pole (t.centre T)| ∧
      1 / 10 ^ 300 < X.reducedPressure n kInf k0 eff T (X.concentrations T p Y) := by
    intro n
    cases hk : n.r.kind with
    | elementary => exact ⟨1, one_pos, fun p _ eff kInf k0 t h => by simp at h⟩
    | thirdBody eff => exact ⟨1, one_pos, fun p _ eff kInf k0 t h => by simp at h⟩
    | falloff eff =>
      cases hl : X.law n.k with
      | simple k => exact ⟨1, one_pos, fun p _ eff kInf k0 t _ h => by simp at h⟩
      | falloff kInf k0 troe =>
        cases troe with
        | none => exact ⟨1, one_pos, fun p _ eff kInf k0 t _ h => by simp at h⟩
        | some t =>
          by_cases hq0 : 0 < X.reducedPressure n kInf k0 eff T (X.concentrations T 1 Y)
          · obtain ⟨q, hq⟩ : ∃ q, q = X.reducedPressure n kInf k0 eff T (X.concentrations T 1 Y) := ⟨_, rfl⟩
            rw [← hq] at hq0
            refine ⟨(Real.exp ((Troe.pole (t.centre T) + 1) * Real.log 10) + 1) / q, by positivity, fun p hp eff' kInf' k0' t' e1 e2 _ => ?_⟩
            simp only [ReactionKind.falloff.injEq] at e1
            simp only [RateLaw.falloff.injEq, Option.some.injEq] at e2
            obtain ⟨rfl, rfl, rfl⟩ := e2
            subst e1
            rw [reducedPressure_lin, ← hq]
            rw [div_le_iff₀ hq0] at hp
            have he := Real.exp_pos ((Troe.pole (t.centre T) + 1) * Real.log 10)
            have hge : 1 ≤ p * q := by linarith
            have hcut : (1 : ℝ) / 10 ^ 300 < p * q := by
              refine lt_of_lt_of_le ?_ hge
              rw [div_lt_one (by positivity)]
              exact one_lt_pow₀ (by norm_num) (by norm_num)
            refine ⟨?_, hcut⟩
            rw [max_eq_left hcut.le]
            have h1 := lg_le he (show _ ≤ p * q by linarith)
            have h2 : lg (Real.exp ((Troe.pole (t.centre T) + 1) * Real.log 10)) = Troe.pole (t.centre T) + 1 := by
              unfold lg
              rw [Real.log_exp, mul_div_assoc, div_self log_ten_pos.ne', mul_one]
            rw [h2] at h1
            refine lt_of_lt_of_le ?_ (le_abs_self _)
            norm_num
            linarith
          · refine ⟨1, one_pos, fun p _ eff' kInf' k0' t' e1 e2 h => ?_⟩
            simp only [ReactionKind.falloff.injEq] at e1
            simp only [RateLaw.falloff.injEq, Option.some.injEq] at e2
            obtain ⟨rfl, rfl, rfl⟩ := e2
            subst e1
            exact absurd h hq0
  have all : ∀ l : List Numbered, ∃ p1 : ℝ, 0 < p1 ∧ ∀ p, p1 ≤ p → ∀ n ∈ l, ∀ eff kInf k0 t, n.r.kind = .falloff eff →
      X.law n.k = .falloff kInf k0 (some t) → 0 < X.reducedPressure n kInf k0 eff T (X.concentrations T 1 Y) →
      1 / 10 ^ 9 < |lg (max (X.reducedPressure n kInf k0 eff T (X.concentrations T p Y)) (1 / 10 ^ 300)) - Troe.pole (t.centre T)| ∧
      1 / 10 ^ 300 < X.reducedPressure n kInf k0 eff T (X.concentrations T p Y) := by
    intro l
    induction l with
    | nil => exact ⟨1, one_pos, fun p _ n hn => by simp at hn⟩
    | cons a l ih =>
      obtain ⟨p1, q1, r1⟩ := one a
      obtain ⟨p2, q2, r2⟩ := ih
      refine ⟨max p1 p2, lt_max_of_lt_left q1, fun p hle n hn => ?_⟩
      rcases List.mem_cons.1 hn with rfl | hn
      · exact r1 p ((le_max_left _ _).trans hle)
      · exact r2 p ((le_max_right _ _).trans hle) n hn
  obtain ⟨p1, q, r⟩ := all (number X.reactions)
  exact ⟨p1, q, fun p hp => ⟨fun n hn eff kInf k0 t e1 e2 => (r p hp n hn eff kInf k0 t e1 e2 (hpos n hn eff kInf k0 t e1 e2)).1,
    fun n hn eff kInf k0 t e1 e2 => (r p hp n hn eff kInf k0 t e1 e2 (hpos n hn eff kInf k0 t e1 e2)).2⟩⟩

/-- Positive coefficients, and an efficiency of species `i` that is not zero, in all falloff reactions. -/
def lastActs (D : Package) (i : Nat) : Bool := (number D.reactions).all fun n => match n.r.kind, D.law n.k with
  | .falloff eff, .falloff kInf k0 _ => decide (0 < kInf.A.1) && decide (0 < k0.A.1) && decide (0 < (effDec eff i).1)
  | _, _ => true

theorem lastActs_sound {D : Package} (hc : Checked D) {i : Nat} (h : lastActs D i = true) (hi : i < D.nsp) (T : ℝ) (hT : 0 < T) (Y : Nat → ℝ)
    (hY : ∀ i, i < D.nsp → 0 ≤ Y i) (hYi : 0 < Y i) :
    ∀ n ∈ number D.reactions, ∀ eff kInf k0 t, n.r.kind = .falloff eff → D.law n.k = .falloff kInf k0 (some t) →
      0 < D.chemistry.reducedPressure n kInf k0 eff T (D.chemistry.concentrations T 1 Y) := by
  intro n hn eff kInf k0 t hk hl
  have h' := List.all_eq_true.1 h n hn
  rw [hk, hl] at h'
  simp only [Bool.and_eq_true, decide_eq_true_eq] at h'
  obtain ⟨⟨a1, a2⟩, a3⟩ := h'
  have hw : ∀ i, i < D.nsp → 0 < D.chemistry.weight i := fun i hi => molWeight_pos hc i hi
  have hpos : ∀ (k : Arrhenius) (o : Nat), 0 < k.A.1 → 0 < k.coefficient o T := by
    intro k o h0
    unfold Arrhenius.coefficient SDec.val
    have : (0 : ℝ) < k.A.1 := by exact_mod_cast h0
    have := Real.exp_pos (-(k.temperature / T))
    have := Real.rpow_pos_of_pos hT ((k.b.1 : ℝ) / 10 ^ k.b.2)
    positivity
  have hS : 0 < ∑ i ∈ Finset.range D.nsp, Y i / D.chemistry.weight i :=
    Finset.sum_pos' (fun j hj => div_nonneg (hY j (Finset.mem_range.1 hj)) (hw j (Finset.mem_range.1 hj)).le)
      ⟨i, Finset.mem_range.2 hi, div_pos hYi (hw i hi)⟩
  have hρ : 0 < D.chemistry.density T 1 Y := by
    unfold Chemistry.density
    have hR0 : (0 : ℝ) < gasR := by unfold gasR; positivity
    exact div_pos one_pos (mul_pos (mul_pos hR0 hT) hS)
  have hth : 0 < thirdBody D.chemistry.nsp eff (D.chemistry.concentrations T 1 Y) := by
    unfold thirdBody
    refine Finset.sum_pos' (fun j hj => ?_) ⟨i, Finset.mem_range.2 hi, ?_⟩
    · have h0 : (0 : ℝ) ≤ efficiency eff j := by unfold efficiency; positivity
      have := hw j (Finset.mem_range.1 hj)
      have := hY j (Finset.mem_range.1 hj)
      unfold Chemistry.concentrations
      positivity
    · have h0 : (0 : ℝ) < efficiency eff i := by
        unfold efficiency
        have : (0 : ℝ) < (effDec eff i).1 := by exact_mod_cast a3
        positivity
      have := hw i hi
      unfold Chemistry.concentrations
      positivity
  unfold Chemistry.reducedPressure
  have := hpos kInf n.r.reactants.length a1
  have := hpos k0 (n.r.reactants.length + 1) a2
  positivity

/-- No thermodynamic polynomial changes at this temperature. -/
def noMid (D : Package) (T : Nat) : Bool := (List.range D.nsp).all fun i => (D.fit i).tMid.1 != T * 10 ^ (D.fit i).tMid.2

theorem noMid_sound {D : Package} {T : Nat} (h : noMid D T = true) : D.chemistry.BetweenFits T := by
  intro i hi e
  have h' := List.all_eq_true.1 h i (List.mem_range.2 hi)
  simp only [bne_iff_ne, ne_eq] at h'
  apply h'
  have e' : (T : ℝ) = ((D.fit i).tMid.1 : ℝ) / 10 ^ (D.fit i).tMid.2 := e
  rw [eq_div_iff (by positivity)] at e'
  exact_mod_cast e'.symm

end DLB
