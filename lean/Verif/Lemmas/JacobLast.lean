import Verif.Lemmas.JacobEnd
import Verif.Lemmas.JacobFull
import Verif.Lemmas.ThermoSound
/-
The first entry of the result of `eval_jacob`: mean heat capacity, its derivative and the derivative of the rate of change of the temperature
by the temperature.
-/
set_option autoImplicit false
set_option linter.unusedSectionVars false

namespace DLB

/-- A sum of `k + 1` terms, added from the left. -/
def sumOk (P : Nat → CExpr → Bool) : Nat → CExpr → Bool
  | 0, e => P 0 e
  | k + 1, .add a b => sumOk P k a && P (k + 1) b
  | _ + 1, _ => false

theorem sumOk_sound {P : Nat → CExpr → Bool} {R : Nat → ℝ → Prop} {τ : CLoc → ℝ} (h : ∀ i e, P i e = true → R i (e.evalT τ)) (k : Nat) :
    ∀ e, sumOk P k e = true → ∃ f : Nat → ℝ, (∀ i, i < k + 1 → R i (f i)) ∧ e.evalT τ = ∑ i ∈ Finset.range (k + 1), f i := by
  induction k with
  | zero =>
    intro e he
    refine ⟨fun _ => e.evalT τ, fun i hi => ?_, by simp⟩
    obtain rfl : i = 0 := by omega
    exact h 0 e he
  | succ k ih =>
    intro e he
    unfold sumOk at he
    split at he
    · exact absurd (‹k + 1 = 0›) (by omega)
    · rename_i k' a b hk
      obtain rfl : k = k' := by omega
      simp only [Bool.and_eq_true] at he
      obtain ⟨f, hf, e1⟩ := ih a he.1
      refine ⟨fun i => if i = k + 1 then b.evalT τ else f i, fun i hi => ?_, ?_⟩
      · dsimp only
        by_cases hi' : i = k + 1
        · rw [if_pos hi', hi']
          exact h _ _ he.2
        · rw [if_neg hi']
          exact hf i (by omega)
      · rw [Finset.sum_range_succ, if_pos rfl]
        show a.evalT τ + b.evalT τ = _
        rw [e1]
        congr 1
        refine Finset.sum_congr rfl fun i hi => ?_
        rw [if_neg]
        have := Finset.mem_range.1 hi
        omega
    · exact absurd he (by simp)

/-- Where the mass fraction of species `i` of `n + 1` is stored. -/
def massLoc (n i : Nat) : CLoc := if Nat.beq i n then .var .yN else .arr .y (i + 1)

/-- Mass fraction times heat capacity. -/
def cpTermOk (n i : Nat) : CExpr → Bool
  | .mul (.rd a) (.rd b) => decide (a = massLoc n i) && decide (b = .arr .cp i)
  | _ => false

/-- The statements for `cp_avg`. -/
def cpAvgOk (n : Nat) (J : JacobSrc) : Bool := match J.cpAvg with
  | [.set (.var .cpAvg) e, .set (.arr .jac 0) (.num 0 0), .set (.var .workTemp) (.num 0 0)] => sumOk (cpTermOk n) n e
  | _ => false

/-- The polynomial of the derivative of `cpOverR`. -/
def slopeQ (a : List SDec) : QPoly :=
  .ofCoeffs [a.getD 1 (0, 0), (a.getD 2 (0, 0)).times 2, (a.getD 3 (0, 0)).times 3, (a.getD 4 (0, 0)).times 4]

/-- Derivative of the heat capacity over the gas constant. -/
noncomputable def cpSlope (a : List SDec) (T : ℝ) : ℝ :=
  nasaCoeff a 1 + 2 * nasaCoeff a 2 * T + 3 * nasaCoeff a 3 * T ^ 2 + 4 * nasaCoeff a 4 * T ^ 3

/-- Sum of the absolute values of its terms. -/
noncomputable def slopeTerms (a : List SDec) (T : ℝ) : ℝ :=
  |nasaCoeff a 1| + |2 * nasaCoeff a 2 * T| + |3 * nasaCoeff a 3 * T ^ 2| + |4 * nasaCoeff a 4 * T ^ 3|

theorem slopeQ_eval (a : List SDec) (T : ℝ) : (slopeQ a).eval T = cpSlope a T := by
  simp only [slopeQ, QPoly.eval_ofCoeffs_cons, QPoly.eval_ofCoeffs_nil, cpSlope, nasaCoeff, times_val]
  push_cast
  ring

theorem slopeQ_abs (a : List SDec) (T : ℝ) : (slopeQ a).absEval T = slopeTerms a T := by
  simp only [slopeQ, QPoly.absEval_cons, QPoly.absEval_nil, slopeTerms, nasaCoeff, times_val, abs_mul, abs_pow]
  push_cast
  ring

theorem cpSlope_abs (a : List SDec) (T : ℝ) : |cpSlope a T| ≤ slopeTerms a T := by
  unfold cpSlope slopeTerms
  exact (abs_add_le _ _).trans (add_le_add ((abs_add_le _ _).trans (add_le_add (abs_add_le _ _) le_rfl)) le_rfl)

/-- Mass fraction times the derivative of the heat capacity. -/
def workTermOk (n : Nat) (ws : List Nat) (fit : Nat → List SDec) (i : Nat) : CExpr → Bool
  | .mul (.mul (.rd a) c) p => decide (a = massLoc n i) && (match CExpr.poly (.mul c p) with
    | none => false
    | some q => Nat.blt 0 (ws.getD i 0) && QPoly.close (ws.getD i 0) gas5 q (slopeQ (fit i)))
  | _ => false

/-- The terms of the numerator, those for the species and those for the entries of `jac` by turns. -/
def heatOk (ws : List Nat) (i : Nat) (e : CExpr) : Bool :=
  if Nat.beq (i % 2) 0 then match e with
    | .mul (.mul (.rd (.arr .spRates k1)) w) (.add (.div (.mul (.neg (.rd (.var .workTemp))) (.rd (.arr .h k2))) (.rd (.var .cpAvg))) (.rd (.arr .cp k3))) =>
      Nat.beq k1 (i / 2) && Nat.beq k2 (i / 2) && Nat.beq k3 (i / 2) && (match w.lit with
        | none => false
        | some w => closeQ w (ws.getD (i / 2) 0) (10 ^ 5) (ws.getD (i / 2) 0))
    | _ => false
  else match e with
    | .mul (.mul (.rd (.arr .jac k1)) (.rd (.arr .h k2))) (.rd (.var .rho)) => Nat.beq k1 (i / 2 + 1) && Nat.beq k2 (i / 2)
    | _ => false

/-- The last statements. -/
def lastOk (D : Package) (n : Nat) (ws : List Nat) (J : JacobSrc) : Bool := match J.last with
  | [.ite (.rd (.var .T)) (.num m e) (.var .workTemp) lo hi,
      .set (.arr .jac 0) (.div (.neg s) (.mul (.rd (.var .rho)) (.rd (.var .cpAvg))))] =>
    (List.range (n + 1)).all (fun i => decide ((D.fit i).tMid = (m, e))) &&
    sumOk (workTermOk n ws fun i => (D.fit i).low) n lo && sumOk (workTermOk n ws fun i => (D.fit i).high) n hi &&
    sumOk (heatOk ws) (2 * n) s
  | _ => false

section
variable {n : Nat} {v : JacobVals ℝ} {Y : Nat → ℝ} (hy : ∀ i, i < n → v.y (i + 1) = Y i) (hN : v.yN = Y n)
include hy hN

theorem massLoc_sound (jac : Nat → ℝ) {i : Nat} (hi : i < n + 1) : v.mem jac (massLoc n i) = Y i := by
  unfold massLoc
  split
  · rename_i h
    obtain rfl := Nat.eq_of_beq_eq_true h
    exact hN
  · rename_i h
    have : i ≠ n := by
      rintro rfl
      simp at h
    exact hy i (by omega)

theorem cpAvg_sound {J : JacobSrc} (h : cpAvgOk n J = true) (jac : Nat → ℝ) :
    execT J.cpAvg (v.mem jac) (.var .cpAvg) = ∑ i ∈ Finset.range (n + 1), v.cp i * Y i := by
  unfold cpAvgOk at h
  split at h
  swap
  · exact absurd h (by simp)
  rename_i e he
  rw [he]
  have ex : execT [.set (.var .cpAvg) e, .set (.arr .jac 0) (.num 0 0), .set (.var .workTemp) (.num 0 0)] (v.mem jac) (.var .cpAvg) =
      e.evalT (v.mem jac) := by
    simp [execT, CStmt.execT, DLB.setT]
  rw [ex]
  obtain ⟨f, hf, e1⟩ := sumOk_sound (R := fun i x => i < n + 1 → x = v.cp i * Y i) (τ := v.mem jac) (fun i e he hi => by
    unfold cpTermOk at he
    split at he
    · rename_i a b
      simp only [Bool.and_eq_true, decide_eq_true_eq] at he
      obtain ⟨rfl, rfl⟩ := he
      simp only [CExpr.evalT, massLoc_sound hy hN jac hi]
      exact mul_comm _ _
    · exact absurd he (by simp)) n e h
  rw [e1]
  exact Finset.sum_congr rfl fun i hi => hf i (Finset.mem_range.1 hi) (Finset.mem_range.1 hi)

theorem work_sound {ws : List Nat} {W : Nat → ℝ} (hW : ∀ i, i < n + 1 → W i = (ws.getD i 0 : ℝ) / 10 ^ 5) {fit : Nat → List SDec} {e : CExpr}
    (h : sumOk (workTermOk n ws fit) n e = true) (jac : Nat → ℝ) :
    ∃ s : Nat → ℝ, (∀ i, i < n + 1 → |s i - gasR / W i * cpSlope (fit i) v.T| ≤ 3 / 10 ^ 15 * (gasR / W i * slopeTerms (fit i) v.T)) ∧
      e.evalT (v.mem jac) = ∑ i ∈ Finset.range (n + 1), Y i * s i := by
  obtain ⟨f, hf, e1⟩ := sumOk_sound (R := fun i x => i < n + 1 → ∃ s, |s - gasR / W i * cpSlope (fit i) v.T| ≤
      3 / 10 ^ 15 * (gasR / W i * slopeTerms (fit i) v.T) ∧ x = Y i * s) (τ := v.mem jac) (fun i e he hi => by
    unfold workTermOk at he
    split at he
    · rename_i a c p
      simp only [Bool.and_eq_true, decide_eq_true_eq] at he
      obtain ⟨rfl, he⟩ := he
      split at he
      · exact absurd he (by simp)
      rename_i q hq
      simp only [Bool.and_eq_true] at he
      have hpos : 0 < ws.getD i 0 := Nat.le_of_ble_eq_true he.1
      refine ⟨(CExpr.mul c p).evalT (v.mem jac), ?_, ?_⟩
      · have := QPoly.close_eval (K := ℝ) he.2 (by exact_mod_cast hpos) (by decide) v.T
        rw [slopeQ_eval, slopeQ_abs] at this
        have er : ((gas5 : Int) : ℝ) / ((ws.getD i 0 : Int) : ℝ) = gasR / W i := by
          rw [hW i hi]
          unfold gas5 gasR
          push_cast
          rw [div_div_eq_mul_div]
          norm_num
        rw [er] at this
        rw [poly_sound (v.mem jac) _ q hq]
        exact this
      · simp only [CExpr.evalT, massLoc_sound hy hN jac hi]
        ring
    · exact absurd he (by simp)) n e h
  choose! s hs using hf
  refine ⟨s, fun i hi => (hs i hi hi).1, ?_⟩
  rw [e1]
  exact Finset.sum_congr rfl fun i hi => (hs i (Finset.mem_range.1 hi) (Finset.mem_range.1 hi)).2

end

/-- A sum of terms by turns. -/
theorem sum_by_turns (f : Nat → ℝ) (n : Nat) : ∑ i ∈ Finset.range (2 * n + 1), f i =
    ∑ k ∈ Finset.range (n + 1), f (2 * k) + ∑ k ∈ Finset.range n, f (2 * k + 1) := by
  induction n with
  | zero => simp
  | succ n ih =>
    rw [show 2 * (n + 1) + 1 = 2 * n + 1 + 1 + 1 by ring, Finset.sum_range_succ, Finset.sum_range_succ, ih, Finset.sum_range_succ _ (n + 1),
      Finset.sum_range_succ (fun k => f (2 * k + 1)) n, show 2 * (n + 1) = 2 * n + 1 + 1 by ring]
    ring

theorem heat_sound {n : Nat} {ws : List Nat} {W : Nat → ℝ} (hW : ∀ i, i < n + 1 → W i = (ws.getD i 0 : ℝ) / 10 ^ 5) {e : CExpr}
    (h : sumOk (heatOk ws) (2 * n) e = true) {τ : CLoc → ℝ} {v : JacobVals ℝ} {wt : ℝ} (hwt : τ (.var .workTemp) = wt)
    (hω : ∀ i, τ (.arr .spRates i) = v.ω i) (hh : ∀ i, τ (.arr .h i) = v.h i) (hcp : ∀ i, τ (.arr .cp i) = v.cp i)
    (hc : τ (.var .cpAvg) = v.cpAvg) (hr : τ (.var .rho) = v.rho) :
    ∃ w : Nat → ℝ, (∀ i, i < n + 1 → |w i - W i| ≤ W i / 10 ^ 14) ∧
      e.evalT τ = ∑ k ∈ Finset.range (n + 1), v.ω k * w k * (-wt * v.h k / v.cpAvg + v.cp k) +
        ∑ k ∈ Finset.range n, τ (.arr .jac (k + 1)) * v.h k * v.rho := by
  obtain ⟨f, hf, e1⟩ := sumOk_sound (R := fun i x => (i % 2 = 0 → i / 2 < n + 1 → ∃ w, |w - W (i / 2)| ≤ W (i / 2) / 10 ^ 14 ∧
      x = v.ω (i / 2) * w * (-wt * v.h (i / 2) / v.cpAvg + v.cp (i / 2))) ∧ (i % 2 ≠ 0 → x = τ (.arr .jac (i / 2 + 1)) * v.h (i / 2) * v.rho))
      (τ := τ) (fun i e he => by
    unfold heatOk at he
    split at he
    · rename_i hb
      have hi := Nat.eq_of_beq_eq_true hb
      refine ⟨fun _ hlt => ?_, fun h => absurd hi h⟩
      split at he
      · rename_i k1 w k2 k3
        simp only [Bool.and_eq_true] at he
        obtain ⟨⟨⟨b1, b2⟩, b3⟩, he⟩ := he
        obtain rfl := Nat.eq_of_beq_eq_true b1
        obtain rfl := Nat.eq_of_beq_eq_true b2
        obtain rfl := Nat.eq_of_beq_eq_true b3
        split at he
        · exact absurd he (by simp)
        rename_i d hd
        have hcl := closeQ_sound (by norm_num) he
        refine ⟨SDec.val d, ?_, ?_⟩
        · rw [hW _ hlt]
          push_cast at hcl
          norm_num at hcl ⊢
          exact hcl
        · simp only [CExpr.evalT, w.lit_sound hd, hω, hwt, hh, hc, hcp]
      · exact absurd he (by simp)
    · rename_i hb
      have hi : i % 2 ≠ 0 := by
        intro h0
        rw [h0] at hb
        simp at hb
      refine ⟨fun h => absurd h hi, fun _ => ?_⟩
      split at he
      · rename_i k1 k2
        simp only [Bool.and_eq_true] at he
        obtain ⟨b1, b2⟩ := he
        obtain rfl := Nat.eq_of_beq_eq_true b1
        obtain rfl := Nat.eq_of_beq_eq_true b2
        simp only [CExpr.evalT, hh, hr]
      · exact absurd he (by simp)) (2 * n) e h
  have hev : ∀ k, k < n + 1 → ∃ w, |w - W k| ≤ W k / 10 ^ 14 ∧ f (2 * k) = v.ω k * w * (-wt * v.h k / v.cpAvg + v.cp k) := by
    intro k hk
    have := (hf (2 * k) (by omega)).1 (by omega) (by omega)
    rwa [show 2 * k / 2 = k by omega] at this
  choose! w hw using hev
  refine ⟨w, fun k hk => (hw k hk).1, ?_⟩
  rw [e1, sum_by_turns]
  congr 1
  · exact Finset.sum_congr rfl fun k hk => (hw k (Finset.mem_range.1 hk)).2
  · refine Finset.sum_congr rfl fun k hk => ?_
    have hk := Finset.mem_range.1 hk
    have := (hf (2 * k + 1) (by omega)).2 (by omega)
    rwa [show (2 * k + 1) / 2 = k by omega] at this

/-- The first entry. -/
theorem last_sound {D : Package} {n : Nat} {ws : List Nat} {W : Nat → ℝ}
    (hW : ∀ i, i < n + 1 → W i = (ws.getD i 0 : ℝ) / 10 ^ 5) {J : JacobSrc} (h : lastOk D n ws J = true) {v : JacobVals ℝ} {Y : Nat → ℝ}
    (hy : ∀ i, i < n → v.y (i + 1) = Y i) (hN : v.yN = Y n) (jac : Nat → ℝ) :
    ∃ s w : Nat → ℝ, (∀ i, i < n + 1 → |s i - gasR / W i * cpSlope ((D.fit i).at v.T) v.T| ≤
        3 / 10 ^ 15 * (gasR / W i * slopeTerms ((D.fit i).at v.T) v.T)) ∧ (∀ i, i < n + 1 → |w i - W i| ≤ W i / 10 ^ 14) ∧
      execT J.last (v.mem jac) (.arr .jac 0) = -(∑ k ∈ Finset.range (n + 1), v.ω k * w k *
        (-(∑ i ∈ Finset.range (n + 1), Y i * s i) * v.h k / v.cpAvg + v.cp k) +
        ∑ k ∈ Finset.range n, jac (k + 1) * v.h k * v.rho) / (v.rho * v.cpAvg) := by
  unfold lastOk at h
  split at h
  swap
  · exact absurd h (by simp)
  rename_i m e lo hi s he
  simp only [Bool.and_eq_true] at h
  obtain ⟨⟨⟨hm, h1⟩, h2⟩, h3⟩ := h
  have hm : ∀ i, i < n + 1 → (D.fit i).tMid = (m, e) := fun i hi => of_decide_eq_true (List.all_eq_true.1 hm i (List.mem_range.2 hi))
  obtain ⟨s1, a1, b1⟩ := work_sound hy hN hW h1 jac
  obtain ⟨s2, a2, b2⟩ := work_sound hy hN hW h2 jac
  obtain ⟨sv, hs, hwt⟩ : ∃ sv : Nat → ℝ, (∀ i, i < n + 1 → |sv i - gasR / W i * cpSlope ((D.fit i).at v.T) v.T| ≤
        3 / 10 ^ 15 * (gasR / W i * slopeTerms ((D.fit i).at v.T) v.T)) ∧
      CStmt.execT (v.mem jac) (.ite (.rd (.var .T)) (.num m e) (.var .workTemp) lo hi) =
        DLB.setT (v.mem jac) (.var .workTemp) (∑ i ∈ Finset.range (n + 1), Y i * sv i) := by
    have hvT : CExpr.evalT (v.mem jac) (.rd (.var .T)) = v.T := rfl
    have hmid : CExpr.evalT (v.mem jac) (.num m e) = (m : ℝ) / 10 ^ e := by simp [CExpr.evalT, sci_eq]
    by_cases hT : v.T ≤ (m : ℝ) / 10 ^ e
    · refine ⟨s1, fun i hi => ?_, ?_⟩
      · have : (D.fit i).at v.T = (D.fit i).low := by
          unfold Nasa.at
          rw [hm i hi, if_pos hT]
        rw [this]
        exact a1 i hi
      · simp only [CStmt.execT, hvT, hmid, if_pos hT, b1]
    · refine ⟨s2, fun i hi => ?_, ?_⟩
      · have : (D.fit i).at v.T = (D.fit i).high := by
          unfold Nasa.at
          rw [hm i hi, if_neg hT]
        rw [this]
        exact a2 i hi
      · simp only [CStmt.execT, hvT, hmid, if_neg hT, b2]
  obtain ⟨τ, hτ⟩ : ∃ τ, τ = DLB.setT (v.mem jac) (.var .workTemp) (∑ i ∈ Finset.range (n + 1), Y i * sv i) := ⟨_, rfl⟩
  obtain ⟨w, hw, hheat⟩ := heat_sound hW h3 (τ := τ) (v := v) (wt := ∑ i ∈ Finset.range (n + 1), Y i * sv i)
    (by rw [hτ]; simp [DLB.setT]) (fun i => by rw [hτ]; simp [DLB.setT, JacobVals.mem]) (fun i => by rw [hτ]; simp [DLB.setT, JacobVals.mem])
    (fun i => by rw [hτ]; simp [DLB.setT, JacobVals.mem]) (by rw [hτ]; simp [DLB.setT, JacobVals.mem]) (by rw [hτ]; simp [DLB.setT, JacobVals.mem])
  refine ⟨sv, w, hs, hw, ?_⟩
  rw [he]
  have hjac : ∀ i, τ (.arr .jac i) = jac i := fun i => by rw [hτ]; simp [DLB.setT, JacobVals.mem]
  have hrho : τ (.var .rho) = v.rho := by rw [hτ]; simp [DLB.setT, JacobVals.mem]
  have hcpa : τ (.var .cpAvg) = v.cpAvg := by rw [hτ]; simp [DLB.setT, JacobVals.mem]
  simp only [execT]
  rw [hwt, ← hτ]
  simp only [CStmt.execT, DLB.setT, if_true, CExpr.evalT, hheat, hjac, hrho, hcpa]

end DLB
