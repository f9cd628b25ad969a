import Verif.Lemmas.SeulexAccept
import Mathlib.LinearAlgebra.Matrix.ToLinearEquiv
import Mathlib.Algebra.Order.Archimedean.Basic
import Mathlib.Algebra.Order.BigOperators.Ring.Finset
import Mathlib.Data.Finset.Max
import Mathlib.Data.Fintype.Basic
import Mathlib.Tactic.Positivity
/-
Attempts with a small enough step are accepted, rejected attempts shrink the step: the attempts of a
step end, in exact arithmetic.
-/
set_option autoImplicit false
set_option linter.unusedSectionVars false

namespace DLB
open Spec

variable {K : Type} [Field K] [LinearOrder K] [IsStrictOrderedRing K] {n : Nat}

/-! ### The linear systems of small steps -/

/-- Solutions of a sub-step's system are small. -/
theorem solution_small {J : Mat K (n + 1)} {L h β : K} (hL : ∀ i, ∑ j, |J i j| ≤ L) (hh : h ≠ 0)
    (hs : |h| * L ≤ 1 / 2) {d b : Vec K (n + 1)} (hb : ∀ i, |b i| ≤ β)
    (hd : ∀ i, d i / h - ∑ j, J i j * d j = b i) (i : Fin (n + 1)) : |d i| ≤ 2 * |h| * β := by
  obtain ⟨m, -, hm⟩ := Finset.exists_max_image Finset.univ (fun i => |d i|) ⟨0, Finset.mem_univ _⟩
  have h0 : 0 < |h| := abs_pos.2 hh
  have e : d m = h * (b m + ∑ j, J m j * d j) := by
    rw [← hd m]; field_simp; ring
  have s : |∑ j, J m j * d j| ≤ L * |d m| := by
    refine le_trans (Finset.abs_sum_le_sum_abs _ _) ?_
    refine le_trans ?_ (mul_le_mul_of_nonneg_right (hL m) (abs_nonneg _))
    rw [Finset.sum_mul]
    refine Finset.sum_le_sum fun j hj => ?_
    rw [abs_mul]
    exact mul_le_mul_of_nonneg_left (hm j hj) (abs_nonneg _)
  have t : |d m| ≤ |h| * (β + L * |d m|) := by
    calc |d m| = |h * (b m + ∑ j, J m j * d j)| := by rw [← e]
      _ = |h| * |b m + ∑ j, J m j * d j| := abs_mul _ _
      _ ≤ |h| * (β + L * |d m|) := by
        refine mul_le_mul_of_nonneg_left (le_trans (abs_add_le _ _) ?_) h0.le
        exact add_le_add (hb m) s
  have u : |h| * L * |d m| ≤ 1 / 2 * |d m| := mul_le_mul_of_nonneg_right hs (abs_nonneg _)
  have := hm i (Finset.mem_univ _)
  nlinarith

/-- The matrix of a small sub-step is regular. -/
theorem small_regular {J : Mat K (n + 1)} {L h : K} (hL : ∀ i, ∑ j, |J i j| ≤ L) (hh : h ≠ 0)
    (hs : |h| * L ≤ 1 / 2) : (columnMajor (n + 1) (systemArray J h)).det ≠ 0 := by
  intro hdet
  obtain ⟨v, hv, hz⟩ := Matrix.exists_mulVec_eq_zero_iff.2 hdet
  apply hv
  funext i
  have := solution_small (β := 0) (d := v) (b := fun _ => 0) hL hh hs (by simp) (by
    intro i
    rw [← columnMajor_mulVec, hz]; rfl) i
  rw [mul_zero] at this
  exact abs_eq_zero.1 (le_antisymm this (abs_nonneg _))

theorem linearSolve_small {solve : (Nat → K) → Vec K (n + 1) → Vec K (n + 1)}
    (hE : LapackContract (n + 1) solve) {J : Mat K (n + 1)} {L h β : K}
    (hL : ∀ i, ∑ j, |J i j| ≤ L) (hh : h ≠ 0) (hs : |h| * L ≤ 1 / 2) {b : Vec K (n + 1)}
    (hb : ∀ i, |b i| ≤ β) (i : Fin (n + 1)) : |solve (systemArray J h) b i| ≤ 2 * |h| * β :=
  solution_small hL hh hs hb (by
    intro i
    rw [← columnMajor_mulVec, hE _ _ (small_regular hL hh hs)]) i

/-! ### Sub-steps -/

variable [MathOps K]

theorem sqrt_le_of_le (hq : SqrtLaws K) {t u : K} (ht : 0 ≤ t) (hu : 0 ≤ u) (h : t ≤ u * u) :
    MathOps.sqrt t ≤ u := by
  have h1 := hq.sqrt_mul_self t ht
  have h2 := hq.sqrt_nonneg t ht
  by_contra hc
  push Not at hc
  nlinarith

theorem one_le_sqrt_vGreat (hq : SqrtLaws K) : (1 : K) ≤ MathOps.sqrt (Consts.vGreat : K) := by
  have hv : (1 : K) ≤ Consts.vGreat := one_le_pow₀ (by norm_num)
  have h1 := hq.sqrt_mul_self (Consts.vGreat : K) (by linarith)
  have h2 := hq.sqrt_nonneg (Consts.vGreat : K) (by linarith)
  by_contra hc
  push Not at hc
  nlinarith

theorem guardedSum_small (hq : SqrtLaws K) {scale v : Vec K (n + 1)} {t : K} (h0 : 0 ≤ t)
    (hv : ∀ i, |v i| ≤ 1) (ht : ∀ i, |v i / scale i| ≤ t) : ∀ (l : List (Fin (n + 1))) (acc : K),
    0 ≤ acc → 0 ≤ guardedSum scale v l acc ∧ guardedSum scale v l acc ≤ acc + (l.length : K) * (t * t)
  | [], acc, ha => by simp [guardedSum, ha]
  | i :: is, acc, ha => by
    have hsq : sqr (v i / scale i) ≤ t * t := by
      unfold sqr
      rw [← abs_mul_abs_self]
      exact mul_le_mul (ht i) (ht i) (abs_nonneg _) h0
    have hsq0 : 0 ≤ sqr (v i / scale i) := mul_self_nonneg _
    unfold guardedSum
    rw [if_neg (by rw [absS_eq]; have := one_le_sqrt_vGreat hq; have := hv i; linarith)]
    obtain ⟨g1, g2⟩ := guardedSum_small hq h0 hv ht is (acc + sqr (v i / scale i)) (by linarith)
    refine ⟨g1, le_trans g2 ?_⟩
    simp only [List.length_cons]
    push_cast
    linarith

/-- What is known about the equations near the starting point of a step, and about the size of the
step. -/
structure SmallStep (E : SeulexEnv K n) (J : Mat K (n + 1)) (x : K) (y0 scale : Vec K (n + 1))
    (ρ B L σ : K) : Prop where
  pos : 0 < ρ
  bound : ∀ x' z, |x' - x| ≤ ρ → (∀ i, |z i - y0 i| ≤ ρ) → ∀ i, |E.derivatives x' z i| ≤ B
  Bpos : 0 < B
  temp : ∀ t : K, |t - y0 0| ≤ ρ → 200 < t ∧ t ≤ 5000
  rows : ∀ i, ∑ j, |J i j| ≤ L
  Lpos : 0 < L
  σpos : 0 < σ
  scale : ∀ i, σ ≤ scale i

theorem theta_small (hq : SqrtLaws K) {E : SeulexEnv K n} (hE : LapackContract (n + 1) E.linearSolve)
    {J : Mat K (n + 1)} {x : K} {y0 scale : Vec K (n + 1)} {ρ B L σ h : K}
    (hS : SmallStep E J x y0 scale ρ B L σ) (hh : h ≠ 0) (hs : |h| * L ≤ 1 / 2) (hr : |h| ≤ ρ)
    (h1 : 6 * |h| * B ≤ 1) (h2 : 6 * |h| * B * ((n + 1 : Nat) : K) ≤ σ)
    {yTemp dy : Vec K (n + 1)} (hy : ∀ i, |yTemp i - y0 i| ≤ ρ) (hd : ∀ i, |dy i| ≤ 2 * |h| * B) :
    stabilityTheta E (systemArray J h) x h scale yTemp dy ≤ 1 := by
  have h0 : 0 < |h| := abs_pos.2 hh
  have hrhs : ∀ i, |E.derivatives (x + h) yTemp i - dy i / h| ≤ 3 * B := by
    intro i
    have a := hS.bound (x + h) yTemp (by rw [add_sub_cancel_left]; exact hr) hy i
    have b : |dy i / h| ≤ 2 * B := by
      rw [abs_div, div_le_iff₀ h0]
      calc |dy i| ≤ 2 * |h| * B := hd i
        _ = 2 * B * |h| := by ring
    calc |E.derivatives (x + h) yTemp i - dy i / h|
        ≤ |E.derivatives (x + h) yTemp i| + |dy i / h| := abs_sub _ _
      _ ≤ 3 * B := by linarith
  have hv : ∀ i, |E.linearSolve (systemArray J h)
      (fun i => E.derivatives (x + h) yTemp i - dy i / h) i| ≤ 6 * |h| * B := by
    intro i
    refine le_trans (linearSolve_small hE hS.rows hh hs hrhs i) (le_of_eq ?_)
    ring
  have hσ := hS.σpos
  have hN : (1 : K) ≤ ((n + 1 : Nat) : K) := by exact_mod_cast Nat.succ_pos n
  have hvs : ∀ i, |E.linearSolve (systemArray J h)
      (fun i => E.derivatives (x + h) yTemp i - dy i / h) i / scale i| ≤ 6 * |h| * B / σ := by
    intro i
    rw [abs_div, abs_of_pos (lt_of_lt_of_le hσ (hS.scale i))]
    exact div_le_div₀ (by have := hS.Bpos; positivity) (hv i) hσ (hS.scale i)
  have ht0 : 0 ≤ 6 * |h| * B / σ := by have := hS.Bpos; positivity
  obtain ⟨g1, g2⟩ := guardedSum_small hq ht0 (fun i => le_trans (hv i) h1) hvs
    (List.finRange (n + 1)) 0 le_rfl
  rw [List.length_finRange, zero_add] at g2
  have htN : 6 * |h| * B / σ * ((n + 1 : Nat) : K) ≤ 1 := by
    rw [div_mul_eq_mul_div, div_le_one hσ]; exact h2
  have hle : ((n + 1 : Nat) : K) * (6 * |h| * B / σ * (6 * |h| * B / σ)) ≤ 1 * 1 := by
    have : 6 * |h| * B / σ ≤ 1 := by nlinarith
    nlinarith
  have hdy2 := sqrt_le_of_le hq g1 zero_le_one (le_trans g2 hle)
  unfold stabilityTheta
  dsimp only
  refine div_le_one_of_le₀ (le_trans hdy2 ?_) ?_
  all_goals
    have e1 : (1.0 : K) = 1 := by norm_num
    unfold foamMax
    rw [e1]
    split <;> linarith

theorem seulLoop_small (hq : SqrtLaws K) {E : SeulexEnv K n}
    (hE : LapackContract (n + 1) E.linearSolve)
    {J : Mat K (n + 1)} {x : K} {y0 scale : Vec K (n + 1)} {ρ B L σ h : K} {k : Nat}
    (hS : SmallStep E J x y0 scale ρ B L σ) (hh : h ≠ 0) (hs : |h| * L ≤ 1 / 2)
    (h1 : 6 * |h| * B ≤ 1) (h2 : 6 * |h| * B * ((n + 1 : Nat) : K) ≤ σ) :
    ∀ (left nn s : Nat) (xnew : K) (yTemp dy : Vec K (n + 1)) (θ : K),
      (∀ i, |yTemp i - y0 i| ≤ (s : K) * (2 * |h| * B)) → (∀ i, |dy i| ≤ 2 * |h| * B) →
      |xnew - x| ≤ ((s + 1 : Nat) : K) * |h| →
      ((s + left + 1 : Nat) : K) * (2 * |h| * B) ≤ ρ → ((s + left + 1 : Nat) : K) * |h| ≤ ρ →
      (seulLoop E (systemArray J h) x h k scale left nn xnew yTemp dy θ).ok = true ∧
      ∀ i, |(seulLoop E (systemArray J h) x h k scale left nn xnew yTemp dy θ).y i - y0 i|
        ≤ ((s + left + 1 : Nat) : K) * (2 * |h| * B)
  | 0, nn, s, xnew, yTemp, dy, θ, hy, hd, _, _, _ => by
    refine ⟨rfl, fun i => ?_⟩
    simp only [seulLoop]
    push_cast
    calc |yTemp i + dy i - y0 i| = |(yTemp i - y0 i) + dy i| := by ring_nf
      _ ≤ |yTemp i - y0 i| + |dy i| := abs_add_le _ _
      _ ≤ _ := by have := hy i; have := hd i; linarith
  | left + 1, nn, s, xnew, yTemp, dy, θ, hy, hd, hx, hρ1, hρ2 => by
    have h0 : 0 < |h| := abs_pos.2 hh
    have hB := hS.Bpos
    have hD : 0 < 2 * |h| * B := by positivity
    have hl : (0 : K) ≤ (left : K) := Nat.cast_nonneg _
    have hs0 : (0 : K) ≤ (s : K) := Nat.cast_nonneg _
    have hy' : ∀ i, |yTemp i + dy i - y0 i| ≤ ((s + 1 : Nat) : K) * (2 * |h| * B) := by
      intro i
      push_cast
      calc |yTemp i + dy i - y0 i| = |(yTemp i - y0 i) + dy i| := by ring_nf
        _ ≤ |yTemp i - y0 i| + |dy i| := abs_add_le _ _
        _ ≤ _ := by have := hy i; have := hd i; linarith
    push_cast at hρ1 hρ2
    have hyρ : ∀ i, |yTemp i + dy i - y0 i| ≤ ρ := by
      intro i
      refine le_trans (hy' i) ?_
      push_cast
      nlinarith
    have hhρ : |h| ≤ ρ := by nlinarith
    have hT := hS.temp _ (hyρ 0)
    have hx' : |xnew + h - x| ≤ ((s + 1 + 1 : Nat) : K) * |h| := by
      push_cast
      push_cast at hx
      calc |xnew + h - x| = |(xnew - x) + h| := by ring_nf
        _ ≤ |xnew - x| + |h| := abs_add_le _ _
        _ ≤ _ := by linarith
    have hxρ : |xnew + h - x| ≤ ρ := by
      refine le_trans hx' ?_
      push_cast
      nlinarith
    have hdy : ∀ i, |E.linearSolve (systemArray J h) (E.derivatives (xnew + h)
        (fun i => yTemp i + dy i)) i| ≤ 2 * |h| * B :=
      linearSolve_small hE hS.rows hh hs (hS.bound _ _ hxρ hyρ)
    have hθ := theta_small hq hE hS hh hs hhρ h1 h2 hyρ hd
    simp only [seulLoop]
    rw [if_neg (by rw [(temperatureBad_eq _).2 hT]; simp)]
    rw [if_neg (by
      rintro ⟨c1, c2, c3⟩
      rw [if_pos ⟨c1, c2⟩] at c3
      have e1 : (1.0 : K) = 1 := by norm_num
      rw [e1] at c3
      linarith)]
    obtain ⟨g1, g2⟩ := seulLoop_small hq hE hS hh hs h1 h2 left (nn + 1) (s + 1) (xnew + h)
      (fun i => yTemp i + dy i) _
      (if nn = 1 ∧ k ≤ 1 then stabilityTheta E (systemArray J h) x h scale
        (fun i => yTemp i + dy i) dy else θ) hy' hdy hx' (by push_cast; linarith)
      (by push_cast; linarith)
    refine ⟨g1, fun i => le_trans (g2 i) (le_of_eq ?_)⟩
    push_cast; ring

/-- All rows of the table succeed and stay near the starting point. -/
theorem subSteps_small (hq : SqrtLaws K) {E : SeulexEnv K n}
    (hE : LapackContract (n + 1) E.linearSolve)
    {J : Mat K (n + 1)} {x : K} {y0 scale : Vec K (n + 1)} {ρ B L σ dx : K}
    (hS : SmallStep E J x y0 scale ρ B L σ) (hdx : dx ≠ 0) (hs : |dx| * L ≤ 1 / 2)
    (h1 : 6 * |dx| * B ≤ 1) (h2 : 6 * |dx| * B * ((n + 1 : Nat) : K) ≤ σ)
    (h3 : 2 * |dx| * B ≤ ρ) (h4 : |dx| ≤ ρ) (l : Nat) :
    (subSteps E J x y0 dx scale l).ok = true ∧
      ∀ i, |(subSteps E J x y0 dx scale l).y i - y0 i| ≤ 2 * |dx| * B := by
  have hN := nSeq_cast_pos (K := K) l
  have hN1 : (1 : K) ≤ (nSeq l : K) := by exact_mod_cast nSeq_pos l
  have hh : dx / (nSeq l : K) ≠ 0 := div_ne_zero hdx hN.ne'
  have habs : |dx / (nSeq l : K)| = |dx| / (nSeq l : K) := by rw [abs_div, abs_of_pos hN]
  have hle : |dx / (nSeq l : K)| ≤ |dx| := by
    rw [habs, div_le_iff₀ hN]
    have := abs_nonneg dx
    nlinarith
  have hB := hS.Bpos
  have hL := hS.Lpos
  have hNn : (0 : K) < ((n + 1 : Nat) : K) := by exact_mod_cast Nat.succ_pos n
  have c0 := abs_nonneg (dx / (nSeq l : K))
  have s' : |dx / (nSeq l : K)| * L ≤ 1 / 2 := by nlinarith
  have m1 : 6 * |dx / (nSeq l : K)| * B ≤ 6 * |dx| * B := by nlinarith
  have s1 : 6 * |dx / (nSeq l : K)| * B ≤ 1 := le_trans m1 h1
  have s2 : 6 * |dx / (nSeq l : K)| * B * ((n + 1 : Nat) : K) ≤ σ :=
    le_trans (mul_le_mul_of_nonneg_right m1 hNn.le) h2
  have hsum : (0 + (nSeq l - 1) + 1 : Nat) = nSeq l := by have := nSeq_pos l; omega
  have e1 : (nSeq l : K) * (2 * |dx / (nSeq l : K)| * B) = 2 * |dx| * B := by
    rw [habs]; field_simp
  have e2 : (nSeq l : K) * |dx / (nSeq l : K)| = |dx| := by rw [habs]; field_simp
  have key := seulLoop_small (k := l) hq hE hS hh s' s1 s2 (nSeq l - 1) 1 0
    (x + dx / (nSeq l : K)) y0
    (E.linearSolve (systemArray J (dx / (nSeq l : K))) (E.derivatives (x + dx / (nSeq l : K)) y0)) 0
    (by intro i; simp) (by
      refine linearSolve_small hE hS.rows hh s' (hS.bound _ _ ?_ ?_)
      · rw [add_sub_cancel_left]; exact le_trans hle h4
      · intro i; simp [hS.pos.le])
    (by rw [add_sub_cancel_left]; simp) (by rw [hsum, e1]; exact h3) (by rw [hsum, e2]; exact h4)
  rw [hsum, e1] at key
  exact key

/-! ### Extrapolation of nearby values -/

theorem nSeq_ratio (a b : Nat) (h : a < b) : 4 * nSeq a ≤ 3 * nSeq b := by
  have step : ∀ i, 4 * nSeq i ≤ 3 * nSeq (i + 1) := by
    intro i
    rcases Nat.even_or_odd' i with ⟨j, rfl | rfl⟩
    · rw [nSeq_even, nSeq_odd, pow_succ]
      have : 0 < 2 ^ j := by positivity
      omega
    · rw [show 2 * j + 1 + 1 = 2 * (j + 1) by ring, nSeq_even, nSeq_odd, pow_succ, pow_succ]
      have : 0 < 2 ^ j := by positivity
      omega
  have := nSeq_strictMono.monotone (Nat.succ_le_of_lt h)
  have := step a
  simp only [Nat.succ_eq_add_one] at *
  omega

theorem extrapolant_near {dx : K} (hdx : dx ≠ 0) (r : Nat → K) (c R : K) (hR : 0 ≤ R)
    (hr : ∀ l, |r l - c| ≤ R) : ∀ (m a : Nat),
    |extrapolant (fun l => dx / (nSeq l : K)) r a (a + m) - c| ≤ 7 ^ m * R
  | 0, a => by rw [Nat.add_zero, extrapolant_self, pow_zero, one_mul]; exact hr a
  | m + 1, a => by
    have h1 := extrapolant_near hdx r c R hR hr m (a + 1)
    have h2 := extrapolant_near hdx r c R hR hr m a
    rw [show a + 1 + m = a + (m + 1) by omega] at h1
    rw [neville hdx r (show a < a + (m + 1) by omega), show a + (m + 1) - 1 = a + m by omega]
    have ha := nSeq_cast_pos (K := K) a
    have hrat : (4 : K) * (nSeq a : K) ≤ 3 * (nSeq (a + (m + 1)) : K) := by
      exact_mod_cast nSeq_ratio a (a + (m + 1)) (by omega)
    have hq : (1 / 3 : K) ≤ (nSeq (a + (m + 1)) : K) / (nSeq a : K) - 1 := by
      rw [le_sub_iff_add_le, le_div_iff₀ ha]
      linarith
    have hc0 : (0 : K) ≤ 1 / ((nSeq (a + (m + 1)) : K) / (nSeq a : K) - 1) :=
      div_nonneg zero_le_one (by linarith)
    have hc : 1 / ((nSeq (a + (m + 1)) : K) / (nSeq a : K) - 1) ≤ 3 := by
      rw [div_le_iff₀ (by linarith)]; linarith
    generalize 1 / ((nSeq (a + (m + 1)) : K) / (nSeq a : K) - 1) = w at *
    generalize extrapolant (fun l => dx / (nSeq l : K)) r (a + 1) (a + (m + 1)) = u at *
    generalize extrapolant (fun l => dx / (nSeq l : K)) r a (a + m) = v at *
    have hM : (0 : K) ≤ 7 ^ m * R := by positivity
    have hpow : (7 : K) ^ (m + 1) * R = 7 * (7 ^ m * R) := by rw [pow_succ]; ring
    rw [hpow]
    generalize 7 ^ m * R = M at *
    have huv : |u - v| ≤ 2 * M := by
      calc |u - v| = |(u - c) - (v - c)| := by ring_nf
        _ ≤ |u - c| + |v - c| := abs_sub _ _
        _ ≤ 2 * M := by linarith
    calc |u + w * (u - v) - c| = |(u - c) + w * (u - v)| := by ring_nf
      _ ≤ |u - c| + |w * (u - v)| := abs_add_le _ _
      _ = |u - c| + w * |u - v| := by rw [abs_mul, abs_of_nonneg hc0]
      _ ≤ M + 3 * (2 * M) := by
        have : w * |u - v| ≤ 3 * (2 * M) := mul_le_mul hc huv (abs_nonneg _) (by norm_num)
        linarith
      _ = 7 * M := by ring

/-! ### A small step is accepted -/

theorem errorEstimate_small (hq : SqrtLaws K) {scale y row : Vec K (n + 1)} {σ M : K} (hσ : 0 < σ)
    (hsc : ∀ i, σ ≤ scale i) (hM : 0 ≤ M) (h : ∀ i, |y i - row i| ≤ M) :
    errorEstimate scale y row ≤ M / σ := by
  have hN : (0 : K) < ((n + 1 : Nat) : K) := by exact_mod_cast Nat.succ_pos n
  have hone : ∀ i, sqr ((y i - row i) / scale i) ≤ M / σ * (M / σ) := by
    intro i
    have : |(y i - row i) / scale i| ≤ M / σ := by
      rw [abs_div, abs_of_pos (lt_of_lt_of_le hσ (hsc i))]
      exact div_le_div₀ hM (h i) hσ (hsc i)
    unfold sqr
    rw [← abs_mul_abs_self]
    exact mul_le_mul this this (abs_nonneg _) (div_nonneg hM hσ.le)
  have hfold : ∀ (l : List (Fin (n + 1))) (acc : K), 0 ≤ acc →
      0 ≤ l.foldl (fun s i => s + sqr ((y i - row i) / scale i)) acc ∧
      l.foldl (fun s i => s + sqr ((y i - row i) / scale i)) acc
        ≤ acc + (l.length : K) * (M / σ * (M / σ)) := by
    intro l
    induction l with
    | nil => intro acc ha; simp [ha]
    | cons i is ih =>
      intro acc ha
      have h0 : 0 ≤ sqr ((y i - row i) / scale i) := mul_self_nonneg _
      obtain ⟨g1, g2⟩ := ih (acc + sqr ((y i - row i) / scale i)) (by linarith)
      refine ⟨g1, le_trans g2 ?_⟩
      have := hone i
      simp only [List.length_cons]
      push_cast
      linarith
  obtain ⟨g1, g2⟩ := hfold (List.finRange (n + 1)) 0 le_rfl
  rw [List.length_finRange, zero_add] at g2
  refine sqrt_le_of_le hq (div_nonneg g1 hN.le) (div_nonneg hM hσ.le) ?_
  rw [div_le_iff₀ hN]
  linarith

/-- An attempt with a small enough step is not rejected. -/
theorem columnLoop_small (hq : SqrtLaws K) {E : SeulexEnv K n}
    (hE : LapackContract (n + 1) E.linearSolve) {first last prevReject : Bool}
    {J : Mat K (n + 1)} {x : K} {y0 scale : Vec K (n + 1)} {ρ B L σ dx : K}
    (hS : SmallStep E J x y0 scale ρ B L σ) (hdx : dx ≠ 0) (hs : |dx| * L ≤ 1 / 2)
    (h1 : 6 * |dx| * B ≤ 1) (h2 : 6 * |dx| * B * ((n + 1 : Nat) : K) ≤ σ)
    (h3 : 2 * |dx| * B ≤ ρ) (h4 : |dx| ≤ ρ) (h5 : 8 * 7 ^ 12 * |dx| * B ≤ σ)
    {st : Inner K n} {a : Attempt K n} (hT1 : 1 ≤ st.kTarg) (hT : st.kTarg ≤ 11)
    (h : columnLoop E first last prevReject J x dx y0 scale (st.kTarg + 2) 0
      { st with errOld := 0 } = .ok a) : a.reject = none := by
  have hsub := subSteps_small hq hE hS hdx hs h1 h2 h3 h4
  have hB := hS.Bpos
  have hσ := hS.σpos
  have hR : 0 ≤ 2 * |dx| * B := by have := abs_nonneg dx; positivity
  -- the extrapolated values are close to each other
  have hclose : ∀ (k : Nat) (tb : Nat → Vec K (n + 1)) (y : Vec K (n + 1)), 1 ≤ k → k ≤ 12 →
      Tableau (fun l => (subSteps E J x y0 dx scale l).y) dx (k + 1) tb y →
      errorEstimate scale y (tb 0) ≤ 1 / 2 := by
    intro k tb y hk1 hk2 htab
    have hmono : ∀ m, m ≤ 12 → (7 : K) ^ m * (2 * |dx| * B) ≤ 7 ^ 12 * (2 * |dx| * B) := by
      intro m hm
      exact mul_le_mul_of_nonneg_right (pow_le_pow_right₀ (by norm_num) hm) hR
    have hM : ∀ i, |y i - tb 0 i| ≤ 2 * (7 ^ 12 * (2 * |dx| * B)) := by
      intro i
      have e1 := htab.y (by omega) i
      have e2 := htab.table 0 (by omega) i
      rw [Nat.add_sub_cancel] at e1 e2
      have b1 := extrapolant_near hdx (fun l => (subSteps E J x y0 dx scale l).y i) (y0 i) _ hR
        (fun l => (hsub l).2 i) k 0
      have b2 := extrapolant_near hdx (fun l => (subSteps E J x y0 dx scale l).y i) (y0 i) _ hR
        (fun l => (hsub l).2 i) (k - 1) 1
      rw [Nat.zero_add, ← e1] at b1
      rw [show 1 + (k - 1) = 0 + 1 + (k - 1) by omega, show 0 + 1 + (k - 1) = k by omega, ← e2] at b2
      have m1 := hmono k hk2
      have m2 := hmono (k - 1) (by omega)
      calc |y i - tb 0 i| = |(y i - y0 i) - (tb 0 i - y0 i)| := by ring_nf
        _ ≤ |y i - y0 i| + |tb 0 i - y0 i| := abs_sub _ _
        _ ≤ _ := by linarith
    refine le_trans (errorEstimate_small hq hσ hS.scale (by positivity) hM) ?_
    rw [div_le_iff₀ hσ]
    linarith
  have htabnext : ∀ (k : Nat) (st st' : Inner K n) (tb' : Nat → Vec K (n + 1)), 1 ≤ k →
      Tableau (fun l => (subSteps E J x y0 dx scale l).y) dx k st.table st.y →
      extrapolate k (fun i => if i = k - 1 then (subSteps E J x y0 dx scale k).y
        else st.table i) st.y = .ok (tb', st'.y) → k < iMaxx ∧
      Tableau (fun l => (subSteps E J x y0 dx scale l).y) dx (k + 1) tb' st'.y := by
    intro k st st' tb' hk hp he
    have hk' : k < iMaxx := by
      by_contra hcon
      have hno : ∀ k : Nat, ¬ k < iMaxx → (coeff k 0 : Except Fault K) = .error .ub := by
        intro k hk; simp [coeff, hk]
      unfold extrapolate at he
      cases hr : extrapolateRows k (k - 1) (fun i => if i = k - 1
        then (subSteps E J x y0 dx scale k).y else st.table i) with
      | error e => rw [hr] at he; simp [bind, Except.bind] at he
      | ok u => rw [hr] at he; simp [bind, Except.bind, hno k hcon] at he
    exact ⟨hk', extrapolate_neville hdx hk hk' hp he⟩
  obtain ⟨stk, ⟨ptab, perr⟩, pk, prej, -⟩ := columnLoop_inv
    (fun k st => Tableau (fun l => (subSteps E J x y0 dx scale l).y) dx k st.table st.y ∧
      (1 < k → 1 ≤ st.errOld))
    (by
      intro k st st' hT1 hp hc
      cases hc with
      | first h hk hy hd =>
        subst hk
        refine ⟨⟨fun _ i => ?_, fun j hj => by omega⟩, by omega⟩
        rw [hy, Nat.zero_add, Nat.sub_self, extrapolant_self]
      | decided _ tb' h hk he ht herr hd hacc hrej hfl hEr =>
        refine ⟨?_, fun _ => ?_⟩
        · rw [ht]; exact (htabnext k st st' tb' hk hp.1 he).2
        · rw [hEr]
          unfold foamMax
          push_cast
          split <;> linarith)
    _ 0 { st with errOld := 0 } a
    ⟨⟨fun h => by omega, fun j hj => by omega⟩, by omega⟩ hT1 hT (by omega)
    (by show st.kTarg + 2 ≤ _; omega) h
  cases hr : a.reject with
  | none => rfl
  | some d =>
    exfalso
    have hc := prej d hr
    generalize ho : Outcome.reject d = o at hc
    have hdiv : (1.0 : K) / Consts.SMALL = 10 ^ 15 := by
      show (1.0 : K) / (1 / 10 ^ 15) = 10 ^ 15
      norm_num
    cases hc with
    | failed h => rw [(hsub a.k).1] at h; cases h
    | first h => cases ho
    | diverged tb' h hk he ht herr =>
      have := hclose a.k tb' a.st.y hk pk (htabnext _ _ _ _ hk ptab he).2
      rcases herr with herr | ⟨hk1, herr⟩
      · rw [hdiv] at herr
        have : (1 : K) ≤ 10 ^ 15 := by norm_num
        linarith
      · have := perr hk1
        linarith
    | decided _ tb' h hk he ht herr hopt hacc hrej hfl hEr hTn hTr =>
      have := hclose a.k tb' a.st.y hk pk (htabnext _ _ _ _ hk ptab he).2
      obtain ⟨-, c, c1, hc⟩ := hTr d ho.symm
      have hc1 : (1 : K) ≤ (c : K) := by exact_mod_cast c1
      have e1 : (1.0 : K) = 1 := by norm_num
      have e2 : (2.0 : K) = 2 := by norm_num
      have e4 : (4.0 : K) = 4 := by norm_num
      rw [e1, e2, e4] at hc
      rcases hc with hc | hc | hc <;> linarith

/-! ### A rejected attempt lowers the order or the step -/

theorem stepFactor_le (hm : PowLaws K) {err : K} (h : ¬ err ≤ (1.0 : K)) (k : Nat) :
    stepFactor err k ≤ 93 / 100 := by
  have h1 : (1.0 : K) = 1 := by norm_num
  rw [h1, not_le] at h
  have he : (0 : K) < (1.0 : K) / ((k + 1 : Nat) : K) :=
    div_pos (by norm_num) (by exact_mod_cast Nat.succ_pos k)
  have hf := hm.pow_le_one (0.1 : K) _ (by norm_num) (by norm_num) he
  have hp := hm.one_le_pow (err / (0.8 : K)) _ (by rw [le_div_iff₀ (by norm_num)]; linarith) he
  unfold stepFactor
  dsimp only
  have hne : ¬ (err == (0.0 : K)) = true := by
    have h0 : (0.0 : K) = 0 := by norm_num
    rw [h0, beq_iff_eq]
    intro h'; rw [h'] at h; linarith
  rw [if_neg hne]
  have a1 : MathOps.pow (0.1 : K) ((1.0 : K) / ((k + 1 : Nat) : K)) / (4.0 : K) ≤ 93 / 100 := by
    have : (4.0 : K) = 4 := by norm_num
    rw [this, div_le_iff₀ (by norm_num)]
    linarith
  have a2 : (0.93 : K) / MathOps.pow (err / (0.8 : K)) ((1.0 : K) / ((k + 1 : Nat) : K))
      ≤ 93 / 100 := by
    have : (0.93 : K) = 93 / 100 := by norm_num
    rw [this, div_le_iff₀ (by linarith)]
    linarith
  have hmin : ∀ a b : K, b ≤ 93 / 100 → foamMin a b ≤ 93 / 100 := by
    intro a b hb; unfold foamMin; split
    · rename_i hlt; exact le_trans hlt.le hb
    · exact hb
  have a3 := hmin ((1.0 : K) / MathOps.pow (0.1 : K) ((1.0 : K) / ((k + 1 : Nat) : K))) _ a2
  unfold foamMax
  split
  · exact a1
  · exact a3

theorem columnLoop_progress (hm : PowLaws K) {E : SeulexEnv K n} {first last prevReject : Bool}
    {dfdy : Mat K (n + 1)} {x dx : K} {y0 scale : Vec K (n + 1)} {st : Inner K n} {a : Attempt K n}
    (hdx : dx ≠ 0) (hT1 : 1 ≤ st.kTarg) (hT : st.kTarg ≤ 11)
    (h : columnLoop E first last prevReject dfdy x dx y0 scale (st.kTarg + 2) 0
      { st with errOld := 0 } = .ok a) (d : K) (hd : a.reject = some d) :
    a.st.kTarg < st.kTarg ∨ (a.st.kTarg = st.kTarg ∧ d ≤ 93 / 100 * |dx|) := by
  have habs := abs_pos.2 hdx
  have step : ∀ {err : K} {k : Nat}, ¬ err ≤ (1.0 : K) →
      absS (dx * stepFactor err k) ≤ 93 / 100 * |dx| := by
    intro err k he
    rw [absS_eq, abs_mul, abs_of_pos (stepFactor_pos hm err k)]
    have := stepFactor_le hm he k
    nlinarith
  obtain ⟨stk, ⟨p1, p2⟩, -, p3, -⟩ := columnLoop_inv
    (fun k s => s.kTarg = st.kTarg ∧ (st.kTarg < k → s.dxOpt st.kTarg ≤ 93 / 100 * |dx|))
    (by
      rintro k s s' _ ⟨hp1, hp2⟩ hc
      cases hc with
      | first h hk hy hd hT => exact ⟨hT.trans hp1, by omega⟩
      | decided _ tb' h hk he ht herr hd hacc hrej hl hE hTn =>
        obtain ⟨t1, t2⟩ := hTn rfl
        refine ⟨t1.trans hp1, fun hlt => ?_⟩
        rw [hd]
        dsimp only
        split
        · rename_i heq
          exact step (t2 (by omega))
        · exact hp2 (by omega)) _ 0
    { st with errOld := 0 } a ⟨rfl, by omega⟩ hT1 hT (by omega)
    (by show st.kTarg + 2 ≤ _; omega) h
  have half : absS dx * (0.5 : K) ≤ 93 / 100 * |dx| := by
    rw [absS_eq]
    have : (0.5 : K) = 1 / 2 := by norm_num
    rw [this]
    linarith
  have hc := p3 d hd
  generalize ho : Outcome.reject d = o at hc
  cases hc with
  | failed h hy ht hd hT => cases ho; exact Or.inr ⟨hT.trans p1, half⟩
  | first h => cases ho
  | diverged tb' h hk he ht herr hd hT => cases ho; exact Or.inr ⟨hT.trans p1, half⟩
  | decided _ tb' h hk he ht herr hopt hacc hrej hl hE hTn hTr =>
    obtain ⟨hTr, -⟩ := hTr d ho.symm
    rcases hTr with hlt | ⟨heq, hdd, hle, hgt⟩
    · exact Or.inl (by omega)
    · refine Or.inr ⟨heq.trans p1, ?_⟩
      rw [hdd, hopt]
      dsimp only
      split
      · rename_i hk'
        exact step (hgt hk'.symm)
      · rw [p1]
        exact p2 (by omega)

/-! ### The attempts end -/

theorem seulLoop_env (E : SeulexEnv K n) (f : Nat) (a : Nat → K) (x0 dx : K) (k : Nat)
    (scale : Vec K (n + 1)) : ∀ (left nn : Nat) (xnew : K) (yTemp dy : Vec K (n + 1)) (θ : K),
    seulLoop { E with fuel := f } a x0 dx k scale left nn xnew yTemp dy θ
      = seulLoop E a x0 dx k scale left nn xnew yTemp dy θ
  | 0, _, _, _, _, _ => rfl
  | left + 1, nn, xnew, yTemp, dy, θ => by
    simp only [seulLoop, seulLoop_env E f a x0 dx k scale left]
    rfl

theorem column_env (E : SeulexEnv K n) (f : Nat) :
    column (S := K) { E with fuel := f } = column E := by
  funext first last pr dfdy x dx y0 scale k st
  unfold column seul
  simp only [seulLoop_env]

theorem columnLoop_env (E : SeulexEnv K n) (f : Nat) (first last prevReject : Bool)
    (dfdy : Mat K (n + 1)) (x dx : K) (y0 scale : Vec K (n + 1)) : ∀ (left k : Nat) (st : Inner K n),
    columnLoop { E with fuel := f } first last prevReject dfdy x dx y0 scale left k st
      = columnLoop E first last prevReject dfdy x dx y0 scale left k st
  | 0, k, st => by unfold columnLoop; rfl
  | left + 1, k, st => by
    unfold columnLoop
    rw [column_env E f]
    simp only [columnLoop_env E f first last prevReject dfdy x dx y0 scale left]

/-- The bound on the number of attempts is only used at the start of a step. -/
theorem attempts_env (E : SeulexEnv K n) (f : Nat) (forward first last : Bool) (x : K)
    (y0 scale : Vec K (n + 1)) : ∀ (fuel : Nat) (prevReject jacUpdated : Bool)
      (dfdy : Mat K (n + 1)) (dxNew : K) (st : Inner K n),
    attempts { E with fuel := f } forward first last x y0 scale fuel prevReject jacUpdated dfdy dxNew
      st = attempts E forward first last x y0 scale fuel prevReject jacUpdated dfdy dxNew st
  | 0, _, _, _, _, _ => rfl
  | fuel + 1, pr, ju, dfdy, d, st => by
    unfold attempts
    simp only [columnLoop_env, attempts_env E f forward first last x y0 scale fuel]

theorem attempts_fuel_mono {E : SeulexEnv K n} {forward first last : Bool} {x : K}
    {y0 scale : Vec K (n + 1)} : ∀ (fuel fuel' : Nat) (prevReject jacUpdated : Bool)
      (dfdy : Mat K (n + 1)) (dxNew : K) (st : Inner K n) (r : StepResult K n), fuel ≤ fuel' →
      attempts E forward first last x y0 scale fuel prevReject jacUpdated dfdy dxNew st = .ok r →
      attempts E forward first last x y0 scale fuel' prevReject jacUpdated dfdy dxNew st = .ok r := by
  intro fuel
  induction fuel with
  | zero => intro _ _ _ _ _ _ _ _ h; cases h
  | succ fuel ih =>
    intro fuel' prevReject jacUpdated dfdy dxNew st r hle h
    obtain ⟨f, rfl⟩ : ∃ f, fuel' = f + 1 := ⟨fuel' - 1, by omega⟩
    unfold attempts at h ⊢
    simp only [bind, Except.bind] at h ⊢
    split at h
    · cases h
    rename_i a ha
    split at h
    · rename_i hr
      simpa [hr] using h
    · rename_i d hr
      exact ih f _ _ _ _ _ _ (by omega) h

theorem attempts_end [Archimedean K] (hm : PowLaws K) (hq : SqrtLaws K) {E : SeulexEnv K n}
    (hE : LapackContract (n + 1) E.linearSolve) {forward first last : Bool} {x : K}
    {y0 scale : Vec K (n + 1)} {ρ B σ : K}
    (hS : ∀ J L, 0 < L → (∀ i, ∑ j, |J i j| ≤ L) → SmallStep E J x y0 scale ρ B L σ) (J : Mat K (n + 1))
    (upd : Bool)
    (hupd : upd = true ∨ ∀ (J : Mat K (n + 1)) (st : Inner K n) (d : K) (pr : Bool), 1 ≤ st.kTarg →
      st.kTarg ≤ 11 → 0 < d → 0 < st.dxOpt 0 →
      ∃ fuel r, attempts E forward first last x y0 scale fuel pr true J d st = .ok r)
    (st : Inner K n) (d : K) (pr : Bool) (hT1 : 1 ≤ st.kTarg) (hT : st.kTarg ≤ 11) (hd : 0 < d)
    (hp : 0 < st.dxOpt 0) :
    ∃ fuel r, attempts E forward first last x y0 scale fuel pr upd J d st = .ok r := by
  obtain ⟨L, hL0, hL⟩ : ∃ L : K, 0 < L ∧ ∀ i, ∑ j, |J i j| ≤ L := by
    refine ⟨1 + ∑ i, ∑ j, |J i j|, ?_, fun i => ?_⟩
    · have : 0 ≤ ∑ i, ∑ j, |J i j| := Finset.sum_nonneg fun i _ => Finset.sum_nonneg fun j _ => abs_nonneg _
      linarith
    · have := Finset.single_le_sum (f := fun i => ∑ j, |J i j|)
        (fun i _ => Finset.sum_nonneg fun j _ => abs_nonneg _) (Finset.mem_univ i)
      linarith
  have hSJ := hS J L hL0 hL
  have hB := hSJ.Bpos
  have hσ := hSJ.σpos
  have hρ := hSJ.pos
  have hN : (0 : K) < ((n + 1 : Nat) : K) := by exact_mod_cast Nat.succ_pos n
  have ne : ∀ d : K, 0 < d → (if forward then d else -d) ≠ 0 := by
    intro d hd; split
    · exact hd.ne'
    · exact neg_ne_zero.2 hd.ne'
  have ab : ∀ d : K, 0 < d → |(if forward then d else -d)| = d := by
    intro d hd; split
    · exact abs_of_pos hd
    · rw [abs_neg, abs_of_pos hd]
  -- a step size that is small enough
  obtain ⟨δ, hδ0, hδ⟩ : ∃ δ : K, 0 < δ ∧ ∀ d, 0 < d → d ≤ δ → d * L ≤ 1 / 2 ∧ 6 * d * B ≤ 1 ∧
      6 * d * B * ((n + 1 : Nat) : K) ≤ σ ∧ 2 * d * B ≤ ρ ∧ d ≤ ρ ∧ 8 * 7 ^ 12 * d * B ≤ σ := by
    have g : ∀ c t : K, 0 < c → 0 < t → ∃ δ : K, 0 < δ ∧ ∀ d, d ≤ δ → c * d ≤ t := by
      intro c t hc ht
      refine ⟨t / c, div_pos ht hc, fun d hd => ?_⟩
      rw [le_div_iff₀ hc] at hd
      linarith
    obtain ⟨δ1, p1, q1⟩ := g L (1 / 2) hL0 (by norm_num)
    obtain ⟨δ2, p2, q2⟩ := g (6 * B) 1 (by positivity) (by norm_num)
    obtain ⟨δ3, p3, q3⟩ := g (6 * B * ((n + 1 : Nat) : K)) σ (by positivity) hσ
    obtain ⟨δ4, p4, q4⟩ := g (2 * B) ρ (by positivity) hρ
    obtain ⟨δ6, p6, q6⟩ := g (8 * 7 ^ 12 * B) σ (by positivity) hσ
    refine ⟨min δ1 (min δ2 (min δ3 (min δ4 (min ρ δ6)))), by simp [p1, p2, p3, p4, hρ, p6],
      fun d _ hd => ?_⟩
    simp only [le_min_iff] at hd
    obtain ⟨d1, d2, d3, d4, d5, d6⟩ := hd
    have := q1 d d1; have := q2 d d2; have := q3 d d3; have := q4 d d4; have := q6 d d6
    refine ⟨?_, ?_, ?_, ?_, d5, ?_⟩ <;> linarith
  -- induction on the order, then on the number of reductions until the step is small
  suffices main : ∀ (T : Nat) (m : Nat) (st : Inner K n) (d : K) (pr : Bool), st.kTarg = T →
      1 ≤ st.kTarg → st.kTarg ≤ 11 → 0 < d → 0 < st.dxOpt 0 → d * (93 / 100) ^ m ≤ δ →
      ∃ fuel r, attempts E forward first last x y0 scale fuel pr upd J d st = .ok r by
    obtain ⟨m, hm'⟩ := exists_pow_lt_of_lt_one (show (0 : K) < δ / d from div_pos hδ0 hd)
      (show (93 / 100 : K) < 1 by norm_num)
    rw [lt_div_iff₀ hd] at hm'
    exact main _ m st d pr rfl hT1 hT hd hp (by linarith)
  intro T
  induction T using Nat.strong_induction_on with
  | _ T ihT =>
    intro m
    induction m with
    | zero =>
      intro st d pr hTeq hT1 hT hd hp hsmall
      rw [pow_zero, mul_one] at hsmall
      obtain ⟨s1, s2, s3, s4, s5, s6⟩ := hδ d hd hsmall
      obtain ⟨a, -, e1, -⟩ :=
        columnLoop_agree E first last pr J x (if forward then d else -d) y0 scale
          (st.kTarg + 2) 0 { st with errOld := 0 } { st with errOld := 0 } (Agree.refl _ _) hT1 hT
          (by omega) (by show st.kTarg + 2 ≤ _; omega)
      have hacc := columnLoop_small hq hE hSJ (ne d hd) (by rw [ab d hd]; exact s1)
        (by rw [ab d hd]; exact s2) (by rw [ab d hd]; exact s3) (by rw [ab d hd]; exact s4)
        (by rw [ab d hd]; exact s5) (by rw [ab d hd]; exact s6) hT1 hT e1
      refine ⟨1, ⟨a.k, a.st, J, if forward then d else -d, pr⟩, ?_⟩
      unfold attempts
      simp only [bind, Except.bind, e1, hacc]
    | succ m ihm =>
      intro st d pr hTeq hT1 hT hd hp hsmall
      obtain ⟨a, -, e1, -, -, -, -, b1, b2, -⟩ :=
        columnLoop_agree E first last pr J x (if forward then d else -d) y0 scale
          (st.kTarg + 2) 0 { st with errOld := 0 } { st with errOld := 0 } (Agree.refl _ _) hT1 hT
          (by omega) (by show st.kTarg + 2 ≤ _; omega)
      cases hr : a.reject with
      | none =>
        refine ⟨1, ⟨a.k, a.st, J, if forward then d else -d, pr⟩, ?_⟩
        unfold attempts
        simp only [bind, Except.bind, e1, hr]
      | some d' =>
        obtain ⟨hpos, hd'⟩ := (columnLoop_pos hm hd hp hT1 hT e1).1 d' hr
        have hp' : 0 < a.st.dxOpt 0 := hpos 0 (by omega)
        have hprog := columnLoop_progress hm (ne d hd) hT1 hT e1 d' hr
        rw [ab d hd] at hprog
        -- the rest of the attempts
        have rest : ∃ fuel r, attempts E forward first last x y0 scale fuel true
            (upd || (!upd && decide (E.jacRedo <
              (if upd then a.st.theta else (2.0 : K) * E.jacRedo))))
            (if (!upd && decide (E.jacRedo <
              (if upd then a.st.theta else (2.0 : K) * E.jacRedo))) then E.jacobian x a.st.y else J)
            d' { a.st with theta := if upd then a.st.theta else (2.0 : K) * E.jacRedo } = .ok r := by
          by_cases hredo : (!upd && decide (E.jacRedo <
              (if upd then a.st.theta else (2.0 : K) * E.jacRedo))) = true
          · simp only [hredo, Bool.or_true, if_true]
            rcases hupd with hu | hu
            · rw [hu] at hredo; simp at hredo
            · exact hu _ _ _ _ b1 b2 hd' hp'
          · simp only [Bool.not_eq_true] at hredo
            simp only [hredo, Bool.or_false, Bool.false_eq_true, if_false]
            rcases hprog with hlt | ⟨heq, hle⟩
            · obtain ⟨m', hm'⟩ := exists_pow_lt_of_lt_one
                (show (0 : K) < δ / d' from div_pos hδ0 hd') (show (93 / 100 : K) < 1 by norm_num)
              rw [lt_div_iff₀ hd'] at hm'
              exact ihT a.st.kTarg (by omega) m' _ d' true rfl b1 b2 hd' hp' (by linarith)
            · refine ihm _ d' true (heq.trans hTeq) b1 b2 hd' hp' ?_
              have hp0 : (0 : K) ≤ (93 / 100) ^ m := by positivity
              calc d' * (93 / 100) ^ m ≤ 93 / 100 * d * (93 / 100) ^ m :=
                    mul_le_mul_of_nonneg_right hle hp0
                _ = d * (93 / 100) ^ (m + 1) := by rw [pow_succ]; ring
                _ ≤ δ := hsmall
        obtain ⟨fuel, r, hrest⟩ := rest
        refine ⟨fuel + 1, r, ?_⟩
        unfold attempts
        simp only [bind, Except.bind, e1, hr]
        exact hrest

end DLB
