import Verif.Lemmas.SeulexStep
import Verif.Spec.Seulex
import Verif.Model.Exact
import Mathlib.Algebra.Order.Field.Basic
import Mathlib.Data.Rat.Cast.OfScientific
import Mathlib.Tactic.Ring
import Mathlib.Tactic.Linarith
import Mathlib.Tactic.FieldSimp
import Mathlib.Tactic.NormNum
import Mathlib.Tactic.NormNum.OfScientific
/-
The extrapolation stepper in exact arithmetic: sub-steps are linearly implicit Euler steps, the table
is the Aitken-Neville table, steps keep their direction.
-/
set_option autoImplicit false
set_option linter.unusedSectionVars false

namespace DLB
open Spec

variable {K : Type} [Field K] [LinearOrder K] [IsStrictOrderedRing K] {n : Nat}

/-! ### The step sequence -/

theorem nSeq_even (i : Nat) : nSeq (2 * i) = 2 ^ (i + 1) := by
  induction i with
  | zero => rfl
  | succ i ih =>
    rw [show 2 * (i + 1) = 2 * i + 2 by ring, nSeq, ih, pow_succ 2 (i + 1)]
    ring

theorem nSeq_odd (i : Nat) : nSeq (2 * i + 1) = 3 * 2 ^ i := by
  induction i with
  | zero => rfl
  | succ i ih =>
    rw [show 2 * (i + 1) + 1 = 2 * i + 1 + 2 by ring, nSeq, ih, pow_succ]
    ring

theorem nSeq_lt_succ (i : Nat) : nSeq i < nSeq (i + 1) := by
  rcases Nat.even_or_odd' i with ⟨j, rfl | rfl⟩
  · rw [nSeq_even, nSeq_odd, pow_succ]
    have : 0 < 2 ^ j := by positivity
    omega
  · rw [show 2 * j + 1 + 1 = 2 * (j + 1) by ring, nSeq_even, nSeq_odd, pow_succ, pow_succ]
    have : 0 < 2 ^ j := by positivity
    omega

theorem nSeq_strictMono : StrictMono nSeq := strictMono_nat_of_lt_succ nSeq_lt_succ

theorem nSeq_ge_two (i : Nat) : 2 ≤ nSeq i := by
  have := nSeq_strictMono.monotone (Nat.zero_le i)
  have h : nSeq 0 = 2 := rfl
  omega

theorem nSeq_pos (i : Nat) : 0 < nSeq i := by have := nSeq_ge_two i; omega

theorem nSeq_cast_pos (i : Nat) : (0 : K) < (nSeq i : K) := by exact_mod_cast nSeq_pos i

/-! ### The matrix -/

theorem columnMajor_systemArray (J : Mat K (n + 1)) (h : K) (i j : Fin (n + 1)) :
    columnMajor (n + 1) (systemArray J h) i j = (if i = j then 1 / h else 0) - J i j := by
  have hi := i.isLt
  have hj := j.isLt
  have hpos : i.val + j.val * (n + 1) < (n + 1) * (n + 1) := by
    have : j.val * (n + 1) ≤ n * (n + 1) := Nat.mul_le_mul_right _ (by omega)
    calc i.val + j.val * (n + 1) < (n + 1) + n * (n + 1) := by omega
      _ = (n + 1) * (n + 1) := by ring
  have hdiv : (i.val + j.val * (n + 1)) / (n + 1) = j.val := by
    rw [Nat.add_mul_div_right _ _ (Nat.succ_pos n), Nat.div_eq_of_lt hi, Nat.zero_add]
  have hmod : (i.val + j.val * (n + 1)) % (n + 1) = i.val := by
    rw [Nat.add_mul_mod_self_right, Nat.mod_eq_of_lt hi]
  simp only [columnMajor, systemArray, hpos, dif_pos, hdiv, hmod, Fin.eta]
  split
  · push_cast; ring
  · ring

theorem columnMajor_mulVec (J : Mat K (n + 1)) (h : K) (d : Vec K (n + 1)) (i : Fin (n + 1)) :
    (columnMajor (n + 1) (systemArray J h)).mulVec d i = d i / h - ∑ j, J i j * d j := by
  simp only [Matrix.mulVec, dotProduct, columnMajor_systemArray, sub_mul, Finset.sum_sub_distrib,
    ite_mul, zero_mul, Finset.sum_ite_eq, Finset.mem_univ, if_true]
  ring

theorem temperatureBad_eq (T : K) : temperatureBad T = false ↔ 200 < T ∧ T ≤ 5000 := by
  simp [temperatureBad, not_le, not_lt]

/-! ### Sub-steps -/

variable [MathOps K]

theorem seulLoop_path {E : SeulexEnv K n} {J : Mat K (n + 1)} {x0 dx : K} {k : Nat}
    {scale : Vec K (n + 1)}
    (hs : ∀ b i, (E.linearSolve (systemArray J dx) b) i / dx
      - ∑ j, J i j * (E.linearSolve (systemArray J dx) b) j = b i) :
    ∀ (left nn : Nat) (x : K) (yTemp : Vec K (n + 1)) (θ : K),
    (seulLoop E (systemArray J dx) x0 dx k scale left nn (x + dx) yTemp
      (E.linearSolve (systemArray J dx) (E.derivatives (x + dx) yTemp)) θ).ok = true →
    EulerPath J E.derivatives (fun z => 200 < z 0 ∧ z 0 ≤ 5000) dx (left + 1) x yTemp
      (seulLoop E (systemArray J dx) x0 dx k scale left nn (x + dx) yTemp
      (E.linearSolve (systemArray J dx) (E.derivatives (x + dx) yTemp)) θ).y
  | 0, nn, x, yTemp, θ, _ => .one (fun i => hs _ i)
  | left + 1, nn, x, yTemp, θ, h => by
    simp only [seulLoop] at h ⊢
    split at h
    · cases h
    rename_i hT
    rw [if_neg hT]
    revert h
    generalize (if nn = 1 ∧ k ≤ 1 then stabilityTheta E (systemArray J dx) x0 dx scale _ _
      else θ) = θ'
    intro h
    split at h
    · cases h
    rename_i hθ
    rw [if_neg hθ]
    exact .step (fun i => hs _ i) ((temperatureBad_eq _).1 (by simpa using hT))
      (seulLoop_path hs left (nn + 1) (x + dx) _ _ h)

theorem subSteps_path {E : SeulexEnv K n} {J : Mat K (n + 1)} {x dx : K} {y0 scale : Vec K (n + 1)}
    {l : Nat} (hE : LapackContract (n + 1) E.linearSolve)
    (hJ : (columnMajor (n + 1) (systemArray J (dx / (nSeq l : K)))).det ≠ 0)
    (h : (subSteps E J x y0 dx scale l).ok = true) :
    EulerPath J E.derivatives (fun z => 200 < z 0 ∧ z 0 ≤ 5000) (dx / (nSeq l : K)) (nSeq l) x y0
      (subSteps E J x y0 dx scale l).y := by
  have := seulLoop_path (E := E) (J := J) (x0 := x) (dx := dx / (nSeq l : K)) (k := l)
    (scale := scale) (by
      intro b i
      rw [← columnMajor_mulVec, hE _ _ hJ]) (nSeq l - 1) 1 x y0 0 h
  rwa [Nat.sub_add_cancel (by have := nSeq_ge_two l; omega)] at this

/-! ### Aitken-Neville -/

theorem extrapolant_self (h r : Nat → K) (a : Nat) : extrapolant h r a a = r a := by
  simp [extrapolant]

/-- Step sizes of the columns. -/
theorem stepSizes_injective {dx : K} (hdx : dx ≠ 0) :
    Function.Injective (fun l => dx / (nSeq l : K)) := by
  intro a b hab
  have ha := (nSeq_cast_pos (K := K) a).ne'
  have hb := (nSeq_cast_pos (K := K) b).ne'
  have hab' : dx / (nSeq a : K) = dx / (nSeq b : K) := hab
  rw [div_eq_div_iff ha hb] at hab'
  have := mul_left_cancel₀ hdx hab'
  exact (nSeq_strictMono.injective (by exact_mod_cast this)).symm

theorem neville {dx : K} (hdx : dx ≠ 0) (r : Nat → K) {a b : Nat} (hab : a < b) :
    extrapolant (fun l => dx / (nSeq l : K)) r a b
      = extrapolant (fun l => dx / (nSeq l : K)) r (a + 1) b
        + 1 / ((nSeq b : K) / (nSeq a : K) - 1)
          * (extrapolant (fun l => dx / (nSeq l : K)) r (a + 1) b
            - extrapolant (fun l => dx / (nSeq l : K)) r a (b - 1)) := by
  have hinj := stepSizes_injective hdx
  have e1 : (Finset.Icc a b).erase b = Finset.Icc a (b - 1) := by
    ext l; simp only [Finset.mem_erase, Finset.mem_Icc]; omega
  have e2 : (Finset.Icc a b).erase a = Finset.Icc (a + 1) b := by
    ext l; simp only [Finset.mem_erase, Finset.mem_Icc]; omega
  unfold extrapolant
  rw [Lagrange.interpolate_eq_add_interpolate_erase r (i := a) (j := b) hinj.injOn
    (by simp; omega) (by simp; omega) (by omega), e1, e2]
  simp only [Polynomial.eval_add, Polynomial.eval_mul, Lagrange.basisDivisor, Polynomial.eval_C,
    Polynomial.eval_sub, Polynomial.eval_X]
  generalize Polynomial.eval 0 ((Lagrange.interpolate (Finset.Icc a (b - 1))
    fun l => dx / (nSeq l : K)) r) = A
  generalize Polynomial.eval 0 ((Lagrange.interpolate (Finset.Icc (a + 1) b)
    fun l => dx / (nSeq l : K)) r) = B
  have ha := (nSeq_cast_pos (K := K) a)
  have hlt : (nSeq a : K) < (nSeq b : K) := by exact_mod_cast nSeq_strictMono hab
  generalize (nSeq a : K) = p at *
  generalize (nSeq b : K) = q at *
  have hq : q ≠ 0 := by linarith
  have hp : p ≠ 0 := ha.ne'
  have h1 : q - p ≠ 0 := by
    have : 0 < q - p := by linarith
    exact this.ne'
  have h2 : dx / p - dx / q ≠ 0 := by
    have : dx / p - dx / q = dx * (q - p) / (p * q) := by field_simp
    rw [this]
    exact div_ne_zero (mul_ne_zero hdx h1) (mul_ne_zero hp hq)
  have h3 : dx / q - dx / p ≠ 0 := by
    rw [← neg_sub]; exact neg_ne_zero.2 h2
  have h4 : q / p - 1 ≠ 0 := by
    have : q / p - 1 = (q - p) / p := by field_simp
    rw [this]
    exact div_ne_zero h1 hp
  have i1 : (dx / p - dx / q)⁻¹ = p * q / (dx * (q - p)) := by
    rw [inv_eq_iff_eq_inv, inv_div]; field_simp
  have i2 : (dx / q - dx / p)⁻¹ = -(p * q / (dx * (q - p))) := by
    rw [← i1, ← inv_neg, neg_sub]
  have i3 : 1 / (q / p - 1) = p / (q - p) := by
    rw [div_eq_div_iff h4 h1]; field_simp
  rw [i1, i2, i3]
  field_simp
  ring

/-- What the table and the solution contain before column `k`. -/
structure Tableau (r : Nat → Vec K (n + 1)) (dx : K) (k : Nat) (table : Nat → Vec K (n + 1))
    (y : Vec K (n + 1)) : Prop where
  y : 1 ≤ k → ∀ i, y i = extrapolant (fun l => dx / (nSeq l : K)) (fun l => r l i) 0 (k - 1)
  table : ∀ j, j + 1 < k → ∀ i,
    table j i = extrapolant (fun l => dx / (nSeq l : K)) (fun l => r l i) (j + 1) (k - 1)

theorem extrapolateRows_neville {r : Nat → Vec K (n + 1)} {dx : K} (hdx : dx ≠ 0) {k : Nat}
    (hk : k < iMaxx) : ∀ (j : Nat) (t t' : Nat → Vec K (n + 1)), j < k →
    (∀ l, j ≤ l → l < k → ∀ i,
      t l i = extrapolant (fun l => dx / (nSeq l : K)) (fun l => r l i) (l + 1) k) →
    (∀ l, l < j → ∀ i,
      t l i = extrapolant (fun l => dx / (nSeq l : K)) (fun l => r l i) (l + 1) (k - 1)) →
    extrapolateRows k j t = .ok t' →
    ∀ l, l < k → ∀ i,
      t' l i = extrapolant (fun l => dx / (nSeq l : K)) (fun l => r l i) (l + 1) k
  | 0, t, t', _, h1, _, h => by
    cases h
    exact fun l hl i => h1 l (Nat.zero_le l) hl i
  | j + 1, t, t', hj, h1, h2, h => by
    have hk' : k < 13 := hk
    have b1 : j + 1 < kMaxx := by show j + 1 < 12; omega
    have b0 : j < kMaxx := by show j < 12; omega
    simp only [extrapolateRows, coeff_ok (S := K) hk hj, readAt_ok b1, readAt_ok b0, writeAt_ok b0,
      bind, Except.bind] at h
    refine extrapolateRows_neville (r := r) hdx hk j _ t' (by omega) ?_ ?_ h
    · intro l hl hlk i
      by_cases hlj : l = j
      · subst hlj
        simp only [if_true]
        rw [h1 (l + 1) (le_refl _) hj i, h2 l (by omega) i, neville hdx _ hj]
        push_cast
        rfl
      · simp only [hlj, if_false]
        exact h1 l (by omega) hlk i
    · intro l hl i
      rw [if_neg (by omega)]
      exact h2 l (by omega) i

theorem extrapolate_neville {r : Nat → Vec K (n + 1)} {dx : K} (hdx : dx ≠ 0) {k : Nat}
    (hk1 : 1 ≤ k) (hk : k < iMaxx) {t t' : Nat → Vec K (n + 1)} {y y' : Vec K (n + 1)}
    (ht : Tableau r dx k t y)
    (h : extrapolate k (fun i => if i = k - 1 then r k else t i) y = .ok (t', y')) :
    Tableau r dx (k + 1) t' y' := by
  have h0 : 0 < kMaxx := by decide
  unfold extrapolate at h
  cases hr : extrapolateRows k (k - 1) (fun i => if i = k - 1 then r k else t i) with
  | error e => rw [hr] at h; simp [bind, Except.bind] at h
  | ok u =>
    have hu := extrapolateRows_neville (r := r) hdx hk (k - 1) _ u (by omega) (by
        intro l hl hlk i
        have : l = k - 1 := by omega
        subst this
        simp only [if_true]
        rw [Nat.sub_add_cancel hk1, extrapolant_self]) (by
        intro l hl i
        rw [if_neg (by omega)]
        exact ht.table l (by omega) i) hr
    rw [hr] at h
    simp only [coeff_ok (S := K) hk (show 0 < k by omega), readAt_ok h0, bind, Except.bind,
      Except.ok.injEq, Prod.mk.injEq] at h
    obtain ⟨rfl, rfl⟩ := h
    refine ⟨fun _ i => ?_, fun j hj i => hu j (by omega) i⟩
    rw [hu 0 (by omega) i, ht.y hk1 i, Nat.add_sub_cancel, neville hdx _ (show 0 < k by omega)]
    push_cast
    rfl

end DLB
