import Verif.Lemmas.Plan
import Verif.Model.Exact
import Mathlib.Algebra.Order.Field.Basic
import Mathlib.Algebra.BigOperators.Group.List.Basic
import Mathlib.Algebra.BigOperators.Intervals
import Mathlib.Algebra.Order.BigOperators.Group.List
import Mathlib.Algebra.Order.BigOperators.Group.Finset
import Mathlib.Tactic.Linarith
import Mathlib.Tactic.Ring
/-
The planning loop in exact arithmetic: what the transfers do to the load values.
-/
set_option autoImplicit false
set_option linter.unusedSectionVars false

namespace DLB

variable {K : Type} [Field K] [LinearOrder K] [IsStrictOrderedRing K]

theorem stdMin_eq_min (a b : K) : stdMin a b = min a b := by
  unfold stdMin
  split
  · next h => rw [min_eq_right h.le]
  · next h => rw [min_eq_left (not_lt.1 h)]

theorem absS_eq_abs (x : K) : absS x = |x| := by
  unfold absS
  split
  · next h => rw [abs_of_neg h]
  · next h => rw [abs_of_nonneg (not_lt.1 h)]

theorem SMALL_pos : (0 : K) < Consts.SMALL := by
  simp only [Consts.SMALL]; positivity

/-- What flows out of position `i`. -/
def outflow (tr : List (Nat × Nat × K)) (i : Nat) : K :=
  ((tr.filter (fun t => t.1 == i)).map (·.2.2)).sum

/-- What flows into position `i`. -/
def inflow (tr : List (Nat × Nat × K)) (i : Nat) : K :=
  ((tr.filter (fun t => t.2.1 == i)).map (·.2.2)).sum

theorem outflow_cons (t : Nat × Nat × K) (tr : List (Nat × Nat × K)) (i : Nat) :
    outflow (t :: tr) i = (if t.1 = i then t.2.2 else 0) + outflow tr i := by
  unfold outflow
  by_cases h : t.1 = i <;> simp [h]

theorem inflow_cons (t : Nat × Nat × K) (tr : List (Nat × Nat × K)) (i : Nat) :
    inflow (t :: tr) i = (if t.2.1 = i then t.2.2 else 0) + inflow tr i := by
  unfold inflow
  by_cases h : t.2.1 = i <;> simp [h]

/-- The final values are the initial ones minus outflow plus inflow. -/
theorem Run.final {mean : K} {v v' : Nat → K} {s r : Nat} {tr : List (Nat × Nat × K)}
    (h : Run mean v s r tr v') (i : Nat) : v' i = v i - outflow tr i + inflow tr i := by
  induction h with
  | done => simp [outflow, inflow]
  | @down v v' s r tr h _ hr ih =>
    rw [ih, outflow_cons, inflow_cons]
    have hne : r ≠ s + 1 := by omega
    by_cases h1 : i = s + 1
    · subst h1; simp [xfer, hne]; ring
    · by_cases h2 : i = r
      · subst h2; simp [xfer, h1, Ne.symm h1]; ring
      · simp [xfer, h1, h2, Ne.symm h1, Ne.symm h2]
  | @up v v' s r tr h _ hr ih =>
    rw [ih, outflow_cons, inflow_cons]
    have hne : r ≠ s := by omega
    by_cases h1 : i = s
    · subst h1; simp [xfer, hne]; ring
    · by_cases h2 : i = r
      · subst h2; simp [xfer, h1, Ne.symm h1]; ring
      · simp [xfer, h1, h2, Ne.symm h1, Ne.symm h2]

theorem Run.pos_lt {mean : K} {v v' : Nat → K} {s r : Nat} {tr : List (Nat × Nat × K)}
    (h : Run mean v s r tr v') : ∀ t ∈ tr, t.2.1 < t.1 := by
  induction h with
  | done => simp
  | down h _ hr ih =>
    intro t ht
    rcases List.mem_cons.1 ht with rfl | ht
    · exact h
    · exact ih t ht
  | up h _ hr ih =>
    intro t ht
    rcases List.mem_cons.1 ht with rfl | ht
    · exact h
    · exact ih t ht

/-- The invariant of the loop in exact arithmetic.  `D` is the sum of what passed senders
kept above the mean. -/
structure LevelInv (mean : K) (v : Nat → K) (s r : Nat) (D : K) : Prop where
  le : r ≤ s
  D_nonneg : 0 ≤ D
  sum : ∑ i ∈ Finset.Icc r s, (v i - mean) = - D
  recv_le : v r ≤ mean
  mono : ∀ i j, r < i → i ≤ j → j < s → v i ≤ v j
  above : ∀ i, r < i → i ≤ s → mean < v i → mean < v s

theorem sum_xfer_down {mean : K} {v : Nat → K} {s r : Nat} (h : r < s + 1) (x : K) :
    ∑ i ∈ Finset.Icc r s, (xfer v (s + 1) r x i - mean) =
      ∑ i ∈ Finset.Icc r (s + 1), (v i - mean) - (v (s + 1) - x - mean) := by
  rw [Finset.sum_Icc_succ_top (by omega)]
  have h2 : ∀ i ∈ Finset.Icc r s, xfer v (s + 1) r x i - mean =
      (v i - mean) + (if i = r then x else 0) := by
    intro i hi
    have := Finset.mem_Icc.1 hi
    have h1 : i ≠ s + 1 := by omega
    by_cases h3 : i = r
    · subst h3; simp [xfer, h1]; ring
    · simp [xfer, h1, h3]
  rw [Finset.sum_congr rfl h2, Finset.sum_add_distrib, Finset.sum_ite_eq']
  have : r ∈ Finset.Icc r s := Finset.mem_Icc.2 ⟨le_refl r, by omega⟩
  rw [if_pos this]
  ring

theorem sum_xfer_up {mean : K} {v : Nat → K} {s r : Nat} (h : r < s) (x : K) :
    ∑ i ∈ Finset.Icc (r + 1) s, (xfer v s r x i - mean) =
      ∑ i ∈ Finset.Icc r s, (v i - mean) - (v r + x - mean) := by
  have e : Finset.Icc r s = insert r (Finset.Icc (r + 1) s) := by
    ext i; simp only [Finset.mem_Icc, Finset.mem_insert]; omega
  rw [e, Finset.sum_insert (by simp)]
  have h2 : ∀ i ∈ Finset.Icc (r + 1) s, xfer v s r x i - mean =
      (v i - mean) + (if i = s then - x else 0) := by
    intro i hi
    have := Finset.mem_Icc.1 hi
    have h1 : i ≠ r := by omega
    by_cases h3 : i = s
    · subst h3; simp [xfer]; ring
    · simp [xfer, h1, h3]
  rw [Finset.sum_congr rfl h2, Finset.sum_add_distrib, Finset.sum_ite_eq']
  have : s ∈ Finset.Icc (r + 1) s := Finset.mem_Icc.2 ⟨by omega, le_refl s⟩
  rw [if_pos this]
  ring

theorem amount_cases (mean : K) (v : Nat → K) (s r : Nat) :
    (amount mean v s r = v s - mean ∧ v s - mean ≤ mean - v r) ∨
    (amount mean v s r = mean - v r ∧ mean - v r < v s - mean) := by
  unfold amount
  rw [stdMin_eq_min]
  rcases le_or_gt (v s - mean) (mean - v r) with h | h
  · left; exact ⟨min_eq_left h, h⟩
  · right; exact ⟨min_eq_right h.le, h⟩

/-- The sender is not far below the mean. -/
theorem LevelInv.sender_ge {mean : K} {v : Nat → K} {s r : Nat} {D : K}
    (h : LevelInv mean v s r D) : mean - D ≤ v s := by
  by_contra hlt
  push Not at hlt
  have hsm : v s < mean := by have := h.D_nonneg; linarith
  have hall : ∀ i ∈ Finset.Icc r s, v i - mean ≤ 0 := by
    intro i hi
    have hi := Finset.mem_Icc.1 hi
    by_contra hc
    push Not at hc
    by_cases hr : i = r
    · subst hr; have := h.recv_le; linarith
    · have := h.above i (by omega) hi.2 (by linarith)
      linarith
  have hmem : s ∈ Finset.Icc r s := Finset.mem_Icc.2 ⟨h.le, le_refl s⟩
  have := Finset.sum_le_sum_of_subset_of_nonneg (f := fun i => - (v i - mean))
    (Finset.singleton_subset_iff.2 hmem) (fun i hi _ => by have := hall i hi; linarith)
  rw [Finset.sum_singleton, Finset.sum_neg_distrib, h.sum] at this
  linarith

theorem LevelInv.down {mean : K} {v : Nat → K} {s r : Nat} {D : K} (h : r < s + 1)
    (hc : absS (v (s + 1) - amount mean v (s + 1) r - mean) < Consts.SMALL)
    (hi : LevelInv mean v (s + 1) r D) :
    0 ≤ v (s + 1) - amount mean v (s + 1) r - mean ∧
    v (s + 1) - amount mean v (s + 1) r - mean < Consts.SMALL ∧
    LevelInv mean (xfer v (s + 1) r (amount mean v (s + 1) r)) s r
      (D + (v (s + 1) - amount mean v (s + 1) r - mean)) := by
  rw [absS_eq_abs] at hc
  have hup := (abs_lt.1 hc).2
  have h0 : 0 ≤ v (s + 1) - amount mean v (s + 1) r - mean := by
    rcases amount_cases mean v (s + 1) r with ⟨h1, h2⟩ | ⟨h1, h2⟩
    · rw [h1]; linarith
    · rw [h1]; linarith
  refine ⟨h0, hup, ?_⟩
  have hv : ∀ i, r < i → i ≤ s → xfer v (s + 1) r (amount mean v (s + 1) r) i = v i := by
    intro i h1 h2
    have a1 : i ≠ s + 1 := by omega
    have a2 : i ≠ r := by omega
    simp [xfer, a1, a2]
  refine ⟨by omega, add_nonneg hi.D_nonneg h0, ?_, ?_, ?_, ?_⟩
  · rw [sum_xfer_down h, hi.sum]; ring
  · have hne : r ≠ s + 1 := by omega
    simp only [xfer, hne, if_false, if_true]
    rcases amount_cases mean v (s + 1) r with ⟨h1, h2⟩ | ⟨h1, h2⟩
    · rw [h1]; linarith
    · rw [h1]; linarith
  · intro i j h1 h2 h3
    rw [hv i h1 (by omega), hv j (by omega) (by omega)]
    exact hi.mono i j h1 h2 (by omega)
  · intro i h1 h2 h3
    rw [hv i h1 h2] at h3
    rw [hv s (by omega) (le_refl s)]
    exact lt_of_lt_of_le h3 (hi.mono i s h1 h2 (by omega))

theorem LevelInv.up {mean : K} {v : Nat → K} {s r : Nat} {D : K} (h : r < s)
    (hc : ¬ absS (v s - amount mean v s r - mean) < Consts.SMALL)
    (hi : LevelInv mean v s r D) :
    amount mean v s r = mean - v r ∧ mean + Consts.SMALL ≤ v s - amount mean v s r ∧ r + 1 < s ∧
    LevelInv mean (xfer v s r (amount mean v s r)) s (r + 1) D := by
  rw [absS_eq_abs] at hc
  have hS := SMALL_pos (K := K)
  have hcase : amount mean v s r = mean - v r ∧ mean - v r < v s - mean := by
    rcases amount_cases mean v s r with ⟨h1, h2⟩ | h1
    · exfalso; apply hc
      rw [h1, show v s - (v s - mean) - mean = (0 : K) by ring, abs_zero]
      exact hS
    · exact h1
  obtain ⟨ha, hb⟩ := hcase
  have hpos : 0 ≤ v s - amount mean v s r - mean := by rw [ha]; linarith
  rw [abs_of_nonneg hpos] at hc
  have hge : mean + Consts.SMALL ≤ v s - amount mean v s r := by linarith [not_lt.1 hc]
  have hv : ∀ i, r < i → i < s → xfer v s r (amount mean v s r) i = v i := by
    intro i h1 h2
    have a1 : i ≠ s := by omega
    have a2 : i ≠ r := by omega
    simp [xfer, a1, a2]
  have hvs : xfer v s r (amount mean v s r) s = v s - amount mean v s r := by simp [xfer]
  have hsum : ∑ i ∈ Finset.Icc (r + 1) s, (xfer v s r (amount mean v s r) i - mean) = - D := by
    rw [sum_xfer_up h, hi.sum, ha]; ring
  have hrs : r + 1 < s := by
    rcases Nat.lt_or_ge (r + 1) s with h1 | h1
    · exact h1
    · exfalso
      have : r + 1 = s := by omega
      subst this
      rw [Finset.Icc_self, Finset.sum_singleton, hvs] at hsum
      have := hi.D_nonneg
      linarith
  refine ⟨ha, hge, hrs, by omega, hi.D_nonneg, hsum, ?_, ?_, ?_⟩
  · by_contra hlt
    push Not at hlt
    rw [hv (r + 1) (by omega) hrs] at hlt
    have hall : ∀ i ∈ Finset.Icc (r + 1) s, 0 < xfer v s r (amount mean v s r) i - mean := by
      intro i hi'
      have hi' := Finset.mem_Icc.1 hi'
      by_cases h1 : i = s
      · subst h1; rw [hvs]; linarith
      · rw [hv i (by omega) (by omega)]
        have := hi.mono (r + 1) i (by omega) hi'.1 (by omega)
        linarith
    have := Finset.sum_pos hall ⟨s, Finset.mem_Icc.2 ⟨by omega, le_refl s⟩⟩
    rw [hsum] at this
    have := hi.D_nonneg
    linarith
  · intro i j h1 h2 h3
    rw [hv i (by omega) (by omega), hv j (by omega) h3]
    exact hi.mono i j (by omega) h2 h3
  · intro i h1 h2 h3
    rw [hvs]; linarith

/-- Final values: within tolerance above the mean, and below it by at most the sum of what
the senders kept. -/
theorem Run.level {mean : K} {v v' : Nat → K} {s r : Nat} {tr : List (Nat × Nat × K)}
    (h : Run mean v s r tr v') : ∀ {D : K}, LevelInv mean v s r D → ∀ i, r ≤ i → i ≤ s →
    mean - (D + ((s - r : Nat) : K) * Consts.SMALL) ≤ v' i ∧ v' i < mean + Consts.SMALL := by
  have hS := SMALL_pos (K := K)
  induction h with
  | done v m =>
    intro D hi i h1 h2
    obtain rfl : i = m := by omega
    have := hi.sum
    rw [Finset.Icc_self, Finset.sum_singleton] at this
    have := hi.D_nonneg
    simp only [Nat.sub_self, Nat.cast_zero, zero_mul, add_zero]
    constructor <;> linarith
  | @down v v' s r tr h hc hr ih =>
    intro D hi i h1 h2
    obtain ⟨h0, hup, hi'⟩ := hi.down h hc
    have e : ((s + 1 - r : Nat) : K) = ((s - r : Nat) : K) + 1 := by
      rw [Nat.sub_add_comm (by omega)]; push_cast; ring
    by_cases his : i = s + 1
    · subst his
      have hb := hr.bounds
      have hp := hr.pos_lt
      have ho : outflow tr (s + 1) = 0 := by
        unfold outflow
        rw [List.filter_eq_nil_iff.2 (fun t ht => by have := hb t ht; simp; omega)]; rfl
      have hin : inflow tr (s + 1) = 0 := by
        unfold inflow
        rw [List.filter_eq_nil_iff.2
          (fun t ht => by have := hb t ht; have := hp t ht; simp; omega)]; rfl
      rw [hr.final, ho, hin]
      have hx : xfer v (s + 1) r (amount mean v (s + 1) r) (s + 1) =
        v (s + 1) - amount mean v (s + 1) r := by simp [xfer]
      rw [hx]
      have hD := hi.D_nonneg
      have hn : (0 : K) ≤ ((s + 1 - r : Nat) : K) * Consts.SMALL :=
        mul_nonneg (Nat.cast_nonneg _) hS.le
      constructor <;> linarith
    · obtain ⟨g1, g2⟩ := ih hi' i h1 (by omega)
      refine ⟨?_, g2⟩
      rw [e, add_mul, one_mul]
      linarith
  | @up v v' s r tr h hc hr ih =>
    intro D hi i h1 h2
    obtain ⟨ha, hge, hrs, hi'⟩ := hi.up h hc
    by_cases hir : i = r
    · subst hir
      have hb := hr.bounds
      have hp := hr.pos_lt
      have ho : outflow tr i = 0 := by
        unfold outflow
        rw [List.filter_eq_nil_iff.2
          (fun t ht => by have := hb t ht; have := hp t ht; simp; omega)]; rfl
      have hin : inflow tr i = 0 := by
        unfold inflow
        rw [List.filter_eq_nil_iff.2 (fun t ht => by have := hb t ht; simp; omega)]; rfl
      rw [hr.final, ho, hin]
      have hne : i ≠ s := by omega
      have hx : xfer v s i (amount mean v s i) i = mean := by simp [xfer, hne, ha]
      rw [hx]
      have hD := hi.D_nonneg
      have hn : (0 : K) ≤ ((s - i : Nat) : K) * Consts.SMALL :=
        mul_nonneg (Nat.cast_nonneg _) hS.le
      constructor <;> linarith
    · obtain ⟨g1, g2⟩ := ih hi' i (by omega) h2
      refine ⟨?_, g2⟩
      have : ((s - (r + 1) : Nat) : K) ≤ ((s - r : Nat) : K) := by
        exact_mod_cast (by omega : s - (r + 1) ≤ s - r)
      have := mul_le_mul_of_nonneg_right this hS.le
      linarith

/-- Once nothing is above the mean no transfer is positive. -/
theorem Run.nonpos {mean : K} {v v' : Nat → K} {s r : Nat} {tr : List (Nat × Nat × K)}
    (h : Run mean v s r tr v') : ∀ {D : K}, LevelInv mean v s r D →
    (∀ i, r < i → i ≤ s → v i ≤ mean) → ∀ t ∈ tr, t.2.2 ≤ 0 := by
  induction h with
  | done => simp
  | @down v v' s r tr h hc hr ih =>
    intro D hi hall t ht
    obtain ⟨h0, hup, hi'⟩ := hi.down h hc
    rcases List.mem_cons.1 ht with rfl | ht
    · have := hall (s + 1) h (le_refl _)
      simp only
      rcases amount_cases mean v (s + 1) r with ⟨h1, h2⟩ | ⟨h1, h2⟩ <;> rw [h1] <;> linarith
    · refine ih hi' (fun i h1 h2 => ?_) t ht
      have a1 : i ≠ s + 1 := by omega
      have a2 : i ≠ r := by omega
      simp only [xfer, a1, a2, if_false]
      exact hall i h1 (by omega)
  | @up v v' s r tr h hc hr ih =>
    intro D hi hall t ht
    obtain ⟨ha, hge, hrs, hi'⟩ := hi.up h hc
    exfalso
    have := hall s h (le_refl _)
    have := hi.recv_le
    have := SMALL_pos (K := K)
    rw [ha] at hge
    linarith

/-- A negative transfer means nothing above the mean is left. -/
theorem LevelInv.none_above {mean : K} {v : Nat → K} {s r : Nat} {D : K}
    (hi : LevelInv mean v s r D) (hneg : amount mean v s r ≤ 0) (hlt : v s ≤ mean ∨ v r < mean) :
    ∀ i, r < i → i ≤ s → v i ≤ mean := by
  intro i h1 h2
  by_contra hc
  push Not at hc
  have := hi.above i h1 h2 hc
  have := hi.recv_le
  rcases amount_cases mean v s r with ⟨h3, h4⟩ | ⟨h3, h4⟩
  · rw [h3] at hneg; linarith
  · rw [h3] at hneg
    rcases hlt with h | h <;> linarith

/-- Positive transfers go from above the mean to below the mean. -/
theorem Run.direction {mean : K} {v v' : Nat → K} {s r : Nat} {tr : List (Nat × Nat × K)}
    (h : Run mean v s r tr v') : ∀ {D : K}, LevelInv mean v s r D →
    ∀ t ∈ tr, 0 < t.2.2 → mean < v t.1 ∧ v t.2.1 < mean := by
  induction h with
  | done => simp
  | @down v v' s r tr h hc hr ih =>
    intro D hi t ht hpos
    obtain ⟨h0, hup, hi'⟩ := hi.down h hc
    rcases List.mem_cons.1 ht with rfl | ht
    · simp only at hpos ⊢
      rcases amount_cases mean v (s + 1) r with ⟨h1, h2⟩ | ⟨h1, h2⟩ <;> rw [h1] at hpos <;>
        constructor <;> linarith
    · obtain ⟨g1, g2⟩ := ih hi' t ht hpos
      have hb := hr.bounds t ht
      have hp := hr.pos_lt t ht
      have a1 : t.1 ≠ s + 1 := by omega
      have a2 : t.1 ≠ r := by omega
      have a3 : t.2.1 ≠ s + 1 := by omega
      simp only [xfer, a1, a2, a3, if_false] at g1 g2
      refine ⟨g1, ?_⟩
      by_cases a4 : t.2.1 = r
      · simp only [a4, if_true] at g2
        rw [a4]
        have := hi.above t.1 (by omega) (by omega) g1
        have := hi.recv_le
        rcases amount_cases mean v (s + 1) r with ⟨h1, h2⟩ | ⟨h1, h2⟩ <;> rw [h1] at g2 <;> linarith
      · simpa only [a4, if_false] using g2
  | @up v v' s r tr h hc hr ih =>
    intro D hi t ht hpos
    obtain ⟨ha, hge, hrs, hi'⟩ := hi.up h hc
    have hS := SMALL_pos (K := K)
    have hrl := hi.recv_le
    rcases List.mem_cons.1 ht with rfl | ht
    · simp only at hpos ⊢
      rw [ha] at hpos hge
      constructor <;> linarith
    · obtain ⟨g1, g2⟩ := ih hi' t ht hpos
      have hb := hr.bounds t ht
      have hp := hr.pos_lt t ht
      have a2 : t.1 ≠ r := by omega
      have a3 : t.2.1 ≠ s := by omega
      have a4 : t.2.1 ≠ r := by omega
      simp only [xfer, a2, a3, a4, if_false] at g1 g2
      refine ⟨?_, g2⟩
      by_cases a1 : t.1 = s
      · rw [a1]; rw [ha] at hge; linarith
      · simpa only [a1, if_false] using g1

/-- Senders are not far below the mean. -/
theorem Run.sender_ge {mean : K} {v v' : Nat → K} {s r : Nat} {tr : List (Nat × Nat × K)}
    (h : Run mean v s r tr v') : ∀ {D : K}, LevelInv mean v s r D →
    ∀ t ∈ tr, mean - (D + ((s - r : Nat) : K) * Consts.SMALL) ≤ v t.1 := by
  have hS := SMALL_pos (K := K)
  induction h with
  | done => simp
  | @down v v' s r tr h hc hr ih =>
    intro D hi t ht
    obtain ⟨h0, hup, hi'⟩ := hi.down h hc
    have e : ((s + 1 - r : Nat) : K) = ((s - r : Nat) : K) + 1 := by
      rw [Nat.sub_add_comm (by omega)]; push_cast; ring
    rcases List.mem_cons.1 ht with rfl | ht
    · have := hi.sender_ge
      have hn : (0 : K) ≤ ((s + 1 - r : Nat) : K) * Consts.SMALL :=
        mul_nonneg (Nat.cast_nonneg _) hS.le
      simp only
      linarith
    · have g := ih hi' t ht
      have hb := hr.bounds t ht
      have hp := hr.pos_lt t ht
      have a1 : t.1 ≠ s + 1 := by omega
      have a2 : t.1 ≠ r := by omega
      simp only [xfer, a1, a2, if_false] at g
      rw [e, add_mul, one_mul]
      linarith
  | @up v v' s r tr h hc hr ih =>
    intro D hi t ht
    obtain ⟨ha, hge, hrs, hi'⟩ := hi.up h hc
    have hn : (0 : K) ≤ ((s - r : Nat) : K) * Consts.SMALL := mul_nonneg (Nat.cast_nonneg _) hS.le
    have hsg := hi.sender_ge
    rcases List.mem_cons.1 ht with rfl | ht
    · simp only; linarith
    · have g := ih hi' t ht
      have hb := hr.bounds t ht
      have hp := hr.pos_lt t ht
      have a2 : t.1 ≠ r := by omega
      by_cases a1 : t.1 = s
      · rw [a1]; linarith
      · simp only [xfer, a1, a2, if_false] at g
        have : ((s - (r + 1) : Nat) : K) ≤ ((s - r : Nat) : K) := by
          exact_mod_cast (by omega : s - (r + 1) ≤ s - r)
        have := mul_le_mul_of_nonneg_right this hS.le
        linarith

/-- Receivers start at most at the mean. -/
theorem Run.receiver_le {mean : K} {v v' : Nat → K} {s r : Nat} {tr : List (Nat × Nat × K)}
    (h : Run mean v s r tr v') : ∀ {D : K}, LevelInv mean v s r D →
    ∀ t ∈ tr, v t.2.1 ≤ mean := by
  induction h with
  | done => simp
  | @down v v' s r tr h hc hr ih =>
    intro D hi t ht
    obtain ⟨h0, hup, hi'⟩ := hi.down h hc
    rcases List.mem_cons.1 ht with rfl | ht
    · exact hi.recv_le
    · have g := ih hi' t ht
      have hb := hr.bounds t ht
      have hp := hr.pos_lt t ht
      have a1 : t.2.1 ≠ s + 1 := by omega
      by_cases a2 : t.2.1 = r
      · rw [a2]; exact hi.recv_le
      · simpa only [xfer, a1, a2, if_false] using g
  | @up v v' s r tr h hc hr ih =>
    intro D hi t ht
    obtain ⟨ha, hge, hrs, hi'⟩ := hi.up h hc
    rcases List.mem_cons.1 ht with rfl | ht
    · exact hi.recv_le
    · have g := ih hi' t ht
      have hb := hr.bounds t ht
      have hp := hr.pos_lt t ht
      have a1 : t.2.1 ≠ s := by omega
      have a2 : t.2.1 ≠ r := by omega
      simpa only [xfer, a1, a2, if_false] using g

/-- The positive transfers. -/
def positive (tr : List (Nat × Nat × K)) : List (Nat × Nat × K) :=
  tr.filter (fun t => decide (0 < t.2.2))

theorem positive_cons (t : Nat × Nat × K) (tr : List (Nat × Nat × K)) :
    positive (t :: tr) = if 0 < t.2.2 then t :: positive tr else positive tr := by
  unfold positive
  by_cases h : 0 < t.2.2 <;> simp [h]

theorem positive_nil_of_nonpos {tr : List (Nat × Nat × K)} (h : ∀ t ∈ tr, t.2.2 ≤ 0) :
    positive tr = [] :=
  List.filter_eq_nil_iff.2 (fun t ht => by simpa using h t ht)

/-- The positive transfers out of a position add up to at most its surplus. -/
theorem Run.outflow_le {mean : K} {v v' : Nat → K} {s r : Nat} {tr : List (Nat × Nat × K)}
    (h : Run mean v s r tr v') : ∀ {D : K}, LevelInv mean v s r D →
    ∀ i, outflow (positive tr) i ≤ max (v i - mean) 0 := by
  have hS := SMALL_pos (K := K)
  induction h with
  | done => intro D _ i; simp [positive, outflow]
  | @down v v' s r tr h hc hr ih =>
    intro D hi i
    obtain ⟨h0, hup, hi'⟩ := hi.down h hc
    have htail : ∀ j, (∀ t ∈ tr, t.1 ≠ j) → outflow (positive tr) j = 0 := by
      intro j hj
      unfold outflow
      rw [List.filter_eq_nil_iff.2
        (fun t ht => by have := hj t (List.mem_of_mem_filter ht); simpa using this)]; rfl
    rw [positive_cons]
    by_cases his : i = s + 1
    · subst his
      have hz := htail (s + 1) (fun t ht => by have := hr.bounds t ht; omega)
      split
      · rw [outflow_cons, hz]
        simp only [if_true, add_zero]
        refine le_trans ?_ (le_max_left _ _)
        unfold amount
        rw [stdMin_eq_min]
        exact min_le_left _ _
      · rw [hz]; exact le_max_right _ _
    · have hle : outflow (positive tr) i ≤ max (v i - mean) 0 := by
        by_cases hir : i = r
        · rw [htail i (fun t ht => by have := hr.bounds t ht; have := hr.pos_lt t ht; omega)]
          exact le_max_right _ _
        · have := ih hi' i
          simpa only [xfer, his, hir, if_false] using this
      split
      · rw [outflow_cons]
        have : ¬ s + 1 = i := fun he => his he.symm
        simp only [this, if_false, zero_add]
        exact hle
      · exact hle
  | @up v v' s r tr h hc hr ih =>
    intro D hi i
    obtain ⟨ha, hge, hrs, hi'⟩ := hi.up h hc
    have hrl := hi.recv_le
    have htail : ∀ j, (∀ t ∈ tr, t.1 ≠ j) → outflow (positive tr) j = 0 := by
      intro j hj
      unfold outflow
      rw [List.filter_eq_nil_iff.2
        (fun t ht => by have := hj t (List.mem_of_mem_filter ht); simpa using this)]; rfl
    rw [positive_cons]
    have g := ih hi' i
    by_cases his : i = s
    · subst his
      simp only [xfer, if_true] at g
      rw [max_eq_left (by linarith)] at g
      refine le_trans ?_ (le_max_left _ _)
      split
      · rw [outflow_cons]
        simp only [if_true]
        linarith
      · rw [ha] at g; linarith
    · have hle : outflow (positive tr) i ≤ max (v i - mean) 0 := by
        by_cases hir : i = r
        · rw [htail i (fun t ht => by have := hr.bounds t ht; have := hr.pos_lt t ht; omega)]
          exact le_max_right _ _
        · simpa only [xfer, his, hir, if_false] using g
      split
      · rw [outflow_cons]
        have : ¬ s = i := fun he => his he.symm
        simp only [this, if_false, zero_add]
        exact hle
      · exact hle

/-- The positive transfers into a position add up to at most its deficit. -/
theorem Run.inflow_le {mean : K} {v v' : Nat → K} {s r : Nat} {tr : List (Nat × Nat × K)}
    (h : Run mean v s r tr v') : ∀ {D : K}, LevelInv mean v s r D →
    ∀ i, inflow (positive tr) i ≤ max (mean - v i) 0 := by
  have hS := SMALL_pos (K := K)
  induction h with
  | done => intro D _ i; simp [positive, inflow]
  | @down v v' s r tr h hc hr ih =>
    intro D hi i
    obtain ⟨h0, hup, hi'⟩ := hi.down h hc
    have hrl := hi.recv_le
    have htail : ∀ j, (∀ t ∈ tr, t.2.1 ≠ j) → inflow (positive tr) j = 0 := by
      intro j hj
      unfold inflow
      rw [List.filter_eq_nil_iff.2
        (fun t ht => by have := hj t (List.mem_of_mem_filter ht); simpa using this)]; rfl
    have hrl' := hi'.recv_le
    have hne : r ≠ s + 1 := by omega
    simp only [xfer, hne, if_false, if_true] at hrl'
    rw [positive_cons]
    by_cases hir : i = r
    · subst hir
      have g := ih hi' i
      simp only [xfer, hne, if_false, if_true] at g
      rw [max_eq_left (by linarith)] at g
      rw [max_eq_left (by linarith)]
      split
      · rw [inflow_cons]
        simp only [if_true]
        linarith
      · next hneg =>
        push Not at hneg
        by_cases hz : amount mean v (s + 1) i = 0
        · rw [hz] at g; linarith
        · have hall := hi.none_above hneg (by
            rcases amount_cases mean v (s + 1) i with ⟨h1, h2⟩ | ⟨h1, h2⟩
            · left; rw [h1] at hneg; linarith
            · exfalso; apply hz
              simp only at hneg
              rw [h1] at hneg ⊢; linarith)
          have hnp := hr.nonpos hi' (fun j h1 h2 => by
            have a1 : j ≠ s + 1 := by omega
            have a2 : j ≠ i := by omega
            simp only [xfer, a1, a2, if_false]
            exact hall j h1 (by omega))
          rw [positive_nil_of_nonpos hnp]
          simp only [inflow, List.filter_nil, List.map_nil, List.sum_nil]
          linarith
    · have hle : inflow (positive tr) i ≤ max (mean - v i) 0 := by
        by_cases his : i = s + 1
        · rw [htail i (fun t ht => by have := hr.bounds t ht; have := hr.pos_lt t ht; omega)]
          exact le_max_right _ _
        · have := ih hi' i
          simpa only [xfer, his, hir, if_false] using this
      split
      · rw [inflow_cons]
        have : ¬ r = i := fun he => hir he.symm
        simp only [this, if_false, zero_add]
        exact hle
      · exact hle
  | @up v v' s r tr h hc hr ih =>
    intro D hi i
    obtain ⟨ha, hge, hrs, hi'⟩ := hi.up h hc
    have hrl := hi.recv_le
    have htail : ∀ j, (∀ t ∈ tr, t.2.1 ≠ j) → inflow (positive tr) j = 0 := by
      intro j hj
      unfold inflow
      rw [List.filter_eq_nil_iff.2
        (fun t ht => by have := hj t (List.mem_of_mem_filter ht); simpa using this)]; rfl
    rw [positive_cons]
    by_cases hir : i = r
    · subst hir
      have hz := htail i (fun t ht => by have := hr.bounds t ht; omega)
      split
      · rw [inflow_cons, hz]
        simp only [if_true, add_zero, ha]
        exact le_max_left _ _
      · rw [hz]; exact le_max_right _ _
    · have hle : inflow (positive tr) i ≤ max (mean - v i) 0 := by
        by_cases his : i = s
        · rw [htail i (fun t ht => by have := hr.bounds t ht; have := hr.pos_lt t ht; omega)]
          exact le_max_right _ _
        · have := ih hi' i
          simpa only [xfer, his, hir, if_false] using this
      split
      · rw [inflow_cons]
        have : ¬ r = i := fun he => hir he.symm
        simp only [this, if_false, zero_add]
        exact hle
      · exact hle

end DLB
