import Verif.Lemmas.RoundedInv
/-
The planning loop with rounding: induction over the transfers.
-/
set_option autoImplicit false
set_option linter.unusedSectionVars false

namespace DLB

variable {K : Type} [Field K] [LinearOrder K] [IsStrictOrderedRing K] {F : FloatFormat K}

theorem amount_val (mean : Fl F) (v : Nat → Fl F) (s r : Nat) :
    (amount mean v s r).val = F.rnd (min ((v s).val - mean.val) (mean.val - (v r).val)) := by
  unfold amount
  rw [Fl.val_stdMin, Fl.val_sub, Fl.val_sub, F.rnd_min]

theorem xfer_val (v : Nat → Fl F) (s r : Nat) (x : Fl F) (i : Nat) : (xfer v s r x i).val =
    if i = s then F.rnd ((v s).val - x.val) else
      if i = r then F.rnd ((v r).val + x.val) else (v i).val := by
  unfold xfer
  split
  · rfl
  · split <;> rfl

/-- The transfers as exact numbers. -/
def vals (tr : List (Nat × Nat × Fl F)) : List (Nat × Nat × K) :=
  tr.map (fun t => (t.1, t.2.1, t.2.2.val))

theorem vals_cons (a b : Nat) (x : Fl F) (tr : List (Nat × Nat × Fl F)) :
    vals ((a, b, x) :: tr) = (a, b, x.val) :: vals tr := rfl

/-- What the induction needs to know about the mean, the test against `SMALL` and the sizes of
the errors. -/
structure FlBudget (F : FloatFormat K) (mean : Fl F) (N : Nat) (σ Emax : K) : Prop where
  m0 : 0 ≤ mean.val
  hu : F.u ≤ 1 / 10
  pass : ∀ y : Fl F, absS (y - mean) < Consts.SMALL → |y.val - mean.val| ≤ σ
  small : 0 < (Consts.SMALL : Fl F).val
  sigma : 0 ≤ σ
  Emax_le : Emax ≤ mean.val / 10

/-- Rounding errors of one transfer. -/
def flRho (F : FloatFormat K) (m : K) (N : Nat) : K := F.u * ((N + 8 : Nat) * m)

theorem FlBudget.rho_nonneg {mean : Fl F} {N : Nat} {σ Emax : K} (B : FlBudget F mean N σ Emax) :
    0 ≤ flRho F mean.val N :=
  mul_nonneg F.u_nonneg (mul_nonneg (Nat.cast_nonneg _) B.m0)

theorem FlBudget.self {mean : Fl F} {N : Nat} {σ Emax : K} (B : FlBudget F mean N σ Emax)
    {y : Fl F} (h : y.val = mean.val) : absS (y - mean) < (Consts.SMALL : Fl F) := by
  rw [Fl.lt_iff, Fl.val_absS, Fl.val_sub, h, sub_self, F.rnd_zero, abs_zero]
  exact B.small

/-- The errors of one transfer, together. -/
theorem FlInv.step_errors {mean : Fl F} {N : Nat} {σ Emax E : K} (B : FlBudget F mean N σ Emax)
    {W : Nat → K} {s r : Nat} (h : FlInv mean.val W s r E) (hN : s - r ≤ N)
    (hE : E ≤ mean.val / 10) {x : K} (st : StepOut F mean.val (W s) (W r) x) :
    |F.rnd (W s - x) - (W s - x)| + |F.rnd (W r + x) - (W r + x)| + 3 * (F.u * mean.val) ≤
      flRho F mean.val N := by
  have h1 := h.sender_bound
  have hc : ((s - r : Nat) : K) * mean.val ≤ (N : K) * mean.val :=
    mul_le_mul_of_nonneg_right (by exact_mod_cast hN) B.m0
  have hm0 := B.m0
  have h2 : F.u * (W s + mean.val) ≤ F.u * (((N : K) + 3) * mean.val) := by
    apply mul_le_mul_of_nonneg_left _ F.u_nonneg
    linarith
  have h3 : flRho F mean.val N = F.u * (((N : K) + 3) * mean.val) + F.u * (2 * mean.val) +
      3 * (F.u * mean.val) := by
    unfold flRho; push_cast; ring
  rw [h3]
  have := st.errA
  have := st.errB
  linarith

/-- Positions outside of the range are not touched. -/
theorem Run.outside {mean : Fl F} {v v' : Nat → Fl F} {s r : Nat} {tr : List (Nat × Nat × Fl F)}
    (h : Run mean v s r tr v') : ∀ i, i < r ∨ s < i → v' i = v i := by
  induction h with
  | done => intro i _; rfl
  | @down v v' s r tr h _ hr ih =>
    intro i hi
    rw [ih i (by omega)]
    unfold xfer
    rw [if_neg (by omega), if_neg (by omega)]
  | @up v v' s r tr h _ hr ih =>
    intro i hi
    rw [ih i (by omega)]
    unfold xfer
    rw [if_neg (by omega), if_neg (by omega)]

section
variable {mean : Fl F} {N : Nat} {σ Emax : K}

/-- The invariant after `sender--`. -/
theorem FlInv.run_down (B : FlBudget F mean N σ Emax) {v : Nat → Fl F} {s r : Nat} {E : K}
    (h : FlInv mean.val (fun i => (v i).val) (s + 1) r E) (hrs : r < s + 1) (hN : s + 1 - r ≤ N)
    (hE : 3 * (F.u * mean.val) ≤ E) (hEm : E ≤ Emax)
    (hc : absS (v (s + 1) - amount mean v (s + 1) r - mean) < (Consts.SMALL : Fl F)) :
    FlInv mean.val (fun i => (xfer v (s + 1) r (amount mean v (s + 1) r) i).val) s r
      (E + (flRho F mean.val N + σ)) := by
  have hEm' := hEm.trans B.Emax_le
  obtain ⟨st, hb0⟩ := h.step hrs mean.ok (v (s + 1)).ok (v r).ok B.hu hE hEm' B.m0
  have herr := h.step_errors B hN hEm' st
  have hp := B.pass _ hc
  rw [Fl.val_sub, amount_val] at hp
  have hum := mul_nonneg F.u_nonneg B.m0
  have hr : (xfer v (s + 1) r (amount mean v (s + 1) r) r).val =
      F.rnd ((v r).val + F.rnd (min ((v (s + 1)).val - mean.val) (mean.val - (v r).val))) := by
    rw [xfer_val, if_neg (by omega), if_pos rfl, amount_val]
  refine h.down (a' := F.rnd ((v (s + 1)).val -
    F.rnd (min ((v (s + 1)).val - mean.val) (mean.val - (v r).val))))
    (x := F.rnd (min ((v (s + 1)).val - mean.val) (mean.val - (v r).val))) hrs ?_ ?_ ?_ ?_
  · intro i h1 h2
    simp only [xfer_val]
    rw [if_neg (by omega), if_neg (by omega)]
  · simp only [hr]; exact hb0
  · simp only [hr]
    have := st.recv_le
    have := B.rho_nonneg
    have := B.sigma
    linarith
  · simp only [hr]
    linarith

/-- The invariant after `receiver++`; the receiver is left at the mean. -/
theorem FlInv.run_up (B : FlBudget F mean N σ Emax) {v : Nat → Fl F} {s r : Nat} {E : K}
    (h : FlInv mean.val (fun i => (v i).val) s r E) (hrs : r < s) (hN : s - r ≤ N)
    (hE : 3 * (F.u * mean.val) ≤ E) (hEm : E ≤ Emax)
    (hc : ¬ absS (v s - amount mean v s r - mean) < (Consts.SMALL : Fl F)) :
    FlInv mean.val (fun i => (xfer v s r (amount mean v s r) i).val) s (r + 1)
      (E + (flRho F mean.val N + σ)) ∧
    |(xfer v s r (amount mean v s r) r).val - mean.val| ≤ 3 * (F.u * mean.val) := by
  have hEm' := hEm.trans B.Emax_le
  obtain ⟨st, hb0⟩ := h.step hrs mean.ok (v s).ok (v r).ok B.hu hE hEm' B.m0
  have herr := h.step_errors B hN hEm' st
  have hr : (xfer v s r (amount mean v s r) r).val =
      F.rnd ((v r).val + F.rnd (min ((v s).val - mean.val) (mean.val - (v r).val))) := by
    rw [xfer_val, if_neg (by omega), if_pos rfl, amount_val]
  have hs : (xfer v s r (amount mean v s r) s).val =
      F.rnd ((v s).val - F.rnd (min ((v s).val - mean.val) (mean.val - (v r).val))) := by
    rw [xfer_val, if_pos rfl, amount_val]
  have hpass : |F.rnd ((v r).val + F.rnd (min ((v s).val - mean.val) (mean.val - (v r).val))) -
      mean.val| ≤ 3 * (F.u * mean.val) := by
    rcases st.cases with ⟨h1, -⟩ | ⟨-, h2⟩
    · exfalso
      apply hc
      apply B.self
      rw [Fl.val_sub, amount_val]
      exact h1
    · exact h2
  refine ⟨?_, by rw [hr]; exact hpass⟩
  refine h.up (b' := F.rnd ((v r).val +
    F.rnd (min ((v s).val - mean.val) (mean.val - (v r).val))))
    (x := F.rnd (min ((v s).val - mean.val) (mean.val - (v r).val))) hrs ?_ ?_ B.m0 ?_
  · intro i h1 h2
    simp only [xfer_val]
    rw [if_neg (by omega), if_neg (by omega)]
  · simp only [hs]; exact st.send
  · simp only [hs]
    have := B.sigma
    linarith

/-- All values end near the mean. -/
theorem Run.fl_levels (B : FlBudget F mean N σ Emax) {v v' : Nat → Fl F} {s r : Nat}
    {tr : List (Nat × Nat × Fl F)} (h : Run mean v s r tr v') :
    ∀ E, FlInv mean.val (fun i => (v i).val) s r E → s - r ≤ N → 3 * (F.u * mean.val) ≤ E →
      E + ((s - r : Nat) : K) * (flRho F mean.val N + σ) ≤ Emax →
      ∀ i, r ≤ i → i ≤ s → |(v' i).val - mean.val| ≤ Emax := by
  induction h with
  | done v m =>
    intro E hI _ _ hE i h1 h2
    have : i = m := by omega
    subst this
    have := hI.sum
    rw [Finset.Icc_self, Finset.sum_singleton] at this
    simp only [Nat.sub_self, Nat.cast_zero, zero_mul, add_zero] at hE
    exact this.trans hE
  | @down v v' s r tr h hc hr ih =>
    intro E hI hN h3 hE i h1 h2
    have hδ : 0 ≤ flRho F mean.val N + σ := add_nonneg B.rho_nonneg B.sigma
    have e : ((s + 1 - r : Nat) : K) = ((s - r : Nat) : K) + 1 := by
      rw [Nat.sub_add_comm (by omega)]; push_cast; rfl
    rw [e] at hE
    have hn : (0 : K) ≤ ((s - r : Nat) : K) * (flRho F mean.val N + σ) :=
      mul_nonneg (Nat.cast_nonneg _) hδ
    have hEm : E ≤ Emax := by linarith
    have hI' := hI.run_down B h hN h3 hEm hc
    have ih' := ih _ hI' (by omega) (by linarith) (by linarith)
    by_cases his : i ≤ s
    · exact ih' i h1 his
    · have : i = s + 1 := by omega
      subst this
      rw [hr.outside _ (by omega), xfer_val, if_pos rfl]
      have := B.pass _ hc
      rw [Fl.val_sub] at this
      have h0 : 0 ≤ E := (abs_nonneg _).trans hI.sum
      have := B.rho_nonneg
      linarith
  | @up v v' s r tr h hc hr ih =>
    intro E hI hN h3 hE i h1 h2
    have hδ : 0 ≤ flRho F mean.val N + σ := add_nonneg B.rho_nonneg B.sigma
    have e : ((s - r : Nat) : K) = ((s - (r + 1) : Nat) : K) + 1 := by
      have : s - r = s - (r + 1) + 1 := by omega
      rw [this]; push_cast; rfl
    rw [e] at hE
    have hn : (0 : K) ≤ ((s - (r + 1) : Nat) : K) * (flRho F mean.val N + σ) :=
      mul_nonneg (Nat.cast_nonneg _) hδ
    have hEm : E ≤ Emax := by linarith
    obtain ⟨hI', hp⟩ := hI.run_up B h hN h3 hEm hc
    have ih' := ih _ hI' (by omega) (by linarith) (by linarith)
    by_cases hir : r + 1 ≤ i
    · exact ih' i hir h2
    · have : i = r := by omega
      subst this
      rw [hr.outside _ (by omega)]
      linarith

/-- The computed values differ from the exact result of the transfers by the rounding errors. -/
theorem Run.fl_final (B : FlBudget F mean N σ Emax) {v v' : Nat → Fl F} {s r : Nat}
    {tr : List (Nat × Nat × Fl F)} (h : Run mean v s r tr v') :
    ∀ E, FlInv mean.val (fun i => (v i).val) s r E → s - r ≤ N → 3 * (F.u * mean.val) ≤ E →
      E + ((s - r : Nat) : K) * (flRho F mean.val N + σ) ≤ Emax →
      ∀ i, |(v' i).val - ((v i).val - outflow (vals tr) i + inflow (vals tr) i)| ≤
        ((s - r : Nat) : K) * flRho F mean.val N := by
  induction h with
  | done v m =>
    intro E hI _ _ hE i
    simp [outflow, inflow, vals]
  | @down v v' s r tr h hc hr ih =>
    intro E hI hN h3 hE i
    have hδ : 0 ≤ flRho F mean.val N + σ := add_nonneg B.rho_nonneg B.sigma
    have e : ((s + 1 - r : Nat) : K) = ((s - r : Nat) : K) + 1 := by
      rw [Nat.sub_add_comm (by omega)]; push_cast; rfl
    rw [e] at hE ⊢
    have hn : (0 : K) ≤ ((s - r : Nat) : K) * (flRho F mean.val N + σ) :=
      mul_nonneg (Nat.cast_nonneg _) hδ
    have hEm : E ≤ Emax := by linarith
    have hI' := hI.run_down B h hN h3 hEm hc
    have ih' := ih _ hI' (by omega) (by have := hI.sum; linarith) (by linarith) i
    obtain ⟨st, -⟩ := hI.step h mean.ok (v (s + 1)).ok (v r).ok B.hu h3 (hEm.trans B.Emax_le) B.m0
    have herr := hI.step_errors B hN (hEm.trans B.Emax_le) st
    have hum := mul_nonneg F.u_nonneg B.m0
    rw [vals_cons, outflow_cons, inflow_cons]
    simp only
    rw [xfer_val] at ih'
    rw [← amount_val] at herr
    have h0 := abs_nonneg (F.rnd ((v (s + 1)).val - (amount mean v (s + 1) r).val) -
      ((v (s + 1)).val - (amount mean v (s + 1) r).val))
    have h0' := abs_nonneg (F.rnd ((v r).val + (amount mean v (s + 1) r).val) -
      ((v r).val + (amount mean v (s + 1) r).val))
    have hadd : ∀ p q d c : K, |p - q| ≤ c → |d| ≤ flRho F mean.val N →
        |p - q + d| ≤ (c + flRho F mean.val N) := fun p q d c h1 h2 =>
      (abs_add_le _ _).trans (add_le_add h1 h2)
    by_cases h1 : i = s + 1
    · subst h1
      have hne : ¬ (r = s + 1) := by omega
      simp only [if_true, if_neg hne, zero_add] at ih' ⊢
      rw [add_mul, one_mul]
      refine le_trans (le_of_eq ?_) (hadd _ _ (F.rnd ((v (s + 1)).val -
        (amount mean v (s + 1) r).val) - ((v (s + 1)).val - (amount mean v (s + 1) r).val)) _ ih'
        (by linarith))
      congr 1; ring
    · by_cases h2 : i = r
      · subst h2
        simp only [if_neg h1, if_true, if_neg (Ne.symm h1), zero_add] at ih' ⊢
        rw [add_mul, one_mul]
        refine le_trans (le_of_eq ?_) (hadd _ _ (F.rnd ((v i).val +
          (amount mean v (s + 1) i).val) - ((v i).val + (amount mean v (s + 1) i).val)) _ ih'
          (by linarith))
        congr 1; ring
      · simp only [if_neg h1, if_neg h2, if_neg (Ne.symm h1), if_neg (Ne.symm h2), zero_add] at ih' ⊢
        rw [add_mul, one_mul]
        have := B.rho_nonneg
        linarith
  | @up v v' s r tr h hc hr ih =>
    intro E hI hN h3 hE i
    have hδ : 0 ≤ flRho F mean.val N + σ := add_nonneg B.rho_nonneg B.sigma
    have e : ((s - r : Nat) : K) = ((s - (r + 1) : Nat) : K) + 1 := by
      have : s - r = s - (r + 1) + 1 := by omega
      rw [this]; push_cast; rfl
    rw [e] at hE ⊢
    have hn : (0 : K) ≤ ((s - (r + 1) : Nat) : K) * (flRho F mean.val N + σ) :=
      mul_nonneg (Nat.cast_nonneg _) hδ
    have hEm : E ≤ Emax := by linarith
    obtain ⟨hI', -⟩ := hI.run_up B h hN h3 hEm hc
    have ih' := ih _ hI' (by omega) (by linarith) (by linarith) i
    obtain ⟨st, -⟩ := hI.step h mean.ok (v s).ok (v r).ok B.hu h3 (hEm.trans B.Emax_le) B.m0
    have herr := hI.step_errors B hN (hEm.trans B.Emax_le) st
    have hum := mul_nonneg F.u_nonneg B.m0
    rw [vals_cons, outflow_cons, inflow_cons]
    simp only
    rw [xfer_val] at ih'
    rw [← amount_val] at herr
    have h0 := abs_nonneg (F.rnd ((v s).val - (amount mean v s r).val) -
      ((v s).val - (amount mean v s r).val))
    have h0' := abs_nonneg (F.rnd ((v r).val + (amount mean v s r).val) -
      ((v r).val + (amount mean v s r).val))
    have hadd : ∀ p q d c : K, |p - q| ≤ c → |d| ≤ flRho F mean.val N →
        |p - q + d| ≤ (c + flRho F mean.val N) := fun p q d c h1 h2 =>
      (abs_add_le _ _).trans (add_le_add h1 h2)
    by_cases h1 : i = s
    · subst h1
      have hne : ¬ (r = i) := by omega
      simp only [if_true, if_neg hne, zero_add] at ih' ⊢
      rw [add_mul, one_mul]
      refine le_trans (le_of_eq ?_) (hadd _ _ (F.rnd ((v i).val -
        (amount mean v i r).val) - ((v i).val - (amount mean v i r).val)) _ ih'
        (by linarith))
      congr 1; ring
    · by_cases h2 : i = r
      · subst h2
        simp only [if_neg h1, if_true, if_neg (Ne.symm h1), zero_add] at ih' ⊢
        rw [add_mul, one_mul]
        refine le_trans (le_of_eq ?_) (hadd _ _ (F.rnd ((v i).val +
          (amount mean v s i).val) - ((v i).val + (amount mean v s i).val)) _ ih'
          (by linarith))
        congr 1; ring
      · simp only [if_neg h1, if_neg h2, if_neg (Ne.symm h1), if_neg (Ne.symm h2), zero_add] at ih' ⊢
        rw [add_mul, one_mul]
        have := B.rho_nonneg
        linarith

end

end DLB
