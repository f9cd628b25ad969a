import Verif.Lemmas.RoundedPlan
/-
The planning loop with rounding: what the large transfers add up to.
-/
set_option autoImplicit false
set_option linter.unusedSectionVars false

namespace DLB

variable {K : Type} [Field K] [LinearOrder K] [IsStrictOrderedRing K] {F : FloatFormat K}

theorem sum_change {a b k : Nat} (f g : Nat → K) (h1 : a ≤ k) (h2 : k ≤ b)
    (h : ∀ i, a ≤ i → i ≤ b → i ≠ k → g i = f i) :
    ∑ i ∈ Finset.Icc a b, g i = ∑ i ∈ Finset.Icc a b, f i + (g k - f k) := by
  have : ∀ i ∈ Finset.Icc a b, g i = f i + (if i = k then g k - f k else 0) := by
    intro i hi
    have hb := Finset.mem_Icc.1 hi
    by_cases hk : i = k
    · subst hk; rw [if_pos rfl]; ring
    · rw [if_neg hk, add_zero, h i hb.1 hb.2 hk]
  rw [Finset.sum_congr rfl this, Finset.sum_add_distrib, Finset.sum_ite_eq',
    if_pos (Finset.mem_Icc.2 ⟨h1, h2⟩)]

/-- If everything left is near the mean, only small transfers follow. -/
theorem Run.fl_quiet {mean : Fl F} {v v' : Nat → Fl F} {s r : Nat} {tr : List (Nat × Nat × Fl F)}
    (h : Run mean v s r tr v') {α : K} (hα : α ≤ mean.val / 2) (hm0 : 0 ≤ mean.val) :
    ∑ i ∈ Finset.Icc r s, |(v i).val - mean.val| +
      ((s - r : Nat) : K) * (F.u * (2 * mean.val)) ≤ α →
    ∀ t ∈ tr, t.2.2.val ≤ α := by
  have hu2 : 0 ≤ F.u * (2 * mean.val) := mul_nonneg F.u_nonneg (by linarith)
  induction h with
  | done => simp
  | @down v v' s r tr h hc hr ih =>
    intro hA
    have e : ((s + 1 - r : Nat) : K) = ((s - r : Nat) : K) + 1 := by
      rw [Nat.sub_add_comm (by omega)]; push_cast; rfl
    rw [e] at hA
    have hn : (0 : K) ≤ ((s - r : Nat) : K) * (F.u * (2 * mean.val)) :=
      mul_nonneg (Nat.cast_nonneg _) hu2
    have ha := term_le_sum (m := mean.val) (W := fun i => (v i).val) (s := s + 1) (r := r)
      (i := s + 1) (by omega) (le_refl _)
    have hb := term_le_sum (m := mean.val) (W := fun i => (v i).val) (s := s + 1) (r := r)
      (i := r) (le_refl _) (by omega)
    obtain ⟨hx, hd⟩ := fl_step_quiet F mean.ok (v (s + 1)).ok (v r).ok
      (ha.trans (by linarith)) (hb.trans (by linarith))
    have hxv : (amount mean v (s + 1) r).val =
        min ((v (s + 1)).val - mean.val) (mean.val - (v r).val) := by rw [amount_val, hx]
    intro t ht
    rcases List.mem_cons.1 ht with rfl | ht
    · simp only [hxv]
      exact (min_le_left _ _).trans ((le_abs_self _).trans (ha.trans (by linarith)))
    · refine ih ?_ t ht
      have hb' := abs_nonneg (F.rnd ((v (s + 1)).val -
        min ((v (s + 1)).val - mean.val) (mean.val - (v r).val)) - mean.val)
      rw [Finset.sum_Icc_succ_top (by omega)] at hA
      rw [sum_change (fun i => |(v i).val - mean.val|) _ (le_refl r) (by omega : r ≤ s) ?_]
      · simp only [xfer_val, hxv]
        rw [if_neg (by omega : ¬ r = s + 1), if_true]
        linarith
      · intro i h1 h2 h3
        simp only [xfer_val]
        rw [if_neg (by omega), if_neg h3]
  | @up v v' s r tr h hc hr ih =>
    intro hA
    have e : ((s - r : Nat) : K) = ((s - (r + 1) : Nat) : K) + 1 := by
      have : s - r = s - (r + 1) + 1 := by omega
      rw [this]; push_cast; rfl
    rw [e] at hA
    have hn : (0 : K) ≤ ((s - (r + 1) : Nat) : K) * (F.u * (2 * mean.val)) :=
      mul_nonneg (Nat.cast_nonneg _) hu2
    have ha := term_le_sum (m := mean.val) (W := fun i => (v i).val) (s := s) (r := r)
      (i := s) (by omega) (le_refl _)
    have hb := term_le_sum (m := mean.val) (W := fun i => (v i).val) (s := s) (r := r)
      (i := r) (le_refl _) (by omega)
    obtain ⟨hx, hd⟩ := fl_step_quiet F mean.ok (v s).ok (v r).ok
      (ha.trans (by linarith)) (hb.trans (by linarith))
    have hxv : (amount mean v s r).val =
        min ((v s).val - mean.val) (mean.val - (v r).val) := by rw [amount_val, hx]
    intro t ht
    rcases List.mem_cons.1 ht with rfl | ht
    · simp only [hxv]
      exact (min_le_left _ _).trans ((le_abs_self _).trans (ha.trans (by linarith)))
    · refine ih ?_ t ht
      have hb' := abs_nonneg (F.rnd ((v r).val +
        min ((v s).val - mean.val) (mean.val - (v r).val)) - mean.val)
      have e2 : Finset.Icc r s = insert r (Finset.Icc (r + 1) s) := by
        ext i; simp only [Finset.mem_Icc, Finset.mem_insert]; omega
      rw [e2, Finset.sum_insert (by simp)] at hA
      rw [sum_change (fun i => |(v i).val - mean.val|) _ (by omega : r + 1 ≤ s) (le_refl s) ?_]
      · simp only [xfer_val, hxv]
        rw [if_true]
        linarith
      · intro i h1 h2 h3
        simp only [xfer_val]
        rw [if_neg h3, if_neg (by omega)]

/-- The transfers above the threshold `θ`, as exact numbers. -/
def big (θ : K) (tr : List (Nat × Nat × Fl F)) : List (Nat × Nat × K) :=
  (vals tr).filter (fun t => decide (θ < t.2.2))

theorem big_cons (θ : K) (a b : Nat) (x : Fl F) (tr : List (Nat × Nat × Fl F)) (i : Nat) :
    outflow (big θ ((a, b, x) :: tr)) i =
      (if a = i then (if θ < x.val then x.val else 0) else 0) + outflow (big θ tr) i ∧
    inflow (big θ ((a, b, x) :: tr)) i =
      (if b = i then (if θ < x.val then x.val else 0) else 0) + inflow (big θ tr) i := by
  unfold big
  rw [vals_cons]
  by_cases h : θ < x.val
  · rw [List.filter_cons, if_pos (by simpa using h), outflow_cons, inflow_cons]
    simp [h]
  · rw [List.filter_cons, if_neg (by simpa using h)]
    simp [h]

theorem big_nil_of {θ : K} {tr : List (Nat × Nat × Fl F)} (h : ∀ t ∈ tr, t.2.2.val ≤ θ) :
    big θ tr = [] := by
  unfold big vals
  rw [List.filter_eq_nil_iff]
  intro t ht
  obtain ⟨t', h', rfl⟩ := List.mem_map.1 ht
  simpa using h t' h'

/-- One transfer and the bounds for the sums. -/
theorem flow_step {m a b x ρ θ : K} (st : StepOut F m a b x) (hm : F.rnd m = m)
    (hb : F.rnd b = b) (hm0 : 0 ≤ m) (hu : F.u ≤ 1 / 10) (hb0 : 0 ≤ b) (ham : m ≤ a)
    (hbm : b ≤ m + 3 * (F.u * m))
    (hρ : |F.rnd (a - x) - (a - x)| + |F.rnd (b + x) - (b + x)| + 3 * (F.u * m) ≤ ρ) :
    (if θ < x then x else 0) + max (F.rnd (a - x) - m) 0 ≤ max (a - m) 0 + ρ ∧
    (if θ < x then x else 0) + max (m - F.rnd (b + x)) 0 ≤ max (m - b) 0 + ρ ∧
    max (m - F.rnd (a - x)) 0 ≤ max (m - a) 0 + ρ ∧
    max (F.rnd (b + x) - m) 0 ≤ max (b - m) 0 + ρ := by
  have hum0 : 0 ≤ F.u * m := mul_nonneg F.u_nonneg hm0
  have hum : F.u * m ≤ m / 10 := by nlinarith
  have hA := abs_le.1 (le_refl |F.rnd (a - x) - (a - x)|)
  have hB := abs_le.1 (le_refl |F.rnd (b + x) - (b + x)|)
  have hA0 := abs_nonneg (F.rnd (a - x) - (a - x))
  have hB0 := abs_nonneg (F.rnd (b + x) - (b + x))
  have hρ0 : 3 * (F.u * m) ≤ ρ := by linarith
  have hsend := st.send
  have hx3 : F.rnd (a - x) = m ∨ -(3 * (F.u * m)) ≤ x := by
    rcases st.cases with ⟨h, -⟩ | ⟨h, -⟩
    · exact .inl h
    · right
      rw [h]
      rcases le_or_gt b m with hbm' | hbm'
      · have := F.rnd_nonneg (x := m - b) (by linarith); linarith
      · rw [F.sterbenz m b hm hb (by linarith) (by linarith)]; linarith
  have hnb : x ≤ max (m - b) 0 + F.u * m := by
    have h1 := F.near_sub hm hb
    have h2 : F.u * |m - b| ≤ F.u * m := by
      apply mul_le_mul_of_nonneg_left _ F.u_nonneg
      rw [abs_le]; constructor <;> linarith
    have h3 := (abs_le.1 (h1.trans h2)).2
    have := st.x_le_recv
    have := le_max_left (m - b) 0
    linarith
  refine ⟨?_, ?_, ?_, ?_⟩
  · rw [max_eq_left (by linarith : 0 ≤ F.rnd (a - x) - m), max_eq_left (by linarith : 0 ≤ a - m)]
    split
    · linarith [hA.2]
    · rcases hx3 with h | h
      · rw [h]; linarith
      · linarith [hA.2]
  · have l1 := le_max_left (m - b) 0
    have l2 := le_max_right (m - b) 0
    split
    · rcases le_total (m - F.rnd (b + x)) 0 with h | h
      · rw [max_eq_right h]; linarith
      · rw [max_eq_left h]; linarith [hB.1]
    · rcases st.cases with ⟨-, h2⟩ | ⟨-, h2⟩
      · have : 0 ≤ x := by rw [h2]; exact F.rnd_nonneg (by linarith)
        rcases le_total (m - F.rnd (b + x)) 0 with h | h
        · rw [max_eq_right h]; linarith
        · rw [max_eq_left h]; linarith [hB.1]
      · have := abs_le.1 h2
        have : max (m - F.rnd (b + x)) 0 ≤ 3 * (F.u * m) := max_le (by linarith) (by linarith)
        linarith
  · rw [max_eq_right (by linarith)]
    have := le_max_right (m - a) 0
    linarith
  · have := le_max_right (b - m) 0
    have := st.recv_le
    refine max_le (by linarith) (by linarith)

section
variable {mean : Fl F} {N : Nat} {σ Emax : K}

/-- The large transfers out of a position add up to at most its surplus and those into it to at
most its deficit, up to rounding errors. -/
theorem Run.fl_flow (B : FlBudget F mean N σ Emax) {θ : K}
    (hθ : 3 * Emax + (N : K) * (F.u * (2 * mean.val)) ≤ θ)
    (hα : 3 * Emax + (N : K) * (F.u * (2 * mean.val)) ≤ mean.val / 2)
    {v v' : Nat → Fl F} {s r : Nat} {tr : List (Nat × Nat × Fl F)} (h : Run mean v s r tr v') :
    ∀ E, FlInv mean.val (fun i => (v i).val) s r E →
      ((v r).val ≤ mean.val + 3 * (F.u * mean.val) ∨
        ∀ i, r < i → i < s → (v r).val ≤ (v i).val) →
      s - r ≤ N → 3 * (F.u * mean.val) ≤ E →
      E + ((s - r : Nat) : K) * (flRho F mean.val N + σ) ≤ Emax →
      ∀ i, outflow (big θ tr) i ≤
          max ((v i).val - mean.val) 0 + ((s - r : Nat) : K) * flRho F mean.val N ∧
        inflow (big θ tr) i ≤
          max (mean.val - (v i).val) 0 + ((s - r : Nat) : K) * flRho F mean.val N := by
  have hu2 : 0 ≤ F.u * (2 * mean.val) := mul_nonneg F.u_nonneg (by linarith [B.m0])
  have hum := mul_nonneg F.u_nonneg B.m0
  -- a state near the mean
  have quiet : ∀ {v v' : Nat → Fl F} {s r : Nat} {tr : List (Nat × Nat × Fl F)},
      Run mean v s r tr v' → s - r ≤ N → ∀ E, E ≤ Emax →
      ∑ i ∈ Finset.Icc r s, |(v i).val - mean.val| ≤ 3 * E → ∀ i,
      outflow (big θ tr) i ≤
          max ((v i).val - mean.val) 0 + ((s - r : Nat) : K) * flRho F mean.val N ∧
        inflow (big θ tr) i ≤
          max (mean.val - (v i).val) 0 + ((s - r : Nat) : K) * flRho F mean.val N := by
    intro v v' s r tr hrun hN E hE hsum i
    have hc : ((s - r : Nat) : K) * (F.u * (2 * mean.val)) ≤ (N : K) * (F.u * (2 * mean.val)) :=
      mul_le_mul_of_nonneg_right (by exact_mod_cast hN) hu2
    rw [big_nil_of (fun t ht => (hrun.fl_quiet hα B.m0 (by linarith) t ht).trans hθ)]
    have h1 : 0 ≤ ((s - r : Nat) : K) * flRho F mean.val N :=
      mul_nonneg (Nat.cast_nonneg _) B.rho_nonneg
    have h2 := le_max_right ((v i).val - mean.val) 0
    have h3 := le_max_right (mean.val - (v i).val) 0
    simp only [outflow, inflow, List.filter_nil, List.map_nil, List.sum_nil]
    constructor <;> linarith
  -- a state that is not, and its successor
  have live : ∀ {v : Nat → Fl F} {s r : Nat} {E : K} {tr : List (Nat × Nat × Fl F)} {k : K},
      r < s → FlInv mean.val (fun i => (v i).val) s r E → s - r ≤ N →
      3 * (F.u * mean.val) ≤ E → E ≤ Emax → mean.val ≤ (v s).val →
      (v r).val ≤ mean.val + 3 * (F.u * mean.val) →
      (∀ i, outflow (big θ tr) i ≤
          max ((xfer v s r (amount mean v s r) i).val - mean.val) 0 + k ∧
        inflow (big θ tr) i ≤
          max (mean.val - (xfer v s r (amount mean v s r) i).val) 0 + k) → ∀ i,
      outflow (big θ ((s, r, amount mean v s r) :: tr)) i ≤
          max ((v i).val - mean.val) 0 + (k + flRho F mean.val N) ∧
        inflow (big θ ((s, r, amount mean v s r) :: tr)) i ≤
          max (mean.val - (v i).val) 0 + (k + flRho F mean.val N) := by
    intro v s r E tr k hrs hI hN h3 hEm ham hbm ih i
    have hEm' := hEm.trans B.Emax_le
    obtain ⟨st, -⟩ := hI.step hrs mean.ok (v s).ok (v r).ok B.hu h3 hEm' B.m0
    have herr := hI.step_errors B hN hEm' st
    rw [← amount_val] at st herr
    obtain ⟨f1, f2, f3, f4⟩ := flow_step st mean.ok (v r).ok B.m0 B.hu
      (hI.nonneg r (le_refl r) hrs.le) ham hbm herr
    obtain ⟨o, q⟩ := ih i
    rw [(big_cons θ _ _ _ _ i).1, (big_cons θ _ _ _ _ i).2]
    rw [xfer_val] at o q
    have hρ := B.rho_nonneg
    by_cases h1 : i = s
    · subst h1
      have hne : ¬ r = i := by omega
      simp only [if_true, if_neg hne, zero_add] at o q ⊢
      constructor <;> linarith
    · by_cases h2 : i = r
      · subst h2
        simp only [if_neg h1, if_true, if_neg (Ne.symm h1), zero_add] at o q ⊢
        constructor <;> linarith
      · simp only [if_neg h1, if_neg h2, if_neg (Ne.symm h1), if_neg (Ne.symm h2),
          zero_add] at o q ⊢
        constructor <;> linarith
  have hδ : 0 ≤ flRho F mean.val N + σ := add_nonneg B.rho_nonneg B.sigma
  induction h with
  | done v m =>
    intro E hI _ _ _ _ i
    have h2 := le_max_right ((v i).val - mean.val) 0
    have h3 := le_max_right (mean.val - (v i).val) 0
    simp [outflow, inflow, big, vals]
  | @down v v' s r tr h hc hr ih =>
    intro E hI hf hN h3 hE
    have e : ((s + 1 - r : Nat) : K) = ((s - r : Nat) : K) + 1 := by
      rw [Nat.sub_add_comm (by omega)]; push_cast; rfl
    have hn : (0 : K) ≤ ((s - r : Nat) : K) * (flRho F mean.val N + σ) :=
      mul_nonneg (Nat.cast_nonneg _) hδ
    have hE' := hE
    rw [e] at hE'
    have hEm : E ≤ Emax := by linarith
    have hE0 : 0 ≤ E := by linarith
    have hrun : Run mean v (s + 1) r ((s + 1, r, amount mean v (s + 1) r) :: tr) v' :=
      Run.down h hc hr
    rcases lt_or_ge (v (s + 1)).val mean.val with hl | hl
    · exact quiet hrun hN E hEm (hI.quiet_low h hE0 hl)
    · rcases le_or_gt (v r).val (mean.val + 3 * (F.u * mean.val)) with hb | hb
      · have hI' := hI.run_down B h hN h3 hEm hc
        obtain ⟨st, -⟩ := hI.step h mean.ok (v (s + 1)).ok (v r).ok B.hu h3
          (hEm.trans B.Emax_le) B.m0
        have ih' := ih _ hI' (.inl (by
          rw [xfer_val, if_neg (by omega), if_pos rfl, amount_val]; exact st.recv_le))
          (by omega) (by linarith) (by linarith)
        rw [e, add_mul, one_mul]
        exact live h hI hN h3 hEm hl hb ih'
      · exact quiet hrun hN E hEm (hI.quiet_high h hE0 (by linarith)
          (hf.resolve_left (not_le.2 hb)))
  | @up v v' s r tr h hc hr ih =>
    intro E hI hf hN h3 hE
    have e : ((s - r : Nat) : K) = ((s - (r + 1) : Nat) : K) + 1 := by
      have : s - r = s - (r + 1) + 1 := by omega
      rw [this]; push_cast; rfl
    have hn : (0 : K) ≤ ((s - (r + 1) : Nat) : K) * (flRho F mean.val N + σ) :=
      mul_nonneg (Nat.cast_nonneg _) hδ
    have hE' := hE
    rw [e] at hE'
    have hEm : E ≤ Emax := by linarith
    have hE0 : 0 ≤ E := by linarith
    have hrun : Run mean v s r ((s, r, amount mean v s r) :: tr) v' := Run.up h hc hr
    rcases lt_or_ge (v s).val mean.val with hl | hl
    · exact quiet hrun hN E hEm (hI.quiet_low h hE0 hl)
    · rcases le_or_gt (v r).val (mean.val + 3 * (F.u * mean.val)) with hb | hb
      · obtain ⟨hI', -⟩ := hI.run_up B h hN h3 hEm hc
        have ih' := ih _ hI' (.inr (by
          intro i h1 h2
          rw [xfer_val, if_neg (by omega), if_neg (by omega), xfer_val, if_neg (by omega),
            if_neg (by omega)]
          exact hI.mono (r + 1) i (by omega) (by omega) h2))
          (by omega) (by linarith) (by linarith)
        rw [e, add_mul, one_mul]
        exact live h hI hN h3 hEm hl hb ih'
      · exact quiet hrun hN E hEm (hI.quiet_high h hE0 (by linarith)
          (hf.resolve_left (not_le.2 hb)))

end

end DLB
