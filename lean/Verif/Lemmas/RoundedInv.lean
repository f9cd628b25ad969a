import Verif.Lemmas.RoundedStep
import Mathlib.Algebra.Order.BigOperators.Group.Finset
import Mathlib.Algebra.BigOperators.Intervals
/-
The invariant of the planning loop with rounding.
-/
set_option autoImplicit false
set_option linter.unusedSectionVars false

namespace DLB

variable {K : Type} [Field K] [LinearOrder K] [IsStrictOrderedRing K]

/-- The invariant of the loop with rounding.  `E` bounds the accumulated errors. -/
structure FlInv (m : K) (W : Nat → K) (s r : Nat) (E : K) : Prop where
  le : r ≤ s
  sum : |∑ i ∈ Finset.Icc r s, (W i - m)| ≤ E
  nonneg : ∀ i, r ≤ i → i ≤ s → 0 ≤ W i
  mono : ∀ i j, r < i → i ≤ j → j < s → W i ≤ W j
  above : m ≤ W s ∨ ∀ i, r < i → i < s → W i ≤ m
  recv : r < s → W r ≤ m + E

theorem FlInv.sender_bound {m : K} {W : Nat → K} {s r : Nat} {E : K} (h : FlInv m W s r E) :
    W s ≤ m + E + ((s - r : Nat) : K) * m := by
  have hs : s ∈ Finset.Icc r s := Finset.mem_Icc.2 ⟨h.le, le_refl s⟩
  have h1 := (abs_le.1 h.sum).2
  rw [← Finset.add_sum_erase _ _ hs] at h1
  have h2 : ∑ _i ∈ (Finset.Icc r s).erase s, (-m) ≤ ∑ i ∈ (Finset.Icc r s).erase s, (W i - m) := by
    apply Finset.sum_le_sum
    intro i hi
    have := Finset.mem_Icc.1 (Finset.mem_of_mem_erase hi)
    have := h.nonneg i this.1 this.2
    linarith
  rw [Finset.sum_const, Finset.card_erase_of_mem hs, Nat.card_Icc, nsmul_eq_mul] at h2
  have e : s + 1 - r - 1 = s - r := by omega
  rw [e] at h2
  linarith

/-- A sender below the mean: everything left is near the mean. -/
theorem FlInv.quiet_low {m : K} {W : Nat → K} {s r : Nat} {E : K} (h : FlInv m W s r E)
    (hrs : r < s) (hE : 0 ≤ E) (hlt : W s < m) : ∑ i ∈ Finset.Icc r s, |W i - m| ≤ 3 * E := by
  have hi := h.above.resolve_left (not_le.2 hlt)
  have hr := h.recv hrs
  have h1 : ∑ i ∈ Finset.Icc r s, |W i - m| ≤
      ∑ i ∈ Finset.Icc r s, (-(W i - m) + (if i = r then 2 * E else 0)) := by
    apply Finset.sum_le_sum
    intro i him
    have hb := Finset.mem_Icc.1 him
    by_cases hir : i = r
    · rw [if_pos hir, hir]
      rcases abs_cases (W r - m) with ⟨e, _⟩ | ⟨e, _⟩ <;> rw [e] <;> linarith
    · rw [if_neg hir]
      have : W i ≤ m := by
        by_cases his : i = s
        · rw [his]; exact hlt.le
        · exact hi i (by omega) (by omega)
      rw [abs_of_nonpos (by linarith)]; linarith
  rw [Finset.sum_add_distrib, Finset.sum_neg_distrib, Finset.sum_ite_eq',
    if_pos (Finset.mem_Icc.2 ⟨le_refl r, h.le⟩)] at h1
  have := (abs_le.1 h.sum).1
  linarith

/-- A receiver above the mean, with nothing smaller left. -/
theorem FlInv.quiet_high {m : K} {W : Nat → K} {s r : Nat} {E : K} (h : FlInv m W s r E)
    (hrs : r < s) (hE : 0 ≤ E) (hgt : m < W r) (hf : ∀ i, r < i → i < s → W r ≤ W i) :
    ∑ i ∈ Finset.Icc r s, |W i - m| ≤ 3 * E := by
  rcases lt_or_ge (W s) m with hl | hl
  · exact h.quiet_low hrs hE hl
  · have : ∑ i ∈ Finset.Icc r s, |W i - m| = ∑ i ∈ Finset.Icc r s, (W i - m) := by
      apply Finset.sum_congr rfl
      intro i him
      have hb := Finset.mem_Icc.1 him
      apply abs_of_nonneg
      by_cases hir : i = r
      · rw [hir]; linarith
      · by_cases his : i = s
        · rw [his]; linarith
        · have := hf i (by omega) (by omega); linarith
    rw [this]
    have := (abs_le.1 h.sum).2
    linarith

theorem term_le_sum {m : K} {W : Nat → K} {s r i : Nat} (h1 : r ≤ i) (h2 : i ≤ s) :
    |W i - m| ≤ ∑ i ∈ Finset.Icc r s, |W i - m| :=
  Finset.single_le_sum (f := fun i => |W i - m|) (fun _ _ => abs_nonneg _)
    (Finset.mem_Icc.2 ⟨h1, h2⟩)

theorem FlInv.sender_low {m : K} {W : Nat → K} {s r : Nat} {E : K} (h : FlInv m W s r E)
    (hrs : r < s) (hE : 0 ≤ E) (hEm : E ≤ m / 10) : m / 2 ≤ W s := by
  rcases lt_or_ge (W s) m with hl | hl
  · have h1 := (abs_le.1 ((term_le_sum hrs.le (le_refl s)).trans (h.quiet_low hrs hE hl))).1
    linarith
  · have := h.nonneg s h.le (le_refl s)
    have : 0 ≤ m := by linarith
    linarith

/-- One transfer from a state with the invariant. -/
theorem FlInv.step {F : FloatFormat K} {m : K} {W : Nat → K} {s r : Nat} {E : K}
    (h : FlInv m W s r E) (hrs : r < s) (hm : F.rnd m = m) (ha : F.rnd (W s) = W s)
    (hb : F.rnd (W r) = W r) (hu : F.u ≤ 1 / 10) (hE : 3 * (F.u * m) ≤ E) (hEm : E ≤ m / 10)
    (hm0 : 0 ≤ m) :
    StepOut F m (W s) (W r) (F.rnd (min (W s - m) (m - W r))) ∧
      0 ≤ F.rnd (W r + F.rnd (min (W s - m) (m - W r))) := by
  have hum0 : 0 ≤ F.u * m := mul_nonneg F.u_nonneg hm0
  have hE0 : 0 ≤ E := by linarith
  have hlo := h.sender_low hrs hE0 hEm
  have hb0 := h.nonneg r (le_refl r) hrs.le
  have hbm := h.recv hrs
  have st := fl_step F hm ha hb hm0 hu hb0 (by linarith) hlo
  refine ⟨st, ?_⟩
  rcases st.cases with ⟨h1, h2⟩ | ⟨-, h2⟩
  · apply F.rnd_nonneg
    rcases lt_or_ge (W s) m with hl | hl
    · rw [h2, F.sterbenz (W s) m ha hm hlo (by linarith)]
      have hq := h.quiet_low hrs hE0 hl
      have hi := h.above.resolve_left (not_le.2 hl)
      have hs : s ∈ Finset.Icc r s := Finset.mem_Icc.2 ⟨h.le, le_refl s⟩
      have hr : r ∈ (Finset.Icc r s).erase s :=
        Finset.mem_erase.2 ⟨by omega, Finset.mem_Icc.2 ⟨le_refl r, h.le⟩⟩
      have h1 := (abs_le.1 h.sum).1
      rw [← Finset.add_sum_erase _ _ hs, ← Finset.add_sum_erase _ _ hr] at h1
      have : ∑ i ∈ ((Finset.Icc r s).erase s).erase r, (W i - m) ≤ 0 := by
        apply Finset.sum_nonpos
        intro i hi'
        have e1 := Finset.mem_erase.1 hi'
        have e2 := Finset.mem_erase.1 e1.2
        have e3 := Finset.mem_Icc.1 e2.2
        have := hi i (by omega) (by omega)
        linarith
      linarith
    · have : 0 ≤ F.rnd (W s - m) := F.rnd_nonneg (by linarith)
      rw [← h2] at this
      linarith
  · have := (abs_le.1 h2).1
    linarith

theorem FlInv.down {m : K} {W W' : Nat → K} {s r : Nat} {E δ a' x : K}
    (h : FlInv m W (s + 1) r E) (hrs : r < s + 1) (hW : ∀ i, r < i → i ≤ s → W' i = W i)
    (hb0 : 0 ≤ W' r) (hbm : W' r ≤ m + (E + δ))
    (herr : |a' - m| + |a' - (W (s + 1) - x)| + |W' r - (W r + x)| ≤ δ) :
    FlInv m W' s r (E + δ) := by
  refine ⟨by omega, ?_, ?_, ?_, ?_, fun _ => hbm⟩
  · have h1 := h.sum
    rw [Finset.sum_Icc_succ_top (by omega)] at h1
    have h2 : ∑ i ∈ Finset.Icc r s, (W' i - m) =
        ∑ i ∈ Finset.Icc r s, (W i - m) + (W' r - W r) := by
      have : ∀ i ∈ Finset.Icc r s, W' i - m = (W i - m) + (if i = r then W' r - W r else 0) := by
        intro i hi
        have := Finset.mem_Icc.1 hi
        by_cases h3 : i = r
        · subst h3; rw [if_pos rfl]; ring
        · rw [if_neg h3, hW i (by omega) (by omega), add_zero]
      rw [Finset.sum_congr rfl this, Finset.sum_add_distrib, Finset.sum_ite_eq',
        if_pos (Finset.mem_Icc.2 ⟨le_refl r, by omega⟩)]
    rw [h2]
    have e : ∑ i ∈ Finset.Icc r s, (W i - m) + (W' r - W r) =
        (∑ i ∈ Finset.Icc r s, (W i - m) + (W (s + 1) - m)) +
        (-(a' - m) + (a' - (W (s + 1) - x)) + (W' r - (W r + x))) := by ring
    rw [e]
    refine (abs_add_le _ _).trans (add_le_add h1 (le_trans ?_ herr))
    refine (abs_add_le _ _).trans (add_le_add ?_ (le_refl _))
    refine (abs_add_le _ _).trans (add_le_add ?_ (le_refl _))
    rw [abs_neg]
  · intro i h1 h2
    by_cases h3 : i = r
    · rw [h3]; exact hb0
    · rw [hW i (by omega) h2]; exact h.nonneg i h1 (by omega)
  · intro i j h1 h2 h3
    rw [hW i h1 (by omega), hW j (by omega) (by omega)]
    exact h.mono i j h1 h2 (by omega)
  · by_cases hsr : s = r
    · right; intro i h1 h2; omega
    · rcases le_or_gt m (W s) with hl | hl
      · left; rw [hW s (by omega) (le_refl s)]; exact hl
      · right
        intro i h1 h2
        rw [hW i h1 h2.le]
        exact (h.mono i s h1 h2.le (by omega)).trans hl.le

theorem FlInv.up {m : K} {W W' : Nat → K} {s r : Nat} {E δ b' x : K}
    (h : FlInv m W s r E) (hrs : r < s) (hW : ∀ i, r < i → i < s → W' i = W i)
    (ha : m ≤ W' s) (hm0 : 0 ≤ m)
    (herr : |b' - m| + |W' s - (W s - x)| + |b' - (W r + x)| ≤ δ) :
    FlInv m W' s (r + 1) (E + δ) := by
  have hsum : |∑ i ∈ Finset.Icc (r + 1) s, (W' i - m)| ≤ E + δ := by
    have h1 := h.sum
    have e : Finset.Icc r s = insert r (Finset.Icc (r + 1) s) := by
      ext i; simp only [Finset.mem_Icc, Finset.mem_insert]; omega
    rw [e, Finset.sum_insert (by simp)] at h1
    have h2 : ∑ i ∈ Finset.Icc (r + 1) s, (W' i - m) =
        ∑ i ∈ Finset.Icc (r + 1) s, (W i - m) + (W' s - W s) := by
      have : ∀ i ∈ Finset.Icc (r + 1) s,
          W' i - m = (W i - m) + (if i = s then W' s - W s else 0) := by
        intro i hi
        have := Finset.mem_Icc.1 hi
        by_cases h3 : i = s
        · subst h3; rw [if_pos rfl]; ring
        · rw [if_neg h3, hW i (by omega) (by omega), add_zero]
      rw [Finset.sum_congr rfl this, Finset.sum_add_distrib, Finset.sum_ite_eq',
        if_pos (Finset.mem_Icc.2 ⟨by omega, le_refl s⟩)]
    rw [h2]
    have e : ∑ i ∈ Finset.Icc (r + 1) s, (W i - m) + (W' s - W s) =
        (W r - m + ∑ i ∈ Finset.Icc (r + 1) s, (W i - m)) +
        (-(b' - m) + (W' s - (W s - x)) + (b' - (W r + x))) := by ring
    rw [e]
    refine (abs_add_le _ _).trans (add_le_add h1 (le_trans ?_ herr))
    refine (abs_add_le _ _).trans (add_le_add ?_ (le_refl _))
    refine (abs_add_le _ _).trans (add_le_add ?_ (le_refl _))
    rw [abs_neg]
  have hmono : ∀ i j, r + 1 ≤ i → i ≤ j → j < s → W' i ≤ W' j := by
    intro i j h1 h2 h3
    rw [hW i h1 (by omega), hW j (by omega) h3]
    exact h.mono i j h1 h2 h3
  refine ⟨by omega, hsum, ?_, fun i j h1 h2 h3 => hmono i j (by omega) h2 h3, .inl ha, ?_⟩
  · intro i h1 h2
    by_cases h3 : i = s
    · rw [h3]; linarith
    · rw [hW i (by omega) (by omega)]; exact h.nonneg i (by omega) h2
  · intro hlt
    by_contra hc
    push Not at hc
    have hE : 0 ≤ E + δ := (abs_nonneg _).trans hsum
    have hmem : r + 1 ∈ Finset.Icc (r + 1) s := Finset.mem_Icc.2 ⟨le_refl _, hlt.le⟩
    have h1 := (abs_le.1 hsum).2
    rw [← Finset.add_sum_erase _ _ hmem] at h1
    have : 0 ≤ ∑ i ∈ (Finset.Icc (r + 1) s).erase (r + 1), (W' i - m) := by
      apply Finset.sum_nonneg
      intro i hi
      have e1 := Finset.mem_Icc.1 (Finset.mem_of_mem_erase hi)
      by_cases h3 : i = s
      · rw [h3]; linarith
      · have := hmono (r + 1) i (le_refl _) e1.1 (by omega)
        linarith
    linarith

end DLB
