import Verif.Lemmas.RateChecks
/-
Bounds of activation temperatures and of the terms of Gibbs energies between 200 K and 6000 K.
-/
set_option autoImplicit false
set_option linter.unusedSectionVars false

namespace DLB

/-- An upper bound of `|d| * num / den`. -/
def SDec.ceil (d : SDec) (num den : Nat) : Nat := d.1.natAbs * num / (10 ^ d.2 * den) + 1

theorem ceil_ge (d : SDec) (num den : Nat) (hd : 0 < den) : |(SDec.val d : ℝ)| * num / den ≤ d.ceil num den := by
  have e : |(SDec.val d : ℝ)| * num / den = ((d.1.natAbs * num : Nat) : ℝ) / ((10 ^ d.2 * den : Nat) : ℝ) := by
    unfold SDec.val
    rw [abs_div, abs_of_pos (show (0 : ℝ) < 10 ^ d.2 by positivity)]
    have : ((d.1.natAbs : Nat) : ℝ) = |(d.1 : ℝ)| := by
      rw [Nat.cast_natAbs, Int.cast_abs]
    push_cast
    rw [this]
    field_simp
  have hp : 0 < 10 ^ d.2 * den := by positivity
  rw [e, div_le_iff₀ (by exact_mod_cast hp)]
  have := Nat.lt_div_mul_add (a := d.1.natAbs * num) hp
  have h2 : d.1.natAbs * num ≤ (d.1.natAbs * num / (10 ^ d.2 * den) + 1) * (10 ^ d.2 * den) := by
    rw [add_mul, one_mul]
    exact this.le
  unfold SDec.ceil
  exact_mod_cast h2

/-- An upper bound of the terms of the Gibbs energy between `t1` and `t2`. -/
def gCeil (a : List SDec) (t1 t2 : Nat) : Nat :=
  (a.getD 6 (0, 0)).ceil 1 1 + (a.getD 0 (0, 0)).ceil 10 1 + 9 + (a.getD 1 (0, 0)).ceil t2 2 + (a.getD 2 (0, 0)).ceil (t2 ^ 2) 6 +
    (a.getD 3 (0, 0)).ceil (t2 ^ 3) 12 + (a.getD 4 (0, 0)).ceil (t2 ^ 4) 20 + (a.getD 5 (0, 0)).ceil 1 t1

theorem log_bound (T : ℝ) (h1 : 200 ≤ T) (h2 : T ≤ 6000) : |Real.log T| ≤ 9 := by
  rw [abs_of_nonneg (Real.log_nonneg (by linarith)), Real.log_le_iff_le_exp (by linarith)]
  have e : Real.exp 9 = Real.exp 1 ^ 9 := by rw [← Real.exp_nat_mul]; norm_num
  rw [e]
  have : (27 / 10 : ℝ) ^ 9 ≤ Real.exp 1 ^ 9 := pow_le_pow_left₀ (by norm_num) (le_trans (by norm_num) Real.exp_one_gt_d9.le) _
  refine le_trans ?_ this
  norm_num
  linarith

theorem gCeil_ge (a : List SDec) (t1 t2 : Nat) (ht : 0 < t1) (T : ℝ) (h1 : 200 ≤ T) (h2 : T ≤ 6000) (h3 : (t1 : ℝ) ≤ T) (h4 : T ≤ t2) :
    gTerms a T ≤ gCeil a t1 t2 := by
  have hl := log_bound T h1 h2
  have c0 := ceil_ge (a.getD 0 (0, 0)) 10 1 (by norm_num)
  have c1 := ceil_ge (a.getD 1 (0, 0)) t2 2 (by norm_num)
  have c2 := ceil_ge (a.getD 2 (0, 0)) (t2 ^ 2) 6 (by norm_num)
  have c3 := ceil_ge (a.getD 3 (0, 0)) (t2 ^ 3) 12 (by norm_num)
  have c4 := ceil_ge (a.getD 4 (0, 0)) (t2 ^ 4) 20 (by norm_num)
  have c5 := ceil_ge (a.getD 5 (0, 0)) 1 t1 ht
  have c6 := ceil_ge (a.getD 6 (0, 0)) 1 1 (by norm_num)
  push_cast at c0 c1 c2 c3 c4 c5 c6
  unfold gTerms gCeil nasaCoeff
  push_cast
  have hT : 0 ≤ T := by linarith
  have b0 : (|(SDec.val (a.getD 0 (0, 0)) : ℝ)| + 1) * |Real.log T| ≤ (|(SDec.val (a.getD 0 (0, 0)) : ℝ)| + 1) * 9 :=
    mul_le_mul_of_nonneg_left hl (by positivity)
  have p : ∀ (c : ℝ) (k : Nat) (d : ℝ), 0 < d → |c| * T ^ k / d ≤ |c| * (t2 : ℝ) ^ k / d := by
    intro c k d hd
    refine div_le_div_of_nonneg_right ?_ hd.le
    exact mul_le_mul_of_nonneg_left (pow_le_pow_left₀ hT h4 k) (abs_nonneg _)
  have p1 := p (SDec.val (a.getD 1 (0, 0))) 1 2 (by norm_num)
  have p2 := p (SDec.val (a.getD 2 (0, 0))) 2 6 (by norm_num)
  have p3 := p (SDec.val (a.getD 3 (0, 0))) 3 12 (by norm_num)
  have p4 := p (SDec.val (a.getD 4 (0, 0))) 4 20 (by norm_num)
  rw [pow_one, pow_one] at p1
  have p5 : |(SDec.val (a.getD 5 (0, 0)) : ℝ)| / T ≤ |(SDec.val (a.getD 5 (0, 0)) : ℝ)| * 1 / t1 := by
    rw [mul_one]
    exact div_le_div_of_nonneg_left (abs_nonneg _) (by exact_mod_cast ht) h3
  have e0 : |(SDec.val (a.getD 0 (0, 0)) : ℝ)| * 10 / 1 = |(SDec.val (a.getD 0 (0, 0)) : ℝ)| * 10 := div_one _
  have e6 : |(SDec.val (a.getD 6 (0, 0)) : ℝ)| * 1 / 1 = |(SDec.val (a.getD 6 (0, 0)) : ℝ)| := by rw [div_one, mul_one]
  rw [e0] at c0
  rw [e6] at c6
  linarith

/-- The part before the point of the middle temperature. -/
def Nasa.mid (f : Nasa) : Nat := f.tMid.1 / 10 ^ f.tMid.2

/-- A bound of the terms of species `s` between 200 K and 6000 K. -/
def Package.gBound (D : Package) (s : Nat) : Nat :=
  max (gCeil (D.fit s).low 200 ((D.fit s).mid + 1)) (gCeil (D.fit s).high (max 200 (D.fit s).mid) 6000)

theorem gBound_ge (D : Package) (s : Nat) (T : ℝ) (h1 : 200 ≤ T) (h2 : T ≤ 6000) : gTerms ((D.fit s).at T) T ≤ D.gBound s := by
  have hp : 0 < 10 ^ (D.fit s).tMid.2 := by positivity
  have hpr : (0 : ℝ) < 10 ^ (D.fit s).tMid.2 := by positivity
  unfold Nasa.at Package.gBound
  push_cast
  split
  · rename_i hle
    refine le_trans (gCeil_ge _ 200 ((D.fit s).mid + 1) (by norm_num) T h1 h2 (by exact_mod_cast h1) ?_) (le_max_left _ _)
    refine hle.trans ?_
    rw [div_le_iff₀ hpr]
    have := Nat.lt_div_mul_add (a := (D.fit s).tMid.1) hp
    have h3 : (D.fit s).tMid.1 ≤ ((D.fit s).mid + 1) * 10 ^ (D.fit s).tMid.2 := by
      unfold Nasa.mid
      rw [add_mul, one_mul]
      exact this.le
    exact_mod_cast h3
  · rename_i hle
    refine le_trans (gCeil_ge _ (max 200 (D.fit s).mid) 6000 (by simp) T h1 h2 ?_ (by exact_mod_cast h2)) (le_max_right _ _)
    push_cast
    refine max_le h1 (le_trans ?_ (not_le.1 hle).le)
    rw [le_div_iff₀ hpr]
    have := Nat.div_mul_le_self (D.fit s).tMid.1 (10 ^ (D.fit s).tMid.2)
    unfold Nasa.mid
    exact_mod_cast this

theorem list_range_sum (f : Nat → Nat) (n : Nat) : ((List.range n).map f).sum = ∑ i ∈ Finset.range n, f i := by
  induction n with
  | zero => simp
  | succ n ih => rw [List.sum_range_succ, Finset.sum_range_succ, ih]

theorem map_range_getD (f : Nat → Nat) (n s : Nat) (h : s < n) : ((List.range n).map f).getD s 0 = f s := by
  rw [List.getD_eq_getElem?_getD]
  simp [h]

/-- The activation energy is at most 390000 cal/mol. -/
def Arrhenius.small (a : Arrhenius) : Bool := Nat.ble a.E.1.natAbs (390000 * 10 ^ a.E.2)

theorem small_sound {a : Arrhenius} (h : a.small = true) (T : ℝ) (h1 : 200 ≤ T) : |a.temperature| / T ≤ 1000 := by
  have a2 : a.E.1.natAbs ≤ 390000 * 10 ^ a.E.2 := Nat.le_of_ble_eq_true h
  rw [div_le_iff₀ (by linarith)]
  have hp : (0 : ℝ) < 10 ^ a.E.2 := by positivity
  have hE : |(SDec.val a.E : ℝ)| ≤ 390000 := by
    unfold SDec.val
    rw [abs_div, abs_of_pos hp, div_le_iff₀ hp]
    have : ((a.E.1.natAbs : Nat) : ℝ) ≤ ((390000 * 10 ^ a.E.2 : Nat) : ℝ) := Nat.cast_le.2 a2
    rw [Nat.cast_natAbs, Int.cast_abs] at this
    push_cast at this
    exact this
  have hR : (gasR : ℝ) = 83144621 / 10000 := by
    unfold gasR
    norm_num
  unfold Arrhenius.temperature
  rw [abs_div, abs_mul, hR, abs_of_pos (by norm_num : (0 : ℝ) < 4184), abs_of_pos (by norm_num : (0 : ℝ) < 83144621 / 10000),
    div_le_iff₀ (by norm_num)]
  linarith

/-- The terms of the Gibbs energies of a reaction sum to at most 4000; `g` are bounds for the species. -/
def Reaction.smallTerms (r : Reaction) (nsp : Nat) (g : List Nat) : Bool :=
  Nat.ble ((List.range nsp).map fun s => (r.net s).natAbs * g.getD s 0).sum 4000

theorem smallTerms_sound {D : Package} {r : Reaction} (h : r.smallTerms D.nsp ((List.range D.nsp).map D.gBound) = true) (T : ℝ)
    (h1 : 200 ≤ T) (h2 : T ≤ 6000) : gibbsTerms D.nsp D.fit r T ≤ 4000 := by
  have a1 := Nat.le_of_ble_eq_true h
  have e : ((List.range D.nsp).map fun s => (r.net s).natAbs * ((List.range D.nsp).map D.gBound).getD s 0) =
      (List.range D.nsp).map fun s => (r.net s).natAbs * D.gBound s := by
    refine List.map_congr_left fun s hs => ?_
    have hs' : s < D.nsp := List.mem_range.1 hs
    rw [map_range_getD _ _ _ hs']
  rw [e, list_range_sum] at a1
  have a3 : ∀ N : Nat, N ≤ 4000 → (N : ℝ) ≤ 4000 := fun N hN => by exact_mod_cast hN
  refine le_trans ?_ (a3 _ a1)
  rw [gibbsTerms, Nat.cast_sum]
  refine Finset.sum_le_sum fun s _ => ?_
  rw [Nat.cast_mul, Nat.cast_natAbs, Int.cast_abs]
  exact mul_le_mul_of_nonneg_left (gBound_ge D s T h1 h2) (abs_nonneg _)

/-- Bounds for all reactions. -/
def boundsOk (D : Package) : Bool :=
  let g := (List.range D.nsp).map D.gBound
  (number D.reactions).all fun n => n.r.smallTerms D.nsp g && (D.law n.k).high.small

theorem boundsOk_sound {D : Package} (h : boundsOk D = true) (n : Numbered) (hn : n ∈ number D.reactions) (T : ℝ) (h1 : 200 ≤ T)
    (h2 : T ≤ 6000) : gibbsTerms D.nsp D.fit n.r T ≤ 4000 ∧ |(D.law n.k).high.temperature| / T ≤ 1000 := by
  simp only [boundsOk, List.all_eq_true, Bool.and_eq_true] at h
  exact ⟨smallTerms_sound (h n hn).1 T h1 h2, small_sound (h n hn).2 T h1⟩

end DLB
