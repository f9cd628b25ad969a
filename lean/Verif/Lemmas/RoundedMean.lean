import Verif.Lemmas.RoundedFlow
import Verif.Props.Levels
import Mathlib.Tactic.FieldSimp
/-
Sums and the mean with rounding, and the state in which the planning loop starts.
-/
set_option autoImplicit false
set_option linter.unusedSectionVars false

namespace DLB

variable {K : Type} [Field K] [LinearOrder K] [IsStrictOrderedRing K] {F : FloatFormat K}

/-- A running sum of numbers that are not negative. -/
theorem foldl_fl {α : Type} (f : α → Fl F) : ∀ (l : List α) (acc : Fl F) (A : K) (k : Nat),
    (∀ x ∈ l, 0 ≤ (f x).val) → 0 ≤ A → 2 * ((k + l.length : Nat) : K) * F.u ≤ 1 →
    |acc.val - A| ≤ 2 * (k : K) * F.u * A →
    |(l.foldl (fun s x => s + f x) acc).val - (A + (l.map (fun x => (f x).val)).sum)| ≤
      2 * ((k + l.length : Nat) : K) * F.u * (A + (l.map (fun x => (f x).val)).sum)
  | [], acc, A, k, _, _, _, h => by simpa using h
  | x :: l, acc, A, k, hnn, hA, hk, h => by
    have hx := hnn x (by simp)
    have hu := F.u_nonneg
    have hlen : (x :: l).length = l.length + 1 := rfl
    rw [List.foldl_cons, List.map_cons, List.sum_cons, ← add_assoc, hlen]
    have e : k + (l.length + 1) = k + 1 + l.length := by omega
    rw [e]
    rw [hlen, e] at hk
    apply foldl_fl f l (acc + f x) (A + (f x).val) (k + 1) (fun y hy => hnn y (by simp [hy]))
      (by linarith) hk
    have hk1 : 2 * (k : K) * F.u ≤ 1 := by
      refine le_trans ?_ hk
      apply mul_le_mul_of_nonneg_right _ hu
      push_cast
      have : (0 : K) ≤ (l.length : K) := Nat.cast_nonneg _
      linarith
    rw [Fl.val_add]
    have h1 := F.near_add acc.val (f x).val acc.ok (f x).ok
    have h2 := abs_le.1 h
    have hkA : 2 * (k : K) * F.u * A ≤ 1 * A := mul_le_mul_of_nonneg_right hk1 hA
    have hk0 : 0 ≤ 2 * (k : K) * F.u :=
      mul_nonneg (mul_nonneg (by norm_num) (Nat.cast_nonneg _)) hu
    have h3 : F.u * |acc.val + (f x).val| ≤ F.u * (2 * (A + (f x).val)) := by
      apply mul_le_mul_of_nonneg_left _ hu
      rw [abs_le]; constructor <;> linarith [h2.1, h2.2]
    have h4 : 2 * (k : K) * F.u * A ≤ 2 * (k : K) * F.u * (A + (f x).val) :=
      mul_le_mul_of_nonneg_left (by linarith) hk0
    have e2 : F.rnd (acc.val + (f x).val) - (A + (f x).val) =
        (F.rnd (acc.val + (f x).val) - (acc.val + (f x).val)) + (acc.val - A) := by ring
    rw [e2]
    refine (abs_add_le _ _).trans ?_
    push_cast
    have : 2 * ((k : K) + 1) * F.u * (A + (f x).val) =
        2 * (k : K) * F.u * (A + (f x).val) + F.u * (2 * (A + (f x).val)) := by ring
    rw [this]
    linarith

/-- A sum from zero. -/
theorem sum_fl {α : Type} (f : α → Fl F) (l : List α) (hnn : ∀ x ∈ l, 0 ≤ (f x).val)
    (hl : 2 * (l.length : K) * F.u ≤ 1) :
    |(l.foldl (fun s x => s + f x) 0).val - (l.map (fun x => (f x).val)).sum| ≤
      2 * (l.length : K) * F.u * (l.map (fun x => (f x).val)).sum := by
  have := foldl_fl f l 0 0 0 hnn (le_refl 0) (by simpa using hl) (by rw [Fl.val_zero]; simp)
  simpa using this

/-- Loads as exact numbers. -/
def exactLoads (loads : List (ChemistryLoad (Fl F))) : List (ChemistryLoad K) :=
  loads.map (fun l => ⟨l.rank, l.value.val⟩)

/-- Operations as exact numbers. -/
def exactOps (ops : List (Operation (Fl F))) : List (Operation K) :=
  ops.map (fun o => ⟨o.src, o.dst, o.value.val⟩)

/-- The exact arithmetic mean of the loads. -/
def exactMean (loads : List (ChemistryLoad (Fl F))) : K := meanLoad (exactLoads loads)

/-- What is assumed about the loads and the format: the number of ranks is a number of the format
and small compared with the precision, the loads are not negative, and the mean is well above the
constant `SMALL`. -/
structure FloatLoads (F : FloatFormat K) (loads : List (ChemistryLoad (Fl F))) : Prop where
  nonneg : ∀ l ∈ loads, 0 ≤ l.value.val
  count : F.rnd (loads.length : K) = loads.length
  fine : 10 ^ 5 * ((loads.length : K) ^ 2 * F.u) ≤ 1
  tiny : F.eta ≤ 1 / 10 ^ 18
  enough : (loads.length : K) / 10 ^ 10 ≤ exactMean loads

variable {loads : List (ChemistryLoad (Fl F))}

theorem exactMean_eq : exactMean loads = (loads.map (fun l => l.value.val)).sum / loads.length := by
  unfold exactMean meanLoad exactLoads
  rw [List.map_map, List.length_map]
  rfl

section
variable (h : FloatLoads F loads) (hne : loads ≠ [])
include h hne

/-- Some numbers: `n ≥ 1`, the mean is positive, and `u` is small. -/
theorem FloatLoads.basics : (1 : K) ≤ loads.length ∧ 0 < exactMean loads ∧ F.u ≤ 1 / 10 ^ 5 ∧
    (loads.length : K) * F.u ≤ 1 / 10 ^ 5 ∧ (loads.length : K) ^ 2 * F.u ≤ 1 / 10 ^ 5 ∧
    1 / 10 ^ 10 ≤ exactMean loads := by
  have hn1 : (1 : K) ≤ loads.length := by
    exact_mod_cast Nat.succ_le_of_lt (List.length_pos_of_ne_nil hne)
  have hu := F.u_nonneg
  have h1 : (loads.length : K) * F.u ≤ (loads.length : K) ^ 2 * F.u := by
    apply mul_le_mul_of_nonneg_right _ hu
    rw [sq]
    exact le_mul_of_one_le_left (by linarith) hn1
  have h2 : F.u ≤ (loads.length : K) * F.u := le_mul_of_one_le_left hu hn1
  have h3 : (loads.length : K) ^ 2 * F.u ≤ 1 / 10 ^ 5 := by
    rw [le_div_iff₀ (by positivity)]
    have := h.fine
    linarith
  have h4 : (1 : K) / 10 ^ 10 ≤ exactMean loads :=
    le_trans (div_le_div_of_nonneg_right hn1 (by positivity)) h.enough
  have : (0 : K) < 1 / 10 ^ 10 := by positivity
  exact ⟨hn1, by linarith, by linarith, by linarith, h3, h4⟩

omit h hne in
/-- The computed mean, for loads of any size. -/
theorem mean_near_of (hne : loads ≠ []) (hnn : ∀ l ∈ loads, 0 ≤ l.value.val)
    (hcount : F.rnd (loads.length : K) = loads.length)
    (hnu : (loads.length : K) * F.u ≤ 1 / 10 ^ 5) (hmu : 0 ≤ exactMean loads) :
    |(getMean loads).val - exactMean loads| ≤
      4 * ((loads.length : K) * F.u) * exactMean loads + F.eta := by
  have hn1 : (1 : K) ≤ loads.length := by
    exact_mod_cast Nat.succ_le_of_lt (List.length_pos_of_ne_nil hne)
  norm_num at hnu
  have hu0 := F.u_nonneg
  have hn0 : (0 : K) < loads.length := by linarith
  have hs := sum_fl ChemistryLoad.value loads hnn (by linarith)
  have hT : (loads.map (fun l => l.value.val)).sum = loads.length * exactMean loads := by
    rw [exactMean_eq, mul_div_cancel₀ _ hn0.ne']
  rw [hT] at hs
  set S := (loads.foldl (fun s x => s + x.value) 0 : Fl F).val with hS
  have hm : (getMean loads).val = F.rnd (S / loads.length) := by
    unfold getMean
    rw [Fl.val_div, Fl.val_cast, hcount]
  rw [hm]
  have h1 := F.near (S / loads.length)
  set n : K := (loads.length : K) with hn
  set μ := exactMean loads with hμ
  have e : S / n - μ = (S - n * μ) / n := by field_simp
  have h2 : |S / n - μ| ≤ 2 * (n * F.u) * μ := by
    rw [e, abs_div, abs_of_pos hn0, div_le_iff₀ hn0]
    refine hs.trans (le_of_eq ?_)
    ring
  have h3 := abs_le.1 h2
  have h4 : 2 * (n * F.u) * μ ≤ 1 * μ := mul_le_mul_of_nonneg_right (by linarith) hmu
  have h5 : F.u * |S / n| ≤ n * F.u * (2 * μ) := by
    apply mul_le_mul _ _ (abs_nonneg _) (mul_nonneg hn0.le hu0)
    · exact le_mul_of_one_le_left hu0 hn1
    · rw [abs_le]; constructor <;> linarith [h3.1, h3.2]
  have e2 : F.rnd (S / n) - μ = (F.rnd (S / n) - S / n) + (S / n - μ) := by ring
  rw [e2]
  refine (abs_add_le _ _).trans ?_
  linarith

/-- The computed mean. -/
theorem FloatLoads.mean_near : |(getMean loads).val - exactMean loads| ≤
    4 * ((loads.length : K) * F.u) * exactMean loads + F.eta := by
  obtain ⟨-, hmu, -, hnu, -, -⟩ := h.basics hne
  exact mean_near_of hne h.nonneg h.count hnu hmu.le

/-- Consequences for the sizes. -/
theorem FloatLoads.mean_bounds : (1 - 1 / 10 ^ 4) * exactMean loads ≤ (getMean loads).val ∧
    (getMean loads).val ≤ (1 + 1 / 10 ^ 4) * exactMean loads := by
  obtain ⟨hn1, hmu, hu, hnu, -, hbig⟩ := h.basics hne
  have h1 := abs_le.1 (h.mean_near hne)
  have h2 : 4 * ((loads.length : K) * F.u) * exactMean loads ≤ 4 * (1 / 10 ^ 5) * exactMean loads :=
    mul_le_mul_of_nonneg_right (by linarith) hmu.le
  have h3 : F.eta ≤ 1 / 10 ^ 5 * exactMean loads := by
    have := h.tiny
    have e : (1 : K) / 10 ^ 18 ≤ 1 / 10 ^ 5 * (1 / 10 ^ 10) := by norm_num
    have := mul_le_mul_of_nonneg_left hbig (by positivity : (0 : K) ≤ 1 / 10 ^ 5)
    linarith
  constructor
  · norm_num at h1 h2 h3 ⊢; linarith [h1.1]
  · norm_num at h1 h2 h3 ⊢; linarith [h1.2]

omit h hne in
/-- Bound for all errors. -/
def flEmax (F : FloatFormat K) (loads : List (ChemistryLoad (Fl F))) : K :=
  14 * ((loads.length : K) ^ 2 * F.u) * exactMean loads + 3 * (loads.length : K) / 10 ^ 15

theorem FloatLoads.rho_le : (loads.length : K) * flRho F (getMean loads).val loads.length ≤
    19 / 2 * ((loads.length : K) ^ 2 * F.u) * exactMean loads := by
  obtain ⟨hn1, hmu, hu, hnu, -, -⟩ := h.basics hne
  have hb := (h.mean_bounds hne).2
  unfold flRho
  push_cast
  set n : K := (loads.length : K)
  set μ := exactMean loads
  have h1 : n * (F.u * ((n + 8) * (getMean loads).val)) ≤ n * (F.u * ((9 * n) * ((1 + 1 / 10 ^ 4) * μ))) := by
    apply mul_le_mul_of_nonneg_left _ (by linarith)
    apply mul_le_mul_of_nonneg_left _ F.u_nonneg
    apply mul_le_mul _ hb _ (by linarith)
    · linarith
    · have := (h.mean_bounds hne).1
      have : 0 ≤ (1 - 1 / 10 ^ 4) * μ := mul_nonneg (by norm_num) hmu.le
      linarith
  refine h1.trans ?_
  have : 0 ≤ n ^ 2 * F.u * μ := mul_nonneg (mul_nonneg (sq_nonneg _) F.u_nonneg) hmu.le
  have e : n * (F.u * ((9 * n) * ((1 + 1 / 10 ^ 4) * μ))) = 9 * (1 + 1 / 10 ^ 4) * (n ^ 2 * F.u * μ) := by ring
  rw [e]
  norm_num at this ⊢
  linarith

theorem FloatLoads.Emax_le : flEmax F loads ≤ 2 / 10 ^ 4 * exactMean loads := by
  obtain ⟨hn1, hmu, hu, hnu, hn2u, -⟩ := h.basics hne
  unfold flEmax
  have h1 : 14 * ((loads.length : K) ^ 2 * F.u) * exactMean loads ≤
      14 * (1 / 10 ^ 5) * exactMean loads := mul_le_mul_of_nonneg_right (by linarith) hmu.le
  have h2 := h.enough
  norm_num at h1 h2 ⊢
  linarith

/-- The budget of the loop. -/
theorem FloatLoads.budget :
    FlBudget F (getMean loads) loads.length (2 / 10 ^ 15) (flEmax F loads) := by
  obtain ⟨hn1, hmu, hu, hnu, hn2u, -⟩ := h.basics hne
  have hmb := h.mean_bounds hne
  have hu0 := F.u_nonneg
  have hη := h.tiny
  have hsm := abs_le.1 (F.near (1 / 10 ^ 15))
  have habs : |(1 : K) / 10 ^ 15| = 1 / 10 ^ 15 := abs_of_pos (by positivity)
  rw [habs] at hsm
  have hus : F.u * (1 / 10 ^ 15 : K) ≤ 1 / 10 ^ 5 * (1 / 10 ^ 15) :=
    mul_le_mul_of_nonneg_right hu (by positivity)
  refine ⟨?_, ?_, ?_, ?_, by positivity, ?_⟩
  · have : 0 ≤ (1 - 1 / 10 ^ 4) * exactMean loads := mul_nonneg (by norm_num) hmu.le
    linarith [hmb.1]
  · norm_num at hu ⊢; linarith
  · intro y hy
    rw [Fl.lt_iff, Fl.val_absS, Fl.val_sub] at hy
    have h1 := F.near_sub y.ok (getMean loads).ok
    have h2 : |F.rnd (y.val - (getMean loads).val)| < F.rnd (1 / 10 ^ 15) := hy
    set d := y.val - (getMean loads).val
    have h3 : |d| ≤ |F.rnd d| + F.u * |d| := by
      have : d = F.rnd d - (F.rnd d - d) := by ring
      calc |d| = |F.rnd d - (F.rnd d - d)| := by rw [← this]
        _ ≤ |F.rnd d| + |F.rnd d - d| := abs_sub _ _
        _ ≤ _ := by linarith
    have h4 : F.u * |d| ≤ 1 / 10 ^ 5 * |d| := mul_le_mul_of_nonneg_right hu (abs_nonneg _)
    norm_num at hsm hus hη h2 h4 ⊢
    linarith [hsm.2]
  · show 0 < F.rnd (1 / 10 ^ 15)
    norm_num at hsm hus hη ⊢
    linarith [hsm.1]
  · have := h.Emax_le hne
    norm_num at this hmb ⊢
    linarith [hmb.1]

/-- The threshold of the filter (LoadBalancer.C:147), from below. -/
theorem FloatLoads.filter_ge : 9 / 1000 * exactMean loads ≤
    ((Consts.filterFrac : Fl F) * getMean loads).val := by
  obtain ⟨hn1, hmu, hu, hnu, hn2u, hbig⟩ := h.basics hne
  have hmb := h.mean_bounds hne
  have hu0 := F.u_nonneg
  have hη := h.tiny
  rw [Fl.val_mul]
  have h1 := (abs_le.1 (F.near (1 / 100))).1
  rw [abs_of_pos (by positivity : (0 : K) < 1 / 100)] at h1
  have hc : (98 : K) / 10000 ≤ (Consts.filterFrac : Fl F).val := by
    show (98 : K) / 10000 ≤ F.rnd (1 / 100)
    norm_num at h1 hu hη ⊢
    linarith
  set c := (Consts.filterFrac : Fl F).val
  set m := (getMean loads).val
  have hm0 : 0 ≤ m := (h.budget hne).m0
  have h2 : (98 : K) / 10000 * m ≤ c * m := mul_le_mul_of_nonneg_right hc hm0
  have hcm : 0 ≤ c * m := mul_nonneg (by linarith [show (0:K) ≤ 98/10000 by norm_num]) hm0
  have h3 := (abs_le.1 (F.near (c * m))).1
  rw [abs_of_nonneg hcm] at h3
  have h4 : F.u * (c * m) ≤ 1 / 10 ^ 5 * (c * m) := mul_le_mul_of_nonneg_right hu hcm
  norm_num at h2 h3 h4 hη hmb hbig ⊢
  linarith [hmb.1]

end

end DLB
