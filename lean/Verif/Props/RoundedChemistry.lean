import Verif.Lemmas.RoundedMean
import Verif.Lemmas.Binary64
import Verif.Lemmas.AnyRates
import Mathlib.Algebra.BigOperators.Fin
import Mathlib.Algebra.Order.BigOperators.Group.Finset
/-
C101, C102: mass fractions and reaction rates in arithmetic with rounding.
-/
set_option autoImplicit false
set_option linter.unusedSectionVars false

namespace DLB

variable {K : Type} [Field K] [LinearOrder K] [IsStrictOrderedRing K] {F : FloatFormat K} {m : Nat}

theorem binary64_usual : binary64.Usual where
  one := by show rnd64 1 = 1; decide +kernel
  two := by show rnd64 2 = 2; decide +kernel
  u_le := by show (1 : ℚ) / 2 ^ 53 ≤ 1 / 10; norm_num
  eta_le := by
    show (1 : ℚ) / 2 ^ 1075 ≤ 1 / 10 ^ 30
    rw [one_div_le_one_div (by positivity) (by positivity)]
    exact le_trans (by norm_num : (10 : ℚ) ^ 30 ≤ 2 ^ 100)
      (pow_le_pow_right₀ (by norm_num) (by norm_num))

theorem Fl.val_lit_one (hF : F.Usual) : (1.0 : Fl F).val = 1 := by
  show F.rnd (OfScientific.ofScientific 10 true 1 : K) = 1
  have : (OfScientific.ofScientific 10 true 1 : K) = 1 := by
    have : (1.0 : K) = 1 := by norm_num
    exact this
  rw [this, hF.one]

/-! ### C101 -/

/-- The composition after the integration. -/
theorem unpack_fl (hF : F.Usual) (hm : 2 * (m : K) * F.u ≤ 1) (y : Vec (Fl F) (m + 2)) :
    (∀ j : Fin m, 0 ≤ ((unpackPyJac y).2.2 j.castSucc).val) ∧
    |∑ i, ((unpackPyJac y).2.2 i).val - 1| ≤
      F.u * (1 + 2 * ((m : K) + 1) * ∑ j : Fin m, ((unpackPyJac y).2.2 j.castSucc).val) ∧
    (∑ j : Fin m, ((unpackPyJac y).2.2 j.castSucc).val ≤ 1 →
      -(4 * (m : K) * F.u) ≤ ((unpackPyJac y).2.2 (Fin.last m)).val) := by
  have hu := F.u_nonneg
  have hu1 := hF.u_le
  set cl : Fin m → Fl F := fun i => foamMax 0 (y (speciesPos i)) with hcl
  have hcast : ∀ j : Fin m, (unpackPyJac y).2.2 j.castSucc = cl j := by
    intro j
    simp [unpackPyJac, hcl]
  have hlast : (unpackPyJac y).2.2 (Fin.last m) =
      (1.0 : Fl F) - (List.finRange m).foldl (fun s i => s + cl i) 0 := by
    simp [unpackPyJac, hcl]
  have hnn : ∀ j, 0 ≤ (cl j).val := by
    intro j
    rw [hcl, Fl.val_foamMax, Fl.val_zero]
    exact le_max_left _ _
  have hsum := sum_fl cl (List.finRange m) (fun x _ => hnn x) (by simpa using hm)
  have e : ((List.finRange m).map (fun x => (cl x).val)).sum = ∑ j, (cl j).val := by
    rw [← List.ofFn_eq_map, List.sum_ofFn]
  rw [e, List.length_finRange] at hsum
  set s := (List.finRange m).foldl (fun s i => s + cl i) (0 : Fl F) with hs
  have hL : |((1.0 : Fl F) - s).val - (1 - s.val)| ≤ F.u * |1 - s.val| := by
    rw [Fl.val_sub, Fl.val_lit_one hF]
    exact F.near_sub hF.one s.ok
  have hσ : 0 ≤ ∑ j, (cl j).val := Finset.sum_nonneg fun j _ => hnn j
  simp only [Fin.sum_univ_castSucc, hcast, hlast]
  set σ := ∑ j, (cl j).val with hσd
  have hm0 : (0 : K) ≤ m := Nat.cast_nonneg m
  have h2 : 2 * (m : K) * F.u * σ ≤ 1 * σ := mul_le_mul_of_nonneg_right hm hσ
  obtain ⟨a1, a2⟩ := abs_le.1 hsum
  have hs2 : s.val ≤ 2 * σ := by linarith
  have hs0 : 0 ≤ s.val := by linarith
  have habs : |1 - s.val| ≤ 1 + 2 * σ := by
    rw [abs_le]; constructor <;> linarith
  refine ⟨hnn, ?_, ?_⟩
  · have b1 : F.u * |1 - s.val| ≤ F.u * (1 + 2 * σ) := mul_le_mul_of_nonneg_left habs hu
    obtain ⟨c1, c2⟩ := abs_le.1 hL
    have : F.u * (1 + 2 * ((m : K) + 1) * σ) = 2 * m * F.u * σ + F.u * (1 + 2 * σ) := by ring
    rw [this, abs_le]
    constructor <;> linarith
  · intro hσ1
    have hmu : 0 ≤ (m : K) * F.u := mul_nonneg hm0 hu
    have h3 : s.val ≤ 1 + 2 * m * F.u := by
      have := mul_le_mul_of_nonneg_left hσ1 (show 0 ≤ 2 * (m : K) * F.u by linarith)
      linarith
    rcases le_total s.val 1 with h | h
    · have : 0 ≤ ((1.0 : Fl F) - s).val := by
        rw [Fl.val_sub, Fl.val_lit_one hF]
        exact F.rnd_nonneg (by linarith)
      linarith
    · obtain ⟨c1, c2⟩ := abs_le.1 hL
      have d1 : |1 - s.val| ≤ 2 * m * F.u := by rw [abs_of_nonpos (by linarith)]; linarith
      have d2 : F.u * |1 - s.val| ≤ 1 / 10 * (2 * m * F.u) :=
        (mul_le_mul_of_nonneg_left d1 hu).trans (mul_le_mul_of_nonneg_right hu1 (by linarith))
      linarith

theorem sum_map_ofFn_val {k : Nat} (f : Fin k → Fl F) :
    ((List.ofFn f).map Fl.val).sum = ∑ i, (f i).val := by
  rw [List.map_ofFn, List.sum_ofFn]
  rfl

/-- **C101.** With rounding, whatever the ODE integrator returns: there are as many mass fractions as
before, all but the last are not negative, and the exact sum of the computed mass fractions is one up
to a rounding error and two per species in proportion to the sum of the mass fractions of the other
species.  If these sum to at most one, the last is not below zero by more than rounding errors. -/
theorem C101_mass_fractions_sum_to_one_with_rounding {Scr : Type} (hF : F.Usual)
    (hm : 2 * (m : K) * F.u ≤ 1) (I : Integrator (Fl F) (m + 2) Scr) (scr scr' : Scr)
    (p T dt sub : Fl F) (c : List (Fl F)) (r : IntegrateResult (Fl F))
    (h : odePyJacSolve I scr p T c dt sub = .ok (scr', r)) :
    r.c.length = c.length ∧ (∀ x ∈ r.c.dropLast, 0 ≤ x.val) ∧
    |(r.c.map Fl.val).sum - 1| ≤ F.u * (1 + 2 * ((m : K) + 1) * (r.c.dropLast.map Fl.val).sum) ∧
    ((r.c.dropLast.map Fl.val).sum ≤ 1 → ∀ x ∈ r.c, -(4 * (m : K) * F.u) ≤ x.val) := by
  obtain ⟨hlen, y, y', sub', -, rfl⟩ := any_odePyJacSolve_ok h
  obtain ⟨h1, h2, h3⟩ := unpack_fl hF hm y'
  have hdl : (List.ofFn (unpackPyJac y').2.2).dropLast =
      List.ofFn (fun j : Fin m => (unpackPyJac y').2.2 j.castSucc) := by
    rw [List.ofFn_succ', List.concat_eq_append, List.dropLast_concat]
  simp only [hdl, sum_map_ofFn_val]
  refine ⟨by simp [hlen], ?_, h2, ?_⟩
  · intro x hx
    rw [List.mem_ofFn] at hx
    obtain ⟨j, rfl⟩ := hx
    exact h1 j
  · intro hle x hx
    rw [List.mem_ofFn] at hx
    obtain ⟨i, rfl⟩ := hx
    refine Fin.lastCases (h3 hle) (fun j => ?_) i
    have := mul_nonneg (Nat.cast_nonneg (α := K) m) F.u_nonneg
    have := h1 j
    linarith

/-- A double, written as a fraction. -/
abbrev Example.d64 (x : ℚ) : Fl binary64 := Fl.of binary64 x

/-- An integrator that returns the mass fractions 1/10 and 2/10 of the first two of three species. -/
def Example.tenths64 : Integrator (Fl binary64) 4 Unit := fun _ _ y sub =>
  .ok ((), ![y 0, Example.d64 (1 / 10), Example.d64 (2 / 10), y 3], sub)

/-- The exact sum of the three doubles is one minus `2^-55`. -/
example : (odePyJacSolve Example.tenths64 () (Example.d64 101325) (Example.d64 300)
      [Example.d64 1, 0, 0] (Example.d64 1) (Example.d64 1)).toOption.map
      (fun r => ((r.2.c.map Fl.val).sum - 1)) = some (-1 / 2 ^ 55) ∧ 2 * ((2 : ℕ) : ℚ) * binary64.u ≤ 1 := by
  constructor
  · decide +kernel
  · show 2 * ((2 : ℕ) : ℚ) * (1 / 2 ^ 53) ≤ 1
    norm_num

/-! ### C102 -/

/-- Three operations: difference, product, quotient. -/
theorem rate_fl (hF : F.Usual) (c c0 ρ dt : Fl F) (hdt : 0 < dt.val) :
    |((c - c0) * ρ / dt).val - (c.val - c0.val) * ρ.val / dt.val| ≤
      4 * F.u * |(c.val - c0.val) * ρ.val / dt.val| + (2 * F.eta / dt.val + F.eta) := by
  have hu := F.u_nonneg
  have hu1 := hF.u_le
  have hη := F.eta_nonneg
  set d : K := c.val - c0.val with hd
  have h1 : |(c - c0).val - d| ≤ F.u * |d| := F.near_sub c.ok c0.ok
  have h2 := F.near ((c - c0).val * ρ.val)
  have h3 := F.near (((c - c0) * ρ).val / dt.val)
  rw [← Fl.val_mul] at h2
  rw [← Fl.val_div] at h3
  set e := (c - c0).val with he
  set f := ((c - c0) * ρ).val with hf
  set g := ((c - c0) * ρ / dt).val with hg
  have hi : 0 < dt.val⁻¹ := inv_pos.2 hdt
  set X : K := d * ρ.val / dt.val with hX
  -- the first error, carried to the end
  have k1 : |e * ρ.val / dt.val - X| ≤ F.u * |X| := by
    have : e * ρ.val / dt.val - X = (e - d) * (ρ.val / dt.val) := by rw [hX]; ring
    rw [this, abs_mul, hX, mul_div_assoc, abs_mul, ← mul_assoc]
    exact mul_le_mul_of_nonneg_right h1 (abs_nonneg _)
  have k2 : |f / dt.val - e * ρ.val / dt.val| ≤ F.u * |e * ρ.val / dt.val| + F.eta / dt.val := by
    rw [← sub_div, abs_div, abs_div, abs_of_pos hdt, ← mul_div_assoc, ← add_div]
    exact div_le_div_of_nonneg_right h2 hdt.le
  have k3 := h3
  have m1 : |e * ρ.val / dt.val| ≤ (1 + F.u) * |X| := by
    have := abs_le.1 k1
    calc |e * ρ.val / dt.val| = |X + (e * ρ.val / dt.val - X)| := by ring_nf
      _ ≤ |X| + F.u * |X| := (abs_add_le _ _).trans (by linarith)
      _ = _ := by ring
  have m2 : |f / dt.val| ≤ (1 + F.u) * ((1 + F.u) * |X|) + F.eta / dt.val := by
    calc |f / dt.val| = |e * ρ.val / dt.val + (f / dt.val - e * ρ.val / dt.val)| := by ring_nf
      _ ≤ |e * ρ.val / dt.val| + (F.u * |e * ρ.val / dt.val| + F.eta / dt.val) :=
        (abs_add_le _ _).trans (by linarith)
      _ = (1 + F.u) * |e * ρ.val / dt.val| + F.eta / dt.val := by ring
      _ ≤ _ := by
        have := mul_le_mul_of_nonneg_left m1 (show 0 ≤ 1 + F.u by linarith)
        linarith
  have hX0 := abs_nonneg X
  have hηd : 0 ≤ F.eta / dt.val := div_nonneg hη hdt.le
  have t1 : |g - X| ≤ |g - f / dt.val| + (|f / dt.val - e * ρ.val / dt.val| + |e * ρ.val / dt.val - X|) := by
    calc |g - X| = |(g - f / dt.val) + ((f / dt.val - e * ρ.val / dt.val) + (e * ρ.val / dt.val - X))| := by
          ring_nf
      _ ≤ _ := (abs_add_le _ _).trans (by have := abs_add_le (f / dt.val - e * ρ.val / dt.val)
                                                  (e * ρ.val / dt.val - X); linarith)
  have q1 : F.u * |f / dt.val| ≤ F.u * ((1 + F.u) * ((1 + F.u) * |X|) + F.eta / dt.val) :=
    mul_le_mul_of_nonneg_left m2 hu
  have q2 : F.u * |e * ρ.val / dt.val| ≤ F.u * ((1 + F.u) * |X|) := mul_le_mul_of_nonneg_left m1 hu
  have q3 : F.u * (F.u * |X|) ≤ 1 / 10 * (F.u * |X|) :=
    mul_le_mul_of_nonneg_right hu1 (mul_nonneg hu hX0)
  have q4 : F.u * (F.u * (F.u * |X|)) ≤ 1 / 10 * (F.u * (F.u * |X|)) :=
    mul_le_mul_of_nonneg_right hu1 (mul_nonneg hu (mul_nonneg hu hX0))
  have q5 : F.u * (F.eta / dt.val) ≤ 1 / 10 * (F.eta / dt.val) :=
    mul_le_mul_of_nonneg_right hu1 hηd
  have q6 : 0 ≤ F.u * |X| := mul_nonneg hu hX0
  have q7 : 2 * F.eta / dt.val = 2 * (F.eta / dt.val) := by ring
  rw [q7]
  nlinarith

/-- Sum of the rates of a cell, from the bounds on single rates. -/
theorem rates_sum_fl {n : Nat} (hn : 1 ≤ n) (u τ w : K) (hu : 0 ≤ u) (hu1 : u ≤ 1 / 10) (hnu : 2 * (n : K) * u ≤ 1)
    (hτ : 0 ≤ τ) (hw : 0 ≤ w) (c Y R : Nat → K) (ε : K)
    (hR : ∀ j, j < n → |R j - (c j - Y j) * w| ≤ 4 * u * |(c j - Y j) * w| + τ)
    (hY : |∑ j ∈ Finset.range n, Y j - 1| ≤ ε) (hYa : ∑ j ∈ Finset.range n, |Y j| ≤ 2)
    (hc : |∑ j ∈ Finset.range n, c j - 1| ≤ u * (1 + 2 * n * ∑ j ∈ Finset.range n, |c j|)) :
    |∑ j ∈ Finset.range n, R j| ≤ w * (ε + 5 * n * u) +
      12 * n * u * ∑ j ∈ Finset.range n, |R j| + 4 * n * τ := by
  have hn1 : (1 : K) ≤ n := by exact_mod_cast hn
  set X : Nat → K := fun j => (c j - Y j) * w with hX
  have hXR : ∀ j ∈ Finset.range n, |X j| ≤ 2 * |R j| + 2 * τ := by
    intro j hj
    have h1 := hR j (Finset.mem_range.1 hj)
    have h2 : |X j| ≤ |R j| + |R j - X j| := by
      calc |X j| = |R j - (R j - X j)| := by ring_nf
        _ ≤ _ := abs_sub _ _
    have h3 : u * |X j| ≤ 1 / 10 * |X j| := mul_le_mul_of_nonneg_right hu1 (abs_nonneg _)
    have h4 := abs_nonneg (X j)
    have h5 : |R j - X j| ≤ 4 * u * |X j| + τ := h1
    have h6 := abs_nonneg (R j)
    linarith
  set SR := ∑ j ∈ Finset.range n, |R j| with hSR
  set SX := ∑ j ∈ Finset.range n, |X j| with hSX
  have hsx : SX ≤ 2 * SR + 2 * n * τ := by
    calc SX ≤ ∑ j ∈ Finset.range n, (2 * |R j| + 2 * τ) := Finset.sum_le_sum hXR
      _ = _ := by
        rw [Finset.sum_add_distrib, ← Finset.mul_sum, Finset.sum_const, Finset.card_range, nsmul_eq_mul]
        ring
  have hdiff : |∑ j ∈ Finset.range n, R j - ∑ j ∈ Finset.range n, X j| ≤ 4 * u * SX + n * τ := by
    rw [← Finset.sum_sub_distrib]
    calc _ ≤ ∑ j ∈ Finset.range n, |R j - X j| := Finset.abs_sum_le_sum_abs _ _
      _ ≤ ∑ j ∈ Finset.range n, (4 * u * |X j| + τ) :=
        Finset.sum_le_sum fun j hj => hR j (Finset.mem_range.1 hj)
      _ = _ := by
        rw [Finset.sum_add_distrib, ← Finset.mul_sum, Finset.sum_const, Finset.card_range, nsmul_eq_mul]
  have hXsum : ∑ j ∈ Finset.range n, X j =
      (∑ j ∈ Finset.range n, c j - ∑ j ∈ Finset.range n, Y j) * w := by
    rw [← Finset.sum_sub_distrib, Finset.sum_mul]
  have hcw : (∑ j ∈ Finset.range n, |c j|) * w ≤ 2 * w + SX := by
    have : ∀ j ∈ Finset.range n, |c j| * w ≤ |Y j| * w + |X j| := by
      intro j _
      have h1 : |X j| = |c j - Y j| * w := by rw [hX]; simp only [abs_mul, abs_of_nonneg hw]
      rw [h1, ← add_mul]
      refine mul_le_mul_of_nonneg_right ?_ hw
      calc |c j| = |Y j + (c j - Y j)| := by ring_nf
        _ ≤ _ := abs_add_le _ _
    calc _ = ∑ j ∈ Finset.range n, |c j| * w := by rw [Finset.sum_mul]
      _ ≤ ∑ j ∈ Finset.range n, (|Y j| * w + |X j|) := Finset.sum_le_sum this
      _ = (∑ j ∈ Finset.range n, |Y j|) * w + SX := by rw [Finset.sum_add_distrib, ← Finset.sum_mul]
      _ ≤ _ := by have := mul_le_mul_of_nonneg_right hYa hw; linarith
  have hXs : |∑ j ∈ Finset.range n, X j| ≤
      ε * w + u * w + 2 * (n * u) * ((∑ j ∈ Finset.range n, |c j|) * w) := by
    rw [hXsum, abs_mul, abs_of_nonneg hw]
    have : |∑ j ∈ Finset.range n, c j - ∑ j ∈ Finset.range n, Y j| ≤
        ε + u * (1 + 2 * n * ∑ j ∈ Finset.range n, |c j|) := by
      obtain ⟨a1, a2⟩ := abs_le.1 hY
      obtain ⟨b1, b2⟩ := abs_le.1 hc
      rw [abs_le]
      constructor <;> linarith
    calc _ ≤ (ε + u * (1 + 2 * n * ∑ j ∈ Finset.range n, |c j|)) * w :=
          mul_le_mul_of_nonneg_right this hw
      _ = _ := by ring
  have hnu0 : 0 ≤ (n : K) * u := mul_nonneg (by linarith) hu
  have hSR0 : 0 ≤ SR := Finset.sum_nonneg fun j _ => abs_nonneg _
  have p1 : 2 * (n * u) * ((∑ j ∈ Finset.range n, |c j|) * w) ≤
      2 * (n * u) * (2 * w + (2 * SR + 2 * n * τ)) :=
    mul_le_mul_of_nonneg_left (by linarith) (by linarith)
  have p2 : 4 * u * SX ≤ 4 * u * (2 * SR + 2 * n * τ) := mul_le_mul_of_nonneg_left hsx (by linarith)
  have p3 : (n * u) * (n * τ) ≤ 1 / 2 * (n * τ) :=
    mul_le_mul_of_nonneg_right (by linarith) (mul_nonneg (by linarith) hτ)
  have p4 : u * (n * τ) ≤ 1 / 10 * (n * τ) :=
    mul_le_mul_of_nonneg_right hu1 (mul_nonneg (by linarith) hτ)
  have p5 : u * SR ≤ n * u * SR := by
    have := mul_le_mul_of_nonneg_right hn1 (mul_nonneg hu hSR0)
    linarith
  have p6 : u * w ≤ n * u * w := by
    have := mul_le_mul_of_nonneg_right hn1 (mul_nonneg hu hw)
    linarith
  have htri : |∑ j ∈ Finset.range n, R j| ≤ |∑ j ∈ Finset.range n, X j| +
      |∑ j ∈ Finset.range n, R j - ∑ j ∈ Finset.range n, X j| := by
    calc _ = |∑ j ∈ Finset.range n, X j + (∑ j ∈ Finset.range n, R j - ∑ j ∈ Finset.range n, X j)| := by
          ring_nf
      _ ≤ _ := abs_add_le _ _
  have hnτ : 0 ≤ n * τ := mul_nonneg (by linarith) hτ
  nlinarith

theorem fl_foldl_foamMin_pos {k : Nat} (f : Fin k → Fl F) (hf : ∀ i, 0 < (f i).val) :
    ∀ (l : List (Fin k)) (a : Fl F), 0 < a.val →
      0 < (l.foldl (fun m i => foamMin (f i) m) a).val
  | [], _, h => h
  | i :: l, a, h => fl_foldl_foamMin_pos f hf l _ (by rw [Fl.val_foamMin]; exact lt_min (hf i) h)

/-- Positive relative tolerances suffice for C69 also with rounding. -/
theorem jacRedo_fl (hF : F.Usual) (relTol : Vec (Fl F) (m + 2)) (h : ∀ i, 0 < (relTol i).val) :
    jacRedoOf relTol < ((2 : Nat) : Fl F) * jacRedoOf relTol := by
  have hu := F.u_nonneg
  have hu1 := hF.u_le
  have hη := hF.eta_le
  have hpos : 0 < (jacRedoOf relTol).val := by
    unfold jacRedoOf
    rw [Fl.val_foamMin]
    refine lt_min ?_ (fl_foldl_foamMin_pos _ h _ _ (h 0))
    show 0 < F.rnd (OfScientific.ofScientific 1 true 4 : K)
    have e : (OfScientific.ofScientific 1 true 4 : K) = 1 / 10 ^ 4 := by
      have : (1e-4 : K) = 1 / 10 ^ 4 := by norm_num
      exact this
    rw [e]
    have h1 := (abs_le.1 (F.near (1 / 10 ^ 4))).1
    rw [abs_of_pos (by positivity : (0 : K) < 1 / 10 ^ 4)] at h1
    have h2 : F.u * (1 / 10 ^ 4) ≤ 1 / 10 * (1 / 10 ^ 4) :=
      mul_le_mul_of_nonneg_right hu1 (by positivity)
    norm_num at h1 h2 hη ⊢
    linarith
  set j := jacRedoOf relTol
  rw [Fl.lt_iff, Fl.val_mul, Fl.val_cast, show ((2 : ℕ) : K) = 2 by norm_num, hF.two]
  have h1 := (abs_le.1 (F.near_add j.val j.val j.ok j.ok)).1
  rw [← two_mul, abs_of_pos (by linarith)] at h1
  have h2 : F.u * (2 * j.val) ≤ 1 / 10 * (2 * j.val) := mul_le_mul_of_nonneg_right hu1 (by linarith)
  linarith

theorem fl_small_pos (hF : F.Usual) : 1 / (2 * 10 ^ 15) ≤ (Consts.SMALL : Fl F).val := by
  show 1 / (2 * 10 ^ 15) ≤ F.rnd (1 / 10 ^ 15)
  have hη := hF.eta_le
  have h1 := (abs_le.1 (F.near (1 / 10 ^ 15))).1
  rw [abs_of_pos (by positivity : (0 : K) < 1 / 10 ^ 15)] at h1
  have h2 : F.u * (1 / 10 ^ 15) ≤ 1 / 10 * (1 / 10 ^ 15) :=
    mul_le_mul_of_nonneg_right hF.u_le (by positivity)
  norm_num at h1 h2 hη ⊢
  linarith

/-- **C102.** With rounding, with the pyJac model and the repository's integrator, after every step, in
every cell of every rank, mapped or integrated, with or without load balancing: the exact sum of the
computed reaction rates of all species is at most `12 (m + 1) u` times the sum of their sizes plus the
largest density over time step times `ε + 5 (m + 1) u`, where the mass fractions of every cell sum to
one up to `ε` before the step (and their sizes to at most two). -/
theorem C102_rates_sum_to_zero_with_rounding [MathOps (Fl F)] (hF : F.Usual) {n : Nat} (hn : 0 < n)
    (base : ChemModel (Fl F)) (hsp : base.nSpecie = m + 1) (hm : 2 * ((m : K) + 1) * F.u ≤ 1)
    (L : PyJacLib (Fl F) m) (linearSolve : (Nat → Fl F) → Vec (Fl F) (m + 2) → Vec (Fl F) (m + 2))
    (absTol relTol : Vec (Fl F) (m + 2)) (hrel : ∀ i, 0 < relTol i) (fuel maxSteps : Nat)
    (hchem : base.chemistry = true) (parRun : Bool)
    (hpar : parRun = true ∨ n = 1) (sort : List (ChemistryLoad (Fl F)) → List (ChemistryLoad (Fl F)))
    (hsort : ∀ l, (sort l).Perm l) (clk : Fin n → Nat → Fl F) (flow : Fin n → Flow (Fl F))
    (hdt : ∀ r i, i < (flow r).nCells → Consts.SMALL < (flow r).deltaT i) (B ε : K)
    (hρ : ∀ r i, i < (flow r).nCells → 0 ≤ (flow r).rho i ∧
      ((flow r).rho i).val / ((flow r).deltaT i).val ≤ B)
    (hY : ∀ r i, i < (flow r).nCells → |∑ j ∈ Finset.range (m + 1), ((flow r).Y j i).val - 1| ≤ ε ∧
      ∑ j ∈ Finset.range (m + 1), |((flow r).Y j i).val| ≤ 2)
    (w w' : Fin n → Scratch (Fl F) (m + 1)) (G : Fin n → RankFields (Fl F))
    (res : Fin n → RankFields (Fl F) × Fl F)
    (h : solveWorldW (pyJacModel base L linearSolve absTol relTol fuel maxSteps) parRun sort clk flow w
      G = .ok (w', res)) (r : Fin n) (i : Nat) (hi : i < (flow r).nCells) :
    |∑ j ∈ Finset.range (m + 1), ((res r).1.RR j i).val| ≤ B * (ε + 5 * ((m : K) + 1) * F.u) +
      12 * ((m : K) + 1) * F.u * ∑ j ∈ Finset.range (m + 1), |((res r).1.RR j i).val| +
      20 * 10 ^ 15 * ((m : K) + 1) * F.eta := by
  have hrel' : ∀ i, 0 < (relTol i).val := fun i => by
    have := (Fl.lt_iff _ _).1 (hrel i); rwa [Fl.val_zero] at this
  have hself : ∀ x : Fl F, ¬ Consts.SMALL < x - x := by
    intro x
    rw [Fl.sub_self, Fl.lt_iff, Fl.val_zero, not_lt]
    exact le_trans (by positivity) (fl_small_pos hF)
  obtain ⟨i₀, hlt, -, scr, scr', q, ho, hq⟩ := any_world_rates hself hn hsp (jacRedo_fl hF relTol hrel')
    hchem hpar hsort hdt h r i hi
  have hu := F.u_nonneg
  have hη := F.eta_nonneg
  have hm0 : (0 : K) ≤ m := Nat.cast_nonneg m
  obtain ⟨-, y, y', sub', -, rfl⟩ := any_odePyJacSolve_ok ho
  obtain ⟨h1, h2, -⟩ := unpack_fl (m := m) hF (by
    have := mul_nonneg hm0 hu
    nlinarith) y'
  set f := (unpackPyJac y').2.2 with hf
  set c : Nat → K := fun j => ((List.ofFn f).getD j 0).val with hc
  have hcf : ∀ j : Fin (m + 1), c j = (f j).val := by
    intro j
    rw [hc]
    simp only
    rw [List.getD_eq_getElem?_getD, List.getElem?_eq_getElem (by rw [List.length_ofFn]; exact j.isLt),
      Option.getD_some, List.getElem_ofFn]
  have hcsum : ∑ j ∈ Finset.range (m + 1), c j = ∑ j, (f j).val := by
    rw [← Fin.sum_univ_eq_sum_range]
    exact Finset.sum_congr rfl fun j _ => hcf j
  have hcpart : ∑ j : Fin m, (f j.castSucc).val ≤ ∑ j ∈ Finset.range (m + 1), |c j| := by
    rw [← Fin.sum_univ_eq_sum_range (fun j => |c j|), Fin.sum_univ_castSucc]
    have e : ∑ j : Fin m, (f j.castSucc).val ≤ ∑ j : Fin m, |c (j.castSucc : Fin (m + 1))| :=
      Finset.sum_le_sum fun j _ => by rw [hcf]; exact le_abs_self _
    have := abs_nonneg (c (Fin.last m : Fin (m + 1)))
    linarith
  obtain ⟨hρ0, hρB⟩ := hρ r i₀ hlt
  rw [Fl.le_iff, Fl.val_zero] at hρ0
  obtain ⟨hY1, hY2⟩ := hY r i₀ hlt
  have hdt1 : 1 / (2 * 10 ^ 15) < ((flow r).deltaT i₀).val :=
    lt_of_le_of_lt (fl_small_pos hF) ((Fl.lt_iff _ _).1 (hdt r i₀ hlt))
  have hdt0 : 0 < ((flow r).deltaT i₀).val := lt_trans (by positivity) hdt1
  set dt := ((flow r).deltaT i₀).val with hdtd
  set ρ := ((flow r).rho i₀).val with hρd
  have hwnn : 0 ≤ ρ / dt := div_nonneg hρ0 hdt0.le
  have hτ : 0 ≤ 2 * F.eta / dt + F.eta := add_nonneg (div_nonneg (by linarith) hdt0.le) hη
  have hτ5 : 2 * F.eta / dt + F.eta ≤ 5 * 10 ^ 15 * F.eta := by
    have : 2 * F.eta / dt ≤ 4 * 10 ^ 15 * F.eta := by
      rw [div_le_iff₀ hdt0]
      have := mul_le_mul_of_nonneg_left hdt1.le (show 0 ≤ 4 * 10 ^ 15 * F.eta by positivity)
      calc 2 * F.eta = 4 * 10 ^ 15 * F.eta * (1 / (2 * 10 ^ 15)) := by ring
        _ ≤ _ := this
    have : F.eta ≤ 10 ^ 15 * F.eta := by
      have : (1 : K) ≤ 10 ^ 15 := by norm_num
      exact le_mul_of_one_le_left hη this
    linarith
  have key := rates_sum_fl (n := m + 1) (by omega) F.u (2 * F.eta / dt + F.eta) (ρ / dt) hu hF.u_le
    (by push_cast; exact hm) hτ hwnn c (fun j => ((flow r).Y j i₀).val)
    (fun j => ((res r).1.RR j i).val) ε (by
      intro j hj
      rw [hq j hj]
      have := rate_fl hF ((List.ofFn f).getD j 0) ((flow r).Y j i₀) ((flow r).rho i₀)
        ((flow r).deltaT i₀) hdt0
      rw [mul_div_assoc] at this
      exact this) hY1 hY2 (by
      rw [hcsum]
      refine h2.trans (mul_le_mul_of_nonneg_left ?_ hu)
      push_cast
      have := mul_le_mul_of_nonneg_left hcpart (show 0 ≤ 2 * ((m : K) + 1) by linarith)
      linarith)
  push_cast at key
  refine key.trans ?_
  have hε : 0 ≤ ε := (abs_nonneg _).trans hY1
  have e1 : ρ / dt * (ε + 5 * ((m : K) + 1) * F.u) ≤ B * (ε + 5 * ((m : K) + 1) * F.u) :=
    mul_le_mul_of_nonneg_right hρB (by positivity)
  have e2 : 4 * ((m : K) + 1) * (2 * F.eta / dt + F.eta) ≤ 4 * ((m : K) + 1) * (5 * 10 ^ 15 * F.eta) :=
    mul_le_mul_of_nonneg_left hτ5 (by positivity)
  linarith

/-! A case of C102 in doubles: the two ranks of the case of C69, three species, and mass fractions
that are not sums of powers of two. -/

namespace Example

/-- The mathematical functions, as in `ratMath`. -/
@[instance_reducible] def math64 : MathOps (Fl binary64) where
  sqrt x := Fl.of binary64 ((Nat.sqrt x.val.num.toNat : ℚ) / (Nat.sqrt x.val.den : ℚ))
  pow x _ := x
  log10 _ := d64 (-4)
  toInt x := x.val.floor

/-- A library with constant production of two species in a cell. -/
def stackLib64 : PyJacLib (Fl binary64) 2 where
  dydt _ y := fun i => if i.val = 0 then 0 else (y 0 - d64 1000) / d64 (30 * i.val)
  evalJacob _ y := fun k => if k = 4 then - y 0 else 0
  evalH _ := fun _ => 0
  nsp := 3

/-- A linear solver for diagonal matrices. -/
def stackSolve64 (a : Nat → Fl binary64) (b : Vec (Fl binary64) 4) : Vec (Fl binary64) 4 :=
  fun i => b i / a (i.val * 4 + i.val)

/-- The part of the model that is not the integrator. -/
def stackBase64 : ChemModel (Fl binary64) :=
  { chemistry := true, nSpecie := 3, deltaTChemMax := d64 1, fuel := 3, active := true,
    integrate := fun _ _ _ _ _ => .error .fatal, mapper := ⟨false, 0, 0, ⟨[], 0, d64 1⟩⟩ }

/-- Rank 0 has four cells, rank 1 has one. -/
def stackFlow64 (r : Fin 2) : Flow (Fl binary64) :=
  { nCells := if r = 0 then 4 else 1
    Y := fun j _ => if j = 0 then d64 (1 / 10) else if j = 1 then d64 (2 / 10) else d64 (7 / 10)
    T := fun i => if r = 0 then d64 (1001 + i) else d64 2000
    p := fun _ => d64 100000, rho := fun _ => d64 (12 / 10), deltaT := fun _ => d64 (1 / 100) }

def stackFields64 (r : Fin 2) : RankFields (Fl binary64) :=
  { RR := fun _ _ => 0, deltaTChem := fun _ => d64 (1 / 100), cpuTimes := fun _ => if r = 0 then d64 1 else 0,
    refMap := fun _ => 0 }

def stackScratch64 (_ : Fin 2) : Scratch (Fl binary64) 3 :=
  ⟨0, 0, fun _ _ => 0, fun _ _ => 0, fun _ => 0, fun _ => 0⟩

/-- The step of the two ranks. -/
def stackStep64 : Except Fault ((Fin 2 → Scratch (Fl binary64) 3) × (Fin 2 → RankFields (Fl binary64) × Fl binary64)) :=
  letI := math64
  solveWorldW (pyJacModel stackBase64 stackLib64 stackSolve64 (fun _ => d64 1) (fun _ => d64 (1 / 10000)) 10 10)
    true (fun l => l) (fun _ _ => d64 1) stackFlow64 stackScratch64 stackFields64

end Example
/-- The sums of the rates of the four cells of rank 0 are not zero but small against the rates. -/
example : Example.stackStep64.toOption.map (fun s => (List.range 4).map (fun i =>
      (((s.2 0).1.RR 0 i).val * 2 ^ 53, (((s.2 0).1.RR 0 i).val + ((s.2 0).1.RR 1 i).val +
        ((s.2 0).1.RR 2 i).val) * 2 ^ 53))) =
    some [(129242417951295, 105), (8265652536155039 / 32, 3359 / 32), (387178054980435, 841 / 8),
      (515872040148795, 599 / 8)] := by decide +kernel

/-- The assumptions of C102 are met, with `ε = 2^-52`. -/
example (s) (h : Example.stackStep64 = .ok s) (r : Fin 2) (i : Nat) (hi : i < (Example.stackFlow64 r).nCells) :
    |∑ j ∈ Finset.range 3, ((s.2 r).1.RR j i).val| ≤
      121 * (1 / 2 ^ 52 + 5 * (((2 : ℕ) : ℚ) + 1) * binary64.u) +
      12 * (((2 : ℕ) : ℚ) + 1) * binary64.u * ∑ j ∈ Finset.range 3, |((s.2 r).1.RR j i).val| +
      20 * 10 ^ 15 * (((2 : ℕ) : ℚ) + 1) * binary64.eta := by
  let := Example.math64
  refine C102_rates_sum_to_zero_with_rounding (m := 2) binary64_usual (by norm_num) Example.stackBase64 rfl ?_
    Example.stackLib64 Example.stackSolve64 _ _ ?_ 10 10 rfl true (Or.inl rfl) (fun l => l)
    (fun l => List.Perm.refl l) (fun _ _ => Example.d64 1) Example.stackFlow64 ?_ 121 (1 / 2 ^ 52) ?_ ?_
    Example.stackScratch64 s.1 Example.stackFields64 s.2 h r i hi
  · show 2 * (((2 : ℕ) : ℚ) + 1) * (1 / 2 ^ 53) ≤ 1
    norm_num
  · intro _
    decide +kernel
  · intro _ _ _
    show (Consts.SMALL : Fl binary64) < Example.d64 (1 / 100)
    decide +kernel
  · intro _ _ _
    show 0 ≤ Example.d64 (12 / 10) ∧ (Example.d64 (12 / 10)).val / (Example.d64 (1 / 100)).val ≤ 121
    constructor <;> decide +kernel
  · intro _ _ _
    rw [Finset.sum_range_succ, Finset.sum_range_succ, Finset.sum_range_one, Finset.sum_range_succ,
      Finset.sum_range_succ, Finset.sum_range_one]
    show |(Example.d64 (1 / 10)).val + (Example.d64 (2 / 10)).val + (Example.d64 (7 / 10)).val - 1| ≤ 1 / 2 ^ 52 ∧
      |(Example.d64 (1 / 10)).val| + |(Example.d64 (2 / 10)).val| + |(Example.d64 (7 / 10)).val| ≤ 2
    constructor <;> decide +kernel

end DLB
