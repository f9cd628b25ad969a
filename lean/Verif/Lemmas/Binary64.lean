import Verif.Model.Binary64
import Verif.Model.Rounded
import Mathlib.Tactic.NormNum
import Mathlib.Tactic.FieldSimp
/-
The rounding of binary64 is a floating-point format.
-/
set_option autoImplicit false
set_option exponentiation.threshold 2000

namespace DLB

theorem roundEven_int (k : ℤ) : roundEven (k : ℚ) = k := by
  unfold roundEven
  rw [Int.floor_intCast, sub_self, if_pos (by norm_num)]

theorem roundEven_near (y : ℚ) : |(roundEven y : ℚ) - y| ≤ 1 / 2 := by
  have h1 := Int.floor_le y
  have h2 := Int.lt_floor_add_one y
  unfold roundEven
  split
  · rw [abs_le]; constructor <;> linarith
  · split
    · push_cast; rw [abs_le]; constructor <;> linarith
    · split
      · rw [abs_le]; constructor <;> linarith
      · push_cast; rw [abs_le]; constructor <;> linarith

theorem roundEven_bounds (y : ℚ) : ⌊y⌋ ≤ roundEven y ∧ roundEven y ≤ ⌊y⌋ + 1 := by
  unfold roundEven
  split
  · omega
  · split
    · omega
    · split <;> omega

theorem roundEven_mono {x y : ℚ} (h : x ≤ y) : roundEven x ≤ roundEven y := by
  have hf : ⌊x⌋ ≤ ⌊y⌋ := Int.floor_le_floor h
  rcases lt_or_eq_of_le hf with hlt | heq
  · have := (roundEven_bounds x).2
    have := (roundEven_bounds y).1
    omega
  · by_cases hxy : x = y
    · rw [hxy]
    have hlt : x < y := lt_of_le_of_ne h hxy
    unfold roundEven
    rw [← heq]
    rcases lt_trichotomy (x - (⌊x⌋ : ℚ)) (1 / 2) with hx | hx | hx
    · rw [if_pos hx]
      split
      · omega
      · split
        · omega
        · split <;> omega
    · have hy2 : (1 : ℚ) / 2 < y - (⌊x⌋ : ℚ) := by linarith
      have hy1 : ¬ y - (⌊x⌋ : ℚ) < 1 / 2 := not_lt.2 hy2.le
      rw [if_neg hy1, if_pos hy2, hx, if_neg (lt_irrefl _), if_neg (lt_irrefl _)]
      split <;> omega
    · rw [if_neg (by push Not; linarith), if_pos hx, if_neg (by push Not; linarith),
        if_pos (by linarith)]

theorem roundEven_le {y : ℚ} {k : ℤ} (h : y ≤ k) : roundEven y ≤ k := by
  have := roundEven_mono h
  rwa [roundEven_int] at this

theorem le_roundEven {y : ℚ} {k : ℤ} (h : (k : ℚ) ≤ y) : k ≤ roundEven y := by
  have := roundEven_mono h
  rwa [roundEven_int] at this

theorem roundEven_neg (y : ℚ) : roundEven (-y) = -roundEven y := by
  by_cases hi : (⌊y⌋ : ℚ) = y
  · rw [← hi, ← Int.cast_neg, roundEven_int, roundEven_int]
  · have h1 : (⌊y⌋ : ℚ) < y := lt_of_le_of_ne (Int.floor_le y) hi
    have h2 := Int.lt_floor_add_one y
    have hf : ⌊-y⌋ = -⌊y⌋ - 1 := by
      rw [Int.floor_eq_iff]
      push_cast
      constructor <;> linarith
    unfold roundEven
    rw [hf]
    push_cast
    rcases lt_trichotomy (y - (⌊y⌋ : ℚ)) (1 / 2) with h | h | h
    · rw [if_neg (by linarith), if_pos (by linarith), if_pos h]; omega
    · have e : -y - (-(⌊y⌋ : ℚ) - 1) = 1 / 2 := by linarith
      rw [e, h, if_neg (lt_irrefl _), if_neg (lt_irrefl _), if_neg (lt_irrefl _),
        if_neg (lt_irrefl _)]
      split <;> split <;> omega
    · rw [if_pos (by linarith), if_neg (by linarith), if_pos h]; omega

theorem two_zpow_pos (e : ℤ) : (0 : ℚ) < 2 ^ e := zpow_pos (by norm_num) e

theorem two_zpow_split {e E : ℤ} (h : E ≤ e) : ∃ j : ℕ, (2 : ℚ) ^ e = ((2 ^ j : ℕ) : ℚ) * 2 ^ E := by
  refine ⟨(e - E).toNat, ?_⟩
  push_cast
  rw [← zpow_natCast, ← zpow_add₀ (by norm_num)]
  congr 1
  rw [Int.toNat_of_nonneg (by omega)]
  omega

theorem log_le (x : ℚ) (hx : x ≠ 0) : (2 : ℚ) ^ Int.log 2 |x| ≤ |x| := by
  have := Int.zpow_log_le_self (b := 2) (by norm_num) (abs_pos.2 hx)
  exact_mod_cast this

theorem lt_log (x : ℚ) : |x| < (2 : ℚ) ^ (Int.log 2 |x| + 1) := by
  have := Int.lt_zpow_succ_log_self (b := 2) (by norm_num) |x|
  exact_mod_cast this

theorem abs_lt_quantum (x : ℚ) : |x| < 2 ^ 53 * (2 : ℚ) ^ quantumExp x := by
  refine lt_of_lt_of_le (lt_log x) ?_
  have : (2 : ℚ) ^ 53 = 2 ^ (53 : ℤ) := by norm_num
  rw [this, ← zpow_add₀ (by norm_num)]
  apply zpow_le_zpow_right₀ (by norm_num)
  unfold quantumExp
  omega

theorem quantumExp_ge (x : ℚ) : -1074 ≤ quantumExp x := le_max_right _ _

theorem quantumExp_neg (x : ℚ) : quantumExp (-x) = quantumExp x := by
  unfold quantumExp; rw [abs_neg]

theorem quantumExp_mono {x y : ℚ} (hx : x ≠ 0) (h : |x| ≤ |y|) : quantumExp x ≤ quantumExp y := by
  unfold quantumExp
  have := Int.log_mono_right (b := 2) (abs_pos.2 hx) h
  omega

theorem rnd64_neg (x : ℚ) : rnd64 (-x) = -rnd64 x := by
  unfold rnd64
  by_cases h : x = 0
  · simp [h]
  · rw [if_neg h, if_neg (neg_ne_zero.2 h), quantumExp_neg, neg_div, roundEven_neg]
    push_cast; ring

/-- `x` rounded is the integer times the quantum, also for zero. -/
theorem rnd64_eq (x : ℚ) : rnd64 x = roundEven (x / 2 ^ quantumExp x) * 2 ^ quantumExp x := by
  unfold rnd64
  split
  · next h =>
    subst h
    have := roundEven_int 0
    rw [Int.cast_zero] at this
    rw [zero_div, this, Int.cast_zero, zero_mul]
  · rfl

/-- Multiples of a power of two with at most 53 bits are doubles. -/
theorem rnd64_fixed {k : ℤ} {e : ℤ} (hk : |k| ≤ 2 ^ 53) (he : -1074 ≤ e) :
    rnd64 ((k : ℚ) * 2 ^ e) = (k : ℚ) * 2 ^ e := by
  by_cases h0 : k = 0
  · simp [h0, rnd64]
  set x := (k : ℚ) * 2 ^ e with hx
  have hx0 : x ≠ 0 := mul_ne_zero (by exact_mod_cast h0) (two_zpow_pos e).ne'
  -- the quotient by the quantum is an integer
  have key : ∃ j : ℤ, x = (j : ℚ) * 2 ^ quantumExp x := by
    by_cases hE : quantumExp x ≤ e
    · obtain ⟨j, hj⟩ := two_zpow_split hE
      refine ⟨k * (2 ^ j : ℕ), ?_⟩
      conv_lhs => rw [hx, hj]
      push_cast; ring
    · have hlog : e + 53 ≤ Int.log 2 |x| := by
        unfold quantumExp at hE; omega
      have h1 := log_le x hx0
      have h2 : (2 : ℚ) ^ (e + 53) ≤ |x| :=
        (zpow_le_zpow_right₀ (by norm_num) hlog).trans h1
      have h3 : |x| = |(k : ℚ)| * 2 ^ e := by
        rw [hx, abs_mul, abs_of_pos (two_zpow_pos e)]
      have hkq : |(k : ℚ)| ≤ 2 ^ 53 := by exact_mod_cast hk
      have h4 : |x| ≤ 2 ^ (e + 53) := by
        rw [h3, zpow_add₀ (by norm_num), mul_comm]
        refine mul_le_mul_of_nonneg_left ?_ (two_zpow_pos e).le
        exact_mod_cast hkq
      have h5 : |x| = (2 : ℚ) ^ (e + 53) := le_antisymm h4 h2
      have hq : quantumExp x = e + 1 := by
        have h6 := lt_log x
        have h7 : Int.log 2 |x| = e + 53 := by
          have a : e + 53 < Int.log 2 |x| + 1 := by
            rw [h5] at h6
            conv at h6 => rhs; rw [h5.symm]
            exact (zpow_lt_zpow_iff_right₀ (by norm_num : (1 : ℚ) < 2)).1 h6
          have b : Int.log 2 |x| ≤ e + 53 := by
            have := h1.trans h4
            exact (zpow_le_zpow_iff_right₀ (by norm_num : (1 : ℚ) < 2)).1 this
          omega
        unfold quantumExp; omega
      have h8 : (2 : ℚ) ^ (e + 53) = ((2 ^ 52 : ℤ) : ℚ) * 2 ^ quantumExp x := by
        rw [hq]
        have : e + 53 = 52 + (e + 1) := by ring
        rw [this, zpow_add₀ (by norm_num)]
        norm_num
      rcases abs_choice x with hs | hs
      · exact ⟨2 ^ 52, by rw [← h8, ← h5, hs]⟩
      · refine ⟨-2 ^ 52, ?_⟩
        have : x = -|x| := by rw [hs, neg_neg]
        conv_lhs => rw [this, h5, h8]
        push_cast; ring
  obtain ⟨j, hj⟩ := key
  rw [rnd64_eq]
  have : x / 2 ^ quantumExp x = (j : ℚ) := by
    rw [div_eq_iff (two_zpow_pos _).ne']; exact hj
  rw [this, roundEven_int]
  exact hj.symm

/-- The rounded number has at most 53 bits. -/
theorem roundEven_le_53 (x : ℚ) : |roundEven (x / 2 ^ quantumExp x)| ≤ 2 ^ 53 := by
  have h := abs_lt_quantum x
  have hp := two_zpow_pos (quantumExp x)
  rw [abs_lt] at h
  rw [abs_le]
  constructor
  · apply le_roundEven
    rw [le_div_iff₀ hp]
    push_cast
    linarith [h.1]
  · apply roundEven_le
    rw [div_le_iff₀ hp]
    push_cast
    linarith [h.2]

theorem rnd64_idem (x : ℚ) : rnd64 (rnd64 x) = rnd64 x := by
  rw [rnd64_eq x]
  exact rnd64_fixed (roundEven_le_53 x) (quantumExp_ge x)

theorem rnd64_err (x : ℚ) : |rnd64 x - x| ≤ 1 / 2 * 2 ^ quantumExp x := by
  rw [rnd64_eq]
  have hp := two_zpow_pos (quantumExp x)
  have e : (roundEven (x / 2 ^ quantumExp x) : ℚ) * 2 ^ quantumExp x - x =
      ((roundEven (x / 2 ^ quantumExp x) : ℚ) - x / 2 ^ quantumExp x) * 2 ^ quantumExp x := by
    rw [sub_mul, div_mul_cancel₀ _ hp.ne']
  rw [e, abs_mul, abs_of_pos hp]
  exact mul_le_mul_of_nonneg_right (roundEven_near _) hp.le

/-- Normal numbers: relative error. -/
theorem quantum_le {x : ℚ} (hx : x ≠ 0) (h : quantumExp x ≠ -1074) :
    1 / 2 * (2 : ℚ) ^ quantumExp x ≤ 1 / 2 ^ 53 * |x| := by
  have hq : quantumExp x = Int.log 2 |x| - 52 := by unfold quantumExp at h ⊢; omega
  have h1 := log_le x hx
  have h2 : (2 : ℚ) ^ Int.log 2 |x| = 2 ^ 52 * 2 ^ quantumExp x := by
    rw [hq]
    have : Int.log 2 |x| = 52 + (Int.log 2 |x| - 52) := by ring
    conv_lhs => rw [this, zpow_add₀ (by norm_num)]
    norm_num
  rw [h2] at h1
  norm_num at h1 ⊢
  linarith

theorem rnd64_near (x : ℚ) : |rnd64 x - x| ≤ 1 / 2 ^ 53 * |x| + 1 / 2 ^ 1075 := by
  by_cases hx : x = 0
  · simp [hx, rnd64]
  refine (rnd64_err x).trans ?_
  by_cases hq : quantumExp x = -1074
  · rw [hq]
    have e : 1 / 2 * (2 : ℚ) ^ (-1074 : ℤ) = 1 / 2 ^ 1075 := by
      rw [zpow_neg, pow_succ, show ((1074 : ℤ)) = ((1074 : ℕ) : ℤ) by rfl, zpow_natCast]
      field_simp
    rw [e]
    have : 0 ≤ 1 / 2 ^ 53 * |x| := by positivity
    linarith
  · refine (quantum_le hx hq).trans ?_
    have : (0 : ℚ) ≤ 1 / 2 ^ 1075 := by positivity
    linarith

/-- A double is an integer times its quantum. -/
theorem rnd64_repr {x : ℚ} (h : rnd64 x = x) : ∃ k : ℤ, x = (k : ℚ) * 2 ^ quantumExp x :=
  ⟨roundEven (x / 2 ^ quantumExp x), by rw [← rnd64_eq, h]⟩

/-- ... and so an integer times any smaller power of two. -/
theorem rnd64_repr_of_le {x : ℚ} (h : rnd64 x = x) {E : ℤ} (hE : E ≤ quantumExp x) :
    ∃ k : ℤ, x = (k : ℚ) * 2 ^ E := by
  obtain ⟨k, hk⟩ := rnd64_repr h
  obtain ⟨j, hj⟩ := two_zpow_split hE
  refine ⟨k * (2 ^ j : ℕ), ?_⟩
  conv_lhs => rw [hk, hj]
  push_cast; ring

theorem rnd64_near_add (x y : ℚ) (hx : rnd64 x = x) (hy : rnd64 y = y) :
    |rnd64 (x + y) - (x + y)| ≤ 1 / 2 ^ 53 * |x + y| := by
  by_cases h0 : x + y = 0
  · simp [h0, rnd64]
  by_cases hq : quantumExp (x + y) = -1074
  · obtain ⟨k, hk⟩ := rnd64_repr_of_le hx (quantumExp_ge x)
    obtain ⟨l, hl⟩ := rnd64_repr_of_le hy (quantumExp_ge y)
    have hp := two_zpow_pos (-1074)
    have e : (x + y) / 2 ^ (-1074 : ℤ) = ((k + l : ℤ) : ℚ) := by
      rw [div_eq_iff hp.ne']
      conv_lhs => rw [hk, hl]
      push_cast; ring
    have : rnd64 (x + y) = x + y := by
      rw [rnd64_eq, hq, e, roundEven_int, ← e, div_mul_cancel₀ _ hp.ne']
    rw [this, sub_self, abs_zero]
    positivity
  · exact (rnd64_err _).trans (quantum_le h0 hq)

theorem rnd64_sterbenz (x y : ℚ) (hx : rnd64 x = x) (hy : rnd64 y = y) (h1 : y / 2 ≤ x)
    (h2 : x ≤ 2 * y) : rnd64 (x - y) = x - y := by
  have hy0 : 0 ≤ y := by linarith
  have hx0 : 0 ≤ x := by linarith
  -- the smaller of the two
  have main : ∀ a b : ℚ, rnd64 a = a → rnd64 b = b → 0 ≤ a → a ≤ b → b ≤ 2 * a →
      rnd64 (b - a) = b - a := by
    intro a b ha hb ha0 hab hba
    by_cases hz : a = 0
    · rw [hz, sub_zero, hb]
    have hq : quantumExp a ≤ quantumExp b := by
      apply quantumExp_mono hz
      rw [abs_of_nonneg ha0, abs_of_nonneg (ha0.trans hab)]; exact hab
    obtain ⟨k, hk⟩ := rnd64_repr ha
    obtain ⟨l, hl⟩ := rnd64_repr_of_le hb hq
    have hp := two_zpow_pos (quantumExp a)
    have e : b - a = ((l - k : ℤ) : ℚ) * 2 ^ quantumExp a := by
      rw [Int.cast_sub, sub_mul, ← hl, ← hk]
    rw [e]
    apply rnd64_fixed _ (quantumExp_ge a)
    have h53 := abs_lt_quantum a
    rw [abs_of_nonneg ha0] at h53
    have h3 : |((l - k : ℤ) : ℚ)| * 2 ^ quantumExp a ≤ 2 ^ 53 * 2 ^ quantumExp a := by
      have : |((l - k : ℤ) : ℚ)| * 2 ^ quantumExp a = |b - a| := by
        rw [e, abs_mul, abs_of_pos hp]
      rw [this, abs_of_nonneg (by linarith)]
      linarith
    have h4 := le_of_mul_le_mul_right h3 hp
    exact_mod_cast h4
  rcases le_total x y with h | h
  · have := main x y hx hy hx0 h (by linarith)
    have e : x - y = -(y - x) := by ring
    rw [e, rnd64_neg, this]
  · exact main y x hy hx hy0 h h2

theorem rnd64_nonneg {x : ℚ} (h : 0 ≤ x) : 0 ≤ rnd64 x := by
  rw [rnd64_eq]
  have hp := two_zpow_pos (quantumExp x)
  refine mul_nonneg ?_ hp.le
  have : (0 : ℤ) ≤ roundEven (x / 2 ^ quantumExp x) :=
    le_roundEven (by push_cast; exact div_nonneg h hp.le)
  exact_mod_cast this

theorem rnd64_mono_pos {x y : ℚ} (hx : 0 < x) (h : x ≤ y) : rnd64 x ≤ rnd64 y := by
  have hq : quantumExp x ≤ quantumExp y := by
    apply quantumExp_mono hx.ne'
    rw [abs_of_pos hx, abs_of_pos (lt_of_lt_of_le hx h)]; exact h
  have hpx := two_zpow_pos (quantumExp x)
  have hpy := two_zpow_pos (quantumExp y)
  rw [rnd64_eq x, rnd64_eq y]
  rcases lt_or_eq_of_le hq with hlt | heq
  · -- the binade boundary `2^53 * 2^(quantumExp y - 1)` separates the two
    set b : ℚ := 2 ^ (quantumExp y + 52) with hb
    have hlog : quantumExp y = Int.log 2 |y| - 52 := by
      have := quantumExp_ge x
      unfold quantumExp at hlt ⊢; omega
    have hby : b ≤ y := by
      have h1 := log_le y (lt_of_lt_of_le hx h).ne'
      rw [abs_of_pos (lt_of_lt_of_le hx h)] at h1
      rw [hb, hlog, abs_of_pos (lt_of_lt_of_le hx h)]
      simpa using h1
    have hxb : x ≤ 2 ^ 53 * 2 ^ quantumExp x := by
      have := abs_lt_quantum x
      rw [abs_of_pos hx] at this
      exact this.le
    have h53 : (2 : ℚ) ^ 53 * 2 ^ quantumExp x ≤ b := by
      have : (2 : ℚ) ^ 53 = 2 ^ (53 : ℤ) := by norm_num
      rw [hb, this, ← zpow_add₀ (by norm_num)]
      apply zpow_le_zpow_right₀ (by norm_num)
      omega
    have l1 : (roundEven (x / 2 ^ quantumExp x) : ℚ) * 2 ^ quantumExp x ≤
        2 ^ 53 * 2 ^ quantumExp x := by
      apply mul_le_mul_of_nonneg_right _ hpx.le
      have : roundEven (x / 2 ^ quantumExp x) ≤ 2 ^ 53 := by
        apply roundEven_le
        rw [div_le_iff₀ hpx]
        push_cast; exact hxb
      exact_mod_cast this
    have l2 : b ≤ (roundEven (y / 2 ^ quantumExp y) : ℚ) * 2 ^ quantumExp y := by
      have hb2 : b = 2 ^ 52 * 2 ^ quantumExp y := by
        rw [hb, zpow_add₀ (by norm_num), mul_comm]
        norm_num
      rw [hb2]
      apply mul_le_mul_of_nonneg_right _ hpy.le
      have : (2 ^ 52 : ℤ) ≤ roundEven (y / 2 ^ quantumExp y) := by
        apply le_roundEven
        rw [le_div_iff₀ hpy]
        have e : (((2 ^ 52 : ℤ)) : ℚ) = 2 ^ 52 := by norm_num
        rw [e, ← hb2]; exact hby
      exact_mod_cast this
    exact l1.trans (h53.trans l2)
  · rw [← heq]
    apply mul_le_mul_of_nonneg_right _ hpx.le
    have := roundEven_mono (div_le_div_of_nonneg_right h hpx.le)
    exact_mod_cast this

theorem rnd64_mono (x y : ℚ) (h : x ≤ y) : rnd64 x ≤ rnd64 y := by
  rcases lt_trichotomy x 0 with hx | hx | hx
  · rcases lt_or_ge y 0 with hy | hy
    · have := rnd64_mono_pos (x := -y) (y := -x) (by linarith) (by linarith)
      rw [rnd64_neg, rnd64_neg] at this
      linarith
    · have h1 := rnd64_nonneg (x := -x) (by linarith)
      rw [rnd64_neg] at h1
      have h2 := rnd64_nonneg hy
      linarith
  · rw [hx, rnd64, if_pos rfl]
    exact rnd64_nonneg (by linarith)
  · exact rnd64_mono_pos hx h

/-- IEEE binary64 with rounding to nearest, ties to even; no overflow. -/
def binary64 : FloatFormat ℚ where
  rnd := rnd64
  u := 1 / 2 ^ 53
  eta := 1 / 2 ^ 1075
  u_nonneg := by positivity
  eta_nonneg := by positivity
  mono := rnd64_mono
  idem := rnd64_idem
  neg_fixed := fun x h => by rw [rnd64_neg, h]
  near := rnd64_near
  near_add := rnd64_near_add
  sterbenz := rnd64_sterbenz

end DLB
