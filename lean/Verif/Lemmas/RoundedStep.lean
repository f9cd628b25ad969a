import Verif.Model.Rounded
import Verif.Lemmas.Levels
/-
One transfer of the planning loop with rounding.
-/
set_option autoImplicit false
set_option linter.unusedSectionVars false

namespace DLB

variable {K : Type} [Field K] [LinearOrder K] [IsStrictOrderedRing K]

/-- If the sender's surplus is the smaller one the sender ends exactly at the mean: the differences
are exact. -/
theorem fl_exhaust (F : FloatFormat K) {m a : K} (hm : F.rnd m = m) (ha : F.rnd a = a)
    (hlo : m / 2 ≤ a) (hx : F.rnd (a - m) ≤ m) : F.rnd (a - F.rnd (a - m)) = m := by
  rcases le_or_gt a (2 * m) with h | h
  · rw [F.sterbenz a m ha hm hlo h]
    have : a - (a - m) = m := by ring
    rw [this, hm]
  · have h1 : m ≤ F.rnd (a - m) := F.le_rnd hm (by linarith)
    have h2 : F.rnd (a - m) = m := le_antisymm hx h1
    rw [h2, h2]

/-- What one transfer does: `a` and `b` are the values of sender and receiver, `x` is the amount. -/
structure StepOut (F : FloatFormat K) (m a b x : K) : Prop where
  x_le : x ≤ m
  x_ge : -m ≤ x
  x_le_recv : x ≤ F.rnd (m - b)
  x_le_send : x ≤ F.rnd (a - m)
  send : m ≤ F.rnd (a - x)
  cases : (F.rnd (a - x) = m ∧ x = F.rnd (a - m)) ∨
    (x = F.rnd (m - b) ∧ |F.rnd (b + x) - m| ≤ 3 * (F.u * m))
  recv_le : F.rnd (b + x) ≤ m + 3 * (F.u * m)
  errA : |F.rnd (a - x) - (a - x)| ≤ F.u * (a + m)
  errB : |F.rnd (b + x) - (b + x)| ≤ F.u * (2 * m)

theorem fl_step (F : FloatFormat K) {m a b : K} (hm : F.rnd m = m) (ha : F.rnd a = a)
    (hb : F.rnd b = b) (hm0 : 0 ≤ m) (hu : F.u ≤ 1 / 10) (hb0 : 0 ≤ b) (hbm : b ≤ 2 * m)
    (hlo : m / 2 ≤ a) : StepOut F m a b (F.rnd (min (a - m) (m - b))) := by
  have hu0 := F.u_nonneg
  have hnegm : F.rnd (-m) = -m := F.neg_fixed m hm
  have hum : F.u * m ≤ m / 10 := by nlinarith
  have hum0 : 0 ≤ F.u * m := mul_nonneg hu0 hm0
  set x := F.rnd (min (a - m) (m - b)) with hxdef
  have hxr : F.rnd x = x := F.idem _
  have h1 : x ≤ F.rnd (m - b) := F.mono _ _ (min_le_right _ _)
  have h2 : x ≤ F.rnd (a - m) := F.mono _ _ (min_le_left _ _)
  have hmb : F.rnd (m - b) ≤ m := F.rnd_le hm (by linarith)
  have hxm : x ≤ m := h1.trans hmb
  have hxg : -m ≤ x := by
    have := F.le_rnd (x := -m) (y := min (a - m) (m - b)) hnegm
      (le_min (by linarith) (by linarith))
    exact this
  have hnb : |F.rnd (m - b) - (m - b)| ≤ F.u * m := by
    refine (F.near_sub hm hb).trans (mul_le_mul_of_nonneg_left ?_ hu0)
    rw [abs_le]; constructor <;> linarith
  have hbx : b + x ≤ m + F.u * m := by
    have := (abs_le.1 hnb).2
    linarith
  have hbx2 : -(2 * m) ≤ b + x := by linarith
  have errB : |F.rnd (b + x) - (b + x)| ≤ F.u * (2 * m) := by
    refine (F.near_add b x hb hxr).trans (mul_le_mul_of_nonneg_left ?_ hu0)
    rw [abs_le]; constructor <;> linarith
  have errA : |F.rnd (a - x) - (a - x)| ≤ F.u * (a + m) := by
    refine (F.near_sub ha hxr).trans (mul_le_mul_of_nonneg_left ?_ hu0)
    rw [abs_le]; constructor <;> linarith
  have hrecv : F.rnd (b + x) ≤ m + 3 * (F.u * m) := by
    have := (abs_le.1 errB).2
    linarith
  rcases le_or_gt (F.rnd (a - m)) (F.rnd (m - b)) with h | h
  · have hx : x = F.rnd (a - m) := by rw [hxdef, ← F.rnd_min, min_eq_left h]
    have hs : F.rnd (a - x) = m := by
      rw [hx]; exact fl_exhaust F hm ha hlo (h.trans hmb)
    exact ⟨hxm, hxg, h1, h2, hs.ge, .inl ⟨hs, hx⟩, hrecv, errA, errB⟩
  · have hx : x = F.rnd (m - b) := by rw [hxdef, ← F.rnd_min, min_eq_right h.le]
    have hlt : x < a - m := by
      by_contra hc
      have := F.rnd_le hxr (not_lt.1 hc)
      rw [hx] at this
      exact absurd this (not_le.2 h)
    have hs : m ≤ F.rnd (a - x) := F.le_rnd hm (by linarith)
    refine ⟨hxm, hxg, h1, h2, hs, .inr ⟨hx, ?_⟩, hrecv, errA, errB⟩
    have e1 := abs_le.1 errB
    have e2 := abs_le.1 hnb
    rw [← hx] at e2
    rw [abs_le]; constructor <;> linarith [e1.1, e1.2, e2.1, e2.2]

/-- Near the mean all differences are exact: one of the two ends exactly at the mean. -/
theorem fl_step_quiet (F : FloatFormat K) {m a b : K} (hm : F.rnd m = m) (ha : F.rnd a = a)
    (hb : F.rnd b = b) (ham : |a - m| ≤ m / 2) (hbm : |b - m| ≤ m / 2) :
    F.rnd (min (a - m) (m - b)) = min (a - m) (m - b) ∧
    |F.rnd (a - min (a - m) (m - b)) - m| + |F.rnd (b + min (a - m) (m - b)) - m| ≤
      |a - m| + |b - m| + F.u * (2 * m) := by
  have hu0 := F.u_nonneg
  have a1 := abs_le.1 ham
  have b1 := abs_le.1 hbm
  have hm0 : 0 ≤ m := by linarith [a1.1, a1.2]
  have ea : F.rnd (a - m) = a - m := F.sterbenz a m ha hm (by linarith) (by linarith)
  have eb : F.rnd (m - b) = m - b := F.sterbenz m b hm hb (by linarith) (by linarith)
  refine ⟨by rw [← F.rnd_min, ea, eb], ?_⟩
  have key : F.u * |a + b - m| ≤ F.u * (2 * m) :=
    mul_le_mul_of_nonneg_left (by rw [abs_le]; constructor <;> linarith) hu0
  have tri : |a + b - m - m| ≤ |a - m| + |b - m| := by
    have : a + b - m - m = (a - m) + (b - m) := by ring
    rw [this]; exact abs_add_le _ _
  rcases le_total (a - m) (m - b) with h | h
  · rw [min_eq_left h]
    have e : a - (a - m) = m := by ring
    rw [e, hm, sub_self, abs_zero, zero_add]
    have e2 : b + (a - m) = a + b - m := by ring
    have h3 := F.near_add b (a - m) hb ea
    rw [e2] at h3 ⊢
    have : F.rnd (a + b - m) - m = (F.rnd (a + b - m) - (a + b - m)) + (a + b - m - m) := by ring
    rw [this]
    exact (abs_add_le _ _).trans (by linarith)
  · rw [min_eq_right h]
    have e : b + (m - b) = m := by ring
    rw [e, hm, sub_self, abs_zero, add_zero]
    have e2 : a - (m - b) = a + b - m := by ring
    have h3 := F.near_sub ha eb
    rw [e2] at h3 ⊢
    have : F.rnd (a + b - m) - m = (F.rnd (a + b - m) - (a + b - m)) + (a + b - m - m) := by ring
    rw [this]
    exact (abs_add_le _ _).trans (by linarith)

end DLB
