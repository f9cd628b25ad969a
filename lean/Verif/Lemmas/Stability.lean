import Verif.Lemmas.SeulexAccept
import Verif.Lemmas.StabilityData
import Mathlib.Algebra.Order.Ring.Pow
import Mathlib.Tactic.FieldSimp
import Mathlib.Tactic.Positivity
import Mathlib.Tactic.Linarith
/-
Lemmas for C127: the factor by which the extrapolation multiplies a decaying mode.  It is enclosed on a subdivision of `[1/206, 204]`, between the
nodes of which every row is monotone; the rest of the half line is covered by inequalities.
-/
set_option autoImplicit false
set_option linter.unusedSectionVars false

namespace DLB
open Spec

namespace Stability

/-- Nodes are multiples of `1/q`. -/
def q : Nat := 524288
/-- Scale of the fixed-point numbers. -/
def M : Nat := 1000000000000

/-- `M / (1 + (p/q)/n)^n`, rounded down. -/
def gFloor (n p : Nat) : Nat := M * (n * q) ^ n / (n * q + p) ^ n

/-- Sum of weights times values, terms with weight zero left out. -/
def dotN (v : Nat → Nat) : List (Nat × Nat) → Nat
  | [] => 0
  | x :: w => bif Nat.beq x.2 0 then dotN v w else x.2 * v x.1 + dotN v w

/-- The bound holds between the nodes `a` and `b`. -/
def checkOne (A B : List (Nat × Nat)) (D a b : Nat) : Bool :=
  Nat.ble (dotN (fun n => gFloor n a + 1) A * (2 * q + b)) (dotN (fun n => gFloor n b) B * (2 * q + b) + 2 * q * D * M)

def checkRun (A B : List (Nat × Nat)) (D s : Nat) : Nat → Nat → Bool
  | 0, _ => true
  | j + 1, p => checkOne A B D p (p + s) && checkRun A B D s j (p + s)

def checkBlocks (A B : List (Nat × Nat)) (D : Nat) : Nat → List (Nat × Nat) → Bool
  | p, [] => Nat.ble (204 * q) p
  | p, x :: bs => checkRun A B D x.1 x.2 p && checkBlocks A B D (p + x.1 * x.2) bs

def total (A : List (Nat × Nat)) : Nat := (A.map Prod.snd).sum

/-- All that is computed for one order and one of the two bounds. -/
def checkHalf (A B : List (Nat × Nat)) (D : Nat) (blocks : List (Nat × Nat)) : Bool :=
  Nat.ble (total A) (total B + D) && Nat.ble (total A) (103 * D) &&
    (A ++ B).all (fun x => (Nat.ble 2 x.1 && Nat.beq (x.1 % 2) 0) || Nat.beq x.1 3) && checkBlocks A B D (q / 206) blocks

section
variable {K : Type} [Field K] [LinearOrder K] [IsStrictOrderedRing K]

/-- Amplification of `y' = -z y` by `n` implicit Euler steps of size `1/n`. -/
def g (n : Nat) (z : K) : K := 1 / (1 + z / n) ^ n

def dotK (z : K) (A : List (Nat × Nat)) : K := (A.map fun x => (x.2 : K) * g x.1 z).sum

theorem base_pos (n : Nat) {z : K} (hz : 0 ≤ z) : 1 ≤ 1 + z / (n : K) := by
  have : 0 ≤ z / (n : K) := by positivity
  linarith

theorem g_nonneg (n : Nat) {z : K} (hz : 0 ≤ z) : 0 ≤ g n z := by
  have := base_pos n hz
  unfold g
  positivity

theorem g_anti (n : Nat) {a z : K} (ha : 0 ≤ a) (h : a ≤ z) : g n z ≤ g n a := by
  unfold g
  have h1 := base_pos n ha
  refine one_div_le_one_div_of_le (by positivity) (pow_le_pow_left₀ (by linarith) ?_ n)
  have : a / (n : K) ≤ z / n := div_le_div_of_nonneg_right h (Nat.cast_nonneg n)
  linarith

theorem g_node {n : Nat} (hn : 0 < n) (p : Nat) : g n ((p : K) / (q : K)) = ((n * q : Nat) : K) ^ n / ((n * q + p : Nat) : K) ^ n := by
  have hq : (q : K) ≠ 0 := by exact_mod_cast (by decide : q ≠ 0)
  have hn' : (n : K) ≠ 0 := by exact_mod_cast hn.ne'
  unfold g
  rw [← div_pow]
  have : 1 + (p : K) / q / n = ((n * q + p : Nat) : K) / ((n * q : Nat) : K) := by
    push_cast
    field_simp
  rw [this, ← one_div_pow, one_div_div]

theorem gFloor_le {n : Nat} (hn : 0 < n) (p : Nat) : (gFloor n p : K) ≤ (M : K) * g n ((p : K) / (q : K)) := by
  rw [g_node hn]
  have hb : (0 : K) < ((n * q + p : Nat) : K) ^ n := by
    have : 0 < n * q + p := Nat.add_pos_left (Nat.mul_pos hn (by decide)) _
    have : (0 : K) < ((n * q + p : Nat) : K) := by exact_mod_cast this
    exact pow_pos this n
  rw [← mul_div_assoc, le_div_iff₀ hb]
  unfold gFloor
  generalize M = m
  have := Nat.div_mul_le_self (m * (n * q) ^ n) ((n * q + p) ^ n)
  generalize n * q = a at *
  exact_mod_cast this

theorem le_gFloor {n : Nat} (hn : 0 < n) (p : Nat) : (M : K) * g n ((p : K) / (q : K)) ≤ ((gFloor n p + 1 : Nat) : K) := by
  rw [g_node hn]
  have hb' : 0 < (n * q + p) ^ n := Nat.pow_pos (Nat.add_pos_left (Nat.mul_pos hn (by decide)) _)
  have hb : (0 : K) < ((n * q + p : Nat) : K) ^ n := by exact_mod_cast hb'
  rw [← mul_div_assoc, div_le_iff₀ hb]
  have h2 : M * (n * q) ^ n ≤ (gFloor n p + 1) * (n * q + p) ^ n := by
    rw [Nat.add_mul, Nat.one_mul]
    unfold gFloor
    generalize M = m
    generalize n * q = a at *
    exact (Nat.lt_div_mul_add (a := m * a ^ n) hb').le
  generalize gFloor n p = x at *
  generalize M = m at *
  generalize n * q = a at *
  exact_mod_cast h2

/-- The numbers of sub-steps that occur. -/
def Usable (A : List (Nat × Nat)) : Prop := ∀ x ∈ A, (2 ≤ x.1 ∧ x.1 % 2 = 0) ∨ x.1 = 3

theorem Usable.pos {A : List (Nat × Nat)} (h : Usable A) : ∀ x ∈ A, 0 < x.1 := fun x hx => by
  rcases h x hx with h | h <;> omega

theorem dotN_cons (v : Nat → Nat) (x : Nat × Nat) (w : List (Nat × Nat)) : dotN v (x :: w) = x.2 * v x.1 + dotN v w := by
  rw [dotN]
  cases h : Nat.beq x.2 0 with
  | false => rfl
  | true =>
    rw [Nat.eq_of_beq_eq_true h, Nat.zero_mul, Nat.zero_add]
    rfl

theorem dotK_le {A : List (Nat × Nat)} (hA : Usable A) {a : Nat} {z : K} (h : (a : K) / (q : K) ≤ z) :
    (M : K) * dotK z A ≤ (dotN (fun n => gFloor n a + 1) A : K) := by
  have ha : (0 : K) ≤ (a : K) / q := by positivity
  induction A with
  | nil => simp [dotK, dotN]
  | cons x w ih =>
    have hx := hA.pos x (by simp)
    have ih := ih fun y hy => hA y (by simp [hy])
    rw [dotN_cons]
    unfold dotK at ih ⊢
    rw [List.map_cons, List.sum_cons, mul_add]
    push_cast
    have h1 := (mul_le_mul_of_nonneg_left (g_anti x.1 ha h) (Nat.cast_nonneg M)).trans (le_gFloor hx a)
    have h2 := mul_le_mul_of_nonneg_left h1 (Nat.cast_nonneg (α := K) x.2)
    push_cast at h2
    linarith

theorem le_dotK {A : List (Nat × Nat)} (hA : Usable A) {b : Nat} {z : K} (hz : 0 ≤ z) (h : z ≤ (b : K) / (q : K)) :
    (dotN (fun n => gFloor n b) A : K) ≤ (M : K) * dotK z A := by
  induction A with
  | nil => simp [dotK, dotN]
  | cons x w ih =>
    have hx := hA.pos x (by simp)
    have ih := ih fun y hy => hA y (by simp [hy])
    rw [dotN_cons]
    unfold dotK at ih ⊢
    rw [List.map_cons, List.sum_cons, mul_add]
    push_cast
    have h1 := (gFloor_le hx b).trans (mul_le_mul_of_nonneg_left (g_anti x.1 hz h) (Nat.cast_nonneg (α := K) M))
    have h2 := mul_le_mul_of_nonneg_left h1 (Nat.cast_nonneg (α := K) x.2)
    linarith

/-- What is shown: a combination of the rows is at most `D / (1 + z/2)`. -/
def Bound (A B : List (Nat × Nat)) (D : Nat) (z : K) : Prop := (dotK z A - dotK z B) * (1 + z / 2) ≤ D

theorem checkOne_sound {A B : List (Nat × Nat)} (hA : Usable A) (hB : Usable B) {D a b : Nat} (h : checkOne A B D a b = true) {z : K}
    (h1 : (a : K) / (q : K) ≤ z) (h2 : z ≤ (b : K) / (q : K)) : Bound A B D z := by
  have hz : 0 ≤ z := le_trans (by positivity) h1
  have hq : (0 : K) < (q : K) := by exact_mod_cast (by decide : 0 < q)
  have hM : (0 : K) < (M : K) := by exact_mod_cast (by decide : 0 < M)
  have k1 := dotK_le hA h1
  have k2 := le_dotK hB hz h2
  have k3 := Nat.le_of_ble_eq_true h
  have k4 : (dotN (fun n => gFloor n a + 1) A : K) * (2 * q + b) ≤ (dotN (fun n => gFloor n b) B : K) * (2 * q + b) + 2 * q * D * M := by
    exact_mod_cast k3
  unfold Bound
  by_cases hs : dotK z A - dotK z B ≤ 0
  · exact (mul_nonpos_of_nonpos_of_nonneg hs (by linarith)).trans (Nat.cast_nonneg D)
  have hs := (not_le.1 hs).le
  have k5 : (M : K) * (dotK z A - dotK z B) * (2 * q + b) ≤ 2 * q * D * M := by
    have : (M : K) * (dotK z A - dotK z B) ≤ (dotN (fun n => gFloor n a + 1) A : K) - (dotN (fun n => gFloor n b) B : K) := by linarith
    have h3 : (0 : K) ≤ 2 * q + b := by positivity
    have := mul_le_mul_of_nonneg_right this h3
    linarith
  have k6 : (dotK z A - dotK z B) * (1 + (b : K) / q / 2) ≤ D := by
    have e : (dotK z A - dotK z B) * (1 + (b : K) / q / 2) = (M : K) * (dotK z A - dotK z B) * (2 * q + b) / (2 * q * M) := by
      field_simp
    rw [e, div_le_iff₀ (by positivity)]
    linarith
  refine le_trans (mul_le_mul_of_nonneg_left ?_ hs) k6
  linarith

theorem checkRun_sound {A B : List (Nat × Nat)} (hA : Usable A) (hB : Usable B) {D s : Nat} : ∀ (j p : Nat), checkRun A B D s j p = true →
    ∀ {z : K}, (p : K) / (q : K) ≤ z → z ≤ ((p + s * j : Nat) : K) / (q : K) → 0 < j → Bound A B D z
  | 0, _, _, _, _, _, h0 => absurd h0 (lt_irrefl 0)
  | j + 1, p, h, z, h1, h2, _ => by
    rw [checkRun, Bool.and_eq_true] at h
    by_cases hz : z ≤ ((p + s : Nat) : K) / (q : K)
    · exact checkOne_sound hA hB h.1 h1 hz
    · refine checkRun_sound hA hB j (p + s) h.2 (not_le.1 hz).le ?_ ?_
      · rw [show p + s + s * j = p + s * (j + 1) by ring]
        exact h2
      · rcases Nat.eq_zero_or_pos j with rfl | hj
        · exact absurd (by simpa using h2) hz
        · exact hj

theorem checkBlocks_sound {A B : List (Nat × Nat)} (hA : Usable A) (hB : Usable B) {D : Nat} : ∀ (blocks : List (Nat × Nat)) (p : Nat),
    checkBlocks A B D p blocks = true → ∀ {z : K}, (p : K) / (q : K) ≤ z → z < 204 → Bound A B D z
  | [], p, h, z, h1, h2 => by
    exfalso
    have := Nat.le_of_ble_eq_true h
    have hq : (0 : K) < (q : K) := by exact_mod_cast (by decide : 0 < q)
    have h3 : (204 : K) * q ≤ p := by exact_mod_cast this
    have : (204 : K) ≤ (p : K) / q := by rwa [le_div_iff₀ hq]
    linarith
  | x :: bs, p, h, z, h1, h2 => by
    rw [checkBlocks, Bool.and_eq_true] at h
    by_cases hz : z ≤ ((p + x.1 * x.2 : Nat) : K) / (q : K)
    · rcases Nat.eq_zero_or_pos x.2 with e | hj
      · have h3 := h.2
        rw [e, Nat.mul_zero, Nat.add_zero] at h3
        exact checkBlocks_sound hA hB bs _ h3 h1 h2
      · exact checkRun_sound hA hB _ _ h.1 h1 hz hj
    · exact checkBlocks_sound hA hB bs _ h.2 (not_le.1 hz).le h2

theorem g_le_quadratic {n : Nat} (hn : 0 < n) {z : K} (hz : 0 ≤ z) : g n z ≤ 1 - z + z ^ 2 := by
  have hb := base_pos n hz
  have hn' : (n : K) ≠ 0 := by exact_mod_cast hn.ne'
  have h1 : 1 + z ≤ (1 + z / (n : K)) ^ n := by
    have := one_add_mul_le_pow (a := z / (n : K)) (by linarith) n
    rwa [mul_div_cancel₀ _ hn'] at this
  unfold g
  rw [div_le_iff₀ (by positivity)]
  have h2 : 0 ≤ 1 - z + z ^ 2 := by
    have := sq_nonneg (z - 1 / 2)
    linarith
  have := mul_le_mul_of_nonneg_left h1 h2
  have h3 : 0 ≤ z ^ 3 := by positivity
  linarith

theorem le_g {n : Nat} (hn : 0 < n) {z : K} (hz : 0 ≤ z) : 1 - z ≤ g n z := by
  have hb := base_pos n hz
  have hn' : (0 : K) < (n : K) := by exact_mod_cast hn
  have e : g n z = (1 + -(z / (n + z))) ^ n := by
    unfold g
    rw [← one_div_pow]
    congr 1
    field_simp
    ring
  rw [e]
  have hs : z / (n + z) ≤ 1 := by
    rw [div_le_one (by positivity)]
    linarith
  refine le_trans ?_ (one_add_mul_le_pow (by linarith) n)
  have : (n : K) * (z / (n + z)) ≤ z := by
    rw [← mul_div_assoc, div_le_iff₀ (by positivity)]
    have := mul_nonneg hz hz
    linarith
  linarith

theorem g_le_square {n : Nat} (hn : (2 ≤ n ∧ n % 2 = 0) ∨ n = 3) {z : K} (hz : 0 ≤ z) : g n z ≤ 1 / (1 + z / 2) ^ 2 := by
  unfold g
  refine one_div_le_one_div_of_le (by positivity) ?_
  rcases hn with ⟨h2, he⟩ | rfl
  · obtain ⟨m, rfl⟩ : ∃ m, n = m * 2 := ⟨n / 2, by omega⟩
    have hm : (m : K) ≠ 0 := by
      have : m ≠ 0 := by omega
      exact_mod_cast this
    rw [pow_mul]
    refine pow_le_pow_left₀ (by positivity) ?_ 2
    have := one_add_mul_le_pow (a := z / ((m * 2 : Nat) : K)) (by have := base_pos (m * 2) hz; linarith) m
    refine le_trans (le_of_eq ?_) this
    push_cast
    field_simp
  · have : 0 ≤ z ^ 3 := by positivity
    have : 0 ≤ z ^ 2 := by positivity
    push_cast
    have e : (1 + z / 3) ^ 3 = 1 + z + z ^ 2 / 3 + z ^ 3 / 27 := by ring
    have e' : (1 + z / 2) ^ 2 = 1 + z + z ^ 2 / 4 := by ring
    rw [e, e']
    linarith

theorem dotK_upper {A : List (Nat × Nat)} {z c : K} (h : ∀ x ∈ A, g x.1 z ≤ c) : dotK z A ≤ total A * c := by
  unfold dotK total
  induction A with
  | nil => simp
  | cons x w ih =>
    have h1 := ih fun y hy => h y (by simp [hy])
    have h2 := mul_le_mul_of_nonneg_left (h x (by simp)) (Nat.cast_nonneg (α := K) x.2)
    simp only [List.map_cons, List.sum_cons]
    rw [Nat.cast_add, add_mul]
    linarith

theorem dotK_lower {A : List (Nat × Nat)} {z c : K} (h : ∀ x ∈ A, c ≤ g x.1 z) : total A * c ≤ dotK z A := by
  unfold dotK total
  induction A with
  | nil => simp
  | cons x w ih =>
    have h1 := ih fun y hy => h y (by simp [hy])
    have h2 := mul_le_mul_of_nonneg_left (h x (by simp)) (Nat.cast_nonneg (α := K) x.2)
    simp only [List.map_cons, List.sum_cons]
    rw [Nat.cast_add, add_mul]
    linarith

theorem checkHalf_sound {A B : List (Nat × Nat)} {D : Nat} {blocks : List (Nat × Nat)} (h : checkHalf A B D blocks = true) {z : K} (hz : 0 ≤ z) :
    Bound A B D z := by
  simp only [checkHalf, Bool.and_eq_true] at h
  obtain ⟨⟨⟨h1, h2⟩, h3⟩, h4⟩ := h
  have hu : Usable (A ++ B) := by
    intro x hx
    have := List.all_eq_true.1 h3 x hx
    simp only [Bool.or_eq_true, Bool.and_eq_true] at this
    rcases this with ⟨a, b⟩ | c
    · exact .inl ⟨Nat.le_of_ble_eq_true a, Nat.eq_of_beq_eq_true b⟩
    · exact .inr (Nat.eq_of_beq_eq_true c)
  have hA : Usable A := fun x hx => hu x (by simp [hx])
  have hB : Usable B := fun x hx => hu x (by simp [hx])
  have t1 : (total A : K) ≤ total B + D := by exact_mod_cast Nat.le_of_ble_eq_true h1
  have t2 : (total A : K) ≤ 103 * D := by exact_mod_cast Nat.le_of_ble_eq_true h2
  have hD : (0 : K) ≤ D := Nat.cast_nonneg D
  by_cases hsmall : z ≤ ((q / 206 : Nat) : K) / (q : K)
  · have hz1 : z ≤ 1 / 206 := by
      refine hsmall.trans ?_
      have hq : (0 : K) < (q : K) := by exact_mod_cast (by decide : 0 < q)
      rw [div_le_div_iff₀ hq (by norm_num)]
      exact_mod_cast (by decide : q / 206 * 206 ≤ 1 * q)
    have u1 := dotK_upper (z := z) (c := 1 - z + z ^ 2) fun x hx => g_le_quadratic (hA.pos x hx) hz
    have u2 := dotK_lower (z := z) (c := 1 - z) fun x hx => le_g (hB.pos x hx) hz
    have u3 := mul_le_mul_of_nonneg_right t1 (by linarith : 0 ≤ 1 - z)
    have u4 := mul_le_mul_of_nonneg_right t2 (sq_nonneg z)
    have u5 : dotK z A - dotK z B ≤ D * (1 - z + 103 * z ^ 2) := by linarith
    have u6 : 103 * z ^ 2 ≤ z / 2 := by
      have := mul_le_mul_of_nonneg_left hz1 hz
      linarith
    have u7 : dotK z A - dotK z B ≤ D * (1 - z / 2) := u5.trans (mul_le_mul_of_nonneg_left (by linarith) hD)
    have u8 := mul_le_mul_of_nonneg_right u7 (by linarith : 0 ≤ 1 + z / 2)
    have u9 := mul_nonneg hD (sq_nonneg z)
    unfold Bound
    linarith
  · by_cases hbig : z < 204
    · exact checkBlocks_sound hA hB blocks _ h4 (not_le.1 hsmall).le hbig
    · have hbig := not_lt.1 hbig
      have u1 := dotK_upper (z := z) (c := 1 / (1 + z / 2) ^ 2) fun x hx => g_le_square (hA x hx) hz
      have u2 := dotK_lower (A := B) (z := z) (c := 0) fun x _ => g_nonneg x.1 hz
      rw [mul_zero] at u2
      have hp : (0 : K) < 1 + z / 2 := by linarith
      have u3 : dotK z A - dotK z B ≤ 103 * D * (1 / (1 + z / 2) ^ 2) := by
        have := mul_le_mul_of_nonneg_right t2 (by positivity : 0 ≤ 1 / (1 + z / 2) ^ 2)
        linarith
      unfold Bound
      refine (mul_le_mul_of_nonneg_right u3 hp.le).trans ?_
      have e : 103 * (D : K) * (1 / (1 + z / 2) ^ 2) * (1 + z / 2) = D * (103 / (1 + z / 2)) := by field_simp
      rw [e]
      refine mul_le_of_le_one_right hD ?_
      rw [div_le_one hp]
      linarith

/-! ### The weights -/

variable [MathOps K]

theorem basis_eval {dx : K} (hdx : dx ≠ 0) (k l : Nat) :
    (Lagrange.basis (Finset.Icc 0 k) (fun l => dx / (nSeq l : K)) l).eval 0
      = ((∏ j ∈ (Finset.Icc 0 k).erase l, ((nSeq l : ℚ) / ((nSeq l : ℚ) - (nSeq j : ℚ))) : ℚ) : K) := by
  rw [Lagrange.basis, Polynomial.eval_prod]
  push_cast
  refine Finset.prod_congr rfl fun j hj => ?_
  have hl := (nSeq_cast_pos (K := K) l).ne'
  have hj' := (nSeq_cast_pos (K := K) j).ne'
  have hne : (nSeq l : K) - nSeq j ≠ 0 := by
    intro h
    refine (Finset.mem_erase.1 hj).1 (stepSizes_injective hdx ?_)
    dsimp only
    rw [sub_eq_zero.1 h]
  have hne' : (nSeq j : K) - nSeq l ≠ 0 := by
    intro h
    exact hne (by linarith)
  simp only [Lagrange.basisDivisor, Polynomial.eval_mul, Polynomial.eval_C, Polynomial.eval_sub, Polynomial.eval_X]
  have e : dx / (nSeq l : K) - dx / nSeq j = dx * (nSeq j - nSeq l) / (nSeq l * nSeq j) := by
    field_simp
  rw [e]
  field_simp
  ring

/-- The weight of a row in the data. -/
def entry (A : List (Nat × Nat)) (l : Nat) : Nat := (A.getD l (0, 0)).2

def checkWeights (k : Nat) (o : Order) : Bool :=
  decide (o.pos = (List.range (k + 1)).map (fun l => (nSeq l, entry o.pos l))) &&
  decide (o.neg = (List.range (k + 1)).map (fun l => (nSeq l, entry o.neg l))) && decide (o.D ≠ 0) &&
  (List.range (k + 1)).all fun l => decide ((∏ j ∈ (Finset.Icc 0 k).erase l, ((nSeq l : ℚ) / ((nSeq l : ℚ) - (nSeq j : ℚ)))) * o.D =
    (entry o.pos l : ℚ) - entry o.neg l)

theorem dotK_range {A : List (Nat × Nat)} {m : Nat} (h : A = (List.range m).map (fun l => (nSeq l, entry A l))) (z : K) :
    dotK z A = ∑ l ∈ Finset.range m, (entry A l : K) * g (nSeq l) z := by
  unfold dotK
  rw [congrArg (List.map _) h]
  clear h
  generalize entry A = e
  rw [List.map_map]
  induction m with
  | zero => simp
  | succ m ih => rw [List.range_succ, List.map_append, List.sum_append, ih, Finset.sum_range_succ]; simp

theorem extrapolant_data {k : Nat} {o : Order} (h : checkWeights k o = true) {dx : K} (hdx : dx ≠ 0) (z : K) :
    extrapolant (fun l => dx / (nSeq l : K)) (fun l => g (nSeq l) z) 0 k * o.D = dotK z o.pos - dotK z o.neg := by
  simp only [checkWeights, Bool.and_eq_true, decide_eq_true_eq] at h
  obtain ⟨⟨⟨h1, h2⟩, h3⟩, h4⟩ := h
  rw [dotK_range h1, dotK_range h2, ← Finset.sum_sub_distrib]
  unfold extrapolant
  simp only [Lagrange.interpolate_apply, Polynomial.eval_finsetSum, Polynomial.eval_mul, Polynomial.eval_C]
  rw [Finset.sum_mul, ← Nat.range_succ_eq_Icc_zero]
  refine Finset.sum_congr rfl fun l hl => ?_
  have := of_decide_eq_true (List.all_eq_true.1 h4 l (List.mem_range.2 (Finset.mem_range.1 hl)))
  have this' := congrArg (fun x : ℚ => (x : K)) this
  simp only [Rat.cast_mul, Rat.cast_sub, Rat.cast_natCast] at this'
  rw [Nat.range_succ_eq_Icc_zero, basis_eval hdx, ← sub_mul, ← this']
  ring

def checkOrder (k : Nat) : Bool :=
  checkWeights k (order k) && checkHalf (order k).pos (order k).neg (order k).D (order k).upper &&
    checkHalf (order k).neg (order k).pos (order k).D (order k).lower

set_option maxRecDepth 20000 in
theorem orders_checked : ∀ k ∈ List.range 12, checkOrder (k + 1) = true := by decide +kernel

/-- The extrapolation multiplies a decaying mode by a factor of size at most `1 / (1 + z/2)`. -/
theorem amplification {k : Nat} (h1 : 1 ≤ k) (h2 : k ≤ 12) {dx : K} (hdx : dx ≠ 0) {z : K} (hz : 0 ≤ z) :
    |extrapolant (fun l => dx / (nSeq l : K)) (fun l => g (nSeq l) z) 0 k| * (1 + z / 2) ≤ 1 := by
  obtain ⟨k, rfl⟩ : ∃ j, k = j + 1 := ⟨k - 1, by omega⟩
  have h := orders_checked k (List.mem_range.2 (by omega))
  simp only [checkOrder, Bool.and_eq_true] at h
  obtain ⟨⟨w, u⟩, l⟩ := h
  have hu : Bound (order (k + 1)).pos (order (k + 1)).neg (order (k + 1)).D z := checkHalf_sound u hz
  have hl : Bound (order (k + 1)).neg (order (k + 1)).pos (order (k + 1)).D z := checkHalf_sound l hz
  have hw := extrapolant_data w hdx z
  have hD : (0 : K) < (order (k + 1)).D := by
    simp only [checkWeights, Bool.and_eq_true, decide_eq_true_eq] at w
    exact_mod_cast Nat.pos_of_ne_zero w.1.2
  unfold Bound at hu hl
  obtain ⟨R, hR⟩ : ∃ R, R = extrapolant (fun l => dx / (nSeq l : K)) (fun l => g (nSeq l) z) 0 (k + 1) := ⟨_, rfl⟩
  rw [← hR] at hw ⊢
  rw [← hw] at hu
  rw [← neg_sub, ← hw] at hl
  have hp : 0 < 1 + z / 2 := by linarith
  have a1 : R * (1 + z / 2) ≤ 1 := by
    refine le_of_mul_le_mul_right ?_ hD
    linarith
  have a2 : -R * (1 + z / 2) ≤ 1 := by
    refine le_of_mul_le_mul_right ?_ hD
    linarith
  rcases abs_cases R with ⟨e, -⟩ | ⟨e, -⟩ <;> rw [e] <;> assumption

end
end Stability
end DLB
