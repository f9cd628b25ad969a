import Verif.Props.RoundedMixture
import Verif.Props.MixtureFraction
/-
C126: in arithmetic with rounding the mixture fraction is Bilger's up to rounding errors, and so is the choice of the cells to map.
-/
set_option autoImplicit false
set_option linter.unusedSectionVars false

namespace DLB

variable {K : Type} [Field K] [LinearOrder K] [IsStrictOrderedRing K] {F : FloatFormat K}

/-! ### Specification -/

/-- The input with the floating-point numbers as exact numbers. -/
def exactDict (d : MixFracDict (Fl F)) : MixFracDict K where
  species := d.species
  W := fun s => (d.W s).val
  elements := d.elements
  oxidizer := fun s => (d.oxidizer s).map Fl.val
  fuel := fun s => (d.fuel s).map Fl.val

/-- The weight of a species in the coupling function, with all terms positive. -/
def absWeight (d : MixFracDict K) (s : String) : K :=
  2 * (atoms Elements.C d s : K) / d.W s + 1 / 2 * (atoms Elements.H d s : K) / d.W s + (atoms Elements.O d s : K) / d.W s

/-- Sum of the absolute values of the terms of Bilger's coupling function. -/
def couplingTerms (d : MixFracDict K) (Y : String → K) : K := (d.species.map fun s => absWeight d s * |Y s|).sum

/-- The size of the numbers: molecular weights are positive and far from overflow, and so are the coupling functions, the terms of
which sum to at most `B` in the two streams. -/
structure MixtureInRange (d : MixFracDict (Fl F)) (B : K) : Prop where
  weights : ∀ s ∈ d.species, 0 < (d.W s).val ∧ 4 * F.eta * (d.W s).val ≤ F.u
  under : F.eta ≤ F.u * B
  oxidizer : couplingTerms (exactDict d) (oxidizerStream (exactDict d)) ≤ B
  fuel : couplingTerms (exactDict d) (fuelStream (exactDict d)) ≤ B

/-! ### Lemmas -/

/-- Rounding a number that is known up to a relative error. -/
theorem rel_round {x y r s : K} (hs : 0 ≤ s) (h : |x - y| ≤ r * |y|) (hr : |F.rnd x - x| ≤ s * |x|) :
    |F.rnd x - y| ≤ (r + s * (1 + r)) * |y| := by
  have h1 : |x| ≤ (1 + r) * |y| := by
    have := abs_add_le (x - y) y
    rw [sub_add_cancel] at this
    linarith
  have h2 := abs_add_le (F.rnd x - x) (x - y)
  rw [sub_add_sub_cancel] at h2
  have h3 := mul_le_mul_of_nonneg_left h1 hs
  calc |F.rnd x - y| ≤ s * ((1 + r) * |y|) + r * |y| := by linarith
    _ = _ := by ring

theorem abs_ge_of_rel {x y r : K} (h : |x - y| ≤ r * |y|) : (1 - r) * |y| ≤ |x| := by
  have := abs_add_le (y - x) x
  rw [sub_add_cancel, abs_sub_comm] at this
  linarith

theorem near_of_large {x : K} (h : F.eta ≤ F.u * |x|) : |F.rnd x - x| ≤ 2 * F.u * |x| := by
  have := F.near x
  linarith

variable (hu : F.u ≤ 1 / 100) (hη : 4 * F.eta ≤ F.u)
include hu hη

/-- One term of the weight of a species. -/
theorem alpha_term (kf : K) (k : K) (hk0 : 1 / 2 ≤ |k|) (hk : |kf - k| ≤ 2 * F.u * |k|) (c : Nat) {W : K} (hW : 0 < W)
    (hWη : 4 * F.eta * W ≤ F.u) :
    |F.rnd (F.rnd (kf * F.rnd (c : K)) / W) - k * c / W| ≤ 9 * F.u * (|k| * c / W) := by
  have hu0 := F.u_nonneg
  have hη0 := F.eta_nonneg
  rcases Nat.eq_zero_or_pos c with rfl | hc
  · simp [F.rnd_zero]
  have hc1 : (1 : K) ≤ c := by exact_mod_cast hc
  have hc0 : (0 : K) ≤ c := by linarith
  have hkp : 0 < |k| := by linarith
  have hp : 1 / 2 ≤ |k| * c := by
    have := mul_le_mul hk0 hc1 zero_le_one hkp.le
    linarith
  have huu : F.u * F.u ≤ 1 / 100 * F.u := mul_le_mul_of_nonneg_right hu hu0
  have hkc : |k * c| = |k| * c := by rw [abs_mul, abs_of_nonneg hc0]
  have e1 : |F.rnd (c : K) - c| ≤ 2 * F.u * |(c : K)| := near_of_large (by
    rw [abs_of_nonneg hc0]
    have := mul_le_mul_of_nonneg_left hc1 hu0
    linarith)
  have e2 : |kf * F.rnd (c : K) - k * c| ≤ 404 / 100 * F.u * |k * c| := by
    have a1 : |F.rnd (c : K)| ≤ (1 + 2 * F.u) * c := by
      have := abs_add_le (F.rnd (c : K) - c) c
      rw [sub_add_cancel, abs_of_nonneg hc0] at this
      rw [abs_of_nonneg hc0] at e1
      linarith
    have a2 : |kf * F.rnd (c : K) - k * c| ≤ |kf - k| * |F.rnd (c : K)| + |k| * |F.rnd (c : K) - c| := by
      have : kf * F.rnd (c : K) - k * c = (kf - k) * F.rnd (c : K) + k * (F.rnd (c : K) - c) := by ring
      rw [this]
      refine (abs_add_le _ _).trans (le_of_eq ?_)
      rw [abs_mul, abs_mul]
    rw [abs_of_nonneg hc0] at e1
    rw [hkc]
    have a3 : |kf - k| * |F.rnd (c : K)| ≤ (2 * F.u * |k|) * ((1 + 2 * F.u) * c) :=
      mul_le_mul hk a1 (abs_nonneg _) (by positivity)
    have a4 : |k| * |F.rnd (c : K) - c| ≤ |k| * (2 * F.u * c) := mul_le_mul_of_nonneg_left e1 hkp.le
    have a5 : F.u * F.u * (|k| * c) ≤ 1 / 100 * F.u * (|k| * c) := by
      exact mul_le_mul_of_nonneg_right huu (by linarith)
    linarith
  have e3 := abs_ge_of_rel e2
  rw [hkc] at e3
  have e4 : |F.rnd (kf * F.rnd (c : K)) - kf * F.rnd (c : K)| ≤ 2 * F.u * |kf * F.rnd (c : K)| := near_of_large (by
    have b0 : 95 / 100 * (|k| * c) ≤ (1 - 404 / 100 * F.u) * (|k| * c) := mul_le_mul_of_nonneg_right (by linarith) (by linarith)
    have := mul_le_mul_of_nonneg_left (by linarith : 1 / 4 ≤ |kf * F.rnd (c : K)|) hu0
    linarith)
  have e5 := rel_round (by positivity) e2 e4
  have e6 : |F.rnd (kf * F.rnd (c : K)) - k * c| ≤ 62 / 10 * F.u * |k * c| :=
    e5.trans (mul_le_mul_of_nonneg_right (by linarith) (abs_nonneg _))
  have e7 : |F.rnd (kf * F.rnd (c : K)) / W - k * c / W| ≤ 62 / 10 * F.u * |k * c / W| := by
    rw [← sub_div, abs_div, abs_div, ← mul_div_assoc]
    exact div_le_div_of_nonneg_right e6 (abs_nonneg W)
  have e8 := abs_ge_of_rel e7
  have hq : 1 / 2 / W ≤ |k| * c / W := div_le_div_of_nonneg_right hp hW.le
  have hq0 : 0 ≤ |k| * c / W := by positivity
  have hqa : |k * c / W| = |k| * c / W := by rw [abs_div, hkc, abs_of_pos hW]
  rw [hqa] at e8
  have e9 : |F.rnd (F.rnd (kf * F.rnd (c : K)) / W) - F.rnd (kf * F.rnd (c : K)) / W| ≤
      2 * F.u * |F.rnd (kf * F.rnd (c : K)) / W| := near_of_large (by
    have b1 : 1 / 4 / W ≤ |F.rnd (kf * F.rnd (c : K)) / W| := by
      have b0 : 93 / 100 * (|k| * c / W) ≤ (1 - 62 / 10 * F.u) * (|k| * c / W) := mul_le_mul_of_nonneg_right (by linarith) hq0
      have : 1 / 4 / W = 1 / 2 * (1 / 2 / W) := by ring
      rw [this]
      linarith
    have b2 : F.eta ≤ F.u * (1 / 4 / W) := by
      rw [← mul_div_assoc, le_div_iff₀ hW]
      linarith
    exact b2.trans (mul_le_mul_of_nonneg_left b1 hu0))
  have e10 := rel_round (by positivity) e7 e9
  rw [hqa] at e10
  exact e10.trans (mul_le_mul_of_nonneg_right (by linarith) hq0)

/-- The weight of a species. -/
theorem alpha_near (hF : F.Usual) (d : MixFracDict (Fl F)) {s : String} (hW : 0 < (d.W s).val) (hWη : 4 * F.eta * (d.W s).val ≤ F.u)
    {a : Fl F} (h : mixFracAlpha d s = .ok a) :
    |a.val - weight (exactDict d) s| ≤ 12 * F.u * absWeight (exactDict d) s := by
  have hu0 := F.u_nonneg
  unfold mixFracAlpha at h
  cases he : d.elements s with
  | none => rw [he] at h; cases h
  | some e =>
    rw [he] at h
    simp only [Except.ok.injEq] at h
    have aC : atoms Elements.C (exactDict d) s = e.C.getD 0 := by unfold atoms exactDict; dsimp only; rw [he]
    have aH : atoms Elements.H (exactDict d) s = e.H.getD 0 := by unfold atoms exactDict; dsimp only; rw [he]
    have aO : atoms Elements.O (exactDict d) s = e.O.getD 0 := by unfold atoms exactDict; dsimp only; rw [he]
    have hw : (exactDict d).W s = (d.W s).val := rfl
    unfold weight absWeight
    rw [aC, aH, aO, hw]
    have t0 := alpha_term hu hη (F.rnd 2) 2 (by norm_num) (by rw [hF.two, sub_self, abs_zero]; positivity) (e.C.getD 0) hW hWη
    have t1 := alpha_term hu hη (F.rnd (1 / 2)) (1 / 2) (by rw [abs_of_nonneg (by norm_num)])
      (near_of_large (by rw [abs_of_nonneg (by norm_num)]; linarith)) (e.H.getD 0) hW hWη
    have o1 : F.rnd (-F.rnd 1) = -1 := by rw [hF.one]; exact F.neg_fixed 1 hF.one
    have t2 := alpha_term hu hη (F.rnd (-F.rnd 1)) (-1) (by norm_num) (by rw [o1, sub_self, abs_zero]; positivity) (e.O.getD 0) hW hWη
    have hC0 : (0 : K) ≤ 2 * ((e.C.getD 0 : Nat) : K) / (d.W s).val := by positivity
    have hH0 : (0 : K) ≤ 1 / 2 * ((e.H.getD 0 : Nat) : K) / (d.W s).val := by positivity
    have hO0 : (0 : K) ≤ ((e.O.getD 0 : Nat) : K) / (d.W s).val := by positivity
    rw [abs_of_nonneg (by norm_num : (0 : K) ≤ 2)] at t0
    rw [abs_of_nonneg (by norm_num : (0 : K) ≤ 1 / 2)] at t1
    rw [abs_neg, abs_one, one_mul] at t2
    have hO' : -1 * ((e.O.getD 0 : Nat) : K) / (d.W s).val = -(((e.O.getD 0 : Nat) : K) / (d.W s).val) := by ring
    rw [hO'] at t2 ⊢
    obtain ⟨x0, hx0⟩ : ∃ x : Fl F, x = Consts.two * ((e.C.getD 0 : Nat) : Fl F) / d.W s := ⟨_, rfl⟩
    obtain ⟨x1, hx1⟩ : ∃ x : Fl F, x = Consts.half * ((e.H.getD 0 : Nat) : Fl F) / d.W s := ⟨_, rfl⟩
    obtain ⟨x2, hx2⟩ : ∃ x : Fl F, x = (-Consts.one) * ((e.O.getD 0 : Nat) : Fl F) / d.W s := ⟨_, rfl⟩
    rw [← hx0, ← hx1, ← hx2] at h
    replace t0 : |x0.val - 2 * ((e.C.getD 0 : Nat) : K) / (d.W s).val| ≤ 9 * F.u * (2 * ((e.C.getD 0 : Nat) : K) / (d.W s).val) := by
      rw [hx0]; exact t0
    replace t1 : |x1.val - 1 / 2 * ((e.H.getD 0 : Nat) : K) / (d.W s).val| ≤ 9 * F.u * (1 / 2 * ((e.H.getD 0 : Nat) : K) / (d.W s).val) := by
      rw [hx1]; exact t1
    replace t2 : |x2.val - -(((e.O.getD 0 : Nat) : K) / (d.W s).val)| ≤ 9 * F.u * (((e.O.getD 0 : Nat) : K) / (d.W s).val) := by
      rw [hx2]; exact t2
    clear hx0 hx1 hx2
    generalize 2 * ((e.C.getD 0 : Nat) : K) / (d.W s).val = A0 at *
    generalize 1 / 2 * ((e.H.getD 0 : Nat) : K) / (d.W s).val = A1 at *
    generalize ((e.O.getD 0 : Nat) : K) / (d.W s).val = A2 at *
    subst h
    have n1 := F.near_add x0.val x1.val x0.ok x1.ok
    rw [← Fl.val_add] at n1
    have n2 := F.near_add (x0 + x1).val x2.val (x0 + x1).ok x2.ok
    rw [← Fl.val_add] at n2
    have uA : ∀ A : K, 0 ≤ A → F.u * F.u * A ≤ 1 / 100 * F.u * A := fun A hA =>
      mul_le_mul_of_nonneg_right (mul_le_mul_of_nonneg_right hu hu0) hA
    have h3 := mul_nonneg hu0 hO0
    have h4 := mul_nonneg hu0 hC0
    have h5 := mul_nonneg hu0 hH0
    have m1 : |x0.val + x1.val| ≤ (1 + 9 * F.u) * (A0 + A1) := by
      rw [abs_le] at t0 t1 ⊢
      constructor <;> linarith
    have n1' : |(x0 + x1).val - (x0.val + x1.val)| ≤ F.u * ((1 + 9 * F.u) * (A0 + A1)) :=
      n1.trans (mul_le_mul_of_nonneg_left m1 hu0)
    have k1 : |(x0 + x1).val - (A0 + A1)| ≤ 101 / 10 * F.u * (A0 + A1) := by
      have := uA _ (add_nonneg hC0 hH0)
      rw [abs_le] at t0 t1 n1' ⊢
      constructor <;> linarith
    have m2 : |(x0 + x1).val + x2.val| ≤ (1 + 101 / 10 * F.u) * (A0 + A1 + A2) := by
      rw [abs_le] at k1 t2 ⊢
      constructor <;> linarith
    have n2' : |(x0 + x1 + x2).val - ((x0 + x1).val + x2.val)| ≤ F.u * ((1 + 101 / 10 * F.u) * (A0 + A1 + A2)) :=
      n2.trans (mul_le_mul_of_nonneg_left m2 hu0)
    have := uA _ (add_nonneg (add_nonneg hC0 hH0) hO0)
    rw [abs_le] at k1 t2 n2' ⊢
    constructor <;> linarith

omit hu hη in
theorem absWeight_nonneg (d : MixFracDict K) {s : String} (hW : 0 < d.W s) : 0 ≤ absWeight d s := by
  unfold absWeight; positivity

omit hu hη in
theorem weight_le_absWeight (d : MixFracDict K) {s : String} (hW : 0 < d.W s) : |weight d s| ≤ absWeight d s := by
  have h1 : 0 ≤ 2 * (atoms Elements.C d s : K) / d.W s := by positivity
  have h2 : 0 ≤ 1 / 2 * (atoms Elements.H d s : K) / d.W s := by positivity
  have h3 : 0 ≤ (atoms Elements.O d s : K) / d.W s := by positivity
  have e : -1 * (atoms Elements.O d s : K) / d.W s = -((atoms Elements.O d s : K) / d.W s) := by ring
  unfold weight absWeight
  rw [e, abs_le]
  constructor <;> linarith

/-- The accumulated coupling function. -/
theorem dot_near (hF : F.Usual) (d : MixFracDict (Fl F)) (Y : String → Fl F) {B : K} (hB0 : 0 ≤ B) (hB : F.eta ≤ F.u * B) :
    ∀ (l : List String) (al : List (Fl F)) (acc res : Fl F) (P T : K) (k : Nat),
      (∀ s ∈ l, 0 < (d.W s).val ∧ 4 * F.eta * (d.W s).val ≤ F.u) → l.mapM (mixFracAlpha d) = .ok al →
      dotAcc acc al (l.map Y) = .ok res → |acc.val - P| ≤ 14 * F.u * T + 3 * k * F.u * B → |P| ≤ T →
      T + (l.map fun s => absWeight (exactDict d) s * |(Y s).val|).sum ≤ B → (14 + 3 * ((k + l.length : Nat) : K)) * F.u ≤ 1 →
      |res.val - (P + (l.map fun s => weight (exactDict d) s * (Y s).val).sum)| ≤
        14 * F.u * (T + (l.map fun s => absWeight (exactDict d) s * |(Y s).val|).sum) + 3 * ((k + l.length : Nat) : K) * F.u * B
  | [], al, acc, res, P, T, k, _, h1, h2, h3, _, _, _ => by
    cases al with
    | nil => simp only [List.map_nil, dotAcc, Except.ok.injEq] at h2; subst h2; simpa using h3
    | cons a al => simp only [List.map_nil, dotAcc, Except.ok.injEq] at h2; subst h2; simpa using h3
  | s :: l, al, acc, res, P, T, k, hW, h1, h2, h3, hP, hT, hk => by
    have hu0 := F.u_nonneg
    rw [List.mapM_cons] at h1
    simp only [bind, Except.bind, pure, Except.pure] at h1
    cases e1 : mixFracAlpha d s with
    | error e => rw [e1] at h1; cases h1
    | ok a =>
      rw [e1] at h1
      cases e2 : l.mapM (mixFracAlpha d) with
      | error e => rw [e2] at h1; cases h1
      | ok al' =>
        rw [e2] at h1
        simp only [Except.ok.injEq] at h1
        subst h1
        simp only [List.map_cons, dotAcc] at h2
        obtain ⟨w1, w2⟩ := hW s (by simp)
        have ha := alpha_near hu hη hF d w1 w2 e1
        have hw := weight_le_absWeight (exactDict d) (s := s) w1
        have hA := absWeight_nonneg (exactDict d) (s := s) w1
        have hrest : 0 ≤ (l.map fun s => absWeight (exactDict d) s * |(Y s).val|).sum := by
          refine List.sum_nonneg fun x hx => ?_
          obtain ⟨t, ht, rfl⟩ := List.mem_map.1 hx
          exact mul_nonneg (absWeight_nonneg (exactDict d) (hW t (by simp [ht])).1) (abs_nonneg _)
        simp only [List.map_cons, List.sum_cons, List.length_cons] at hT hk ⊢
        obtain ⟨A, eA⟩ : ∃ A, A = absWeight (exactDict d) s * |(Y s).val| := ⟨_, rfl⟩
        have hA0 : 0 ≤ A := by rw [eA]; exact mul_nonneg hA (abs_nonneg _)
        have p1 : |a.val * (Y s).val - weight (exactDict d) s * (Y s).val| ≤ 12 * F.u * A := by
          rw [← sub_mul, abs_mul, eA, ← mul_assoc]
          exact mul_le_mul_of_nonneg_right ha (abs_nonneg _)
        have p2 : |weight (exactDict d) s * (Y s).val| ≤ A := by
          rw [abs_mul, eA]
          exact mul_le_mul_of_nonneg_right hw (abs_nonneg _)
        have uA : F.u * F.u * A ≤ 1 / 100 * F.u * A := mul_le_mul_of_nonneg_right (mul_le_mul_of_nonneg_right hu hu0) hA0
        have uA0 := mul_nonneg hu0 hA0
        have p3 : |a.val * (Y s).val| ≤ (1 + 12 * F.u) * A := by
          have := abs_add_le (a.val * (Y s).val - weight (exactDict d) s * (Y s).val) (weight (exactDict d) s * (Y s).val)
          rw [sub_add_cancel] at this
          linarith
        have p4 : |(a * Y s).val - a.val * (Y s).val| ≤ F.u * ((1 + 12 * F.u) * A) + F.eta :=
          (F.near _).trans (add_le_add_left (mul_le_mul_of_nonneg_left p3 hu0) _)
        have p5 : |(a * Y s).val - weight (exactDict d) s * (Y s).val| ≤ 14 * F.u * A + F.u * B := by
          have := abs_add_le ((a * Y s).val - a.val * (Y s).val) (a.val * (Y s).val - weight (exactDict d) s * (Y s).val)
          rw [sub_add_sub_cancel] at this
          linarith
        rw [← eA] at hT ⊢
        have hkc : ((k + (l.length + 1) : Nat) : K) = (k : K) + l.length + 1 := by push_cast; ring
        rw [hkc] at hk ⊢
        have hl0 : (0 : K) ≤ l.length := Nat.cast_nonneg _
        have hk0 : (0 : K) ≤ k := Nat.cast_nonneg _
        have q1 : |acc.val + (a * Y s).val - (P + weight (exactDict d) s * (Y s).val)| ≤
            14 * F.u * (T + A) + (3 * k + 1) * F.u * B := by
          have := abs_add_le (acc.val - P) ((a * Y s).val - weight (exactDict d) s * (Y s).val)
          have e : acc.val + (a * Y s).val - (P + weight (exactDict d) s * (Y s).val) =
            acc.val - P + ((a * Y s).val - weight (exactDict d) s * (Y s).val) := by ring
          rw [e]
          linarith
        have hTA : T + A ≤ B := by linarith
        have q2 : 14 * F.u * (T + A) + (3 * k + 1) * F.u * B ≤ B := by
          have a1 : 14 * F.u * (T + A) ≤ 14 * F.u * B := mul_le_mul_of_nonneg_left hTA (by positivity)
          have a2 : (14 + 3 * ((k : K) + l.length + 1)) * F.u * B ≤ 1 * B := mul_le_mul_of_nonneg_right hk hB0
          have a3 : 0 ≤ F.u * l.length * B := by positivity
          have a4 : 0 ≤ F.u * B := by positivity
          linarith
        have hP' : |P + weight (exactDict d) s * (Y s).val| ≤ T + A := (abs_add_le _ _).trans (add_le_add hP p2)
        have q3 : |acc.val + (a * Y s).val| ≤ 2 * B := by
          have := abs_add_le (acc.val + (a * Y s).val - (P + weight (exactDict d) s * (Y s).val)) (P + weight (exactDict d) s * (Y s).val)
          rw [sub_add_cancel] at this
          linarith
        have q4 : |(acc + a * Y s).val - (acc.val + (a * Y s).val)| ≤ F.u * (2 * B) :=
          (F.near_add _ _ acc.ok (a * Y s).ok).trans (mul_le_mul_of_nonneg_left q3 hu0)
        have q5 : |(acc + a * Y s).val - (P + weight (exactDict d) s * (Y s).val)| ≤
            14 * F.u * (T + A) + 3 * ((k + 1 : Nat) : K) * F.u * B := by
          have := abs_add_le ((acc + a * Y s).val - (acc.val + (a * Y s).val))
            (acc.val + (a * Y s).val - (P + weight (exactDict d) s * (Y s).val))
          rw [sub_add_sub_cancel] at this
          push_cast
          linarith
        have ih := dot_near hF d Y hB0 hB l al' (acc + a * Y s) res _ _ (k + 1) (fun t ht => hW t (by simp [ht])) e2 h2 q5 hP'
          (by linarith) (by push_cast; rw [show (k : K) + 1 + l.length = k + l.length + 1 by ring]; exact hk)
        rw [show ((k + 1 + l.length : Nat) : K) = (k : K) + l.length + 1 by push_cast; ring] at ih
        rw [add_assoc, add_assoc] at ih
        exact ih

omit hu hη in
theorem mapM_alpha_isSome {d : MixFracDict (Fl F)} : ∀ {l : List String} {al : List (Fl F)}, l.mapM (mixFracAlpha d) = .ok al →
    ∀ s ∈ l, (d.elements s).isSome
  | [], _, _, s, hs => absurd hs (by simp)
  | t :: l, al, h, s, hs => by
    rw [List.mapM_cons] at h
    simp only [bind, Except.bind, pure, Except.pure] at h
    cases e1 : mixFracAlpha d t with
    | error e => rw [e1] at h; cases h
    | ok a =>
      rw [e1] at h
      cases e2 : l.mapM (mixFracAlpha d) with
      | error e => rw [e2] at h; cases h
      | ok al' =>
        rcases List.mem_cons.1 hs with rfl | hs
        · unfold mixFracAlpha at e1
          cases he : d.elements s with
          | none => rw [he] at e1; cases e1
          | some x => rfl
        · exact mapM_alpha_isSome e2 s hs

/-! ### Properties -/

/-- **C126.** In arithmetic with rounding: if the setup accepts the streams, the terms of Bilger's coupling function sum to at most `B` in the two
streams and in the composition, and the coupling functions of the streams differ by more than rounding errors, then the computed mixture fraction of
every composition is Bilger's, up to `7 (14 + 3 n) u B / |beta1 - beta0|` times one plus its size, for `n` species and the unit round-off `u`. -/
theorem C126_mixture_fraction_is_bilgers_with_rounding (hF : F.Usual) {WC WH WO : K} (hC : WC ≠ 0) (hH : WH ≠ 0) (hO : WO ≠ 0)
    (d : MixFracDict (Fl F)) (m : MixtureFraction (Fl F)) (h : mixFracInitialize d = .ok m) {B : K} (hd : MixtureInRange d B)
    (Y : String → Fl F) (hY : couplingTerms (exactDict d) (fun s => (Y s).val) ≤ B) (hn : (14 + 3 * (d.species.length : K)) * F.u ≤ 1)
    (Δ : K) (hΔ : Δ = bilger WC WH WO (exactDict d) (fuelStream (exactDict d)) - bilger WC WH WO (exactDict d) (oxidizerStream (exactDict d)))
    (hne : 6 * ((14 + 3 * (d.species.length : K)) * F.u * B) < |Δ|)
    (Z : K) (hZ : Z = (bilger WC WH WO (exactDict d) (fun s => (Y s).val) -
      bilger WC WH WO (exactDict d) (oxidizerStream (exactDict d))) / Δ) :
    ∃ z, massFractionToMixtureFraction m (d.species.map Y) = .ok z ∧
      |z.val - Z| ≤ 7 * ((14 + 3 * (d.species.length : K)) * F.u * B) / |Δ| * (1 + |Z|) := by
  have hu0 := F.u_nonneg
  obtain ⟨ha, hb0, hb1⟩ := fl_mixFracInitialize_ok h
  have hn0 : (0 : K) ≤ d.species.length := Nat.cast_nonneg _
  have terms_nonneg : ∀ y : String → K, 0 ≤ couplingTerms (exactDict d) y := fun y => List.sum_nonneg fun x hx => by
    obtain ⟨t, ht, rfl⟩ := List.mem_map.1 hx
    exact mul_nonneg (absWeight_nonneg (exactDict d) (hd.weights t ht).1) (abs_nonneg _)
  have hB0 : 0 ≤ B := (terms_nonneg _).trans hY
  obtain ⟨e, he⟩ : ∃ e, e = (14 + 3 * (d.species.length : K)) * F.u * B := ⟨_, rfl⟩
  have he0 : 0 ≤ e := by rw [he]; positivity
  rw [← he] at hne ⊢
  have huB : 14 * (F.u * B) ≤ e := by
    have : 0 ≤ (d.species.length : K) * F.u * B := by positivity
    rw [he]
    linarith
  have near : ∀ (y : String → Fl F) (r : Fl F), couplingTerms (exactDict d) (fun s => (y s).val) ≤ B →
      dotAcc 0 m.alpha (d.species.map y) = .ok r →
      |r.val - bilger WC WH WO (exactDict d) (fun s => (y s).val)| ≤ e ∧ |bilger WC WH WO (exactDict d) (fun s => (y s).val)| ≤ B := by
    intro y r hy hr
    rw [bilger_eq hC hH hO]
    have := dot_near hu hη hF d y hB0 hd.under d.species m.alpha 0 r 0 0 0 hd.weights ha hr (by simp [Fl.val_zero]) (by simp)
      (by rw [zero_add]; exact hy) (by simpa using hn)
    rw [zero_add, zero_add, Nat.zero_add] at this
    refine ⟨?_, ?_⟩
    · have h2 : 14 * F.u * (d.species.map fun s => absWeight (exactDict d) s * |(y s).val|).sum ≤ 14 * F.u * B :=
        mul_le_mul_of_nonneg_left hy (by positivity)
      refine this.trans ?_
      rw [he]
      linarith
    · refine le_trans ?_ hy
      unfold couplingTerms
      have key : ∀ l : List String, (∀ s ∈ l, 0 < (d.W s).val) → |(l.map fun s => weight (exactDict d) s * (y s).val).sum| ≤
          (l.map fun s => absWeight (exactDict d) s * |(y s).val|).sum := by
        intro l
        induction l with
        | nil => intro _; simp
        | cons s l ih =>
          intro hl
          simp only [List.map_cons, List.sum_cons]
          refine (abs_add_le _ _).trans (add_le_add ?_ (ih fun t ht => hl t (by simp [ht])))
          rw [abs_mul]
          exact mul_le_mul_of_nonneg_right (weight_le_absWeight (exactDict d) (hl s (by simp))) (abs_nonneg _)
      exact key _ fun s hs => (hd.weights s hs).1
  have val_stream : ∀ o : String → Option (Fl F), (fun s => ((o s).getD 0).val) = fun s => ((o s).map Fl.val).getD 0 := by
    intro o
    funext s
    cases o s with
    | none => exact Fl.val_zero
    | some x => rfl
  obtain ⟨b, hb⟩ := fl_dotAcc_ok m.alpha (d.species.map Y) 0 (by
    obtain ⟨al, h1, h2⟩ := fl_mapM_alpha_ok d d.species (fun s hs => by
      by_contra hc
      have := mapM_alpha_isSome ha s hs
      exact hc this)
    rw [ha] at h1
    simp only [Except.ok.injEq] at h1
    rw [h1, h2, List.length_map])
  obtain ⟨nY, sY⟩ := near Y b hY hb
  obtain ⟨n0, s0⟩ := near (fun s => (d.oxidizer s).getD 0) m.beta0 (by rw [val_stream]; exact hd.oxidizer) hb0
  obtain ⟨n1, s1⟩ := near (fun s => (d.fuel s).getD 0) m.beta1 (by rw [val_stream]; exact hd.fuel) hb1
  rw [val_stream] at n0 s0 n1 s1
  change |m.beta0.val - bilger WC WH WO (exactDict d) (oxidizerStream (exactDict d))| ≤ e at n0
  change |bilger WC WH WO (exactDict d) (oxidizerStream (exactDict d))| ≤ B at s0
  change |m.beta1.val - bilger WC WH WO (exactDict d) (fuelStream (exactDict d))| ≤ e at n1
  change |bilger WC WH WO (exactDict d) (fuelStream (exactDict d))| ≤ B at s1
  generalize bilger WC WH WO (exactDict d) (fun s => (Y s).val) = β at *
  generalize bilger WC WH WO (exactDict d) (oxidizerStream (exactDict d)) = β0 at *
  generalize bilger WC WH WO (exactDict d) (fuelStream (exactDict d)) = β1 at *
  refine ⟨(b - m.beta0) / (m.beta1 - m.beta0), ?_, ?_⟩
  · unfold massFractionToMixtureFraction
    rw [hb]
    rfl
  have hue : F.u * e ≤ 1 / 100 * e := mul_le_mul_of_nonneg_right hu he0
  have diff : ∀ x y : Fl F, ∀ p q : K, |x.val - p| ≤ e → |y.val - q| ≤ e → |p| ≤ B → |q| ≤ B → |(x - y).val - (p - q)| ≤ 3 * e := by
    intro x y p q h1 h2 h3 h4
    have r1 := F.near_sub x.ok y.ok
    rw [← Fl.val_sub] at r1
    have r2 : |x.val - y.val - (p - q)| ≤ 2 * e := by
      have := abs_sub (x.val - p) (y.val - q)
      rw [show x.val - y.val - (p - q) = x.val - p - (y.val - q) by ring]
      linarith
    have r3 : |x.val - y.val| ≤ 2 * B + 2 * e := by
      have a1 := abs_add_le (x.val - y.val - (p - q)) (p - q)
      have a2 := abs_sub p q
      rw [sub_add_cancel] at a1
      linarith
    have r4 := mul_le_mul_of_nonneg_left r3 hu0
    have r5 := abs_add_le ((x - y).val - (x.val - y.val)) (x.val - y.val - (p - q))
    rw [sub_add_sub_cancel] at r5
    linarith
  have hnum := diff b m.beta0 β β0 nY n0 sY s0
  have hden := diff m.beta1 m.beta0 β1 β0 n1 n0 s1 s0
  rw [← hΔ] at hden
  have hΔ0 : 0 < |Δ| := by linarith
  have hΔB : |Δ| ≤ 2 * B := by
    have := abs_sub β1 β0
    rw [hΔ]
    linarith
  generalize (b - m.beta0) = N at *
  generalize (m.beta1 - m.beta0) = D at *
  have hDabs : |Δ| / 2 ≤ |D.val| := by
    have := abs_add_le (Δ - D.val) D.val
    rw [sub_add_cancel, abs_sub_comm] at this
    linarith
  have hD0 : D.val ≠ 0 := abs_pos.1 (by linarith)
  have hΔne : Δ ≠ 0 := abs_pos.1 hΔ0
  have quot : |N.val / D.val - Z| ≤ 6 * e / |Δ| * (1 + |Z|) := by
    have e1 : N.val / D.val - Z = (N.val - (β - β0) - Z * (D.val - Δ)) / D.val := by
      rw [hZ]
      field_simp
      ring
    have e2 : |N.val - (β - β0) - Z * (D.val - Δ)| ≤ 3 * e * (1 + |Z|) := by
      have a1 := abs_sub (N.val - (β - β0)) (Z * (D.val - Δ))
      rw [abs_mul] at a1
      have a2 := mul_le_mul_of_nonneg_left hden (abs_nonneg Z)
      linarith
    rw [e1, abs_div, div_le_iff₀ (abs_pos.2 hD0)]
    refine e2.trans ?_
    have e3 : 6 * e / |Δ| * (1 + |Z|) * (|Δ| / 2) = 3 * e * (1 + |Z|) := by field_simp; ring
    rw [← e3]
    exact mul_le_mul_of_nonneg_left hDabs (by positivity)
  obtain ⟨t, ht⟩ : ∃ t, t = e / |Δ| * (1 + |Z|) := ⟨_, rfl⟩
  have hut : 7 * F.u * (1 + |Z|) ≤ t := by
    rw [ht]
    refine mul_le_mul_of_nonneg_right ?_ (by positivity)
    rw [le_div_iff₀ hΔ0]
    have := mul_le_mul_of_nonneg_left hΔB hu0
    linarith
  have quot' : |N.val / D.val - Z| ≤ 6 * t := by rw [ht]; refine quot.trans (le_of_eq ?_); ring
  have r1 := F.near (N.val / D.val)
  rw [← Fl.val_div] at r1
  have r2 : |N.val / D.val| ≤ |Z| + 6 * t := by
    have := abs_add_le (N.val / D.val - Z) Z
    rw [sub_add_cancel] at this
    linarith
  have r3 := mul_le_mul_of_nonneg_left r2 hu0
  have r4 := abs_add_le ((N / D).val - N.val / D.val) (N.val / D.val - Z)
  rw [sub_add_sub_cancel] at r4
  have ht0 : 0 ≤ t := by rw [ht]; positivity
  have hut' : F.u * t ≤ 1 / 100 * t := mul_le_mul_of_nonneg_right hu ht0
  have huZ := mul_nonneg hu0 (abs_nonneg Z)
  have goal : |(N / D).val - Z| ≤ 7 * t := by linarith
  refine goal.trans (le_of_eq ?_)
  rw [ht]
  ring

/-- **C126, the cells to map.** Under the same assumptions an active mapper marks the cell for mapping only if Bilger's mixture fraction is below
the tolerance plus the error bound, and leaves it to be integrated only if it is at least the tolerance minus the bound. -/
theorem C126_mapped_cells_with_rounding (hF : F.Usual) {WC WH WO : K} (hC : WC ≠ 0) (hH : WH ≠ 0) (hO : WO ≠ 0)
    (d : MixFracDict (Fl F)) (m : RefMapper (Fl F)) (ha : m.active = true) (h : mixFracInitialize d = .ok m.mixFrac) {B : K}
    (hd : MixtureInRange d B)
    (Y : String → Fl F) (hY : couplingTerms (exactDict d) (fun s => (Y s).val) ≤ B) (hn : (14 + 3 * (d.species.length : K)) * F.u ≤ 1)
    (Δ : K) (hΔ : Δ = bilger WC WH WO (exactDict d) (fuelStream (exactDict d)) - bilger WC WH WO (exactDict d) (oxidizerStream (exactDict d)))
    (hne : 6 * ((14 + 3 * (d.species.length : K)) * F.u * B) < |Δ|)
    (Z : K) (hZ : Z = (bilger WC WH WO (exactDict d) (fun s => (Y s).val) -
      bilger WC WH WO (exactDict d) (oxidizerStream (exactDict d))) / Δ)
    (err : K) (herr : err = 7 * ((14 + 3 * (d.species.length : K)) * F.u * B) / |Δ| * (1 + |Z|)) :
    ∃ b, shouldMap m (d.species.map Y) = .ok b ∧
      (b = true → Z < m.Ztolerance.val + err) ∧ (b = false → m.Ztolerance.val - err ≤ Z) := by
  obtain ⟨z, hz, hb⟩ := C126_mixture_fraction_is_bilgers_with_rounding hu hη hF hC hH hO d m.mixFrac h hd Y hY hn Δ hΔ hne Z hZ
  rw [← herr, abs_le] at hb
  refine ⟨decide (z < m.Ztolerance), ?_, ?_, ?_⟩
  · unfold shouldMap
    rw [if_pos ha, hz]
    rfl
  · intro hlt
    have : z.val < m.Ztolerance.val := of_decide_eq_true hlt
    linarith
  · intro hlt
    have : ¬ z.val < m.Ztolerance.val := of_decide_eq_false hlt
    linarith

omit hu hη in
/-- **C126, in doubles.** For fewer than a hundred species, with coupling functions of the size of the difference between the streams (`B` at most
`10 |beta1 - beta0|`), the computed mixture fraction agrees with Bilger's to twelve digits. -/
theorem C126_mixture_fraction_in_doubles {WC WH WO : ℚ} (hC : WC ≠ 0) (hH : WH ≠ 0) (hO : WO ≠ 0)
    (d : MixFracDict (Fl binary64)) (m : MixtureFraction (Fl binary64)) (h : mixFracInitialize d = .ok m) {B : ℚ} (hd : MixtureInRange d B)
    (Y : String → Fl binary64) (hY : couplingTerms (exactDict d) (fun s => (Y s).val) ≤ B) (hn : d.species.length ≤ 100)
    (Δ : ℚ) (hΔ : Δ = bilger WC WH WO (exactDict d) (fuelStream (exactDict d)) - bilger WC WH WO (exactDict d) (oxidizerStream (exactDict d)))
    (hΔ0 : 0 < |Δ|) (hne : B ≤ 10 * |Δ|)
    (Z : ℚ) (hZ : Z = (bilger WC WH WO (exactDict d) (fun s => (Y s).val) -
      bilger WC WH WO (exactDict d) (oxidizerStream (exactDict d))) / Δ) :
    ∃ z, massFractionToMixtureFraction m (d.species.map Y) = .ok z ∧ |z.val - Z| ≤ 5 / 10 ^ 12 * (1 + |Z|) := by
  have hu : binary64.u = 1 / 2 ^ 53 := rfl
  have hη : binary64.eta = 1 / 2 ^ 1075 := rfl
  have hη4 : 4 * binary64.eta ≤ binary64.u := by rw [hu, hη]; decide +kernel
  have hn' : (d.species.length : ℚ) ≤ 100 := by exact_mod_cast hn
  have hB0 : 0 < B := by
    have := hd.under
    rw [hu, hη] at this
    by_contra hc
    have : (1 : ℚ) / 2 ^ 53 * B ≤ 0 := mul_nonpos_of_nonneg_of_nonpos (by norm_num) (not_lt.1 hc)
    have : (0 : ℚ) < 1 / 2 ^ 1075 := by positivity
    linarith
  have hsmall : (14 + 3 * (d.species.length : ℚ)) * binary64.u ≤ 314 / 2 ^ 53 := by
    rw [hu]
    linarith
  have he : (14 + 3 * (d.species.length : ℚ)) * binary64.u * B ≤ 314 / 2 ^ 53 * B := mul_le_mul_of_nonneg_right hsmall hB0.le
  obtain ⟨z, hz, hb⟩ := C126_mixture_fraction_is_bilgers_with_rounding (by rw [hu]; norm_num) hη4 binary64_usual hC hH hO d m h hd Y hY
    (hsmall.trans (by norm_num)) Δ hΔ (by
      refine lt_of_le_of_lt (mul_le_mul_of_nonneg_left he (by norm_num)) ?_
      linarith) Z hZ
  refine ⟨z, hz, hb.trans (mul_le_mul_of_nonneg_right ?_ (by positivity))⟩
  rw [div_le_iff₀ hΔ0]
  linarith

/-! ### The assumptions can be met -/

/-- Methane and humid air in doubles: every composition with mass fractions at most one has a coupling function of terms at most `1/2`. -/
example : MixtureInRange Example.humid (1 / 2) ∧ Example.humid.species.length ≤ 100 ∧
    (1 : ℚ) / 2 ≤ 10 * |bilger 12 1 16 (exactDict Example.humid) (fuelStream (exactDict Example.humid)) -
      bilger 12 1 16 (exactDict Example.humid) (oxidizerStream (exactDict Example.humid))| ∧
    couplingTerms (exactDict Example.humid) (fun s => (if s = "CH4" then Example.d64 (1 / 10) else
      if s = "O2" then Example.d64 (1 / 5) else Example.d64 (1 / 3)).val) ≤ 1 / 2 := by
  refine ⟨⟨by decide +kernel, by decide +kernel, by decide +kernel, by decide +kernel⟩, by decide +kernel, ?_, by decide +kernel⟩
  rw [bilger_eq (by norm_num) (by norm_num) (by norm_num), bilger_eq (by norm_num) (by norm_num) (by norm_num)]
  decide +kernel

end DLB
