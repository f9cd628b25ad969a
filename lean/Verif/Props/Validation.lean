import Verif.Model.Validation
import Verif.Model.Exact
import Mathlib.Algebra.BigOperators.Group.List.Basic
import Mathlib.Algebra.Order.BigOperators.Group.List
import Mathlib.Algebra.Order.Field.Basic
import Mathlib.Algebra.Order.Ring.Rat
import Mathlib.Tactic.FieldSimp
import Mathlib.Tactic.Ring
import Mathlib.Tactic.Linarith
/-
C131: the composition and the verdict of the validation test.
-/
set_option autoImplicit false
set_option linter.unusedSectionVars false

namespace DLB

section
variable {K : Type} [Field K] [LinearOrder K] [IsStrictOrderedRing K]

/-- Mole fractions of a mixture of the amounts `n` (in moles). -/
def moleFractions (n : List K) : List K := n.map (· / n.sum)

/-- Masses of the amounts `n` of species with the molecular weights `W`. -/
def masses (n W : List K) : List K := List.zipWith (· * ·) n W

/-- Mass fractions of a mixture of the amounts `n` of species with the molecular weights `W`. -/
def massFractions (n W : List K) : List K := (masses n W).map (· / (masses n W).sum)

/-! ### Lemmas -/

theorem foamSum_eq (xs : List K) : foamSum xs = xs.sum := by
  have : ∀ (xs : List K) (a : K), xs.foldl (· + ·) a = a + xs.sum := fun xs => by
    induction xs with
    | nil => intro a; simp
    | cons x xs ih => intro a; rw [List.foldl_cons, ih, List.sum_cons, add_assoc]
  rw [foamSum, this, zero_add]

theorem sum_weights (t : K) : ∀ g W : List K, (List.zipWith (· * ·) W (g.map (· / t))).sum = (masses g W).sum / t
  | [], W => by simp [masses]
  | _ :: _, [] => by simp [masses]
  | x :: g, w :: W => by
    have := sum_weights t g W
    simp only [masses, List.map_cons, List.zipWith_cons_cons, List.sum_cons] at this ⊢
    rw [this]; ring

theorem sum_inverse_weights (t : K) : ∀ g W : List K, (List.zipWith (· / ·) (g.map (· / t)) W).sum = (List.zipWith (· / ·) g W).sum / t
  | [], W => by simp
  | _ :: _, [] => by simp
  | x :: g, w :: W => by
    have := sum_inverse_weights t g W
    simp only [List.map_cons, List.zipWith_cons_cons, List.sum_cons] at this ⊢
    rw [this]; ring

theorem zipWith_congr_map {α β : Type} (f : α → β → K) (g : α → β → K) (h : K → K) (e : ∀ a b, f a b = h (g a b)) :
    ∀ (l : List α) (m : List β), List.zipWith f l m = (List.zipWith g l m).map h
  | [], _ => by simp
  | _ :: _, [] => by simp
  | a :: l, b :: m => by simp [e, zipWith_congr_map f g h e l m]

theorem masses_amounts : ∀ g W : List K, g.length = W.length → (∀ w ∈ W, 0 < w) → masses (List.zipWith (· / ·) g W) W = g
  | [], _, _, _ => by simp [masses]
  | _ :: _, [], h, _ => by simp at h
  | x :: g, w :: W, h, hW => by
    have := masses_amounts g W (by simpa using h) (fun v hv => hW v (by simp [hv]))
    have hw : w ≠ 0 := (hW w (by simp)).ne'
    simp only [masses, List.zipWith_cons_cons] at this ⊢
    rw [this, div_mul_cancel₀ _ hw]

theorem sum_pos_of_mem {l : List K} (h0 : ∀ x ∈ l, 0 ≤ x) {x : K} (hx : x ∈ l) (h : 0 < x) : 0 < l.sum :=
  h.trans_le (List.single_le_sum h0 x hx)

theorem masses_nonneg : ∀ n W : List K, (∀ x ∈ n, 0 ≤ x) → (∀ w ∈ W, 0 < w) → ∀ m ∈ masses n W, 0 ≤ m
  | [], _, _, _ => by simp [masses]
  | _ :: _, [], _, _ => by simp [masses]
  | x :: n, w :: W, hn, hW => by
    have := masses_nonneg n W (fun y hy => hn y (by simp [hy])) (fun v hv => hW v (by simp [hv]))
    intro m hm
    simp only [masses, List.zipWith_cons_cons, List.mem_cons] at hm
    rcases hm with rfl | hm
    · exact mul_nonneg (hn x (by simp)) (hW w (by simp)).le
    · exact this m hm

theorem masses_pos : ∀ n W : List K, n.length = W.length → (∀ x ∈ n, 0 ≤ x) → (∃ x ∈ n, 0 < x) → (∀ w ∈ W, 0 < w) → 0 < (masses n W).sum
  | [], _, _, _, h, _ => by simp at h
  | _ :: _, [], hl, _, _, _ => by simp at hl
  | x :: n, w :: W, hl, hn, ⟨y, hy, hp⟩, hW => by
    have hw := hW w (by simp)
    have rest := List.sum_nonneg (masses_nonneg n W (fun y hy => hn y (by simp [hy])) (fun v hv => hW v (by simp [hv])))
    simp only [masses, List.zipWith_cons_cons, List.sum_cons] at rest ⊢
    rcases List.mem_cons.1 hy with rfl | hy
    · linarith [mul_pos hp hw]
    · have := masses_pos n W (by simpa using hl) (fun y hy => hn y (by simp [hy])) ⟨y, hy, hp⟩ (fun v hv => hW v (by simp [hv]))
      simp only [masses] at this
      linarith [mul_nonneg (hn x (by simp)) hw.le]

theorem sum_normalized {l : List K} (h : 0 < l.sum) : (l.map (· / l.sum)).sum = 1 := by
  have : ∀ (l : List K) (t : K), (l.map (· / t)).sum = l.sum / t := fun l t => by
    induction l with
    | nil => simp
    | cons x l ih => simp only [List.map_cons, List.sum_cons, ih]; ring
  rw [this, div_self h.ne']

theorem mem_normalized {l : List K} (h0 : ∀ x ∈ l, 0 ≤ x) : ∀ y ∈ l.map (· / l.sum), 0 ≤ y ∧ y ≤ 1 := by
  intro y hy
  obtain ⟨x, hx, rfl⟩ := List.mem_map.1 hy
  have hs := List.sum_nonneg h0
  exact ⟨div_nonneg (h0 x hx) hs, div_le_one_of_le₀ (List.single_le_sum h0 x hx) hs⟩

/-! ### C131 -/

/-- **C131.** The validation test starts from the mixture that is asked for: if mole fractions (in any proportion to the given numbers) are given, the mole and mass fractions are
those of a mixture of the given amounts; if mass fractions are given, those of a mixture of the given masses.  The species that are not given are absent. -/
theorem C131_fractions (names : List String) (fractions : String → Option K) (W : List K) (hl : names.length = W.length) (hW : ∀ w ∈ W, 0 < w)
    (h0 : ∀ n x, fractions n = some x → 0 ≤ x) (hp : ∃ n ∈ names, ∃ x, fractions n = some x ∧ 0 < x) :
    fractionBasis true names fractions W =
        (moleFractions (names.map fun n => (fractions n).getD 0), massFractions (names.map fun n => (fractions n).getD 0) W) ∧
    ∃ n : List K, n.length = names.length ∧ (∀ x ∈ n, 0 ≤ x) ∧ 0 < n.sum ∧ masses n W = (names.map fun n => (fractions n).getD 0) ∧
      fractionBasis false names fractions W = (moleFractions n, massFractions n W) := by
  set g := names.map fun n => (fractions n).getD 0 with hg
  have eg : givenFractions names fractions = g := rfl
  have hgl : g.length = W.length := by rw [hg, List.length_map, hl]
  have g0 : ∀ x ∈ g, 0 ≤ x := by
    intro x hx
    obtain ⟨n, _, rfl⟩ := List.mem_map.1 hx
    cases e : fractions n with
    | none => simp
    | some y => simpa using h0 n y e
  have gp : ∃ x ∈ g, 0 < x := by
    obtain ⟨n, hn, x, e, hx⟩ := hp
    exact ⟨x, List.mem_map.2 ⟨n, hn, by simp [e]⟩, hx⟩
  have ht : 0 < g.sum := by
    obtain ⟨x, hx, h⟩ := gp
    exact sum_pos_of_mem g0 hx h
  have hM := masses_pos g W hgl g0 gp hW
  constructor
  · rw [fractionBasis, eg]
    simp only [foamSum_eq, if_true, sum_weights]
    refine Prod.ext rfl ?_
    show List.zipWith _ (g.map (· / g.sum)) W = _
    rw [List.zipWith_map_left, massFractions, masses]
    refine zipWith_congr_map _ _ _ (fun a b => ?_) g W
    have := hM.ne'
    have := ht.ne'
    field_simp [masses]
  · have e : List.zipWith (· / ·) g W = masses g (W.map (·⁻¹)) := by
      rw [masses, List.zipWith_map_right]
      congr 1
      funext a b
      exact div_eq_mul_inv a b
    have hW' : ∀ w ∈ W.map (·⁻¹), 0 < w := fun w hw => by
      obtain ⟨v, hv, rfl⟩ := List.mem_map.1 hw
      exact inv_pos.2 (hW v hv)
    have hN : 0 < (List.zipWith (· / ·) g W).sum := by
      rw [e]
      exact masses_pos g _ (by rw [hgl, List.length_map]) g0 gp hW'
    refine ⟨List.zipWith (· / ·) g W, by rw [List.length_zipWith, hgl, min_self, hl], ?_, hN, masses_amounts g W hgl hW, ?_⟩
    · rw [e]
      exact masses_nonneg g _ g0 hW'
    rw [fractionBasis, eg]
    simp only [foamSum_eq, Bool.false_eq_true, if_false, sum_inverse_weights]
    refine Prod.ext ?_ ?_
    · show List.zipWith _ (g.map (· / g.sum)) W = _
      rw [List.zipWith_map_left, moleFractions]
      refine zipWith_congr_map _ _ _ (fun a b => ?_) g W
      have h1 := hN.ne'
      have h2 := ht.ne'
      rw [show (Consts.one : K) = 1 from rfl]
      field_simp
    · show _ = massFractions _ W
      rw [massFractions, masses_amounts g W hgl hW]

/-- **C131, sums.** The mole fractions and the mass fractions are between 0 and 1 and add up to 1. -/
theorem C131_sums (mole : Bool) (names : List String) (fractions : String → Option K) (W : List K) (hl : names.length = W.length) (hW : ∀ w ∈ W, 0 < w)
    (h0 : ∀ n x, fractions n = some x → 0 ≤ x) (hp : ∃ n ∈ names, ∃ x, fractions n = some x ∧ 0 < x) :
    (fractionBasis mole names fractions W).1.sum = 1 ∧ (fractionBasis mole names fractions W).2.sum = 1 ∧
      (∀ x ∈ (fractionBasis mole names fractions W).1, 0 ≤ x ∧ x ≤ 1) ∧ ∀ y ∈ (fractionBasis mole names fractions W).2, 0 ≤ y ∧ y ≤ 1 := by
  have g0 : ∀ x ∈ names.map fun n => (fractions n).getD 0, 0 ≤ x := by
    intro x hx
    obtain ⟨n, _, rfl⟩ := List.mem_map.1 hx
    cases e : fractions n with
    | none => simp
    | some y => simpa using h0 n y e
  have gp : ∃ x ∈ names.map fun n => (fractions n).getD 0, 0 < x := by
    obtain ⟨n, hn, x, e, hx⟩ := hp
    exact ⟨x, List.mem_map.2 ⟨n, hn, by simp [e]⟩, hx⟩
  have gs : 0 < (names.map fun n => (fractions n).getD 0).sum := by
    obtain ⟨x, hx, h⟩ := gp
    exact sum_pos_of_mem g0 hx h
  obtain ⟨h1, n, _, n0, np, h2, h3⟩ := C131_fractions names fractions W hl hW h0 hp
  cases mole
  · rw [h3]
    exact ⟨sum_normalized np, sum_normalized (by rw [h2]; exact gs), mem_normalized n0, mem_normalized (masses_nonneg n W n0 hW)⟩
  · rw [h1]
    exact ⟨sum_normalized gs, sum_normalized (masses_pos _ W (by rw [List.length_map, hl]) g0 gp hW), mem_normalized g0,
      mem_normalized (masses_nonneg _ W g0 hW)⟩

/-- **C131, verdict.** The program ends with the status 0 exactly if the enthalpies from the library agree with the references and with those of OpenFOAM, before
and after the integration, and the final temperature with its reference, all within the tolerances relative to the size of the reference. -/
theorem C131_verdict (evalH : K → List K) (before after : ThermoState K) (Tstd href0 href1 Tref tol0a tol0b tol1a tol1b tolT : K)
    (r1 : href0 ≠ 0) (r2 : before.h ≠ 0) (r3 : href1 ≠ 0) (r4 : after.h ≠ 0) (r5 : Tref ≠ 0) :
    psrStatus evalH before after Tstd href0 href1 Tref tol0a tol0b tol1a tol1b tolT = 0 ↔
      |(List.zipWith (· * ·) (evalH Tstd) before.Y).sum - href0| < tol0a * |href0| ∧
      |(List.zipWith (· * ·) (evalH Tstd) before.Y).sum - before.h| < tol0b * |before.h| ∧
      |(List.zipWith (· * ·) (evalH after.T) after.Y).sum - href1| < tol1a * |href1| ∧
      |(List.zipWith (· * ·) (evalH after.T) after.Y).sum - after.h| < tol1b * |after.h| ∧
      |after.T - Tref| < tolT * |Tref| := by
  have abs_eq : ∀ x : K, absS x = |x| := fun x => by
    rw [absS]
    split
    · rw [abs_of_neg ‹_›]
    · rw [abs_of_nonneg (not_lt.1 ‹_›)]
  have rel : ∀ {x r t : K}, r ≠ 0 → ((if relativeError x r < t then true else false) = true ↔ |x - r| < t * |r|) := fun {x r t} h => by
    rw [relativeError, abs_eq, abs_eq, ← div_lt_iff₀ (abs_pos.2 h)]
    simp
  have ite : ∀ b : Bool, ((if b then 1 else 0 : Nat) = 0 ↔ b = false) := fun b => by cases b <;> simp
  unfold psrStatus validatePyjacEnthalpy checkTemperature
  simp only [foamSum_eq]
  rw [ite]
  simp only [Bool.or_eq_false_iff, Bool.not_eq_false', rel r1, rel r2, rel r3, rel r4, rel r5, and_assoc]

end

/-- The composition of the test, for three of the species and with rounded weights. -/
def psrFractions (n : String) : Option ℚ := if n = "CH4" then some (1 / 2) else if n = "O2" then some 1 else if n = "N2" then some (376 / 100) else none

example : (["CH4", "O2", "H2O", "N2"] : List String).length = ([16, 32, 18, 28] : List ℚ).length ∧
    (∀ w ∈ ([16, 32, 18, 28] : List ℚ), 0 < w) ∧ (∃ n ∈ ["CH4", "O2", "H2O", "N2"], ∃ x, psrFractions n = some x ∧ 0 < x) ∧
    fractionBasis true ["CH4", "O2", "H2O", "N2"] psrFractions [16, 32, 18, 28] =
      ([25 / 263, 50 / 263, 0, 188 / 263], [25 / 454, 50 / 227, 0, 329 / 454]) := by
  refine ⟨rfl, by decide +kernel, ⟨"O2", by simp, 1, by decide +kernel, by norm_num⟩, by decide +kernel⟩

example : psrStatus (fun T => [T, 2 * T]) ⟨[1 / 2, 1 / 2], 300, 451⟩ ⟨[1 / 4, 3 / 4], 400, 700⟩ 300 449 701 (400 + 1 : ℚ) (1 / 100) (1 / 100) (1 / 100) (1 / 100)
    (1 / 100) = 0 ∧ psrStatus (fun T => [T, 2 * T]) ⟨[1 / 2, 1 / 2], 300, 451⟩ ⟨[1 / 4, 3 / 4], 400, 700⟩ 300 449 701 (400 + 5 : ℚ) (1 / 100) (1 / 100) (1 / 100)
    (1 / 100) (1 / 100) = 1 := by decide +kernel

end DLB
