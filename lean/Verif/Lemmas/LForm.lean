import Verif.Lemmas.Poly
import Mathlib.Tactic.FieldSimp
/-
Expressions `p(T) + l(T) ln T + q(T) / T` with polynomials `p`, `l`, `q`: extraction from C expressions and comparison.
-/
set_option autoImplicit false
set_option linter.unusedSectionVars false

namespace DLB

/-- `p(T) + l(T) ln T + q(T) / T` -/
structure LForm where
  p : QPoly
  l : QPoly
  q : QPoly

/-- The zero polynomial. -/
def QPoly.zero : QPoly := ([], 0)

namespace LForm

/-- Zero. -/
def zero : LForm := ⟨.zero, .zero, .zero⟩

/-- Sum. -/
def add (f g : LForm) : LForm := ⟨f.p.add g.p, f.l.add g.l, f.q.add g.q⟩

/-- Opposite. -/
def neg (f : LForm) : LForm := ⟨f.p.neg, f.l.neg, f.q.neg⟩

/-- Multiple by an integer. -/
def smul (c : Int) (f : LForm) : LForm := ⟨f.p.smul c, f.l.smul c, f.q.smul c⟩

/-- Product with a polynomial. -/
def scale (a : QPoly) (f : LForm) : LForm := ⟨a.mul f.p, a.mul f.l, a.mul f.q⟩

/-- The polynomial, if there is nothing else. -/
def pure? (f : LForm) : Option QPoly :=
  match f.l.1, f.q.1 with
  | [], [] => some f.p
  | _, _ => none

section
variable {K : Type} [Field K] [CharZero K]

/-- Value at the temperature `T`, where `y` is the logarithm of the temperature. -/
def eval (T y : K) (f : LForm) : K := f.p.eval T + f.l.eval T * y + f.q.eval T / T

theorem eval_add (T y : K) (f g : LForm) : (f.add g).eval T y = f.eval T y + g.eval T y := by
  simp only [eval, add, QPoly.eval_add]
  ring

theorem eval_neg (T y : K) (f : LForm) : f.neg.eval T y = -f.eval T y := by
  simp only [eval, neg, QPoly.eval_neg]
  ring

theorem eval_smul (T y : K) (c : Int) (f : LForm) : (f.smul c).eval T y = c * f.eval T y := by
  simp only [eval, smul, QPoly.eval_smul]
  ring

theorem eval_scale (T y : K) (a : QPoly) (f : LForm) : (f.scale a).eval T y = a.eval T * f.eval T y := by
  simp only [eval, scale, QPoly.eval_mul]
  ring

theorem eval_zero (T y : K) : zero.eval T y = 0 := by
  simp [eval, zero, QPoly.zero, QPoly.eval, IPoly.eval]

theorem eval_pure (T y : K) {f : LForm} {p : QPoly} (h : f.pure? = some p) : f.eval T y = p.eval T := by
  unfold pure? at h
  split at h
  · rename_i h1 h2
    simp only [Option.some.injEq] at h
    subst h
    simp [eval, QPoly.eval, h1, h2, IPoly.eval]
  · exact absurd h (by simp)

end
end LForm

/-- The form computed by an expression, if it is one. -/
def CExpr.lform : CExpr → Option LForm
  | .num m e => some ⟨([(m : Int)], e), .zero, .zero⟩
  | .rd (.var .T) => some ⟨([0, 1], 0), .zero, .zero⟩
  | .rd (.var .logT) => some ⟨.zero, ([1], 0), .zero⟩
  | .neg a => do return (← a.lform).neg
  | .add a b => do return (← a.lform).add (← b.lform)
  | .sub a b => do return (← a.lform).add (← b.lform).neg
  | .mul a b => do return (← b.lform).scale (← (← a.lform).pure?)
  | .div a (.rd (.var .T)) => do return ⟨.zero, .zero, ← (← a.lform).pure?⟩
  | _ => none

section
variable {K : Type} [Field K] [CharZero K] [CMath K]

theorem lform_sound (τ : CLoc → K) (e : CExpr) : ∀ f, e.lform = some f →
    e.evalT τ = f.eval (τ (.var .T)) (τ (.var .logT)) := by
  induction e with
  | num m e =>
    intro f h
    simp only [CExpr.lform, Option.some.injEq] at h
    subst h
    simp [CExpr.evalT, sci_eq, LForm.eval, QPoly.zero, QPoly.eval, IPoly.eval]
  | rd l =>
    intro f h
    unfold CExpr.lform at h
    split at h <;> simp_all
    all_goals
      subst h
      simp [CExpr.evalT, LForm.eval, QPoly.zero, QPoly.eval, IPoly.eval]
  | neg a iha =>
    intro f h
    cases ha : a.lform with
    | none => simp [CExpr.lform, ha] at h
    | some fa =>
      simp [CExpr.lform, ha] at h
      subst h
      rw [CExpr.evalT, iha fa ha, LForm.eval_neg]
  | add a b iha ihb | sub a b iha ihb =>
    intro f h
    cases ha : a.lform with
    | none => simp [CExpr.lform, ha] at h
    | some fa =>
      cases hb : b.lform with
      | none => simp [CExpr.lform, ha, hb] at h
      | some fb =>
        simp [CExpr.lform, ha, hb] at h
        subst h
        simp only [CExpr.evalT, iha fa ha, ihb fb hb, LForm.eval_add, LForm.eval_neg, sub_eq_add_neg]
  | mul a b iha ihb =>
    intro f h
    cases ha : a.lform with
    | none => simp [CExpr.lform, ha] at h
    | some fa =>
      cases hb : b.lform with
      | none => simp [CExpr.lform, hb] at h
      | some fb =>
        cases hp : fa.pure? with
        | none => simp [CExpr.lform, ha, hb, hp] at h
        | some p =>
          simp [CExpr.lform, ha, hb, hp] at h
          subst h
          rw [CExpr.evalT, iha fa ha, ihb fb hb, LForm.eval_scale, LForm.eval_pure _ _ hp]
  | div a b iha ihb =>
    intro f h
    have hb : b = .rd (.var .T) := by
      unfold CExpr.lform at h
      split at h <;> simp_all
    subst hb
    cases ha : a.lform with
    | none => simp [CExpr.lform, ha] at h
    | some fa =>
      cases hp : fa.pure? with
      | none => simp [CExpr.lform, ha, hp] at h
      | some p =>
        simp [CExpr.lform, ha, hp] at h
        subst h
        rw [CExpr.evalT, iha fa ha, LForm.eval_pure _ _ hp]
        simp [CExpr.evalT, LForm.eval, QPoly.zero, QPoly.eval, IPoly.eval]
  | exp | log | log10 | pow | fmax => intro f h; simp [CExpr.lform] at h

end

namespace IPoly

/-- Is every coefficient of `d` times `a` bounded by the one of `r` times `b`?  Coefficients that are missing are zero. -/
def dom (a b : Nat) : IPoly → IPoly → Bool
  | [], r => r.all fun s => decide (0 ≤ s)
  | c :: d, r => decide ((c.natAbs : Int) * a ≤ r.headD 0 * b) && dom a b d r.tail

variable {K : Type} [Field K] [LinearOrder K] [IsStrictOrderedRing K]

theorem eval_nonneg (x : K) (hx : 0 ≤ x) (r : IPoly) (h : ∀ s ∈ r, 0 ≤ s) : 0 ≤ eval x r := by
  induction r with
  | nil => simp [eval]
  | cons s r ih =>
    have hs : (0 : K) ≤ s := by exact_mod_cast h s (by simp)
    have := ih fun t ht => h t (by simp [ht])
    simp only [eval]
    nlinarith [mul_nonneg hx this]

theorem eval_head_tail (x : K) (r : IPoly) : eval x r = (r.headD 0 : Int) + x * eval x r.tail := by
  cases r <;> simp [eval]

theorem dom_sound (a b : Nat) (x : K) (hx : 0 ≤ x) (d r : IPoly) (h : dom a b d r = true) :
    |eval x d| * a ≤ eval x r * b := by
  induction d generalizing r with
  | nil =>
    simp only [dom, List.all_eq_true, decide_eq_true_eq] at h
    simp only [eval, abs_zero, zero_mul]
    exact mul_nonneg (eval_nonneg x hx r h) (Nat.cast_nonneg b)
  | cons c d ih =>
    simp only [dom, Bool.and_eq_true, decide_eq_true_eq] at h
    have h2 := ih _ h.2
    have h1 : |(c : K)| * a ≤ (r.headD 0 : Int) * b := by
      have h0 := h.1
      rw [Int.natCast_natAbs] at h0
      exact_mod_cast h0
    rw [eval_head_tail x r]
    simp only [eval]
    have h3 := abs_add_le (c : K) (x * eval x d)
    rw [abs_mul, abs_of_nonneg hx] at h3
    have ha : (0 : K) ≤ a := Nat.cast_nonneg a
    have h4 := mul_le_mul_of_nonneg_right h3 ha
    have h5 := mul_le_mul_of_nonneg_left h2 hx
    nlinarith

end IPoly

namespace QPoly

/-- Is every coefficient of `d` bounded by the one of `r` divided by `10^14`? -/
def dom (d r : QPoly) : Bool := IPoly.dom (10 ^ (r.2 + 14)) (10 ^ d.2) d.1 r.1

variable {K : Type} [Field K] [LinearOrder K] [IsStrictOrderedRing K]

theorem dom_sound {d r : QPoly} (h : dom d r = true) (x : K) (hx : 0 ≤ x) : |d.eval x| ≤ r.eval x / 10 ^ 14 := by
  have := IPoly.dom_sound _ _ x hx _ _ h
  unfold eval
  rw [abs_div, abs_of_pos (show (0 : K) < 10 ^ d.2 by positivity), div_div, div_le_div_iff₀ (by positivity) (by positivity)]
  push_cast at this
  rw [pow_add] at this
  exact this

end QPoly

/-- Is `f` bounded by `g` divided by `10^14`, term by term? -/
def LForm.dom (f g : LForm) : Bool := f.p.dom g.p && f.l.dom g.l && f.q.dom g.q

section
variable {K : Type} [Field K] [LinearOrder K] [IsStrictOrderedRing K]

theorem LForm.dom_sound {f g : LForm} (h : f.dom g = true) (T y : K) (hT : 0 < T) :
    |f.eval T y| ≤ g.eval T |y| / 10 ^ 14 := by
  simp only [LForm.dom, Bool.and_eq_true] at h
  obtain ⟨⟨h1, h2⟩, h3⟩ := h
  have h1 := QPoly.dom_sound h1 T hT.le
  have h2 := QPoly.dom_sound h2 T hT.le
  have h3 := QPoly.dom_sound h3 T hT.le
  unfold LForm.eval
  have a1 := abs_add_le (f.p.eval T + f.l.eval T * y) (f.q.eval T / T)
  have a2 := abs_add_le (f.p.eval T) (f.l.eval T * y)
  rw [abs_mul] at a2
  rw [abs_div, abs_of_pos hT] at a1
  have b2 := mul_le_mul_of_nonneg_right h2 (abs_nonneg y)
  have b3 := div_le_div_of_nonneg_right h3 hT.le
  have e : (g.p.eval T + g.l.eval T * |y| + g.q.eval T / T) / 10 ^ 14 =
      g.p.eval T / 10 ^ 14 + g.l.eval T / 10 ^ 14 * |y| + g.q.eval T / 10 ^ 14 / T := by ring
  rw [e]
  linarith

end
end DLB
