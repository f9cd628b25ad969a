import Verif.Lemmas.JacobT
/-
The statements "partial wrt T" of falloff reactions with Troe's parameters.
-/
set_option autoImplicit false
set_option linter.unusedSectionVars false

namespace DLB

namespace JTroe

/-- Variables. -/
abbrev T : CExpr := .rd (.var .T)
abbrev Pr : CExpr := .rd (.var .Pr)
abbrev Fc : CExpr := .rd (.var .Fcent)
abbrev A : CExpr := .rd (.var .A)
abbrev B : CExpr := .rd (.var .B)
abbrev L : CExpr := .rd (.var .lnFAB)
abbrev one : CExpr := .num 1 0

/-- `log10(fmax(x, 1.0e-300))` -/
def lgMax (x : CExpr) : CExpr := .log10 (.fmax x (.num 1 300))

/-- `(1.0 + A * A / (B * B))` -/
def D : CExpr := .add one (.div (.mul A A) (.mul B B))

/-- `A = log10(fmax(Pr, 1.0e-300)) - 0.67 * log10(fmax(Fcent, 1.0e-300)) - 0.4;` -/
def setA : CStmt := .set (.var .A) (.sub (.sub (lgMax Pr) (.mul (.num 67 2) (lgMax Fc))) (.num 4 1))

/-- `B = 0.806 - 1.1762 * log10(fmax(Fcent, 1.0e-300)) - 0.14 * log10(fmax(Pr, 1.0e-300));` -/
def setB : CStmt := .set (.var .B) (.sub (.sub (.num 806 3) (.mul (.num 11762 4) (lgMax Fc))) (.mul (.num 14 2) (lgMax Pr)))

/-- `lnF_AB = 2.0 * log(fmax(Fcent, 1.0e-300)) * A / (B * B * B * (1.0 + A * A / (B * B)) * (1.0 + A * A / (B * B)));` -/
def setL : CStmt := .set (.var .lnFAB) (.div (.mul (.mul (.num 2 0) (.log (.fmax Fc (.num 1 300)))) A)
  (.mul (.mul (.mul (.mul B B) B) D) D))

/-- The logarithmic derivative of the factor. -/
def X (S1 FP S2 : CExpr) : CExpr :=
  .sub (.add (.div S1 (.mul T (.add one Pr)))
    (.mul (.sub (.div one (.mul Fc D)) (.div (.mul L (.add (.mul (.neg (.num 2909773028751787 16)) B) (.mul (.num 51081716961460466 17) A))) Fc))
      FP))
    (.div (.mul (.mul L (.add (.mul (.num 43429448190325176 17) B) (.mul (.num 60801227466455256 18) A))) S2) T)

/-- The temperature derivative. -/
def jT (n : Numbered) (S1 FP S2 rest : CExpr) : CExpr :=
  .mul (.add (.mul (.mul (.rd (.arr .presMod n.p)) (X S1 FP S2)) (.sub (.rd (.arr .fwd n.k)) (.rd (.arr .rev n.j)))) rest)
    (.rd (.var .rhoInv))

/-- The temperature derivative without Troe's parameters. -/
def jL (n : Numbered) (S1 rest : CExpr) : CExpr :=
  .mul (.add (.mul (.mul (.rd (.arr .presMod n.p)) (.div S1 (.mul T (.add one Pr)))) (.sub (.rd (.arr .fwd n.k)) (.rd (.arr .rev n.j)))) rest)
    (.rd (.var .rhoInv))

end JTroe

/-- `A` of Troe's formula as computed. -/
noncomputable def troeA (Pr Fc : ℝ) : ℝ := lg (max Pr (1 / 10 ^ 300)) - 67 / 100 * lg (max Fc (1 / 10 ^ 300)) - 4 / 10

/-- `B` of Troe's formula as computed. -/
noncomputable def troeB (Pr Fc : ℝ) : ℝ :=
  806 / 1000 - 11762 / 10000 * lg (max Fc (1 / 10 ^ 300)) - 14 / 100 * lg (max Pr (1 / 10 ^ 300))

/-- `lnF_AB` as computed. -/
noncomputable def troeL (Fc A B : ℝ) : ℝ :=
  2 * Real.log (max Fc (1 / 10 ^ 300)) * A / (B * B * B * (1 + A * A / (B * B)) * (1 + A * A / (B * B)))

/-- The logarithmic derivative of the factor as computed. -/
noncomputable def troeX (T Pr Fc A B L S1 FP S2 : ℝ) : ℝ :=
  S1 / (T * (1 + Pr)) + (1 / (Fc * (1 + A * A / (B * B))) -
    L * (-(2909773028751787 / 10 ^ 16) * B + 51081716961460466 / 10 ^ 17 * A) / Fc) * FP -
    L * (43429448190325176 / 10 ^ 17 * B + 60801227466455256 / 10 ^ 18 * A) * S2 / T

/-- The number is close to another one, up to 10^(-14) of it. -/
def NearDec (s : ℝ) (t : SDec) : Prop := |s - SDec.val t| ≤ |(SDec.val t : ℝ)| / 10 ^ 14

/-- The expression is `exp(T / -t)`, up to rounding of `t`. -/
def expT (t : SDec) : CExpr → Bool
  | .exp (.div (.rd (.var .T)) y) => match y.slit with
    | some d => closeQ (-d.1, d.2) t.1 (10 ^ t.2) t.1.natAbs
    | none => false
  | _ => false

theorem expT_sound {t : SDec} {e : CExpr} (h : expT t e = true) :
    ∃ s, NearDec s t ∧ ∀ τ : CLoc → ℝ, e.evalT τ = Real.exp (-(τ (.var .T) / s)) := by
  unfold expT at h
  split at h
  · rename_i y
    split at h
    · rename_i d hd
      refine ⟨-SDec.val d, ?_, fun τ => ?_⟩
      · have := closeQ_sound (by positivity) h
        have e1 : (SDec.val (-d.1, d.2) : ℝ) = - SDec.val d := by simp [SDec.val, neg_div]
        rw [e1] at this
        unfold NearDec
        have e2 : (SDec.val t : ℝ) = t.1 / ((10 ^ t.2 : Nat) : ℝ) := by simp [SDec.val]
        rw [e2, abs_div, abs_of_nonneg (Nat.cast_nonneg (α := ℝ) (10 ^ t.2)), ← Int.cast_abs, ← Nat.cast_natAbs]
        exact this
      · simp only [CExpr.evalT, slit_sound τ hd, div_neg, neg_neg]
        rfl
    · exact absurd h (by simp)
  · exact absurd h (by simp)

/-- The literal is close to a quotient, up to 10^(-14) of it. -/
def closeLit (e : CExpr) (x : Int) (y : Nat) : Bool := match e.slit with
  | some d => closeQ d x y x.natAbs
  | none => false

theorem closeLit_sound {e : CExpr} {x : Int} {y : Nat} (hy : 0 < y) (h : closeLit e x y = true) :
    ∃ c : ℝ, |c - (x : ℝ) / y| ≤ |(x : ℝ) / y| / 10 ^ 14 ∧ ∀ τ : CLoc → ℝ, e.evalT τ = c := by
  unfold closeLit at h
  split at h
  · rename_i d hd
    refine ⟨SDec.val d, ?_, fun τ => slit_sound τ hd⟩
    have := closeQ_sound hy h
    rw [Nat.cast_natAbs] at this
    rw [abs_div, abs_of_nonneg (Nat.cast_nonneg (α := ℝ) y)]
    push_cast at this
    exact this
  · exact absurd h (by simp)

/-- The expression is `exp(-t / T)`, up to rounding of `t`. -/
def expLast (t : SDec) : CExpr → Bool
  | .exp (.div x (.rd (.var .T))) => match x.slit with
    | some d => closeQ (-d.1, d.2) t.1 (10 ^ t.2) t.1.natAbs
    | none => false
  | _ => false

theorem expLast_sound {t : SDec} {e : CExpr} (h : expLast t e = true) :
    ∃ s, NearDec s t ∧ ∀ τ : CLoc → ℝ, e.evalT τ = Real.exp (-(s / τ (.var .T))) := by
  unfold expLast at h
  split at h
  · rename_i y
    split at h
    · rename_i d hd
      refine ⟨-SDec.val d, ?_, fun τ => ?_⟩
      · have := closeQ_sound (by positivity) h
        have e1 : (SDec.val (-d.1, d.2) : ℝ) = - SDec.val d := by simp [SDec.val, neg_div]
        rw [e1] at this
        unfold NearDec
        have e2 : (SDec.val t : ℝ) = t.1 / ((10 ^ t.2 : Nat) : ℝ) := by simp [SDec.val]
        rw [e2, abs_div, abs_of_nonneg (Nat.cast_nonneg (α := ℝ) (10 ^ t.2)), ← Int.cast_abs, ← Nat.cast_natAbs]
        exact this
      · simp only [CExpr.evalT, slit_sound τ hd, neg_div, neg_neg]
        rfl
    · exact absurd h (by simp)
  · exact absurd h (by simp)

/-- The literal is close to a decimal number, up to 10^(-14) of it. -/
def nearLit (e : CExpr) (t : SDec) : Bool := closeLit e t.1 (10 ^ t.2)

theorem nearLit_sound {e : CExpr} {t : SDec} (h : nearLit e t = true) : ∃ c : ℝ, NearDec c t ∧ ∀ τ : CLoc → ℝ, e.evalT τ = c := by
  obtain ⟨c, q, w⟩ := closeLit_sound (by positivity) h
  have e2 : ((t.1 : Int) : ℝ) / ((10 ^ t.2 : Nat) : ℝ) = SDec.val t := by simp [SDec.val]
  rw [e2] at q
  exact ⟨c, q, w⟩

/-- The first two terms of the centre of the falloff. -/
def fcTwo (t : Troe) (x1 e1 x2 e2 : CExpr) : Bool := nearLit x1 t.A.oneSub && expT t.T3 e1 && nearLit x2 t.A && expT t.T1 e2

/-- The expression is the centre of the falloff up to rounding. -/
def fcOk (t : Troe) (e : CExpr) : Bool := match t.T2, e with
  | some d, .add (.add (.mul x1 e1) (.mul x2 e2)) e3 => fcTwo t x1 e1 x2 e2 && expLast d e3
  | none, .add (.mul x1 e1) (.mul x2 e2) => fcTwo t x1 e1 x2 e2
  | _, _ => false

/-- The first two terms of the derivative of the centre of the falloff. -/
def fpTwo (t : Troe) (x1 e1 x2 e2 : CExpr) : Bool := decide (0 < t.T3.1) && decide (0 < t.T1.1) &&
  closeLit x1 (-(t.A.oneSub.1 * 10 ^ t.T3.2)) (10 ^ t.A.2 * t.T3.1.toNat) && expT t.T3 e1 &&
  closeLit x2 (t.A.1 * 10 ^ t.T1.2) (10 ^ t.A.2 * t.T1.1.toNat) && expT t.T1 e2

/-- The expression is the derivative of the centre of the falloff up to rounding. -/
def fpOk (t : Troe) (e : CExpr) : Bool := match t.T2, e with
  | some d, .add (.sub (.mul x1 e1) (.mul x2 e2)) (.mul (.div x3 (.mul (.rd (.var .T)) (.rd (.var .T)))) e3) =>
    fpTwo t x1 e1 x2 e2 && nearLit x3 d && expLast d e3
  | none, .sub (.mul x1 e1) (.mul x2 e2) => fpTwo t x1 e1 x2 e2
  | _, _ => false

/-- What the last term of the centre is computed as. -/
def LastVal (t2 : Option SDec) (T x : ℝ) : Prop := match t2 with
  | some d => ∃ s, NearDec s d ∧ x = Real.exp (-(s / T))
  | none => x = 0

/-- What its derivative is computed as. -/
def LastSlope (t2 : Option SDec) (T x : ℝ) : Prop := match t2 with
  | some d => ∃ q s, NearDec q d ∧ NearDec s d ∧ x = q / (T * T) * Real.exp (-(s / T))
  | none => x = 0

/-- What the centre is computed as. -/
def FcVal (t : Troe) (T x : ℝ) : Prop := ∃ c1 c2 s3 s1 last : ℝ, NearDec s3 t.T3 ∧ NearDec s1 t.T1 ∧
    |c1 - (1 - SDec.val t.A)| ≤ |1 - SDec.val t.A| / 10 ^ 14 ∧ |c2 - SDec.val t.A| ≤ |SDec.val t.A| / 10 ^ 14 ∧ LastVal t.T2 T last ∧
    x = c1 * Real.exp (-(T / s3)) + c2 * Real.exp (-(T / s1)) + last

/-- What its derivative is computed as. -/
def FpVal (t : Troe) (T x : ℝ) : Prop := 0 < (SDec.val t.T3 : ℝ) ∧ 0 < (SDec.val t.T1 : ℝ) ∧
  ∃ c1 c2 s3 s1 last : ℝ, NearDec s3 t.T3 ∧ NearDec s1 t.T1 ∧
    |c1 - (1 - SDec.val t.A) / SDec.val t.T3| ≤ |(1 - SDec.val t.A) / SDec.val t.T3| / 10 ^ 14 ∧
    |c2 - SDec.val t.A / SDec.val t.T1| ≤ |SDec.val t.A / SDec.val t.T1| / 10 ^ 14 ∧ LastSlope t.T2 T last ∧
    x = -(c1 * Real.exp (-(T / s3))) - c2 * Real.exp (-(T / s1)) + last

theorem fcOk_sound {t : Troe} {e : CExpr} (h : fcOk t e = true) {v : JacobVals ℝ} {τ : CLoc → ℝ} (hb : Base v τ) :
    FcVal t v.T (e.evalT τ) := by
  have two : ∀ {x1 e1 x2 e2 : CExpr}, fcTwo t x1 e1 x2 e2 = true → ∃ c1 c2 s3 s1 : ℝ, NearDec s3 t.T3 ∧ NearDec s1 t.T1 ∧
      |c1 - (1 - SDec.val t.A)| ≤ |1 - SDec.val t.A| / 10 ^ 14 ∧ |c2 - SDec.val t.A| ≤ |SDec.val t.A| / 10 ^ 14 ∧
      x1.evalT τ = c1 ∧ x2.evalT τ = c2 ∧ e1.evalT τ = Real.exp (-(v.T / s3)) ∧ e2.evalT τ = Real.exp (-(v.T / s1)) := by
    intro x1 e1 x2 e2 h
    simp only [fcTwo, Bool.and_eq_true] at h
    obtain ⟨⟨⟨h2, h3⟩, h4⟩, h5⟩ := h
    obtain ⟨c1, q1, w1⟩ := nearLit_sound h2
    obtain ⟨c2, q2, w2⟩ := nearLit_sound h4
    obtain ⟨s3, n3, z3⟩ := expT_sound h3
    obtain ⟨s1, n1, z1⟩ := expT_sound h5
    unfold NearDec at q1 q2
    rw [oneSub_val] at q1
    exact ⟨c1, c2, s3, s1, n3, n1, q1, q2, w1 τ, w2 τ, by rw [z3, hb.T], by rw [z1, hb.T]⟩
  unfold fcOk at h
  split at h
  · rename_i d x1 e1 x2 e2 e3 hd
    simp only [Bool.and_eq_true] at h
    obtain ⟨c1, c2, s3, s1, n3, n1, q1, q2, w1, w2, z3, z1⟩ := two h.1
    obtain ⟨s2, n2, z2⟩ := expLast_sound h.2
    refine ⟨c1, c2, s3, s1, Real.exp (-(s2 / v.T)), n3, n1, q1, q2, ?_, ?_⟩
    · unfold LastVal
      rw [hd]
      exact ⟨s2, n2, rfl⟩
    · simp only [CExpr.evalT, w1, w2, z3, z1, z2, hb.T]
  · rename_i x1 e1 x2 e2 hd
    obtain ⟨c1, c2, s3, s1, n3, n1, q1, q2, w1, w2, z3, z1⟩ := two h
    refine ⟨c1, c2, s3, s1, 0, n3, n1, q1, q2, ?_, ?_⟩
    · unfold LastVal
      rw [hd]
    · simp only [CExpr.evalT, w1, w2, z3, z1, add_zero]
  · exact absurd h (by simp)

theorem fpOk_sound {t : Troe} {e : CExpr} (h : fpOk t e = true) {v : JacobVals ℝ} {τ : CLoc → ℝ} (hb : Base v τ) :
    FpVal t v.T (e.evalT τ) := by
  have two : ∀ {x1 e1 x2 e2 : CExpr}, fpTwo t x1 e1 x2 e2 = true → 0 < (SDec.val t.T3 : ℝ) ∧ 0 < (SDec.val t.T1 : ℝ) ∧
      ∃ c1 c2 s3 s1 : ℝ, NearDec s3 t.T3 ∧ NearDec s1 t.T1 ∧
      |c1 - (1 - SDec.val t.A) / SDec.val t.T3| ≤ |(1 - SDec.val t.A) / SDec.val t.T3| / 10 ^ 14 ∧
      |c2 - SDec.val t.A / SDec.val t.T1| ≤ |SDec.val t.A / SDec.val t.T1| / 10 ^ 14 ∧
      x1.evalT τ = -c1 ∧ x2.evalT τ = c2 ∧ e1.evalT τ = Real.exp (-(v.T / s3)) ∧ e2.evalT τ = Real.exp (-(v.T / s1)) := by
    intro x1 e1 x2 e2 h
    simp only [fpTwo, Bool.and_eq_true, decide_eq_true_eq] at h
    obtain ⟨⟨⟨⟨⟨h0, h1⟩, h2⟩, h3⟩, h4⟩, h5⟩ := h
    have hp : ∀ k : Nat, (0 : ℝ) < 10 ^ k := fun k => by positivity
    have t3 : 0 < (SDec.val t.T3 : ℝ) := div_pos (by exact_mod_cast h0) (hp _)
    have t1 : 0 < (SDec.val t.T1 : ℝ) := div_pos (by exact_mod_cast h1) (hp _)
    have n3 : 0 < t.T3.1.toNat := by omega
    have n1 : 0 < t.T1.1.toNat := by omega
    have i3 : ((t.T3.1.toNat : Nat) : ℝ) = t.T3.1 := by
      exact_mod_cast congrArg (Int.cast : Int → ℝ) (Int.toNat_of_nonneg h0.le)
    have i1 : ((t.T1.1.toNat : Nat) : ℝ) = t.T1.1 := by
      exact_mod_cast congrArg (Int.cast : Int → ℝ) (Int.toNat_of_nonneg h1.le)
    have r3 : (t.T3.1 : ℝ) ≠ 0 := by exact_mod_cast h0.ne'
    have r1 : (t.T1.1 : ℝ) ≠ 0 := by exact_mod_cast h1.ne'
    obtain ⟨c1, q1, w1⟩ := closeLit_sound (by positivity) h2
    obtain ⟨c2, q2, w2⟩ := closeLit_sound (by positivity) h4
    have v1 : ((-(t.A.oneSub.1 * 10 ^ t.T3.2) : Int) : ℝ) / ((10 ^ t.A.2 * t.T3.1.toNat : Nat) : ℝ) =
        -((1 - SDec.val t.A) / SDec.val t.T3) := by
      rw [← oneSub_val]
      unfold SDec.val SDec.oneSub
      push_cast
      rw [i3]
      field_simp
    have v2 : ((t.A.1 * 10 ^ t.T1.2 : Int) : ℝ) / ((10 ^ t.A.2 * t.T1.1.toNat : Nat) : ℝ) = SDec.val t.A / SDec.val t.T1 := by
      unfold SDec.val
      push_cast
      rw [i1]
      field_simp
    rw [v1, abs_neg, ← abs_neg] at q1
    rw [v2] at q2
    obtain ⟨s3, m3, z3⟩ := expT_sound h3
    obtain ⟨s1, m1, z1⟩ := expT_sound h5
    refine ⟨t3, t1, -c1, c2, s3, s1, m3, m1, ?_, q2, by rw [w1, neg_neg], w2 τ, by rw [z3, hb.T], by rw [z1, hb.T]⟩
    have e : -c1 - (1 - SDec.val t.A) / SDec.val t.T3 = -(c1 - -((1 - SDec.val t.A) / SDec.val t.T3)) := by ring
    rw [e]
    exact q1
  unfold fpOk at h
  split at h
  · rename_i d x1 e1 x2 e2 x3 e3 hd
    simp only [Bool.and_eq_true] at h
    obtain ⟨t3, t1, c1, c2, s3, s1, m3, m1, q1, q2, w1, w2, z3, z1⟩ := two h.1.1
    obtain ⟨q, n2, w3⟩ := nearLit_sound h.1.2
    obtain ⟨s2, m2, z2⟩ := expLast_sound h.2
    refine ⟨t3, t1, c1, c2, s3, s1, q / (v.T * v.T) * Real.exp (-(s2 / v.T)), m3, m1, q1, q2, ?_, ?_⟩
    · unfold LastSlope
      rw [hd]
      exact ⟨q, s2, n2, m2, rfl⟩
    · simp only [CExpr.evalT, w1, w2, w3, z3, z1, z2, hb.T]
      ring
  · rename_i x1 e1 x2 e2 hd
    obtain ⟨t3, t1, c1, c2, s3, s1, m3, m1, q1, q2, w1, w2, z3, z1⟩ := two h
    refine ⟨t3, t1, c1, c2, s3, s1, 0, m3, m1, q1, q2, ?_, ?_⟩
    · unfold LastSlope
      rw [hd]
    · simp only [CExpr.evalT, w1, w2, z3, z1]
      ring
  · exact absurd h (by simp)

/-- `b0 - bInf` as a quotient. -/
def bDiff (k0 kInf : Arrhenius) : Int := k0.b.1 * 10 ^ kInf.b.2 - kInf.b.1 * 10 ^ k0.b.2

/-- `E0 - EInf` as a quotient. -/
def eDiff (k0 kInf : Arrhenius) : Int := (k0.E.1 * 10 ^ kInf.E.2 - kInf.E.1 * 10 ^ k0.E.2) * 41840000

/-- `|E0| + |EInf|` as a quotient. -/
def eSum (k0 kInf : Arrhenius) : Nat := (k0.E.1.natAbs * 10 ^ kInf.E.2 + kInf.E.1.natAbs * 10 ^ k0.E.2) * 41840000

/-- The denominator of these. -/
def eDen (k0 kInf : Arrhenius) : Nat := 83144621 * 10 ^ (k0.E.2 + kInf.E.2)

theorem eDiff_val (k0 kInf : Arrhenius) : (eDiff k0 kInf : ℝ) / eDen k0 kInf = k0.temperature - kInf.temperature := by
  unfold eDiff eDen Arrhenius.temperature SDec.val gasR
  push_cast
  rw [pow_add]
  field_simp
  ring

theorem temperature_abs (k : Arrhenius) : |k.temperature| = (k.E.1.natAbs : ℝ) * 41840000 / (83144621 * 10 ^ k.E.2) := by
  have : k.temperature = (k.E.1 : ℝ) * 41840000 / (83144621 * 10 ^ k.E.2) := by
    unfold Arrhenius.temperature SDec.val gasR
    field_simp
    ring
  rw [this, abs_div, abs_mul, Nat.cast_natAbs, Int.cast_abs,
    abs_of_pos (show (0 : ℝ) < 83144621 * 10 ^ k.E.2 by positivity), abs_of_pos (show (0 : ℝ) < 41840000 by norm_num)]

theorem eSum_val (k0 kInf : Arrhenius) : (eSum k0 kInf : ℝ) / eDen k0 kInf = |k0.temperature| + |kInf.temperature| := by
  rw [temperature_abs, temperature_abs]
  unfold eSum eDen
  push_cast
  rw [pow_add]
  field_simp

theorem bDiff_val (k0 kInf : Arrhenius) : (bDiff k0 kInf : ℝ) / ((10 ^ (k0.b.2 + kInf.b.2) : Nat) : ℝ) =
    SDec.val k0.b - SDec.val kInf.b := by
  unfold bDiff SDec.val
  push_cast
  rw [pow_add]
  field_simp

/-- `b0 - bInf + (E0 - EInf) / (R T) - 1` up to rounding -/
def slopeOk (k0 kInf : Arrhenius) (e : CExpr) : Bool := match e.coefs [([], []), ([], [(CLoc.var .T).code])] with
  | some [c, q] => closeQ c (bDiff k0 kInf - 10 ^ (k0.b.2 + kInf.b.2)) (10 ^ (k0.b.2 + kInf.b.2)) (10 ^ (k0.b.2 + kInf.b.2)) &&
    closeQ q (eDiff k0 kInf) (eDen k0 kInf) (eSum k0 kInf)
  | _ => false

theorem slopeOk_sound {k0 kInf : Arrhenius} {e : CExpr} (h : slopeOk k0 kInf e = true) {v : JacobVals ℝ} {τ : CLoc → ℝ} (hb : Base v τ)
    (hT : 0 < v.T) :
    |e.evalT τ - (SDec.val k0.b - SDec.val kInf.b - 1 + (k0.temperature - kInf.temperature) / v.T)| ≤
      (1 + (|k0.temperature| + |kInf.temperature|) / v.T) / 10 ^ 14 := by
  unfold slopeOk at h
  split at h
  · rename_i c q hc
    simp only [Bool.and_eq_true] at h
    have h1 := closeQ_sound (by positivity) h.1
    have h2 := closeQ_sound (by unfold eDen; positivity) h.2
    rw [eDiff_val, eSum_val] at h2
    have e1 : ((bDiff k0 kInf - 10 ^ (k0.b.2 + kInf.b.2) : Int) : ℝ) / ((10 ^ (k0.b.2 + kInf.b.2) : Nat) : ℝ) =
        SDec.val k0.b - SDec.val kInf.b - 1 := by
      rw [← bDiff_val]
      push_cast
      field_simp
    rw [e1, div_self (by positivity)] at h1
    rw [coefs_sound τ hc]
    simp only [pairVal, keyVal, codesVal_nil, codesVal_cons, hb.T, mul_one, div_one, add_zero]
    have e2 : SDec.val c + SDec.val q * (1 / v.T) - (SDec.val k0.b - SDec.val kInf.b - 1 + (k0.temperature - kInf.temperature) / v.T) =
        (SDec.val c - (SDec.val k0.b - SDec.val kInf.b - 1)) + (SDec.val q - (k0.temperature - kInf.temperature)) / v.T := by
      ring
    rw [e2]
    refine (abs_add_le _ _).trans ?_
    rw [add_div, abs_div, abs_of_pos hT, div_right_comm (|k0.temperature| + |kInf.temperature|)]
    exact add_le_add h1 (div_le_div_of_nonneg_right h2 hT.le)
  · exact absurd h (by simp)

/-- The exponent of `k0 / kInf` up to rounding. -/
def ratioOk (k0 kInf : Arrhenius) (o : Nat) (e : CExpr) : Bool :=
  match e.coefs [([], []), ([(CLoc.var .logT).code], []), ([], [(CLoc.var .T).code])] with
  | some [c, l, q] => decide (0 < k0.A.1) && decide (0 < kInf.A.1) && decide (0 < o) &&
    closeQ l (bDiff k0 kInf) (10 ^ (k0.b.2 + kInf.b.2)) 0 && closeQ (-q.1, q.2) (eDiff k0 kInf) (eDen k0 kInf) (eSum k0 kInf) &&
    logOk c.1 c.2 (k0.A.1.toNat * 10 ^ kInf.A.2) (kInf.A.1.toNat * 10 ^ k0.A.2 * 1000)
  | _ => false

theorem ratioOk_sound {k0 kInf : Arrhenius} {o : Nat} {e : CExpr} (h : ratioOk k0 kInf o e = true) {v : JacobVals ℝ} {τ : CLoc → ℝ}
    (hb : Base v τ) (hT : 0 < v.T) : 0 < kInf.coefficient o v.T ∧ 0 < k0.coefficient (o + 1) v.T ∧
    ∃ η : ℝ, |η| ≤ (1 + (|k0.temperature| + |kInf.temperature|) / v.T) / 10 ^ 14 ∧
      Real.exp (e.evalT τ) = k0.coefficient (o + 1) v.T / kInf.coefficient o v.T * Real.exp η := by
  unfold ratioOk at h
  split at h
  · rename_i c l q hc
    simp only [Bool.and_eq_true, decide_eq_true_eq] at h
    obtain ⟨⟨⟨⟨⟨hA0, hA1⟩, ho⟩, hl⟩, hq⟩, hlog⟩ := h
    have h1 := closeQ_sound (by positivity) hl
    have h2 := closeQ_sound (by unfold eDen; positivity) hq
    rw [eDiff_val, eSum_val] at h2
    rw [bDiff_val] at h1
    have h1 : (SDec.val l : ℝ) = SDec.val k0.b - SDec.val kInf.b := by
      have : |(SDec.val l : ℝ) - (SDec.val k0.b - SDec.val kInf.b)| ≤ 0 := by simpa using h1
      have := abs_nonpos_iff.1 this
      linarith
    obtain ⟨-, -, h3⟩ := logOk_sound hlog
    have p0 : (0 : ℝ) < SDec.val k0.A := div_pos (by exact_mod_cast hA0) (by positivity)
    have p1 : (0 : ℝ) < SDec.val kInf.A := div_pos (by exact_mod_cast hA1) (by positivity)
    have i0 : ((k0.A.1.toNat : Nat) : ℝ) = k0.A.1 := by
      exact_mod_cast congrArg (Int.cast : Int → ℝ) (Int.toNat_of_nonneg hA0.le)
    have i1 : ((kInf.A.1.toNat : Nat) : ℝ) = kInf.A.1 := by
      exact_mod_cast congrArg (Int.cast : Int → ℝ) (Int.toNat_of_nonneg hA1.le)
    have r1 : (kInf.A.1 : ℝ) ≠ 0 := by exact_mod_cast hA1.ne'
    have e1 : ((k0.A.1.toNat * 10 ^ kInf.A.2 : Nat) : ℝ) / ((kInf.A.1.toNat * 10 ^ k0.A.2 * 1000 : Nat) : ℝ) =
        SDec.val k0.A / (SDec.val kInf.A * 1000) := by
      push_cast
      rw [i0, i1]
      unfold SDec.val
      field_simp
    rw [e1] at h3
    have hTb : ∀ b : ℝ, 0 < v.T ^ b := fun b => Real.rpow_pos_of_pos hT b
    have q0 : 0 < kInf.coefficient o v.T := by
      unfold Arrhenius.coefficient
      have := hTb (SDec.val kInf.b)
      positivity
    have q1 : 0 < k0.coefficient (o + 1) v.T := by
      unfold Arrhenius.coefficient
      have := hTb (SDec.val k0.b)
      positivity
    refine ⟨q0, q1, (SDec.val c - Real.log (SDec.val k0.A / (SDec.val kInf.A * 1000))) +
      (SDec.val q + (k0.temperature - kInf.temperature)) / v.T, ?_, ?_⟩
    · refine (abs_add_le _ _).trans ?_
      rw [add_div (1 : ℝ), div_right_comm (|k0.temperature| + |kInf.temperature|), abs_div, abs_of_pos hT]
      refine add_le_add (h3.trans (by norm_num)) (div_le_div_of_nonneg_right ?_ hT.le)
      have e : SDec.val q + (k0.temperature - kInf.temperature) = -(SDec.val (-q.1, q.2) - (k0.temperature - kInf.temperature)) := by
        simp [SDec.val, neg_div]
        ring
      rw [e, abs_neg]
      exact h2
    · obtain ⟨o, rfl⟩ : ∃ k, o = k + 1 := ⟨o - 1, by omega⟩
      rw [coefs_sound τ hc]
      simp only [pairVal, keyVal, codesVal_nil, codesVal_cons, hb.T, hb.logT, mul_one, div_one, add_zero, h1]
      unfold Arrhenius.coefficient
      rw [Real.rpow_def_of_pos hT, Real.rpow_def_of_pos hT, Nat.add_sub_cancel, Nat.add_sub_cancel]
      have e2 : SDec.val k0.A / 1000 ^ (o + 1) * Real.exp (Real.log v.T * SDec.val k0.b) * Real.exp (-(k0.temperature / v.T)) /
          (SDec.val kInf.A / 1000 ^ o * Real.exp (Real.log v.T * SDec.val kInf.b) * Real.exp (-(kInf.temperature / v.T))) =
          (SDec.val k0.A / (SDec.val kInf.A * 1000)) * Real.exp (Real.log v.T * SDec.val k0.b - Real.log v.T * SDec.val kInf.b) *
            Real.exp (-(k0.temperature / v.T) - -(kInf.temperature / v.T)) := by
        rw [Real.exp_sub, Real.exp_sub, pow_succ]
        field_simp
      rw [e2]
      have e3 := Real.exp_log (show 0 < SDec.val k0.A / (SDec.val kInf.A * 1000 : ℝ) by positivity)
      generalize Real.log (SDec.val k0.A / (SDec.val kInf.A * 1000 : ℝ)) = g at e3 ⊢
      rw [← e3, ← Real.exp_add, ← Real.exp_add, ← Real.exp_add]
      congr 1
      ring
  · exact absurd h (by simp)

end DLB
