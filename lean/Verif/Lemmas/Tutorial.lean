import Verif.Lemmas.TroeLipschitz
import Verif.Lemmas.KineticsNear
import Verif.Mech.YaoTutorial
import Verif.Lemmas.MechField
/-
The reactions of the tutorial shearlayer_DLB are near those of chem.cti of yao.
-/
set_option autoImplicit false
set_option linter.unusedSectionVars false

namespace DLB

/-! ### Rate coefficients -/

/-- The parameters agree: `A` up to 10^-5, `b` exactly, the activation temperature up to 61 millionths, that is 2.63 K. -/
def closeRate (g : FoamRate) (k : Arrhenius) (o : Nat) : Bool :=
  sameDec g.beta k.b && decide (0 < k.A.1) && decide (0 ≤ g.A.1) &&
  decide ((SDec.val g.A * 1000 ^ (o - 1) - SDec.val k.A : ℚ) * 10 ^ 5 ≤ SDec.val k.A) &&
  decide ((SDec.val k.A - SDec.val g.A * 1000 ^ (o - 1) : ℚ) * 10 ^ 5 ≤ SDec.val k.A) &&
  decide ((SDec.val g.Ta - SDec.val k.E * 4184 / gasR : ℚ) ≤ 263 / 100) &&
  decide ((SDec.val k.E * 4184 / gasR - SDec.val g.Ta : ℚ) ≤ 263 / 100)

theorem val_cast (d : SDec) : ((SDec.val d : ℚ) : ℝ) = SDec.val d := by
  unfold SDec.val
  push_cast
  rfl

theorem gasR_cast : ((gasR : ℚ) : ℝ) = gasR := by
  unfold gasR
  push_cast
  rfl

theorem closeRate_sound {g : FoamRate} {k : Arrhenius} {o : Nat} (h : closeRate g k o = true) (T : ℝ) (hT : 0 < T) :
    0 < k.coefficient o T ∧ Near (2 / 10 ^ 5 + 263 / 100 / T) (g.coefficient T) (k.coefficient o T) := by
  simp only [closeRate, Bool.and_eq_true, decide_eq_true_eq] at h
  obtain ⟨⟨⟨⟨⟨⟨hb, hA⟩, hA'⟩, h1⟩, h2⟩, h3⟩, h4⟩ := h
  have hb := sameDec_sound hb
  have h1' : ((SDec.val g.A * 1000 ^ (o - 1) - SDec.val k.A) * 10 ^ 5 : ℝ) ≤ SDec.val k.A := by
    have := (Rat.cast_le (K := ℝ)).2 h1
    push_cast [val_cast] at this
    exact this
  have h2' : ((SDec.val k.A - SDec.val g.A * 1000 ^ (o - 1)) * 10 ^ 5 : ℝ) ≤ SDec.val k.A := by
    have := (Rat.cast_le (K := ℝ)).2 h2
    push_cast [val_cast] at this
    exact this
  have h3' : (SDec.val g.Ta : ℝ) - k.temperature ≤ 263 / 100 := by
    have := (Rat.cast_le (K := ℝ)).2 h3
    push_cast [val_cast, gasR_cast] at this
    exact this
  have h4' : k.temperature - (SDec.val g.Ta : ℝ) ≤ 263 / 100 := by
    have := (Rat.cast_le (K := ℝ)).2 h4
    push_cast [val_cast, gasR_cast] at this
    exact this
  have kA : (0 : ℝ) < SDec.val k.A := by
    unfold SDec.val
    exact div_pos (by exact_mod_cast hA) (by positivity)
  have gA : (0 : ℝ) ≤ SDec.val g.A := by
    unfold SDec.val
    exact div_nonneg (by exact_mod_cast hA') (by positivity)
  have p : (0 : ℝ) < 1000 ^ (o - 1) := by positivity
  have q : 0 < T ^ (SDec.val k.b : ℝ) := Real.rpow_pos_of_pos hT _
  have n1 : Near (2 * (1 / 10 ^ 5)) (SDec.val g.A : ℝ) (SDec.val k.A / 1000 ^ (o - 1)) := by
    refine Near.of_abs gA (div_nonneg kA.le p.le) (by positivity) (by norm_num) ?_
    have e : (SDec.val g.A : ℝ) - SDec.val k.A / 1000 ^ (o - 1) =
        (SDec.val g.A * 1000 ^ (o - 1) - SDec.val k.A) / 1000 ^ (o - 1) := by field_simp
    rw [e, abs_div, abs_of_pos p, ← mul_div_assoc]
    refine div_le_div_of_nonneg_right (abs_le.2 ⟨?_, ?_⟩) p.le <;> linarith
  have n2 : Near (263 / 100 / T) (Real.exp (-(SDec.val g.Ta / T))) (Real.exp (-(k.temperature / T))) := by
    refine Near.of_exp (η := (k.temperature - SDec.val g.Ta) / T) (Real.exp_pos _).le ?_ ?_
    · rw [abs_div, abs_of_pos hT]
      exact div_le_div_of_nonneg_right (abs_le.2 ⟨by linarith, h4'⟩) hT.le
    · rw [← Real.exp_add]
      congr 1
      field_simp
      ring
  constructor
  · unfold Arrhenius.coefficient
    positivity
  · have := (n1.mul (Near.refl q.le)).mul n2
    unfold FoamRate.coefficient Arrhenius.coefficient
    rw [hb]
    exact this.mono (by linarith)

/-! ### Third bodies -/

/-- All species are listed once, and have the efficiencies of the other list. -/
def sameEff (nsp : Nat) (e' e : List (Nat × Nat × Nat)) : Bool :=
  decide ((e'.map (·.1)).Nodup) && decide (e'.length = nsp) &&
  (List.range nsp).all fun i => decide ((effDec e' i).1 * 10 ^ (effDec e i).2 = (effDec e i).1 * 10 ^ (effDec e' i).2)

theorem sameEff_sound {nsp : Nat} {e' e : List (Nat × Nat × Nat)} (h : sameEff nsp e' e = true) (C : Nat → ℝ) :
    thirdBody nsp e' C = thirdBody nsp e C := by
  simp only [sameEff, Bool.and_eq_true, List.all_eq_true, decide_eq_true_eq, List.mem_range] at h
  unfold thirdBody
  refine Finset.sum_congr rfl fun i hi => ?_
  congr 1
  unfold efficiency
  rw [div_eq_div_iff (by positivity) (by positivity)]
  exact_mod_cast h.2 i (Finset.mem_range.1 hi)

/-! ### Broadening -/

/-- The coefficients as those of chem.cti. -/
def FoamTroe.toTroe (t : FoamTroe) : Troe := ⟨t.alpha, t.Tsss, t.Ts, some t.Tss⟩

theorem FoamTroe.centre_eq (t : FoamTroe) (T : ℝ) : t.centre T = t.toTroe.centre T := rfl

/-- The centre is at most 2. -/
def centreTwo (t : Troe) : Bool :=
  (decide (0 ≤ t.A.1) && decide (t.A.1 ≤ 10 ^ t.A.2) && decide (0 ≤ t.T1.1) && decide (0 ≤ t.T3.1) && match t.T2 with
    | some d => decide (0 ≤ d.1)
    | none => true) ||
  (decide (10 ^ t.A.2 ≤ t.A.1) && decide (t.A.1 ≤ 2 * 10 ^ t.A.2) && decide (0 < t.T1.1) && decide (t.T1.1 ≤ 5 * 10 ^ t.T1.2) && match t.T2 with
    | some d => decide (-10 ^ d.2 ≤ d.1)
    | none => true)

theorem val_nonneg_int {d : SDec} (h : 0 ≤ d.1) : (0 : ℝ) ≤ SDec.val d := by
  unfold SDec.val
  exact div_nonneg (by exact_mod_cast h) (by positivity)

theorem val_le_int {d : SDec} {m : Int} (h : d.1 ≤ m * 10 ^ d.2) : (SDec.val d : ℝ) ≤ m := by
  unfold SDec.val
  rw [div_le_iff₀ (by positivity)]
  exact_mod_cast h

theorem int_le_val {d : SDec} {m : Int} (h : m * 10 ^ d.2 ≤ d.1) : (m : ℝ) ≤ SDec.val d := by
  unfold SDec.val
  rw [le_div_iff₀ (by positivity)]
  exact_mod_cast h

theorem centreTwo_sound {t : Troe} (h : centreTwo t = true) (T : ℝ) (hT : 300 ≤ T) : t.centre T ≤ 2 := by
  have hT0 : 0 < T := by linarith
  simp only [centreTwo, Bool.or_eq_true, Bool.and_eq_true, decide_eq_true_eq] at h
  have p3 := Real.exp_pos (-(T / SDec.val t.T3))
  unfold Troe.centre
  rcases h with ⟨⟨⟨⟨h1, h2⟩, h3⟩, h4⟩, h5⟩ | ⟨⟨⟨⟨h1, h2⟩, h3⟩, h4⟩, h5⟩
  · have a0 := val_nonneg_int h1
    have a1 : (SDec.val t.A : ℝ) ≤ 1 := by simpa using val_le_int (m := 1) (by simpa using h2)
    have ex : ∀ d : SDec, 0 ≤ d.1 → Real.exp (-(T / SDec.val d)) ≤ 1 := by
      intro d hd
      rw [Real.exp_le_one_iff, neg_nonpos]
      exact div_nonneg hT0.le (val_nonneg_int hd)
    have last : (match t.T2 with
        | some d => Real.exp (-(SDec.val d / T))
        | none => 0) ≤ 1 := by
      split
      · rename_i d hd
        rw [hd] at h5
        simp only [decide_eq_true_eq] at h5
        rw [Real.exp_le_one_iff, neg_nonpos]
        exact div_nonneg (val_nonneg_int h5) hT0.le
      · norm_num
    have m1 := mul_le_of_le_one_right a0 (ex _ h3)
    have m2 := mul_le_of_le_one_right (sub_nonneg.2 a1) (ex _ h4)
    exact (add_le_add (add_le_add m2 m1) last).trans (by linarith)
  · have a1 : (1 : ℝ) ≤ SDec.val t.A := by simpa using int_le_val (m := 1) (by simpa using h1)
    have a2 : (SDec.val t.A : ℝ) ≤ 2 := by simpa using val_le_int (m := 2) h2
    have t0 : (0 : ℝ) < SDec.val t.T1 := by
      unfold SDec.val
      exact div_pos (by exact_mod_cast h3) (by positivity)
    have t5 : (SDec.val t.T1 : ℝ) ≤ 5 := by simpa using val_le_int (m := 5) h4
    have m2 : (1 - SDec.val t.A) * Real.exp (-(T / SDec.val t.T3)) ≤ 0 :=
      mul_nonpos_of_nonpos_of_nonneg (by linarith) p3.le
    have q : 60 ≤ T / SDec.val t.T1 := by
      rw [le_div_iff₀ t0]
      linarith
    have e1 : Real.exp (-(T / SDec.val t.T1)) ≤ 1 / 60 := by
      have h6 := Real.add_one_le_exp (T / SDec.val t.T1)
      rw [Real.exp_neg, ← one_div]
      exact one_div_le_one_div_of_le (by norm_num) (by linarith)
    have m1 : SDec.val t.A * Real.exp (-(T / SDec.val t.T1)) ≤ 2 * (1 / 60) :=
      mul_le_mul a2 e1 (Real.exp_pos _).le (by norm_num)
    have last : (match t.T2 with
        | some d => Real.exp (-(SDec.val d / T))
        | none => 0) ≤ 101 / 100 := by
      split
      · rename_i d hd
        rw [hd] at h5
        simp only [decide_eq_true_eq] at h5
        have hv : (-1 : ℝ) ≤ SDec.val d := by simpa using int_le_val (m := -1) (by simpa using h5)
        have hq : -(SDec.val d / T) ≤ 1 / 300 := by
          rw [← neg_div, div_le_div_iff₀ hT0 (by norm_num)]
          linarith
        refine (Real.exp_le_exp.2 hq).trans ?_
        have := Real.abs_exp_sub_one_le (x := 1 / 300) (by norm_num [abs_of_pos])
        rw [abs_of_pos (show (0 : ℝ) < 1 / 300 by norm_num)] at this
        linarith [(abs_le.1 this).2]
      · norm_num
    exact (add_le_add (add_le_add m2 m1) last).trans (by norm_num)

/-- The same broadening; `Tss = 10^15` or more stands for a parameter that is not given. -/
def closeTroe (f : FoamTroe) (t : Troe) : Bool :=
  sameDec f.alpha t.A && sameDec f.Tsss t.T3 && sameDec f.Ts t.T1 && centreTwo t && centreTwo f.toTroe && centreBig t && match t.T2 with
    | some d => sameDec f.Tss d
    | none => decide (10 ^ 15 * 10 ^ f.Tss.2 ≤ f.Tss.1)

theorem exp_tiny : Real.exp (-(10 ^ 11)) ≤ 1 / 10 ^ 9 * (1 / 10 ^ 300) := by
  have h4 : Real.exp (-4) ≤ 1 / 10 := by
    rw [Real.exp_neg, ← one_div]
    refine one_div_le_one_div_of_le (by norm_num) ?_
    have h1 : (2 : ℝ) ≤ Real.exp 1 := by
      have := Real.add_one_le_exp (1 : ℝ)
      linarith
    have e : Real.exp 4 = Real.exp 1 ^ 4 := by rw [← Real.exp_nat_mul]; norm_num
    rw [e]
    have := pow_le_pow_left₀ (by norm_num : (0 : ℝ) ≤ 2) h1 4
    linarith
  have h : Real.exp (-(10 ^ 11)) ≤ Real.exp (-4) ^ 309 := by
    rw [← Real.exp_nat_mul]
    refine Real.exp_le_exp.2 ?_
    norm_num
  refine h.trans ((pow_le_pow_left₀ (Real.exp_pos _).le h4 309).trans (le_of_eq ?_))
  rw [one_div_pow, show (309 : Nat) = 9 + 300 from rfl, pow_add, one_div_mul_one_div]

theorem closeTroe_sound {f : FoamTroe} {t : Troe} (h : closeTroe f t = true) (T : ℝ) (h1 : 300 ≤ T) (h2 : T ≤ 6000) :
    0 < t.centre T ∧ t.centre T ≤ 2 ∧ f.centre T ≤ 2 ∧ Near (2 / 10 ^ 9) (f.centre T) (t.centre T) := by
  simp only [closeTroe, Bool.and_eq_true] at h
  obtain ⟨⟨⟨⟨⟨⟨a1, a2⟩, a3⟩, c1⟩, c2⟩, cb⟩, c3⟩ := h
  have hT0 : 0 < T := by linarith
  have big := centreBig_sound cb T hT0 (by linarith)
  have pos : 0 < t.centre T := lt_of_lt_of_le (by positivity) big
  refine ⟨pos, centreTwo_sound c1 T h1, centreTwo_sound c2 T h1, ?_⟩
  have s1 := sameDec_sound a1
  have s2 := sameDec_sound a2
  have s3 := sameDec_sound a3
  cases hd : t.T2 with
  | some d =>
    rw [hd] at c3
    have s4 := sameDec_sound c3
    have e : f.centre T = t.centre T := by
      unfold FoamTroe.centre Troe.centre
      rw [hd, s1, s2, s3, s4]
    rw [e]
    exact (Near.refl pos.le).mono (by positivity)
  | none =>
    rw [hd] at c3
    simp only [decide_eq_true_eq] at c3
    have e : f.centre T = t.centre T + Real.exp (-(SDec.val f.Tss / T)) := by
      unfold FoamTroe.centre Troe.centre
      rw [hd, s1, s2, s3]
      simp
    have hv : (10 ^ 15 : ℝ) ≤ SDec.val f.Tss := by
      have := int_le_val (m := 10 ^ 15) c3
      push_cast at this
      linarith
    have hs : Real.exp (-(SDec.val f.Tss / T)) ≤ 1 / 10 ^ 9 * (1 / 10 ^ 300) := by
      refine (Real.exp_le_exp.2 ?_).trans exp_tiny
      rw [neg_le_neg_iff, le_div_iff₀ hT0]
      calc (10 : ℝ) ^ 11 * T ≤ 10 ^ 11 * 6000 := by gcongr
        _ ≤ 10 ^ 15 := by norm_num
        _ ≤ _ := hv
    have hp := Real.exp_pos (-(SDec.val f.Tss / T))
    have := Near.of_abs (x := f.centre T) (y := t.centre T) (ε := 1 / 10 ^ 9) (by rw [e]; linarith) pos.le (by positivity) (by norm_num) (by
      rw [e, add_sub_cancel_left, abs_of_pos hp]
      exact hs.trans (mul_le_mul_of_nonneg_left big (by positivity)))
    exact this.mono (le_of_eq (by ring))

/-! ### Rates -/

/-- `a b / (a + b)`, written with `b / a`. -/
theorem Near.harmonic {ε a b a' b' : ℝ} (ha : Near ε a a') (hb : Near ε b b') (ha0 : 0 < a') :
    Near ε (a * (b / a / (1 + b / a))) (a' * (b' / a' / (1 + b' / a'))) := by
  have ha1 := near_pos ha ha0
  have form : ∀ x y : ℝ, 0 < x → 0 ≤ y → x * (y / x / (1 + y / x)) = x * y / (x + y) := by
    intro x y hx hy
    have : 0 < x + y := by linarith
    field_simp
  rw [form a b ha1 hb.left, form a' b' ha0 hb.right]
  have key : ∀ {x y x' y' : ℝ}, 0 < x → 0 ≤ y → 0 < x' → 0 ≤ y' → x ≤ x' * Real.exp ε → y ≤ y' * Real.exp ε →
      x * y / (x + y) ≤ x' * y' / (x' + y') * Real.exp ε := by
    intro x y x' y' hx hy hx' hy' h1 h2
    rw [div_mul_eq_mul_div, div_le_div_iff₀ (by linarith) (by linarith)]
    have e1 : x * y * x' ≤ x * x' * (y' * Real.exp ε) := by nlinarith [mul_pos hx hx']
    have e2 : x * y * y' ≤ y * y' * (x' * Real.exp ε) := by nlinarith [mul_nonneg hy hy']
    nlinarith
  refine ⟨div_nonneg (mul_nonneg ha1.le hb.left) (by linarith [hb.left]), div_nonneg (mul_nonneg ha0.le hb.right) (by linarith [hb.right]),
    key ha1 hb.left ha0 hb.right ha.le hb.le, key ha0 hb.right ha1 hb.left ha.ge hb.ge⟩

/-- A reaction of the tutorial describes a reaction of chem.cti. -/
def closeReaction (nsp : Nat) (f : FoamReaction) (r : Reaction) (law : RateLaw) : Bool :=
  decide (f.reactants = r.reactants) && decide (f.products = r.products) && decide (f.reversible = r.reversible) &&
  r.reactants.all (fun s => decide (s < nsp)) &&
  match r.kind, law, f.law with
  | .elementary, .simple k, .arrhenius g => closeRate g k r.order
  | .thirdBody e, .simple k, .thirdBody g e' => closeRate g k r.order && sameEff nsp e' e
  | .falloff e, .falloff kInf k0 none, .falloff g0 gInf none e' =>
    closeRate gInf kInf r.reactants.length && closeRate g0 k0 (r.reactants.length + 1) && sameEff nsp e' e
  | .falloff e, .falloff kInf k0 (some t), .falloff g0 gInf (some t') e' =>
    closeRate gInf kInf r.reactants.length && closeRate g0 k0 (r.reactants.length + 1) && sameEff nsp e' e && closeTroe t' t
  | _, _, _ => false

/-- The reaction number `k` of the tutorial. -/
def tutorialReaction (k : Nat) : FoamReaction :=
  Mech.Yao.tutorial.getD k ⟨[], [], false, .arrhenius ⟨(0, 0), (0, 0), (0, 0)⟩⟩

theorem tutorial_checked :
    (number yao.reactions).all (fun n => closeReaction yao.nsp (tutorialReaction n.k) n.r (yao.law n.k)) = true := by
  decide +kernel

theorem tutorial_close (n : Numbered) (hn : n ∈ number yao.reactions) :
    closeReaction yao.nsp (tutorialReaction n.k) n.r (yao.law n.k) = true :=
  List.all_eq_true.1 tutorial_checked n hn

/-- A ratio near 1 in terms of the difference. -/
theorem Near.relative {ε x y : ℝ} (h : Near ε x y) (h0 : 0 ≤ ε) (h1 : ε ≤ 1 / 30) : |x - y| ≤ 31 / 30 * ε * y := by
  have hy := h.right
  have e1 := Real.abs_exp_sub_one_sub_id_le (x := ε) (by rw [abs_of_nonneg h0]; linarith)
  have e2 : Real.exp ε ≤ 1 + 31 / 30 * ε := by
    have := (abs_le.1 e1).2
    nlinarith
  have e3 : 1 - ε ≤ Real.exp (-ε) := by
    have := Real.add_one_le_exp (-ε)
    linarith
  have e4 : y * Real.exp (-ε) ≤ x := by
    have := mul_le_mul_of_nonneg_right h.ge (Real.exp_pos (-ε)).le
    rwa [mul_assoc, ← Real.exp_add, add_neg_cancel, Real.exp_zero, mul_one] at this
  rw [abs_le]
  constructor
  · nlinarith [mul_le_mul_of_nonneg_left e3 hy, mul_nonneg h0 hy]
  · nlinarith [mul_le_mul_of_nonneg_left e2 hy, h.le]

/-- The forward rates of a reaction of the tutorial and of the reaction of chem.cti. -/
theorem tutorial_near (f : FoamReaction) (X : Chemistry) (n : Numbered) (h : closeReaction X.nsp f n.r (X.law n.k) = true)
    (T : ℝ) (h1 : 300 ≤ T) (h2 : T ≤ 6000) (C : Nat → ℝ) (hC : ∀ i, i < X.nsp → 0 ≤ C i)
    (hp : ∀ eff kInf k0 t, n.r.kind = .falloff eff → X.law n.k = .falloff kInf k0 (some t) →
      lg (max (X.reducedPressure n kInf k0 eff T C) (1 / 10 ^ 300)) ≠ Troe.pole (t.centre T))
    (hf : ¬ f.AtPole X.nsp T C) :
    Near (271 / 100 * (2 / 10 ^ 5 + 263 / 100 / T)) (f.rate X.nsp T C) (X.forward n T C * X.modification n T C) := by
  have hT : 0 < T := by linarith
  have hε : 0 < 263 / 100 / T := by positivity
  generalize hη : (2 / 10 ^ 5 + 263 / 100 / T : ℝ) = ε
  have ε0 : 2 / 10 ^ 5 ≤ ε := by rw [← hη]; linarith
  have εp : 0 < ε := lt_of_lt_of_le (by norm_num) ε0
  simp only [closeReaction, Bool.and_eq_true, decide_eq_true_eq, List.all_eq_true] at h
  obtain ⟨⟨⟨⟨hr, -⟩, -⟩, hs⟩, hl⟩ := h
  have hprod : Near 0 (f.reactants.map C).prod (n.r.reactants.map C).prod := by
    rw [hr]
    refine Near.refl (List.prod_nonneg ?_)
    intro x hx
    obtain ⟨i, hi, rfl⟩ := List.mem_map.1 hx
    exact hC i (hs i hi)
  have hM : ∀ e, 0 ≤ thirdBody X.nsp e C := fun e => thirdBody_nonneg _ e C hC
  unfold FoamReaction.rate Chemistry.forward Chemistry.coefficient Chemistry.modification
  unfold FoamReaction.AtPole at hf
  cases hk : n.r.kind with
  | elementary =>
    cases hw : X.law n.k with
    | falloff => simp [hk, hw] at hl
    | simple k =>
      cases hg : f.law with
      | thirdBody => simp [hk, hw, hg] at hl
      | falloff => simp [hk, hw, hg] at hl
      | arrhenius g =>
        simp only [hk, hw, hg] at hl
        have := ((closeRate_sound hl T hT).2.mul hprod)
        rw [hη] at this
        simp only [RateLaw.high, mul_one]
        exact this.mono (by linarith)
  | thirdBody e =>
    cases hw : X.law n.k with
    | falloff => simp [hk, hw] at hl
    | simple k =>
      cases hg : f.law with
      | arrhenius => simp [hk, hw, hg] at hl
      | falloff => simp [hk, hw, hg] at hl
      | thirdBody g e' =>
        simp only [hk, hw, hg, Bool.and_eq_true] at hl
        have := ((closeRate_sound hl.1 T hT).2.mul (Near.refl (hM e))).mul hprod
        rw [hη] at this
        simp only [RateLaw.high]
        rw [sameEff_sound hl.2, mul_right_comm (Arrhenius.coefficient _ _ _)]
        exact this.mono (by linarith)
  | falloff e =>
    have ho : n.r.order = n.r.reactants.length := by simp [Reaction.order, hk]
    cases hw : X.law n.k with
    | simple => simp [hk, hw] at hl
    | falloff kInf k0 t =>
      cases hg : f.law with
      | arrhenius => cases t <;> simp [hk, hw, hg] at hl
      | thirdBody => cases t <;> simp [hk, hw, hg] at hl
      | falloff g0 gInf t' e' =>
        cases t with
        | none =>
          cases t' with
          | some => simp [hk, hw, hg] at hl
          | none =>
            simp only [hk, hw, hg, Bool.and_eq_true] at hl
            obtain ⟨⟨c1, c0⟩, ce⟩ := hl
            obtain ⟨pI, nI⟩ := closeRate_sound c1 T hT
            obtain ⟨p0, n0⟩ := closeRate_sound c0 T hT
            rw [hη] at nI n0
            have nM := n0.mul (Near.refl (hM e))
            rw [add_zero] at nM
            have := (nI.harmonic nM pI).mul hprod
            simp only [RateLaw.high, FoamReaction.reducedPressure, Chemistry.reducedPressure, ho]
            rw [sameEff_sound ce, mul_right_comm (Arrhenius.coefficient _ _ _)]
            exact this.mono (by linarith)
        | some t =>
          cases t' with
          | none => simp [hk, hw, hg] at hl
          | some t' =>
            simp only [hk, hw, hg, Bool.and_eq_true] at hl
            obtain ⟨⟨⟨c1, c0⟩, ce⟩, ct⟩ := hl
            obtain ⟨pI, nI⟩ := closeRate_sound c1 T hT
            obtain ⟨p0, n0⟩ := closeRate_sound c0 T hT
            rw [hη] at nI n0
            have nM := n0.mul (Near.refl (hM e))
            rw [add_zero] at nM
            have hpole := hp e kInf k0 t hk hw
            rw [hg] at hf
            simp only [FoamReaction.reducedPressure, Chemistry.reducedPressure] at hpole hf
            rw [sameEff_sound ce] at hf
            obtain ⟨q0, q1, q2, qn⟩ := closeTroe_sound ct T h1 h2
            have tiny : (0 : ℝ) < 1 / 10 ^ 300 := by positivity
            have nP := (nM.div nI).max ((Near.refl tiny.le).mono (show (0 : ℝ) ≤ ε + ε by linarith))
            have nT := troe_near_both nP (lt_max_of_lt_right tiny) qn q0 q2 q1 hf hpole
            have := ((nI.harmonic nM pI).mul nT).mul hprod
            simp only [RateLaw.high, FoamReaction.reducedPressure, Chemistry.reducedPressure, ho]
            rw [sameEff_sound ce]
            have e : ∀ a F p q : ℝ, a * q * (F * p / (1 + p)) = a * (p / (1 + p)) * F * q := by
              intro a F p q
              ring
            rw [e]
            exact this.mono (by linarith)

/-- Every reaction of the tutorial has a number. -/
theorem tutorial_numbered (f : FoamReaction) (hf : f ∈ Mech.Yao.tutorial) :
    ∃ n ∈ number yao.reactions, tutorialReaction n.k = f := by
  have h : (number yao.reactions).map (·.k) = List.range Mech.Yao.tutorial.length := by decide +kernel
  obtain ⟨i, hi, e⟩ := List.getElem_of_mem hf
  have hm : i ∈ (number yao.reactions).map (·.k) := by
    rw [h]
    exact List.mem_range.2 hi
  obtain ⟨n, hn, rfl⟩ := List.mem_map.1 hm
  refine ⟨n, hn, ?_⟩
  unfold tutorialReaction
  rw [List.getD_eq_getElem?_getD, List.getElem?_eq_getElem hi]
  exact e

/-- A reduced pressure of at most 10 is not at a pole, in the tutorial either. -/
theorem tutorial_low (f : FoamReaction) (X : Chemistry) (n : Numbered) (h : closeReaction X.nsp f n.r (X.law n.k) = true)
    (T : ℝ) (h1 : 300 ≤ T) (h2 : T ≤ 6000) (C : Nat → ℝ) (hC : ∀ i, i < X.nsp → 0 ≤ C i)
    (hp : ∀ eff kInf k0 t, n.r.kind = .falloff eff → X.law n.k = .falloff kInf k0 (some t) →
      X.reducedPressure n kInf k0 eff T C ≤ 10) : ¬ f.AtPole X.nsp T C := by
  have hT : 0 < T := by linarith
  simp only [closeReaction, Bool.and_eq_true] at h
  have hl := h.2
  unfold FoamReaction.AtPole
  split at hl
  · rename_i e3
    simp [e3]
  · rename_i e3
    simp [e3]
  · rename_i e3
    simp [e3]
  · rename_i e kInf k0 t g0 gInf t' e' k1 k2 e3
    rw [e3]
    simp only [Bool.and_eq_true] at hl
    obtain ⟨⟨⟨c1, c0⟩, ce⟩, ct⟩ := hl
    obtain ⟨pI, nI⟩ := closeRate_sound c1 T hT
    obtain ⟨p0, n0⟩ := closeRate_sound c0 T hT
    obtain ⟨q0, q1, q2, qn⟩ := closeTroe_sound ct T h1 h2
    have nP := (n0.mul (Near.refl (thirdBody_nonneg X.nsp e C hC))).div nI
    have hP := hp e kInf k0 t k1 k2
    have hε : 263 / 100 / T ≤ 263 / 100 / 300 := div_le_div_of_nonneg_left (by norm_num) (by norm_num) h1
    have hP' : FoamReaction.reducedPressure X.nsp g0 gInf e' T C ≤ 20 := by
      unfold FoamReaction.reducedPressure
      rw [sameEff_sound ce]
      have n1 := (nP.mono (show _ ≤ (1 / 30 : ℝ) by linarith)).relative (by norm_num) le_rfl
      have n2 := (abs_le.1 n1).2
      unfold Chemistry.reducedPressure at hP
      linarith
    have hl : lg (max (FoamReaction.reducedPressure X.nsp g0 gInf e' T C) (1 / 10 ^ 300)) ≤ 1302 / 1000 := by
      have h10 : lg 10 = 1 := div_self log_ten_pos.ne'
      have h20 : lg 20 = lg 2 + lg 10 := by
        unfold lg
        rw [show (20 : ℝ) = 2 * 10 by norm_num, Real.log_mul (by norm_num) (by norm_num), add_div]
      refine (lg_le (lt_max_of_lt_right (by positivity)) (max_le hP' ?_)).trans (by rw [h20, h10]; linarith [lg_two])
      rw [div_le_iff₀ (by positivity)]
      exact one_le_mul_of_one_le_of_one_le (by norm_num) (one_le_pow₀ (by norm_num))
    have hL := (lg_le (near_pos qn q0) q2).trans lg_two
    intro e
    simp only at e
    unfold Troe.pole at e
    linarith
  · simp at hl

/-- With all concentrations equal and small, reduced pressures are at most 10. -/
theorem low_concentrations (X : Chemistry) (T : ℝ) : ∀ l : List Numbered, ∃ c : ℝ, 0 < c ∧ ∀ n ∈ l, ∀ eff kInf k0 t,
    n.r.kind = .falloff eff → X.law n.k = .falloff kInf k0 (some t) → X.reducedPressure n kInf k0 eff T (fun _ => c) ≤ 10 := by
  have lin : ∀ (n : Numbered) (kInf k0 : Arrhenius) (eff : List (Nat × Nat × Nat)) (c : ℝ),
      X.reducedPressure n kInf k0 eff T (fun _ => c) = c * X.reducedPressure n kInf k0 eff T (fun _ => 1) := by
    intro n kInf k0 eff c
    unfold Chemistry.reducedPressure thirdBody
    rw [← Finset.sum_mul, ← Finset.sum_mul]
    ring
  suffices h : ∀ l : List Numbered, ∃ c0 : ℝ, 0 < c0 ∧ ∀ c, 0 < c → c ≤ c0 → ∀ n ∈ l, ∀ eff kInf k0 t,
      n.r.kind = .falloff eff → X.law n.k = .falloff kInf k0 (some t) → X.reducedPressure n kInf k0 eff T (fun _ => c) ≤ 10 by
    intro l
    obtain ⟨c, hc, h⟩ := h l
    exact ⟨c, hc, h c hc le_rfl⟩
  intro l
  induction l with
  | nil => exact ⟨1, one_pos, by simp⟩
  | cons m l ih =>
    obtain ⟨c0, hc0, h0⟩ := ih
    obtain ⟨d, hd, hm⟩ : ∃ d : ℝ, 0 < d ∧ ∀ c, 0 < c → c ≤ d → ∀ eff kInf k0 t,
        m.r.kind = .falloff eff → X.law m.k = .falloff kInf k0 (some t) → X.reducedPressure m kInf k0 eff T (fun _ => c) ≤ 10 := by
      by_cases hx : ∃ eff kInf k0 t, m.r.kind = .falloff eff ∧ X.law m.k = .falloff kInf k0 (some t)
      · obtain ⟨eff, kInf, k0, t, a, b⟩ := hx
        obtain ⟨q, hq⟩ : ∃ q, q = X.reducedPressure m kInf k0 eff T (fun _ => 1) := ⟨_, rfl⟩
        refine ⟨10 / (|q| + 1), by positivity, fun c hc hcd eff' kInf' k0' t' a' b' => ?_⟩
        rw [a] at a'
        rw [b] at b'
        cases a'
        cases b'
        rw [lin, ← hq]
        rw [le_div_iff₀ (by positivity)] at hcd
        nlinarith [le_abs_self q]
      · push Not at hx
        exact ⟨1, one_pos, fun c _ _ eff kInf k0 t a b => absurd b (hx eff kInf k0 t a)⟩
    refine ⟨min c0 d, lt_min hc0 hd, fun c hc hcd n hn => ?_⟩
    rcases List.mem_cons.1 hn with rfl | hn
    · exact hm c hc (hcd.trans (min_le_right _ _))
    · exact h0 c hc (hcd.trans (min_le_left _ _)) n hn

end DLB
