import Verif.Lemmas.RateLaws
/-
The blocks of falloff reactions in get_rxn_pres_mod, compared with chem.cti.
-/
set_option autoImplicit false
set_option linter.unusedSectionVars false

namespace DLB

/-- A literal with a sign. -/
def CExpr.slit : CExpr → Option SDec
  | .num m e => some ((m : Int), e)
  | .neg (.num m e) => some (-(m : Int), e)
  | _ => none

theorem slit_sound (τ : CLoc → ℝ) {e : CExpr} {d : SDec} (h : e.slit = some d) : e.evalT τ = SDec.val d := by
  unfold CExpr.slit at h
  split at h
  · cases h
    simp [CExpr.evalT, sci_eq, SDec.val]
  · cases h
    simp [CExpr.evalT, sci_eq, SDec.val, neg_div]
  · cases h

/-- Equality of decimal numbers. -/
def sameDec (a b : SDec) : Bool := decide (a.1 * 10 ^ b.2 = b.1 * 10 ^ a.2)

theorem sameDec_sound {a b : SDec} (h : sameDec a b = true) : (SDec.val a : ℝ) = SDec.val b := by
  simp only [sameDec, decide_eq_true_eq] at h
  unfold SDec.val
  rw [div_eq_div_iff (by positivity) (by positivity)]
  exact_mod_cast h

/-- `a * exp(-T / t)` -/
def centreTerm (a t : SDec) : CExpr → Bool
  | .mul x (.exp (.div (.neg (.rd (.var .T))) y)) => (match x.slit with
      | some d => sameDec d a
      | none => false) && (match y.slit with
      | some d => sameDec d t
      | none => false)
  | _ => false

theorem centreTerm_sound (τ : CLoc → ℝ) {a t : SDec} {e : CExpr} (h : centreTerm a t e = true) :
    e.evalT τ = SDec.val a * Real.exp (-(τ (.var .T) / SDec.val t)) := by
  unfold centreTerm at h
  split at h
  · rename_i x y
    simp only [Bool.and_eq_true] at h
    obtain ⟨h1, h2⟩ := h
    split at h1
    · rename_i d hd
      split at h2
      · rename_i d' hd'
        rw [CExpr.evalT, slit_sound τ hd, sameDec_sound h1]
        simp only [CExpr.evalT, slit_sound τ hd', sameDec_sound h2, neg_div]
        rfl
      · exact absurd h2 (by simp)
    · exact absurd h1 (by simp)
  · exact absurd h (by simp)

/-- `exp(-t / T)` -/
def centreLast (t : SDec) : CExpr → Bool
  | .exp (.div x (.rd (.var .T))) => match x.slit with
      | some d => sameDec (-d.1, d.2) t
      | none => false
  | _ => false

theorem centreLast_sound (τ : CLoc → ℝ) {t : SDec} {e : CExpr} (h : centreLast t e = true) :
    e.evalT τ = Real.exp (-(SDec.val t / τ (.var .T))) := by
  unfold centreLast at h
  split at h
  · rename_i x
    split at h
    · rename_i d hd
      have : (SDec.val t : ℝ) = - SDec.val d := by
        rw [← sameDec_sound h]
        simp [SDec.val, neg_div]
      simp only [CExpr.evalT, slit_sound τ hd, this, neg_div, neg_neg]
      rfl
    · exact absurd h (by simp)
  · exact absurd h (by simp)

/-- `1 - a` -/
def SDec.oneSub (a : SDec) : SDec := (10 ^ a.2 - a.1, a.2)

theorem oneSub_val (a : SDec) : (SDec.val a.oneSub : ℝ) = 1 - SDec.val a := by
  unfold SDec.val SDec.oneSub
  push_cast
  field_simp

/-- The expression is the broadening at the centre. -/
def centreOk (t : Troe) (e : CExpr) : Bool := match t.T2, e with
  | some d, .add (.add x y) z => centreTerm t.A.oneSub t.T3 x && centreTerm t.A t.T1 y && centreLast d z
  | none, .add x y => centreTerm t.A.oneSub t.T3 x && centreTerm t.A t.T1 y
  | _, _ => false

theorem centreOk_sound (τ : CLoc → ℝ) {t : Troe} {e : CExpr} (h : centreOk t e = true) : e.evalT τ = t.centre (τ (.var .T)) := by
  unfold centreOk at h
  split at h
  · rename_i d x y z hd
    simp only [Bool.and_eq_true] at h
    simp only [CExpr.evalT, Troe.centre, hd, centreTerm_sound τ h.1.1, centreTerm_sound τ h.1.2, centreLast_sound τ h.2, oneSub_val]
  · rename_i x y hd
    simp only [Bool.and_eq_true] at h
    simp only [CExpr.evalT, Troe.centre, hd, centreTerm_sound τ h.1, centreTerm_sound τ h.2, oneSub_val, add_zero]
  · exact absurd h (by simp)

/-- The centre is not tiny. -/
def centreBig (t : Troe) : Bool :=
  (decide (t.A.1 ≤ 10 ^ t.A.2) && decide (10 ^ t.A.2 ≤ 1000 * t.A.1) && decide (250 * 10 ^ t.T1.2 ≤ t.T1.1)) ||
  (decide (10 ^ t.A.2 ≤ t.A.1) && decide (1000 * t.A.1 ≤ 1999 * 10 ^ t.A.2) && decide (0 < t.T3.1) && match t.T2 with
    | some d => decide (d.1 ≤ 0)
    | none => false)

theorem centreBig_sound {t : Troe} (h : centreBig t = true) (T : ℝ) (hT : 0 < T) (hT' : T ≤ 10 ^ 5) :
    1 / 10 ^ 300 ≤ t.centre T := by
  have hlast : 0 ≤ (match t.T2 with
    | some d => Real.exp (-(SDec.val d / T))
    | none => 0) := by
    split
    · exact (Real.exp_pos _).le
    · exact le_refl _
  have hv : ∀ d : SDec, (0 : ℝ) < 10 ^ d.2 := fun d => by positivity
  simp only [centreBig, Bool.or_eq_true, Bool.and_eq_true, decide_eq_true_eq] at h
  rcases h with ⟨⟨h1, h2⟩, h3⟩ | ⟨⟨⟨h1, h2⟩, h3⟩, h4⟩
  · have a1 : (SDec.val t.A : ℝ) ≤ 1 := by
      unfold SDec.val
      rw [div_le_one (hv _)]
      exact_mod_cast h1
    have a2 : (1 : ℝ) / 1000 ≤ SDec.val t.A := by
      unfold SDec.val
      rw [div_le_div_iff₀ (by norm_num) (hv _)]
      have : ((10 ^ t.A.2 : Int) : ℝ) ≤ ((1000 * t.A.1 : Int) : ℝ) := by exact_mod_cast h2
      push_cast at this
      linarith
    have a3 : (250 : ℝ) ≤ SDec.val t.T1 := by
      unfold SDec.val
      rw [le_div_iff₀ (hv _)]
      exact_mod_cast h3
    have e1 : (1 : ℝ) / 10 ^ 297 ≤ Real.exp (-(T / SDec.val t.T1)) := by
      have : T / SDec.val t.T1 ≤ 400 := by
        rw [div_le_iff₀ (by linarith)]
        nlinarith
      rw [Real.exp_neg, one_div]
      refine inv_anti₀ (Real.exp_pos _) ?_
      have e : Real.exp (T / SDec.val t.T1) ≤ Real.exp 400 := Real.exp_le_exp.2 this
      refine e.trans ?_
      have : Real.exp 400 = Real.exp 1 ^ 400 := by rw [← Real.exp_nat_mul]; norm_num
      rw [this]
      have h3 : Real.exp 1 ^ 400 ≤ (3 : ℝ) ^ 400 := pow_le_pow_left₀ (Real.exp_pos _).le (Real.exp_one_lt_d9.le.trans (by norm_num)) _
      refine h3.trans ?_
      have h4 : (3 : ℝ) ^ 400 = 9 ^ 200 := by
        rw [show 400 = 2 * 200 from rfl, pow_mul]
        norm_num
      rw [h4]
      have h5 : (9 : ℝ) ^ 200 ≤ 10 ^ 200 := pow_le_pow_left₀ (by norm_num) (by norm_num) _
      exact h5.trans (pow_le_pow_right₀ (by norm_num) (by norm_num))
    unfold Troe.centre
    have b1 : 0 ≤ (1 - SDec.val t.A) * Real.exp (-(T / SDec.val t.T3)) :=
      mul_nonneg (by linarith) (Real.exp_pos _).le
    have b2 : (1 : ℝ) / 1000 * (1 / 10 ^ 297) ≤ SDec.val t.A * Real.exp (-(T / SDec.val t.T1)) :=
      mul_le_mul a2 e1 (by positivity) (by linarith)
    have b3 : (1 : ℝ) / 10 ^ 300 = 1 / 1000 * (1 / 10 ^ 297) := by
      rw [show 300 = 3 + 297 from rfl, pow_add, one_div_mul_one_div]
      norm_num
    rw [b3]
    refine b2.trans ?_
    have b4 : ∀ x y z : ℝ, 0 ≤ x → 0 ≤ z → y ≤ x + y + z := fun x y z hx hz => by linarith
    exact b4 _ _ _ b1 hlast
  · split at h4
    · rename_i d hd
      simp only [decide_eq_true_eq] at h4
      have a1 : (1 : ℝ) ≤ SDec.val t.A := by
        unfold SDec.val
        rw [one_le_div (hv _)]
        exact_mod_cast h1
      have a2 : (SDec.val t.A : ℝ) ≤ 1999 / 1000 := by
        unfold SDec.val
        rw [div_le_div_iff₀ (hv _) (by norm_num)]
        have : ((1000 * t.A.1 : Int) : ℝ) ≤ ((1999 * 10 ^ t.A.2 : Int) : ℝ) := by exact_mod_cast h2
        push_cast at this
        linarith
      have a3 : (0 : ℝ) < SDec.val t.T3 := div_pos (by exact_mod_cast h3) (hv _)
      have a4 : (SDec.val d : ℝ) ≤ 0 := div_nonpos_of_nonpos_of_nonneg (by exact_mod_cast h4) (hv _).le
      have e1 : Real.exp (-(T / SDec.val t.T3)) ≤ 1 := by
        rw [Real.exp_le_one_iff]
        have := div_pos hT a3
        linarith
      have e2 : 1 ≤ Real.exp (-(SDec.val d / T)) := by
        rw [Real.one_le_exp_iff]
        have := div_nonpos_of_nonpos_of_nonneg a4 hT.le
        linarith
      unfold Troe.centre
      rw [hd]
      dsimp only
      have b2 : 0 ≤ SDec.val t.A * Real.exp (-(T / SDec.val t.T1)) := mul_nonneg (by linarith) (Real.exp_pos _).le
      have b1 : (1 - SDec.val t.A) * 1 ≤ (1 - SDec.val t.A) * Real.exp (-(T / SDec.val t.T3)) :=
        mul_le_mul_of_nonpos_left e1 (by linarith)
      have b3 : (1 : ℝ) / 10 ^ 300 ≤ 1 / 1000 := by
        refine one_div_le_one_div_of_le (by norm_num) ?_
        have h3 : (10 : ℝ) ^ 3 ≤ 10 ^ 300 := pow_le_pow_right₀ (by norm_num) (by norm_num)
        exact le_trans (by norm_num) h3
      refine b3.trans ?_
      linarith
    · exact absurd h4 (by simp)

/-- `Pr = k0 * thd / kinf` -/
def setPr : CStmt := .set (.var .Pr) (.div (.mul (.rd (.var .k0)) (.rd (.var .thd))) (.rd (.var .kinf)))

/-- The end of the block of a reaction without broadening. -/
def lindemannTail (p : Nat) : List CStmt := [setPr,
  .set (.arr .presMod p) (.div (.rd (.var .Pr)) (.add (.num 1 0) (.rd (.var .Pr))))]

/-- The end of the block of a reaction with Troe's broadening. -/
def troeTail (c : CExpr) (p : Nat) : List CStmt := [setPr,
  .set (.var .logFcent) (.log10 (.fmax c (.num 1 300))),
  .set (.var .A) (.sub (.sub (.log10 (.fmax (.rd (.var .Pr)) (.num 1 300))) (.mul (.num 67 2) (.rd (.var .logFcent)))) (.num 4 1)),
  .set (.var .B) (.sub (.sub (.num 806 3) (.mul (.num 11762 4) (.rd (.var .logFcent))))
    (.mul (.num 14 2) (.log10 (.fmax (.rd (.var .Pr)) (.num 1 300))))),
  .set (.arr .presMod p) (.div (.mul (.pow (.num 10 0) (.div (.rd (.var .logFcent)) (.add (.num 1 0)
    (.div (.mul (.rd (.var .A)) (.rd (.var .A))) (.mul (.rd (.var .B)) (.rd (.var .B))))))) (.rd (.var .Pr)))
    (.add (.num 1 0) (.rd (.var .Pr))))]

/-- The end of the block. -/
def tailOk (p : Nat) (troe : Option Troe) (rest : List CStmt) : Bool := match troe with
  | none => decide (rest = lindemannTail p)
  | some t => match rest with
    | [_, .set (.var .logFcent) (.log10 (.fmax c (.num 1 300))), _, _, _] =>
      centreBig t && centreOk t c && decide (rest = troeTail c p)
    | _ => false

/-- Recognise `m + c * C[i] + ... - c * C[j]`. -/
def CExpr.lin? : CExpr → Option (List CTerm)
  | .rd (.var .m) => some []
  | .add a (.mul (.num m e) (.rd (.arr .C i))) => do return (← a.lin?) ++ [⟨false, m, e, i⟩]
  | .sub a (.mul (.num m e) (.rd (.arr .C i))) => do return (← a.lin?) ++ [⟨true, m, e, i⟩]
  | _ => none

/-- The block of a falloff reaction is as chem.cti says. -/
def falloffOk (nsp : Nat) (r : Reaction) (p : Nat) (eff : List (Nat × Nat × Nat)) (kInf k0 : Arrhenius) (troe : Option Troe) :
    List CStmt → Bool
  | .set (.var .thd) x :: .set (.var .k0) e0 :: .set (.var .kinf) e1 :: rest =>
    (match x.lin? with
      | some cs => effMatches nsp cs eff
      | none => false) &&
    (match e0.rate, e1.rate with
      | some v0, some v1 => arrheniusOk k0 (r.reactants.length + 1) v0 && arrheniusOk kInf r.reactants.length v1
      | _, _ => false) && tailOk p troe rest
  | _ => false

/-- The broadening of a law. -/
noncomputable def broadening (troe : Option Troe) (T Pr : ℝ) : ℝ := match troe with
  | none => 1
  | some t => Troe.factor (t.centre T) (max Pr (1 / 10 ^ 300))

theorem tailOk_sound {p : Nat} {troe : Option Troe} {rest : List CStmt} (h : tailOk p troe rest = true) (τ : CLoc → ℝ)
    (hT : 0 < τ (.var .T)) (hT' : τ (.var .T) ≤ 10 ^ 5) (Pr : ℝ) (hPr : Pr = τ (.var .k0) * τ (.var .thd) / τ (.var .kinf)) :
    execT rest τ (.arr .presMod p) = broadening troe (τ (.var .T)) Pr * Pr / (1 + Pr) := by
  subst hPr
  unfold tailOk at h
  split at h
  · simp only [decide_eq_true_eq] at h
    subst h
    simp [lindemannTail, setPr, execT, CStmt.execT, setT, CExpr.evalT, sci_eq, broadening]
  · rename_i t
    split at h
    · rename_i s1 c s2 s3 s4
      simp only [Bool.and_eq_true, decide_eq_true_eq] at h
      obtain ⟨⟨hb, hc⟩, he⟩ := h
      rw [he]
      have hcT : ∀ τ' : CLoc → ℝ, τ' (.var .T) = τ (.var .T) → c.evalT τ' = t.centre (τ (.var .T)) :=
        fun τ' h' => by rw [centreOk_sound τ' hc, h']
      have hbig := centreBig_sound hb _ hT hT'
      simp only [troeTail, setPr, execT, CStmt.execT]
      rw [setT]
      simp only [if_true]
      have e300 : ((1 : Nat) : ℝ) / 10 ^ 300 = 1 / 10 ^ 300 := by norm_num
      simp only [CExpr.evalT, sci_eq, setT, broadening, if_true, reduceCtorEq, if_false, CLoc.var.injEq]
      rw [hcT]
      · have hm : CMath.fmax (t.centre (τ (.var .T))) (((1 : Nat) : ℝ) / 10 ^ 300) = t.centre (τ (.var .T)) := by
          rw [e300]
          exact max_eq_left hbig
        have hl : ∀ x : ℝ, CMath.log10 x = lg x := fun _ => rfl
        have hf : ∀ x y : ℝ, CMath.fmax x y = max x y := fun _ _ => rfl
        have hp : ∀ x y : ℝ, CMath.pow x y = x ^ y := fun _ _ => rfl
        rw [hm]
        simp only [hl, hf, hp, e300, Troe.factor]
        generalize τ (.var .k0) * τ (.var .thd) / τ (.var .kinf) = P
        generalize lg (max P (1 / 10 ^ 300)) = l
        generalize lg (t.centre (τ (.var .T))) = f
        have e1 : ((10 : Nat) : ℝ) / 10 ^ 0 = 10 := by norm_num
        have e2 : ((1 : Nat) : ℝ) / 10 ^ 0 = 1 := by norm_num
        rw [e1, e2]
        have e3 : l - ((67 : Nat) : ℝ) / 10 ^ 2 * f - ((4 : Nat) : ℝ) / 10 ^ 1 = l + (-(4 / 10) - 67 / 100 * f) := by
          push_cast; ring
        have e4 : ((806 : Nat) : ℝ) / 10 ^ 3 - ((11762 : Nat) : ℝ) / 10 ^ 4 * f - ((14 : Nat) : ℝ) / 10 ^ 2 * l =
            75 / 100 - 127 / 100 * f - 14 / 100 * (l + (-(4 / 10) - 67 / 100 * f)) := by
          push_cast; ring
        rw [e3, e4, div_pow, sq, sq]
      · simp [setT]
    · exact absurd h (by simp)

theorem third_sound (τ : CLoc → ℝ) (e : CExpr) : ∀ cs, e.lin? = some cs →
    e.evalT τ = linVal (τ (.var .m)) cs fun i => τ (.arr .C i) := by
  have hone : ∀ a b : CExpr, ∀ n : Bool, (∀ cs, a.lin? = some cs → a.evalT τ = linVal (τ (.var .m)) cs fun i => τ (.arr .C i)) →
      ∀ m e i cs, b = .mul (.num m e) (.rd (.arr .C i)) → (do return (← a.lin?) ++ [CTerm.mk n m e i]) = some cs →
      (if n then a.evalT τ - b.evalT τ else a.evalT τ + b.evalT τ) = linVal (τ (.var .m)) cs fun i => τ (.arr .C i) := by
    intro a b n ih m e i cs hb h
    subst hb
    cases ha : a.lin? with
    | none => simp [ha] at h
    | some l =>
      simp [ha] at h
      subst h
      rw [ih l ha]
      cases n <;> simp [linVal, CTerm.val, CExpr.evalT, sci_eq] <;> ring
  induction e with
  | rd l =>
    intro cs h
    unfold CExpr.lin? at h
    split at h <;> simp_all
    subst h
    simp [CExpr.evalT, linVal]
  | add a b iha ihb =>
    intro cs h
    have hb : ∃ m e i, b = .mul (.num m e) (.rd (.arr .C i)) := by
      unfold CExpr.lin? at h
      split at h <;> simp_all
    obtain ⟨m, e, i, rfl⟩ := hb
    have := hone a _ false iha m e i cs rfl h
    simpa [CExpr.evalT] using this
  | sub a b iha ihb =>
    intro cs h
    have hb : ∃ m e i, b = .mul (.num m e) (.rd (.arr .C i)) := by
      unfold CExpr.lin? at h
      split at h <;> simp_all
    obtain ⟨m, e, i, rfl⟩ := hb
    have := hone a _ true iha m e i cs rfl h
    simpa [CExpr.evalT] using this
  | num | neg | mul | div | exp | log | log10 | pow | fmax => intro cs h; simp [CExpr.lin?] at h

/-- The block of a falloff reaction computes `F Pr / (1 + Pr)`. -/
theorem falloffOk_sound {nsp : Nat} {r : Reaction} {p : Nat} {eff : List (Nat × Nat × Nat)} {kInf k0 : Arrhenius} {troe : Option Troe}
    {b : List CStmt} (h : falloffOk nsp r p eff kInf k0 troe b = true) (T : ℝ) (hT : 0 < T) (hT' : T ≤ 10 ^ 5) :
    ∃ η : ℝ, |η| ≤ (2 + (|k0.temperature| + |kInf.temperature|) / T) / 10 ^ 14 ∧ ∀ (τ : CLoc → ℝ) (Pr : ℝ),
      τ (.var .T) = T → τ (.var .logT) = Real.log T → τ (.var .m) = ∑ i ∈ Finset.range nsp, τ (.arr .C i) →
      Pr = k0.coefficient (r.reactants.length + 1) T * thirdBody nsp eff (fun i => τ (.arr .C i)) /
        kInf.coefficient r.reactants.length T * Real.exp η →
      execT b τ (.arr .presMod p) = broadening troe T Pr * Pr / (1 + Pr) := by
  unfold falloffOk at h
  split at h
  · rename_i x e0 e1 rest
    simp only [Bool.and_eq_true] at h
    obtain ⟨⟨h1, h2⟩, h3⟩ := h
    split at h1
    · rename_i cs hcs
      split at h2
      · rename_i v0 v1 hv0 hv1
        simp only [Bool.and_eq_true] at h2
        obtain ⟨p0, η0, b0, q0⟩ := arrheniusOk_sound h2.1 T hT
        obtain ⟨p1, η1, b1, q1⟩ := arrheniusOk_sound h2.2 T hT
        refine ⟨η0 - η1, ?_, ?_⟩
        · have := abs_sub η0 η1
          have e : (2 + (|k0.temperature| + |kInf.temperature|) / T) / 10 ^ 14 =
            (1 + |k0.temperature| / T) / 10 ^ 14 + (1 + |kInf.temperature| / T) / 10 ^ 14 := by ring
          rw [e]
          linarith
        · intro τ Pr hτT hτL hm hPr
          have hx : x.evalT τ = thirdBody nsp eff (fun i => τ (.arr .C i)) := by
            rw [third_sound τ x cs hcs]
            exact effMatches_sound h1 _ hm
          rw [execT, execT, execT]
          simp only [CStmt.execT]
          obtain ⟨τ', hτ'⟩ : ∃ τ', τ' = setT (setT (setT τ (.var .thd) (x.evalT τ)) (.var .k0)
            (e0.evalT (setT τ (.var .thd) (x.evalT τ)))) (.var .kinf)
            (e1.evalT (setT (setT τ (.var .thd) (x.evalT τ)) (.var .k0) (e0.evalT (setT τ (.var .thd) (x.evalT τ))))) := ⟨_, rfl⟩
          rw [← hτ']
          have t1 : τ' (.var .T) = T := by rw [hτ']; simpa [setT] using hτT
          have t2 : τ' (.var .thd) = thirdBody nsp eff (fun i => τ (.arr .C i)) := by rw [hτ', ← hx]; simp [setT]
          have t3 : τ' (.var .k0) = k0.coefficient (r.reactants.length + 1) T * Real.exp η0 := by
            rw [hτ', ← q0]
            simp only [setT, reduceCtorEq, CLoc.var.injEq, if_false, if_true]
            rw [rate_sound _ hv0]
            simp [setT, hτT, hτL]
          have t4 : τ' (.var .kinf) = kInf.coefficient r.reactants.length T * Real.exp η1 := by
            rw [hτ', ← q1]
            simp only [setT, reduceCtorEq, CLoc.var.injEq, if_false, if_true]
            rw [rate_sound _ hv1]
            simp [setT, hτT, hτL]
          rw [tailOk_sound h3 τ' (by rw [t1]; exact hT) (by rw [t1]; exact hT') Pr ?_, t1]
          rw [t2, t3, t4, hPr, Real.exp_sub]
          have := Real.exp_pos η1
          field_simp
      · exact absurd h2 (by simp)
    · exact absurd h1 (by simp)
  · exact absurd h (by simp)

end DLB
