import Verif.Lemmas.JacobTroe
/-
The parts of `eval_jacob` that go through the reactions: what each reaction adds to `jac`.
-/
set_option autoImplicit false
set_option linter.unusedSectionVars false

namespace DLB

/-- `conc_temp` holds the value of the expression last assigned to it, which reads inputs only. -/
def Conc (cst : Option CExpr) (τ : CLoc → ℝ) : Prop := ∀ c, cst = some c → c.reads CLoc.base = true ∧ τ (.var .concTemp) = c.evalT τ

theorem Conc.congr {cst : Option CExpr} {τ τ' : CLoc → ℝ} (h : Conc cst τ) (he : ∀ l, CLoc.base l = true → τ' l = τ l)
    (hc : τ' (.var .concTemp) = τ (.var .concTemp)) : Conc cst τ' := by
  intro c hcs
  refine ⟨(h c hcs).1, ?_⟩
  rw [hc, (h c hcs).2]
  exact evalT_congr CLoc.base τ τ' (fun l hl => (he l hl).symm) c (h c hcs).1

/-- Reduced pressure and centre as computed. -/
def TroeVals (nsp : Nat) (n : Numbered) (eff : List (Nat × Nat × Nat)) (kInf k0 : Arrhenius) (t : Troe) (v : JacobVals ℝ) (Pr Fc : ℝ) : Prop :=
  0 < kInf.coefficient n.r.reactants.length v.T ∧ 0 < k0.coefficient (n.r.reactants.length + 1) v.T ∧
  (∃ η : ℝ, |η| ≤ (1 + (|k0.temperature| + |kInf.temperature|) / v.T) / 10 ^ 14 ∧
    Pr = k0.coefficient (n.r.reactants.length + 1) v.T * thirdBody nsp eff v.C / kInf.coefficient n.r.reactants.length v.T * Real.exp η) ∧
  FcVal t v.T Fc

/-- What is left in memory by the statements of a falloff reaction. -/
def TroeMem (D : Package) (n : Numbered) (v : JacobVals ℝ) (τ : CLoc → ℝ) : Prop :=
  ∀ eff kInf k0 t, n.r.kind = .falloff eff → D.law n.k = .falloff kInf k0 (some t) →
    TroeVals D.nsp n eff kInf k0 t v (τ (.var .Pr)) (τ (.var .Fcent)) ∧
    τ (.var .A) = troeA (τ (.var .Pr)) (τ (.var .Fcent)) ∧ τ (.var .B) = troeB (τ (.var .Pr)) (τ (.var .Fcent))

/-- The slope of `ln Pr`, times `T`. -/
noncomputable def prSlope (k0 kInf : Arrhenius) (T : ℝ) : ℝ :=
  SDec.val k0.b - SDec.val kInf.b - 1 + (k0.temperature - kInf.temperature) / T

/-- The temperature derivative of the rate of progress of a falloff reaction, over the density, as computed. -/
def TTroe (nsp : Nat) (n : Numbered) (eff : List (Nat × Nat × Nat)) (kInf k0 : Arrhenius) (t : Troe) (v : JacobVals ℝ) (x : ℝ) : Prop :=
  ∃ Pr Fc S1 FP S2 lin : ℝ, TroeVals nsp n eff kInf k0 t v Pr Fc ∧ FpVal t v.T FP ∧
    |S1 - prSlope k0 kInf v.T| ≤ (1 + (|k0.temperature| + |kInf.temperature|) / v.T) / 10 ^ 14 ∧
    |S2 - prSlope k0 kInf v.T| ≤ (1 + (|k0.temperature| + |kInf.temperature|) / v.T) / 10 ^ 14 ∧
    TLin kInf n nsp 0 v lin ∧
    x = v.P n.p * troeX v.T Pr Fc (troeA Pr Fc) (troeB Pr Fc) (troeL Fc (troeA Pr Fc) (troeB Pr Fc)) S1 FP S2 * (v.F n.k - v.Rv n) *
      (1 / v.rho) + lin

/-- The same for a falloff reaction without Troe's parameters. -/
def TLind (nsp : Nat) (n : Numbered) (eff : List (Nat × Nat × Nat)) (kInf k0 : Arrhenius) (v : JacobVals ℝ) (x : ℝ) : Prop :=
  0 < kInf.coefficient n.r.reactants.length v.T ∧ 0 < k0.coefficient (n.r.reactants.length + 1) v.T ∧
  ∃ Pr S1 lin η : ℝ, |η| ≤ (1 + (|k0.temperature| + |kInf.temperature|) / v.T) / 10 ^ 14 ∧
    Pr = k0.coefficient (n.r.reactants.length + 1) v.T * thirdBody nsp eff v.C / kInf.coefficient n.r.reactants.length v.T * Real.exp η ∧
    |S1 - prSlope k0 kInf v.T| ≤ (1 + (|k0.temperature| + |kInf.temperature|) / v.T) / 10 ^ 14 ∧
    TLin kInf n nsp 0 v lin ∧
    x = v.P n.p * (S1 / (v.T * (1 + Pr))) * (v.F n.k - v.Rv n) * (1 / v.rho) + lin

/-- The temperature derivative of the rate of progress of a reaction, over the density, as computed. -/
def TVal (D : Package) (n : Numbered) (v : JacobVals ℝ) (x : ℝ) : Prop := match n.r.kind, D.law n.k with
  | .elementary, law => TLin law.high n D.nsp 0 v x
  | .thirdBody _, law => TLin law.high n D.nsp (-1) v x
  | .falloff eff, .falloff kInf k0 (some t) => TTroe D.nsp n eff kInf k0 t v x
  | .falloff eff, .falloff kInf k0 none => TLind D.nsp n eff kInf k0 v x
  | .falloff _, _ => False

/-- Replace `conc_temp` by an expression. -/
def substConc (c : CExpr) : CExpr → CExpr
  | .rd (.var .concTemp) => c
  | .add a b => .add (substConc c a) (substConc c b)
  | .sub a b => .sub (substConc c a) (substConc c b)
  | e => e

theorem substConc_sound (c : CExpr) (τ : CLoc → ℝ) (h : τ (.var .concTemp) = c.evalT τ) (e : CExpr) :
    (substConc c e).evalT τ = e.evalT τ := by
  induction e with
  | rd l =>
    unfold substConc
    split
    · rename_i heq
      cases heq
      rw [CExpr.evalT, h]
    · rename_i heq; cases heq
    · rename_i heq; cases heq
    · rfl
  | add a b iha ihb => rw [substConc, CExpr.evalT, CExpr.evalT, iha, ihb]
  | sub a b iha ihb => rw [substConc, CExpr.evalT, CExpr.evalT, iha, ihb]
  | _ => rfl

/-- Take an assignment to `conc_temp`. -/
def takeConc (cst : Option CExpr) : List CStmt → Option CExpr × List CStmt
  | .set (.var .concTemp) e :: rest => match cst with
    | some c => (some (substConc c e), rest)
    | none => (some e, rest)
  | ls => (cst, ls)

/-- The coefficients of several terms. -/
def decCoefs (f : Nat → SDec) : List Nat → List SDec → Bool
  | [], cs => cs.isEmpty
  | s :: l, cs => match cs with
    | [] => false
    | c :: cs => sameDec c (f s) && decCoefs f l cs

theorem decCoefs_sound (τ : CLoc → ℝ) (f : Nat → SDec) (K : Nat → NKey) (l : List Nat) (cs : List SDec) (h : decCoefs f l cs = true) :
    pairVal τ (l.map K) cs = (l.map fun s => SDec.val (f s) * keyVal τ (K s)).sum := by
  induction l generalizing cs with
  | nil => simp [pairVal]
  | cons s l ih =>
    cases cs with
    | nil => exact absurd h (by simp [decCoefs])
    | cons c cs =>
      simp only [decCoefs, Bool.and_eq_true] at h
      rw [List.map_cons, pairVal, ih cs h.2, sameDec_sound h.1]
      simp

/-- Efficiency minus one. -/
def effMinus (eff : List (Nat × Nat × Nat)) (i : Nat) : SDec := (((effDec eff i).1 : Int) - 10 ^ (effDec eff i).2, (effDec eff i).2)

/-- The expression is the concentration of third bodies. -/
def thirdOk (nsp : Nat) (eff : List (Nat × Nat × Nat)) (c : CExpr) : Bool := c.reads CLoc.base &&
  match c.coefs (([(CLoc.var .m).code], []) :: (List.range nsp).map fun i => ([(CLoc.arr .C i).code], [])) with
  | some (d :: cs) => sameDec d (1, 0) && decCoefs (effMinus eff) (List.range nsp) cs
  | _ => false

theorem thirdOk_sound {nsp : Nat} {eff : List (Nat × Nat × Nat)} {c : CExpr} (h : thirdOk nsp eff c = true) {v : JacobVals ℝ} {τ : CLoc → ℝ}
    (hb : Base v τ) (hm : v.m = ∑ i ∈ Finset.range nsp, v.C i) : c.evalT τ = thirdBody nsp eff v.C := by
  simp only [thirdOk, Bool.and_eq_true] at h
  have h2 := h.2
  split at h2
  · rename_i d cs hcs
    simp only [Bool.and_eq_true] at h2
    rw [coefs_sound τ hcs, pairVal, decCoefs_sound τ _ _ _ _ h2.2, sameDec_sound h2.1]
    simp only [keyVal, codesVal_cons, codesVal_nil, hb.m, hb.C, hm, mul_one, div_one]
    rw [sum_range_list]
    unfold thirdBody
    have e1 : (SDec.val ((1 : Int), 0) : ℝ) = 1 := by simp [SDec.val]
    rw [e1, one_mul, ← Finset.sum_add_distrib]
    refine Finset.sum_congr rfl fun i _ => ?_
    have e2 : (SDec.val (effMinus eff i) : ℝ) = efficiency eff i - 1 := by
      unfold effMinus SDec.val efficiency
      push_cast
      field_simp
    rw [e2]
    ring
  · exact absurd h2 (by simp)

/-- The statements before the rows of a falloff reaction. -/
def troeLocalsOk (nsp : Nat) (n : Numbered) (eff : List (Nat × Nat × Nat)) (kInf k0 : Arrhenius) (t : Troe) (c : CExpr) :
    List CStmt → Bool
  | [.set (.var .Pr) (.mul (.rd (.var .concTemp)) (.exp x)), .set (.var .Fcent) f, sa, sb, sl,
      .set (.var .jTemp) (.mul (.add (.mul (.mul p (.sub (.add (.div S1 d1) (.mul q FP)) (.div (.mul u S2) d2))) fr) rest) ri)] =>
    n.r.reversible && thirdOk nsp eff c && ratioOk k0 kInf n.r.reactants.length x && fcOk t f && decide (sa = JTroe.setA) && decide (sb = JTroe.setB) &&
    decide (sl = JTroe.setL) && slopeOk k0 kInf S1 && slopeOk k0 kInf S2 && fpOk t FP &&
    tLinOk kInf n nsp 0 (.mul rest (.rd (.var .rhoInv))) &&
    decide (CExpr.mul (.add (.mul (.mul p (.sub (.add (.div S1 d1) (.mul q FP)) (.div (.mul u S2) d2))) fr) rest) ri =
      JTroe.jT n S1 FP S2 rest)
  | _ => false

/-- The same for a falloff reaction without Troe's parameters. -/
def lindLocalsOk (nsp : Nat) (n : Numbered) (eff : List (Nat × Nat × Nat)) (kInf k0 : Arrhenius) (c : CExpr) : List CStmt → Bool
  | [.set (.var .Pr) (.mul (.rd (.var .concTemp)) (.exp x)), .set (.var .jTemp) (.mul (.add (.mul (.mul p (.div S1 d1)) fr) rest) ri)] =>
    n.r.reversible && thirdOk nsp eff c && ratioOk k0 kInf n.r.reactants.length x && slopeOk k0 kInf S1 &&
    tLinOk kInf n nsp 0 (.mul rest (.rd (.var .rhoInv))) &&
    decide (CExpr.mul (.add (.mul (.mul p (.div S1 d1)) fr) rest) ri = JTroe.jL n S1 rest)
  | _ => false

/-- The statements before the rows of the temperature derivative of a reaction. -/
def tLocalsOk (D : Package) (n : Numbered) (cst : Option CExpr) (ls : List CStmt) : Option (Option CExpr) := match n.r.kind, D.law n.k with
  | .elementary, law => match ls with
    | [.set (.var .jTemp) e] => if tLinOk law.high n D.nsp 0 e then some cst else none
    | _ => none
  | .thirdBody _, law => match ls with
    | [.set (.var .jTemp) e] => if tLinOk law.high n D.nsp (-1) e then some cst else none
    | _ => none
  | .falloff eff, .falloff kInf k0 (some t) => match takeConc cst ls with
    | (some c, rest) => if troeLocalsOk D.nsp n eff kInf k0 t c rest then some (some c) else none
    | _ => none
  | .falloff eff, .falloff kInf k0 none => match takeConc cst ls with
    | (some c, rest) => if lindLocalsOk D.nsp n eff kInf k0 c rest then some (some c) else none
    | _ => none
  | _, _ => none

theorem fmax_real (x y : ℝ) : CMath.fmax x y = max x y := rfl
theorem log10_real (x : ℝ) : CMath.log10 x = lg x := rfl
theorem log_real (x : ℝ) : CMath.log x = Real.log x := rfl
theorem exp_real (x : ℝ) : CMath.exp x = Real.exp x := rfl

theorem Base.setT {v : JacobVals ℝ} {τ : CLoc → ℝ} (h : Base v τ) {l : CLoc} (hl : CLoc.base l = false) (x : ℝ) :
    Base v (DLB.setT τ l x) := h.congr fun k hk => by
  unfold DLB.setT
  rw [if_neg]
  rintro rfl
  rw [hl] at hk
  exact absurd hk (by simp)

theorem Conc.setT {cst : Option CExpr} {τ : CLoc → ℝ} (h : Conc cst τ) {l : CLoc} (hl : CLoc.base l = false) (hl' : l ≠ .var .concTemp) (x : ℝ) :
    Conc cst (DLB.setT τ l x) := h.congr (fun k hk => by
  unfold DLB.setT
  rw [if_neg]
  rintro rfl
  rw [hl] at hk
  exact absurd hk (by simp)) (by
  unfold DLB.setT
  rw [if_neg hl'.symm])

theorem troeLocals_sound {nsp : Nat} {n : Numbered} {eff : List (Nat × Nat × Nat)} {kInf k0 : Arrhenius} {t : Troe} {c : CExpr}
    {ls : List CStmt} (h : troeLocalsOk nsp n eff kInf k0 t c ls = true) {v : JacobVals ℝ} {τ : CLoc → ℝ} (hb : Base v τ)
    (hc : Conc (some c) τ) (hm : v.m = ∑ i ∈ Finset.range nsp, v.C i) (hT : 0 < v.T) :
    Base v (execT ls τ) ∧ Conc (some c) (execT ls τ) ∧ (∀ l, execT ls τ (.arr .jac l) = τ (.arr .jac l)) ∧
    TTroe nsp n eff kInf k0 t v (execT ls τ (.var .jTemp)) ∧
    TroeVals nsp n eff kInf k0 t v (execT ls τ (.var .Pr)) (execT ls τ (.var .Fcent)) ∧
    execT ls τ (.var .A) = troeA (execT ls τ (.var .Pr)) (execT ls τ (.var .Fcent)) ∧
    execT ls τ (.var .B) = troeB (execT ls τ (.var .Pr)) (execT ls τ (.var .Fcent)) := by
  unfold troeLocalsOk at h
  split at h
  · rename_i x f sa sb sl p S1 d1 q FP u S2 d2 fr rest ri
    simp only [Bool.and_eq_true, decide_eq_true_eq] at h
    obtain ⟨⟨⟨⟨⟨⟨⟨⟨⟨⟨⟨h0, h1⟩, h2⟩, h3⟩, rfl⟩, rfl⟩, rfl⟩, h4⟩, h5⟩, h6⟩, h7⟩, h8⟩ := h
    rw [h8]
    obtain ⟨τ1, e1⟩ : ∃ τ1, τ1 = setT τ (.var .Pr) ((CExpr.mul (.rd (.var .concTemp)) (.exp x)).evalT τ) := ⟨_, rfl⟩
    have b1 : Base v τ1 := e1 ▸ hb.setT rfl _
    have c1 : Conc (some c) τ1 := e1 ▸ hc.setT rfl (by simp) _
    obtain ⟨τ2, e2⟩ : ∃ τ2, τ2 = setT τ1 (.var .Fcent) (f.evalT τ1) := ⟨_, rfl⟩
    have b2 : Base v τ2 := e2 ▸ b1.setT rfl _
    have c2 : Conc (some c) τ2 := e2 ▸ c1.setT rfl (by simp) _
    obtain ⟨τ3, e3⟩ : ∃ τ3, τ3 = CStmt.execT τ2 JTroe.setA := ⟨_, rfl⟩
    have b3 : Base v τ3 := e3 ▸ b2.setT rfl _
    have c3 : Conc (some c) τ3 := e3 ▸ c2.setT rfl (by simp) _
    obtain ⟨τ4, e4⟩ : ∃ τ4, τ4 = CStmt.execT τ3 JTroe.setB := ⟨_, rfl⟩
    have b4 : Base v τ4 := e4 ▸ b3.setT rfl _
    have c4 : Conc (some c) τ4 := e4 ▸ c3.setT rfl (by simp) _
    obtain ⟨τ5, e5⟩ : ∃ τ5, τ5 = CStmt.execT τ4 JTroe.setL := ⟨_, rfl⟩
    have b5 : Base v τ5 := e5 ▸ b4.setT rfl _
    have c5 : Conc (some c) τ5 := e5 ▸ c4.setT rfl (by simp) _
    obtain ⟨τ6, e6⟩ : ∃ τ6, τ6 = setT τ5 (.var .jTemp) ((JTroe.jT n S1 FP S2 rest).evalT τ5) := ⟨_, rfl⟩
    have b6 : Base v τ6 := e6 ▸ b5.setT rfl _
    have c6 : Conc (some c) τ6 := e6 ▸ c5.setT rfl (by simp) _
    have e : execT [.set (.var .Pr) (.mul (.rd (.var .concTemp)) (.exp x)), .set (.var .Fcent) f, JTroe.setA, JTroe.setB, JTroe.setL,
      .set (.var .jTemp) (JTroe.jT n S1 FP S2 rest)] τ = τ6 := by
      rw [e6, e5, e4, e3, e2, e1]
      rfl
    rw [e]
    obtain ⟨Pr, hPr⟩ : ∃ Pr, Pr = (CExpr.mul (.rd (.var .concTemp)) (.exp x)).evalT τ := ⟨_, rfl⟩
    obtain ⟨Fc, hFc⟩ : ∃ Fc, Fc = f.evalT τ1 := ⟨_, rfl⟩
    rw [← hPr] at e1
    rw [← hFc] at e2
    have p1 : τ1 (.var .Pr) = Pr := by rw [e1]; simp [setT]
    have p2 : τ2 (.var .Pr) = Pr := by rw [e2]; simpa [setT] using p1
    have p3 : τ3 (.var .Pr) = Pr := by rw [e3]; simpa [JTroe.setA, CStmt.execT, setT] using p2
    have p4 : τ4 (.var .Pr) = Pr := by rw [e4]; simpa [JTroe.setB, CStmt.execT, setT] using p3
    have p5 : τ5 (.var .Pr) = Pr := by rw [e5]; simpa [JTroe.setL, CStmt.execT, setT] using p4
    have p6 : τ6 (.var .Pr) = Pr := by rw [e6]; simpa [setT] using p5
    have f2 : τ2 (.var .Fcent) = Fc := by rw [e2]; simp [setT]
    have f3 : τ3 (.var .Fcent) = Fc := by rw [e3]; simpa [JTroe.setA, CStmt.execT, setT] using f2
    have f4 : τ4 (.var .Fcent) = Fc := by rw [e4]; simpa [JTroe.setB, CStmt.execT, setT] using f3
    have f5 : τ5 (.var .Fcent) = Fc := by rw [e5]; simpa [JTroe.setL, CStmt.execT, setT] using f4
    have f6 : τ6 (.var .Fcent) = Fc := by rw [e6]; simpa [setT] using f5
    have e300 : ((1 : Nat) : ℝ) / 10 ^ 300 = 1 / 10 ^ 300 := by norm_num
    have a3 : τ3 (.var .A) = troeA Pr Fc := by
      rw [e3]
      simp only [JTroe.setA, JTroe.lgMax, JTroe.Pr, JTroe.Fc, CStmt.execT, setT, if_true, CExpr.evalT, sci_eq, p2, f2, fmax_real, log10_real, e300]
      unfold troeA
      push_cast
      norm_num
    have a4 : τ4 (.var .A) = troeA Pr Fc := by rw [e4]; simpa [JTroe.setB, CStmt.execT, setT] using a3
    have a5 : τ5 (.var .A) = troeA Pr Fc := by rw [e5]; simpa [JTroe.setL, CStmt.execT, setT] using a4
    have a6 : τ6 (.var .A) = troeA Pr Fc := by rw [e6]; simpa [setT] using a5
    have B4 : τ4 (.var .B) = troeB Pr Fc := by
      rw [e4]
      simp only [JTroe.setB, JTroe.lgMax, JTroe.Pr, JTroe.Fc, CStmt.execT, setT, if_true, CExpr.evalT, sci_eq, p3, f3, fmax_real, log10_real, e300]
      unfold troeB
      push_cast
      norm_num
    have B5 : τ5 (.var .B) = troeB Pr Fc := by rw [e5]; simpa [JTroe.setL, CStmt.execT, setT] using B4
    have B6 : τ6 (.var .B) = troeB Pr Fc := by rw [e6]; simpa [setT] using B5
    have L5 : τ5 (.var .lnFAB) = troeL Fc (troeA Pr Fc) (troeB Pr Fc) := by
      rw [e5]
      simp only [JTroe.setL, JTroe.D, JTroe.Fc, JTroe.A, JTroe.B, JTroe.one, CStmt.execT, setT, if_true, CExpr.evalT, sci_eq, a4, B4, f4,
        fmax_real, log_real, e300]
      unfold troeL
      push_cast
      norm_num
    have j6 : τ6 (.var .jTemp) = (JTroe.jT n S1 FP S2 rest).evalT τ5 := by rw [e6]; simp [setT]
    obtain ⟨q0, q1, η, hη, hx⟩ := ratioOk_sound h2 hb hT
    have hvals : TroeVals nsp n eff kInf k0 t v Pr Fc := by
      refine ⟨q0, q1, ⟨η, hη, ?_⟩, hFc ▸ fcOk_sound h3 b1⟩
      rw [hPr]
      simp only [CExpr.evalT, exp_real]
      rw [hx, (hc c rfl).2, thirdOk_sound h1 hb hm]
      ring
    refine ⟨b6, c6, fun l => ?_, ?_, by rw [p6, f6]; exact hvals, by rw [p6, f6]; exact a6, by rw [p6, f6]; exact B6⟩
    · rw [e6, e5, e4, e3, e2, e1]
      simp [JTroe.setA, JTroe.setB, JTroe.setL, CStmt.execT, setT]
    · refine ⟨Pr, Fc, S1.evalT τ5, FP.evalT τ5, S2.evalT τ5, _, hvals, fpOk_sound h6 b5, slopeOk_sound h4 b5 hT, slopeOk_sound h5 b5 hT,
        tLin_sound h7 b5 hT.ne', ?_⟩
      rw [j6]
      simp only [JTroe.jT, JTroe.X, JTroe.D, JTroe.Fc, JTroe.Pr, JTroe.T, JTroe.L, JTroe.A, JTroe.B, JTroe.one, CExpr.evalT, sci_eq, a5, B5, f5, p5,
        L5, b5.P, b5.F, b5.R, b5.T, b5.rhoInv, v.Rv_pos h0]
      unfold troeX
      generalize troeL Fc (troeA Pr Fc) (troeB Pr Fc) = L
      generalize troeA Pr Fc = A
      generalize troeB Pr Fc = B
      push_cast
      ring
  · exact absurd h (by simp)

theorem lindLocals_sound {nsp : Nat} {n : Numbered} {eff : List (Nat × Nat × Nat)} {kInf k0 : Arrhenius} {c : CExpr}
    {ls : List CStmt} (h : lindLocalsOk nsp n eff kInf k0 c ls = true) {v : JacobVals ℝ} {τ : CLoc → ℝ} (hb : Base v τ)
    (hc : Conc (some c) τ) (hm : v.m = ∑ i ∈ Finset.range nsp, v.C i) (hT : 0 < v.T) :
    Base v (execT ls τ) ∧ Conc (some c) (execT ls τ) ∧ (∀ l, execT ls τ (.arr .jac l) = τ (.arr .jac l)) ∧
    TLind nsp n eff kInf k0 v (execT ls τ (.var .jTemp)) := by
  unfold lindLocalsOk at h
  split at h
  · rename_i x p S1 d1 fr rest ri
    simp only [Bool.and_eq_true, decide_eq_true_eq] at h
    obtain ⟨⟨⟨⟨⟨h0, h1⟩, h2⟩, h4⟩, h7⟩, h8⟩ := h
    rw [h8]
    obtain ⟨Pr, hPr⟩ : ∃ Pr, Pr = (CExpr.mul (.rd (.var .concTemp)) (.exp x)).evalT τ := ⟨_, rfl⟩
    obtain ⟨τ1, e1⟩ : ∃ τ1, τ1 = setT τ (.var .Pr) Pr := ⟨_, rfl⟩
    have b1 : Base v τ1 := e1 ▸ hb.setT rfl _
    have c1 : Conc (some c) τ1 := e1 ▸ hc.setT rfl (by simp) _
    have p1 : τ1 (.var .Pr) = Pr := by rw [e1]; simp [setT]
    obtain ⟨τ2, e2⟩ : ∃ τ2, τ2 = setT τ1 (.var .jTemp) ((JTroe.jL n S1 rest).evalT τ1) := ⟨_, rfl⟩
    have b2 : Base v τ2 := e2 ▸ b1.setT rfl _
    have c2 : Conc (some c) τ2 := e2 ▸ c1.setT rfl (by simp) _
    have e : execT [.set (.var .Pr) (.mul (.rd (.var .concTemp)) (.exp x)), .set (.var .jTemp) (JTroe.jL n S1 rest)] τ = τ2 := by
      rw [e2, e1, hPr]
      rfl
    rw [e]
    obtain ⟨q0, q1, η, hη, hx⟩ := ratioOk_sound h2 hb hT
    refine ⟨b2, c2, fun l => by rw [e2, e1]; simp [setT], q0, q1, Pr, S1.evalT τ1, _, η, hη, ?_, slopeOk_sound h4 b1 hT,
      tLin_sound h7 b1 hT.ne', ?_⟩
    · rw [hPr]
      simp only [CExpr.evalT, exp_real]
      rw [hx, (hc c rfl).2, thirdOk_sound h1 hb hm]
      ring
    · have j2 : τ2 (.var .jTemp) = (JTroe.jL n S1 rest).evalT τ1 := by rw [e2]; simp [setT]
      rw [j2]
      simp only [JTroe.jL, JTroe.Pr, JTroe.T, JTroe.one, CExpr.evalT, sci_eq, p1, b1.P, b1.F, b1.R, b1.T, b1.rhoInv, v.Rv_pos h0]
      push_cast
      ring
  · exact absurd h (by simp)

/-- The state after the optional assignment to `conc_temp`. -/
theorem takeConc_sound {cst : Option CExpr} {ls rest : List CStmt} {c : CExpr} (htc : takeConc cst ls = (some c, rest))
    (hrd : c.reads CLoc.base = true) {v : JacobVals ℝ} {τ : CLoc → ℝ} (hb : Base v τ) (hc : Conc cst τ) :
    ∃ τ', execT ls τ = execT rest τ' ∧ Base v τ' ∧ Conc (some c) τ' ∧ ∀ l, τ' (.arr .jac l) = τ (.arr .jac l) := by
  have assign : ∀ e rest', ls = .set (.var .concTemp) e :: rest' → rest' = rest → c.evalT τ = e.evalT τ →
      ∃ τ', execT ls τ = execT rest τ' ∧ Base v τ' ∧ Conc (some c) τ' ∧ ∀ l, τ' (.arr .jac l) = τ (.arr .jac l) := by
    rintro e rest' rfl rfl hce
    refine ⟨setT τ (.var .concTemp) (e.evalT τ), rfl, hb.setT rfl _, ?_, fun l => by simp [setT]⟩
    intro c2 h2
    obtain rfl := Option.some.inj h2
    refine ⟨hrd, ?_⟩
    rw [← hce]
    simp only [setT, if_true]
    refine evalT_congr CLoc.base _ _ (fun l hl => ?_) c hrd
    unfold setT
    rw [if_neg]
    rintro rfl
    exact absurd hl (by simp [CLoc.base])
  unfold takeConc at htc
  split at htc
  · rename_i e rest'
    split at htc
    · rename_i c0
      simp only [Prod.mk.injEq, Option.some.injEq] at htc
      obtain ⟨rfl, h2⟩ := htc
      exact assign _ _ rfl h2 (substConc_sound c0 τ (hc c0 rfl).2 _)
    · simp only [Prod.mk.injEq, Option.some.injEq] at htc
      obtain ⟨rfl, h2⟩ := htc
      exact assign _ _ rfl h2 rfl
  · simp only [Prod.mk.injEq] at htc
    obtain ⟨rfl, rfl⟩ := htc
    exact ⟨τ, rfl, hb, hc, fun _ => rfl⟩

theorem tLocals_sound {D : Package} {n : Numbered} {cst cst' : Option CExpr} {ls : List CStmt} (h : tLocalsOk D n cst ls = some cst')
    {v : JacobVals ℝ} {τ : CLoc → ℝ} (hb : Base v τ) (hc : Conc cst τ) (hm : v.m = ∑ i ∈ Finset.range D.nsp, v.C i) (hT : 0 < v.T) :
    Base v (execT ls τ) ∧ Conc cst' (execT ls τ) ∧ (∀ l, execT ls τ (.arr .jac l) = τ (.arr .jac l)) ∧
    TVal D n v (execT ls τ (.var .jTemp)) ∧ TroeMem D n v (execT ls τ) := by
  have single : ∀ (φ : Int) (a : Arrhenius) (e : CExpr), ls = [.set (.var .jTemp) e] → tLinOk a n D.nsp φ e = true → cst' = cst →
      Base v (execT ls τ) ∧ Conc cst' (execT ls τ) ∧ (∀ l, execT ls τ (.arr .jac l) = τ (.arr .jac l)) ∧
      TLin a n D.nsp φ v (execT ls τ (.var .jTemp)) := by
    rintro φ a e rfl ht rfl
    refine ⟨hb.setT rfl _, hc.setT rfl (by simp) _, fun l => by simp [execT, CStmt.execT, setT], ?_⟩
    have : execT [.set (.var .jTemp) e] τ (.var .jTemp) = e.evalT τ := by simp [execT, CStmt.execT, setT]
    rw [this]
    exact tLin_sound ht hb hT.ne'
  unfold tLocalsOk at h
  unfold TVal TroeMem
  split at h
  · rename_i hk
    split at h
    · rename_i e
      split at h
      · rename_i ht
        obtain ⟨s1, s2, s3, s4⟩ := single 0 _ e rfl ht (Option.some.inj h).symm
        rw [hk]
        exact ⟨s1, s2, s3, s4, fun eff _ _ _ h' => absurd h' (by simp)⟩
      · exact absurd h (by simp)
    · exact absurd h (by simp)
  · rename_i hk
    split at h
    · rename_i e
      split at h
      · rename_i ht
        obtain ⟨s1, s2, s3, s4⟩ := single (-1) _ e rfl ht (Option.some.inj h).symm
        rw [hk]
        exact ⟨s1, s2, s3, s4, fun eff _ _ _ h' => absurd h' (by simp)⟩
      · exact absurd h (by simp)
    · exact absurd h (by simp)
  · rename_i eff kInf k0 t hk hl
    split at h
    · rename_i c rest htc
      split at h
      · rename_i ht
        obtain rfl := Option.some.inj h
        have hrd : c.reads CLoc.base = true := by
          unfold troeLocalsOk at ht
          split at ht
          · simp only [Bool.and_eq_true] at ht
            have := ht.1.1.1.1.1.1.1.1.1.1.2
            simp only [thirdOk, Bool.and_eq_true] at this
            exact this.1
          · exact absurd ht (by simp)
        have key := takeConc_sound htc hrd hb hc
        obtain ⟨τ', e', b', c', j'⟩ := key
        obtain ⟨s1, s2, s3, s4, s5, s6, s7⟩ := troeLocals_sound ht b' c' hm hT
        rw [hk, hl, e']
        refine ⟨s1, s2, fun l => (s3 l).trans (j' l), s4, ?_⟩
        intro eff' kInf' k0' t' h1 h2
        cases h1
        cases h2
        exact ⟨s5, s6, s7⟩
      · exact absurd h (by simp)
    · exact absurd h (by simp)
  · rename_i eff kInf k0 hk hl
    split at h
    · rename_i c rest htc
      split at h
      · rename_i ht
        obtain rfl := Option.some.inj h
        have hrd : c.reads CLoc.base = true := by
          unfold lindLocalsOk at ht
          split at ht
          · simp only [Bool.and_eq_true] at ht
            have := ht.1.1.1.1.2
            simp only [thirdOk, Bool.and_eq_true] at this
            exact this.1
          · exact absurd ht (by simp)
        obtain ⟨τ', e', b', c', j'⟩ := takeConc_sound htc hrd hb hc
        obtain ⟨s1, s2, s3, s4⟩ := lindLocals_sound ht b' c' hm hT
        rw [hk, hl, e']
        exact ⟨s1, s2, fun l => (s3 l).trans (j' l), s4, fun eff' kInf' k0' t' h1 h2 => absurd h2 (by simp)⟩
      · exact absurd h (by simp)
    · exact absurd h (by simp)
  · exact absurd h (by simp)

end DLB
