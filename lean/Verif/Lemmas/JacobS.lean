import Verif.Lemmas.JacobParts
import Verif.Lemmas.KineticsNear
import Verif.Spec.Jacobian
/-
The statements "partial wrt Y" of the parts of `eval_jacob`: what they compute.
-/
set_option autoImplicit false
set_option linter.unusedSectionVars false

namespace DLB

/-- The expression of the logarithmic slope of Troe's formula by the concentration of third bodies. -/
def JTroe.G : CExpr := .sub (.div one (.add one Pr)) (.div (.mul (.mul (.mul (.log (.fmax Fc (.num 1 300))) (.num 2 0)) A)
  (.add (.mul B (.num 4342944819032518 16)) (.mul A (.num 6080122746645526 17)))) (.mul (.mul (.mul (.mul B B) B) D) D))

/-- Its value. -/
noncomputable def troeG (Pr Fc A B : ℝ) : ℝ := 1 / (1 + Pr) - Real.log (max Fc (1 / 10 ^ 300)) * 2 * A *
  (B * (4342944819032518 / 10 ^ 16) + A * (6080122746645526 / 10 ^ 17)) / (B * B * B * (1 + A * A / (B * B)) * (1 + A * A / (B * B)))

/-- The factor of an equilibrium constant. -/
def kcFactor : CExpr → Option (Nat × Nat)
  | .mul (.num m e) (.exp (.rd (.var .Kc))) => some (m, e)
  | .exp (.rd (.var .Kc)) => some (1, 0)
  | _ => none

/-- The statements start with the equilibrium constant; the rest. -/
def sKc (D : Package) (n : Numbered) : List CStmt → Option (List CStmt)
  | .ite (.rd (.var .T)) (.num m e) (.var .Kc) e1 e2 :: .set (.var .Kc) x :: rest => match e1.lform with
    | none => none
    | some f1 => match e2.lform with
      | none => none
      | some f2 => match kcFactor x with
        | none => none
        | some c => if kcOk D.nsp D.fit n.r ⟨0, [⟨(m, e), f1, f2⟩], c, []⟩ then some rest else none
  | _ => none

/-- The derivative by the density: `-mw_avg * rho_inv * pres_mod * (a * fwd - b * rev + s * pres_mod_temp)` -/
def jOk (n : Numbered) (a b s : Nat) (e : CExpr) : Bool :=
  match e.coefs [(sortKey ((CLoc.arr .fwd n.k).code :: (CLoc.var .mwAvg).code :: (CLoc.var .rhoInv).code :: pmCodes n), []),
    (sortKey ((CLoc.arr .rev n.j).code :: (CLoc.var .mwAvg).code :: (CLoc.var .rhoInv).code :: pmCodes n), []),
    (sortKey ((CLoc.var .presModTemp).code :: (CLoc.var .mwAvg).code :: (CLoc.var .rhoInv).code :: pmCodes n), [])] with
  | some [c1, c2, c3] => sameDec c1 (-(a : Int), 0) && sameDec c2 (b, 0) && sameDec c3 (-(s : Int), 0)
  | _ => false

/-- `fwd_rates[k] - rev_rates[j]` -/
def JTroe.net (n : Numbered) : CExpr := .sub (.rd (.arr .fwd n.k)) (.rd (.arr .rev n.j))

/-- The derivatives by the density and by the concentration of third bodies; the rest. -/
def sMid (D : Package) (n : Numbered) (ls : List CStmt) : Option (List CStmt) := match n.r.kind, D.law n.k with
  | .elementary, _ => match ls with
    | .set (.var .jTemp) e :: rest => if jOk n n.r.reactants.length n.r.products.length 0 e then some rest else none
    | _ => none
  | .thirdBody _, _ => match ls with
    | .set (.var .presModTemp) p :: .set (.var .jTemp) e :: rest =>
      if decide (p = JTroe.net n) && jOk n (n.r.reactants.length + 1) (n.r.products.length + 1) 0 e then some rest else none
    | _ => none
  | .falloff _, .falloff kInf k0 (some _) => match ls with
    | .set (.var .presModTemp) p :: .set (.var .jTemp) e :: .set (.var .presModTemp) (.mul q (.div (.mul (.exp x) f) g)) :: rest =>
      if decide (p = .mul JTroe.G (JTroe.net n)) && jOk n n.r.reactants.length n.r.products.length 1 e &&
        decide (q = .rd (.var .presModTemp)) && ratioOk k0 kInf n.r.reactants.length x &&
        decide (f = .pow JTroe.Fc (.div JTroe.one JTroe.D)) && decide (g = .add JTroe.one JTroe.Pr) then some rest else none
    | _ => none
  | _, _ => none

/-- The rate coefficients. -/
def sEnd (D : Package) (n : Numbered) : List CStmt → Bool
  | [.set (.var .kf) e, .set (.var .kr) x] => match e.rate with
    | none => false
    | some r => arrheniusOk (D.law n.k).high n.r.order r && decide (x = .div (.rd (.var .kf)) (.rd (.var .Kc)))
  | _ => false

/-- The statements before the rows. -/
def sLocalsOk (D : Package) (n : Numbered) (ls : List CStmt) : Bool := match sKc D n ls with
  | none => false
  | some l1 => match sMid D n l1 with
    | none => false
    | some l2 => sEnd D n l2

/-- The derivatives by the density and by the concentration of third bodies as computed. -/
def SMid (D : Package) (n : Numbered) (v : JacobVals ℝ) (jt pt : ℝ) : Prop := match n.r.kind, D.law n.k with
  | .elementary, _ => jt = -(v.mwAvg * (1 / v.rho) * v.pm n * (n.r.reactants.length * v.F n.k - n.r.products.length * v.R n.j))
  | .thirdBody _, _ => pt = v.F n.k - v.R n.j ∧
    jt = -(v.mwAvg * (1 / v.rho) * v.pm n * ((n.r.reactants.length + 1) * v.F n.k - (n.r.products.length + 1) * v.R n.j))
  | .falloff eff, .falloff kInf k0 (some t) => ∃ Pr Fc, TroeVals D.nsp n eff kInf k0 t v Pr Fc ∧
    jt = -(v.mwAvg * (1 / v.rho) * v.pm n * ((n.r.reactants.length + troeG Pr Fc (troeA Pr Fc) (troeB Pr Fc)) * v.F n.k -
      (n.r.products.length + troeG Pr Fc (troeA Pr Fc) (troeB Pr Fc)) * v.R n.j)) ∧
    ∃ η : ℝ, |η| ≤ (1 + (|k0.temperature| + |kInf.temperature|) / v.T) / 10 ^ 14 ∧
      pt = troeG Pr Fc (troeA Pr Fc) (troeB Pr Fc) * (v.F n.k - v.R n.j) *
        (k0.coefficient (n.r.reactants.length + 1) v.T / kInf.coefficient n.r.reactants.length v.T * Real.exp η *
          Fc ^ (1 / (1 + troeA Pr Fc * troeA Pr Fc / (troeB Pr Fc * troeB Pr Fc))) / (1 + Pr))
  | _, _ => False

/-- The rate coefficients as computed. -/
def SRates (D : Package) (n : Numbered) (v : JacobVals ℝ) (kf kr : ℝ) : Prop :=
  0 < D.chemistry.coefficient n v.T ∧
  (∃ η : ℝ, |η| ≤ (1 + |(D.law n.k).high.temperature| / v.T) / 10 ^ 14 ∧ kf = D.chemistry.coefficient n v.T * Real.exp η) ∧
  ∃ η : ℝ, |η| ≤ (1 + gibbsTerms D.nsp D.fit n.r v.T) / 10 ^ 14 ∧ kr = kf / (equilibriumConstant D.nsp D.fit n.r v.T * Real.exp η)

theorem kcFactor_sound {x : CExpr} {c : Nat × Nat} (h : kcFactor x = some c) (τ : CLoc → ℝ) :
    x.evalT τ = (c.1 : ℝ) / 10 ^ c.2 * Real.exp (τ (.var .Kc)) := by
  unfold kcFactor at h
  split at h
  · cases h
    simp only [CExpr.evalT, sci_eq, exp_real]
  · cases h
    simp [CExpr.evalT, exp_real]
  · exact absurd h (by simp)

theorem sKc_sound {D : Package} {n : Numbered} {ls rest : List CStmt} (h : sKc D n ls = some rest) {v : JacobVals ℝ} {τ : CLoc → ℝ}
    (hb : Base v τ) (hT : 0 < v.T) : ∃ τ', execT ls τ = execT rest τ' ∧ (∀ l, l ≠ .var .Kc → τ' l = τ l) ∧
    ∃ η : ℝ, |η| ≤ (1 + gibbsTerms D.nsp D.fit n.r v.T) / 10 ^ 14 ∧
      τ' (.var .Kc) = equilibriumConstant D.nsp D.fit n.r v.T * Real.exp η := by
  unfold sKc at h
  split at h
  · rename_i m e e1 e2 x r
    split at h
    · exact absurd h (by simp)
    rename_i f1 hf1
    split at h
    · exact absurd h (by simp)
    rename_i f2 hf2
    split at h
    · exact absurd h (by simp)
    rename_i c hc
    split at h
    · rename_i hk
      cases h
      refine ⟨_, rfl, fun l hl => ?_, ?_⟩
      · simp only [CStmt.execT, DLB.setT, hl, if_false]
      · obtain ⟨η, hη, e⟩ := kcOk_sound hk v.T hT
        refine ⟨η, hη, ?_⟩
        rw [← e]
        simp only [CStmt.execT, DLB.setT, if_true, kcFactor_sound hc, KcBlock.eval, KcPiece.eval, List.map_cons, List.map_nil, List.sum_cons,
          List.sum_nil, add_zero, lform_sound τ e1 f1 hf1, lform_sound τ e2 f2 hf2, CExpr.evalT, sci_eq, hb.T, hb.logT]
        rfl
    · exact absurd h (by simp)
  · exact absurd h (by simp)

theorem jOk_sound {n : Numbered} {a b s : Nat} {e : CExpr} (h : jOk n a b s e = true) {v : JacobVals ℝ} {τ : CLoc → ℝ} (hb : Base v τ) :
    e.evalT τ = -(v.mwAvg * (1 / v.rho) * v.pm n * (a * v.F n.k - b * v.R n.j + s * τ (.var .presModTemp))) := by
  unfold jOk at h
  split at h
  · rename_i c1 c2 c3 hc
    simp only [Bool.and_eq_true] at h
    rw [coefs_sound τ hc]
    simp only [pairVal, keyVal, codesVal_sort, codesVal_cons, codesVal_pm hb, codesVal_nil, hb.F, hb.R, hb.mw, hb.rhoInv, sameDec_sound h.1.1,
      sameDec_sound h.1.2, sameDec_sound h.2]
    simp only [SDec.val]
    push_cast
    ring
  · exact absurd h (by simp)

theorem JTroe.net_eval {n : Numbered} {v : JacobVals ℝ} {τ : CLoc → ℝ} (hb : Base v τ) : (JTroe.net n).evalT τ = v.F n.k - v.R n.j := by
  simp only [JTroe.net, CExpr.evalT, hb.F, hb.R]

theorem JTroe.G_eval (τ : CLoc → ℝ) : JTroe.G.evalT τ = troeG (τ (.var .Pr)) (τ (.var .Fcent)) (τ (.var .A)) (τ (.var .B)) := by
  have e300 : ((1 : Nat) : ℝ) / 10 ^ 300 = 1 / 10 ^ 300 := by norm_num
  simp only [JTroe.G, JTroe.D, JTroe.Fc, JTroe.Pr, JTroe.A, JTroe.B, JTroe.one, CExpr.evalT, sci_eq, fmax_real, log_real, e300]
  unfold troeG
  push_cast
  simp only [pow_zero, div_one]

theorem sMid_sound {D : Package} {n : Numbered} {ls rest : List CStmt} (h : sMid D n ls = some rest) {v : JacobVals ℝ} {τ : CLoc → ℝ}
    (hb : Base v τ) (hm : TroeMem D n v τ) (hT : 0 < v.T) : ∃ τ', execT ls τ = execT rest τ' ∧ Base v τ' ∧ τ' (.var .Kc) = τ (.var .Kc) ∧
    SMid D n v (τ' (.var .jTemp)) (τ' (.var .presModTemp)) := by
  unfold sMid at h
  unfold SMid
  split at h
  · rename_i hk
    split at h
    · rename_i e r
      split at h
      · rename_i hj
        cases h
        refine ⟨_, rfl, hb.setT rfl _, by simp [CStmt.execT, DLB.setT], ?_⟩
        simp only [CStmt.execT, DLB.setT, if_true, jOk_sound hj hb]
        push_cast
        ring
      · exact absurd h (by simp)
    · exact absurd h (by simp)
  · rename_i eff hk
    split at h
    · rename_i p e r
      split at h
      · rename_i hj
        simp only [Bool.and_eq_true, decide_eq_true_eq] at hj
        obtain ⟨rfl, hj⟩ := hj
        cases h
        obtain ⟨τ1, e1⟩ : ∃ τ1, τ1 = DLB.setT τ (.var .presModTemp) ((JTroe.net n).evalT τ) := ⟨_, rfl⟩
        have b1 : Base v τ1 := e1 ▸ hb.setT rfl _
        have p1 : τ1 (.var .presModTemp) = v.F n.k - v.R n.j := by rw [e1, ← JTroe.net_eval hb]; simp [DLB.setT]
        refine ⟨DLB.setT τ1 (.var .jTemp) (e.evalT τ1), by rw [e1]; rfl, b1.setT rfl _, by rw [e1]; simp [DLB.setT], ?_, ?_⟩
        · rw [← p1]; simp [DLB.setT]
        · simp only [DLB.setT, if_true, jOk_sound hj b1, p1]
          push_cast
          ring
      · exact absurd h (by simp)
    · exact absurd h (by simp)
  · rename_i eff kInf k0 t hk hl
    split at h
    · rename_i p e q x f g r
      split at h
      · rename_i hj
        simp only [Bool.and_eq_true, decide_eq_true_eq] at hj
        obtain ⟨⟨⟨⟨⟨rfl, hj⟩, rfl⟩, hr⟩, rfl⟩, rfl⟩ := hj
        cases h
        obtain ⟨m1, mA, mB⟩ := hm eff kInf k0 t hk hl
        obtain ⟨Pr, hPr⟩ : ∃ Pr, Pr = τ (.var .Pr) := ⟨_, rfl⟩
        obtain ⟨Fc, hFc⟩ : ∃ Fc, Fc = τ (.var .Fcent) := ⟨_, rfl⟩
        rw [← hPr, ← hFc] at m1 mA mB
        obtain ⟨G, hG⟩ : ∃ G, G = troeG Pr Fc (troeA Pr Fc) (troeB Pr Fc) := ⟨_, rfl⟩
        have eG : JTroe.G.evalT τ = G := by rw [JTroe.G_eval, mA, mB, ← hPr, ← hFc, hG]
        obtain ⟨τ1, e1⟩ : ∃ τ1, τ1 = DLB.setT τ (.var .presModTemp) ((CExpr.mul JTroe.G (JTroe.net n)).evalT τ) := ⟨_, rfl⟩
        have b1 : Base v τ1 := e1 ▸ hb.setT rfl _
        have p1 : τ1 (.var .presModTemp) = G * (v.F n.k - v.R n.j) := by
          rw [e1, ← JTroe.net_eval hb, ← eG]
          simp [DLB.setT, CExpr.evalT]
        obtain ⟨τ2, e2⟩ : ∃ τ2, τ2 = DLB.setT τ1 (.var .jTemp) (e.evalT τ1) := ⟨_, rfl⟩
        have b2 : Base v τ2 := e2 ▸ b1.setT rfl _
        have p2 : τ2 (.var .presModTemp) = G * (v.F n.k - v.R n.j) := by rw [e2, ← p1]; simp [DLB.setT]
        have P2 : τ2 (.var .Pr) = Pr := by rw [e2, e1, hPr]; simp [DLB.setT]
        have F2 : τ2 (.var .Fcent) = Fc := by rw [e2, e1, hFc]; simp [DLB.setT]
        have A2 : τ2 (.var .A) = troeA Pr Fc := by rw [e2, e1, ← mA]; simp [DLB.setT]
        have B2 : τ2 (.var .B) = troeB Pr Fc := by rw [e2, e1, ← mB]; simp [DLB.setT]
        obtain ⟨-, -, η, hη, hx⟩ := ratioOk_sound hr b2 hT
        obtain ⟨z, hz⟩ : ∃ z, z = (CExpr.mul (.rd (.var .presModTemp)) (.div (.mul (.exp x) (.pow JTroe.Fc (.div JTroe.one JTroe.D)))
          (.add JTroe.one JTroe.Pr))).evalT τ2 := ⟨_, rfl⟩
        refine ⟨DLB.setT τ2 (.var .presModTemp) z, by rw [hz, e2, e1]; rfl, b2.setT rfl _, by rw [e2, e1]; simp [DLB.setT], Pr, Fc, m1, ?_,
          η, hη, ?_⟩
        · have : DLB.setT τ2 (.var .presModTemp) z (.var .jTemp) = e.evalT τ1 := by rw [e2]; simp [DLB.setT]
          rw [this, jOk_sound hj b1, p1, ← hG]
          push_cast
          ring
        · have : DLB.setT τ2 (.var .presModTemp) z (.var .presModTemp) = z := by simp [DLB.setT]
          rw [this, hz, ← hG]
          simp only [JTroe.D, JTroe.A, JTroe.B, JTroe.one, CExpr.evalT, sci_eq, p2, P2, F2, A2, B2, exp_real, hx]
          simp only [Nat.cast_one, pow_zero, div_one]
          rfl
      · exact absurd h (by simp)
    · exact absurd h (by simp)
  · exact absurd h (by simp)

theorem sEnd_sound {D : Package} {n : Numbered} {ls : List CStmt} (h : sEnd D n ls = true) {v : JacobVals ℝ} {τ : CLoc → ℝ}
    (hb : Base v τ) (hT : 0 < v.T) : Base v (execT ls τ) ∧ execT ls τ (.var .jTemp) = τ (.var .jTemp) ∧
    execT ls τ (.var .presModTemp) = τ (.var .presModTemp) ∧ execT ls τ (.var .kr) = execT ls τ (.var .kf) / τ (.var .Kc) ∧
    0 < D.chemistry.coefficient n v.T ∧ ∃ η : ℝ, |η| ≤ (1 + |(D.law n.k).high.temperature| / v.T) / 10 ^ 14 ∧
      execT ls τ (.var .kf) = D.chemistry.coefficient n v.T * Real.exp η := by
  unfold sEnd at h
  split at h
  · rename_i e x
    split at h
    · exact absurd h (by simp)
    rename_i r hr
    simp only [Bool.and_eq_true, decide_eq_true_eq] at h
    obtain ⟨ha, rfl⟩ := h
    obtain ⟨hp, η, hη, hv⟩ := arrheniusOk_sound ha v.T hT
    refine ⟨(hb.setT rfl _).setT rfl _, by simp [execT, CStmt.execT, DLB.setT], by simp [execT, CStmt.execT, DLB.setT],
      by simp [execT, CStmt.execT, DLB.setT, CExpr.evalT], hp, η, hη, ?_⟩
    show _ = (D.law n.k).high.coefficient n.r.order v.T * Real.exp η
    rw [← hv]
    simp [execT, CStmt.execT, DLB.setT, rate_sound τ hr, hb.T, hb.logT]
  · exact absurd h (by simp)

theorem sLocals_sound {D : Package} {n : Numbered} {ls : List CStmt} (h : sLocalsOk D n ls = true) {v : JacobVals ℝ} {τ : CLoc → ℝ}
    (hb : Base v τ) (hm : TroeMem D n v τ) (hT : 0 < v.T) : Base v (execT ls τ) ∧
    SMid D n v (execT ls τ (.var .jTemp)) (execT ls τ (.var .presModTemp)) ∧
    SRates D n v (execT ls τ (.var .kf)) (execT ls τ (.var .kr)) := by
  unfold sLocalsOk at h
  split at h
  · exact absurd h (by simp)
  rename_i l1 h1
  split at h
  · exact absurd h (by simp)
  rename_i l2 h2
  obtain ⟨τ1, x1, f1, K1⟩ := sKc_sound h1 hb hT
  have b1 : Base v τ1 := hb.congr fun l hl => f1 l (by rintro rfl; exact absurd hl (by simp [CLoc.base]))
  have m1 : TroeMem D n v τ1 := by
    intro eff kInf k0 t hk hl
    rw [f1 _ (by simp), f1 _ (by simp), f1 _ (by simp), f1 _ (by simp)]
    exact hm eff kInf k0 t hk hl
  obtain ⟨τ2, x2, b2, K2, s2⟩ := sMid_sound h2 b1 m1 hT
  obtain ⟨b3, j3, p3, k3, c3, r3⟩ := sEnd_sound h b2 hT
  rw [x1, x2]
  refine ⟨b3, by rw [j3, p3]; exact s2, c3, r3, ?_⟩
  obtain ⟨η, hη, e⟩ := K1
  exact ⟨η, hη, by rw [k3, K2, e]⟩

/-! Rows -/

/-- The efficiency as a decimal number; zero if third bodies do not enter. -/
def effOf (r : Reaction) (i : Nat) : Nat × Nat := match r.kind with
  | .elementary => (0, 0)
  | .thirdBody eff => effDec eff i
  | .falloff eff => effDec eff i

theorem effOf_val (r : Reaction) (i : Nat) : ((effOf r i).1 : ℝ) / 10 ^ (effOf r i).2 = Chemistry.efficiencyOf r i := by
  unfold effOf Chemistry.efficiencyOf
  cases r.kind <;> simp [efficiency]

/-- The terms of a row; `N` is the last species. -/
def sKeys (n : Numbered) (N j : Nat) : List NKey :=
  [([(CLoc.var .jTemp).code], []), ([(CLoc.var .presModTemp).code], []),
    (sortKey ((CLoc.var .kf).code :: (pmCodes n ++ (n.r.reactants.erase j).map fun i => (CLoc.arr .C i).code)), []),
    (sortKey ((CLoc.var .kr).code :: (pmCodes n ++ (n.r.products.erase j).map fun i => (CLoc.arr .C i).code)), []),
    (sortKey ((CLoc.var .kf).code :: (pmCodes n ++ (n.r.reactants.erase N).map fun i => (CLoc.arr .C i).code)), []),
    (sortKey ((CLoc.var .kr).code :: (pmCodes n ++ (n.r.products.erase N).map fun i => (CLoc.arr .C i).code)), [])]

/-- The number is `x * c / w`. -/
def countOk (d : SDec) (x : Int) (c w : Nat) : Bool := closeQ d (x * c) w (x.natAbs * c)

/-- A row of species `k` in the column of species `j`; `wk`, `wj`, `wN` are molecular weights in units of 10^-5. -/
def sRowOk (n : Numbered) (N wk wj wN j k : Nat) (e : CExpr) : Bool := match e.coefs (sKeys n N j) with
  | some [c1, c2, c3, c4, c5, c6] =>
    closeQ c1 (n.r.net k * wk * ((wN : Int) - wj)) (wj * wN) ((n.r.net k).natAbs * wk * (wN + wj)) &&
    closeQ c2 (n.r.net k * wk * (((effOf n.r j).1 * 10 ^ (effOf n.r N).2 * wN : Nat) - ((effOf n.r N).1 * 10 ^ (effOf n.r j).2 * wj : Nat) : Int))
      (10 ^ (effOf n.r j).2 * 10 ^ (effOf n.r N).2 * (wj * wN))
      ((n.r.net k).natAbs * wk * ((effOf n.r j).1 * 10 ^ (effOf n.r N).2 * wN + (effOf n.r N).1 * 10 ^ (effOf n.r j).2 * wj)) &&
    countOk c3 (n.r.net k * wk) (n.r.reactants.count j) wj && countOk c4 (-(n.r.net k * wk)) (n.r.products.count j) wj &&
    countOk c5 (-(n.r.net k * wk)) (n.r.reactants.count N) wN && countOk c6 (n.r.net k * wk) (n.r.products.count N) wN
  | _ => false

/-- What a row computes; `W` are the molecular weights. -/
def SRow (n : Numbered) (N : Nat) (W : Nat → ℝ) (v : JacobVals ℝ) (jt pt kf kr : ℝ) (j k : Nat) (x : ℝ) : Prop :=
  ∃ c1 c2 c3 c4 c5 c6 : ℝ,
    |c1 - n.r.net k * W k * (1 / W j - 1 / W N)| ≤ |(n.r.net k : ℝ)| * W k * (1 / W j + 1 / W N) / 10 ^ 14 ∧
    |c2 - n.r.net k * W k * (Chemistry.efficiencyOf n.r j / W j - Chemistry.efficiencyOf n.r N / W N)| ≤
      |(n.r.net k : ℝ)| * W k * (Chemistry.efficiencyOf n.r j / W j + Chemistry.efficiencyOf n.r N / W N) / 10 ^ 14 ∧
    |c3 - n.r.net k * W k * (n.r.reactants.count j / W j)| ≤ |(n.r.net k : ℝ)| * W k * (n.r.reactants.count j / W j) / 10 ^ 14 ∧
    |c4 - -(n.r.net k * W k) * (n.r.products.count j / W j)| ≤ |(n.r.net k : ℝ)| * W k * (n.r.products.count j / W j) / 10 ^ 14 ∧
    |c5 - -(n.r.net k * W k) * (n.r.reactants.count N / W N)| ≤ |(n.r.net k : ℝ)| * W k * (n.r.reactants.count N / W N) / 10 ^ 14 ∧
    |c6 - n.r.net k * W k * (n.r.products.count N / W N)| ≤ |(n.r.net k : ℝ)| * W k * (n.r.products.count N / W N) / 10 ^ 14 ∧
    x = c1 * jt + c2 * pt + c3 * (kf * (v.pm n * ((n.r.reactants.erase j).map v.C).prod)) +
      c4 * (kr * (v.pm n * ((n.r.products.erase j).map v.C).prod)) +
      c5 * (kf * (v.pm n * ((n.r.reactants.erase N).map v.C).prod)) +
      c6 * (kr * (v.pm n * ((n.r.products.erase N).map v.C).prod))

theorem countOk_sound {d : SDec} {x : Int} {c w : Nat} {W W' y : ℝ} (h : countOk d x c w = true) (hw : 0 < w) (hW : W = w / 10 ^ 5)
    (hy : y * 10 ^ 5 = x) (hW' : |y| = W') : |(SDec.val d : ℝ) - y * (c / W)| ≤ W' * (c / W) / 10 ^ 14 := by
  have h := closeQ_sound hw h
  have rw' : (w : ℝ) ≠ 0 := by exact_mod_cast hw.ne'
  have e1 : ((x * (c : Nat) : Int) : ℝ) / w = y * (c / W) := by
    rw [hW]
    push_cast
    rw [← hy]
    field_simp
  have e2 : ((x.natAbs * c : Nat) : ℝ) / w = W' * (c / W) := by
    rw [hW, ← hW']
    push_cast
    rw [Nat.cast_natAbs, Int.cast_abs, ← hy, abs_mul, abs_of_pos (show (0 : ℝ) < 10 ^ 5 by norm_num)]
    field_simp
  rwa [e1, e2] at h

theorem codesVal_append (τ : CLoc → ℝ) (a b : List Nat) : codesVal τ (a ++ b) = codesVal τ a * codesVal τ b := by
  simp [codesVal]

theorem codesVal_concs {v : JacobVals ℝ} {τ : CLoc → ℝ} (hb : Base v τ) (l : List Nat) :
    codesVal τ (l.map fun i => (CLoc.arr .C i).code) = (l.map v.C).prod := by
  induction l with
  | nil => simp [codesVal]
  | cons a l ih => rw [List.map_cons, codesVal_cons, ih, hb.C, List.map_cons, List.prod_cons]

theorem sRow_sound {n : Numbered} {N wk wj wN j k : Nat} {e : CExpr} (h : sRowOk n N wk wj wN j k e = true) (hj : 0 < wj) (hN : 0 < wN)
    {W : Nat → ℝ} (ek : W k = wk / 10 ^ 5) (ej : W j = wj / 10 ^ 5) (eN : W N = wN / 10 ^ 5) {v : JacobVals ℝ} {τ : CLoc → ℝ} (hb : Base v τ) :
    SRow n N W v (τ (.var .jTemp)) (τ (.var .presModTemp)) (τ (.var .kf)) (τ (.var .kr)) j k (e.evalT τ) := by
  unfold sRowOk at h
  split at h
  · rename_i c1 c2 c3 c4 c5 c6 hc
    simp only [Bool.and_eq_true] at h
    obtain ⟨⟨⟨⟨⟨h1, h2⟩, h3⟩, h4⟩, h5⟩, h6⟩ := h
    have h1 := closeQ_sound (by positivity) h1
    have h2 := closeQ_sound (by positivity) h2
    have rj : (wj : ℝ) ≠ 0 := by exact_mod_cast hj.ne'
    have rN : (wN : ℝ) ≠ 0 := by exact_mod_cast hN.ne'
    have vj := effOf_val n.r j
    have vN := effOf_val n.r N
    have ey : (n.r.net k : ℝ) * W k * 10 ^ 5 = ((n.r.net k * wk : Int) : ℝ) := by
      rw [ek]
      push_cast
      field_simp
    have ey' : -((n.r.net k : ℝ) * W k) * 10 ^ 5 = ((-(n.r.net k * wk) : Int) : ℝ) := by
      rw [neg_mul, ey]
      push_cast
      rfl
    have k0 : 0 ≤ W k := by rw [ek]; positivity
    have ea : |(n.r.net k : ℝ) * W k| = |(n.r.net k : ℝ)| * W k := by rw [abs_mul, abs_of_nonneg k0]
    have ea' : |-((n.r.net k : ℝ) * W k)| = |(n.r.net k : ℝ)| * W k := by rw [abs_neg, ea]
    refine ⟨SDec.val c1, SDec.val c2, SDec.val c3, SDec.val c4, SDec.val c5, SDec.val c6, ?_, ?_, countOk_sound h3 hj ej ey ea,
      countOk_sound h4 hj ej ey' ea', countOk_sound h5 hN eN ey' ea', countOk_sound h6 hN eN ey ea, ?_⟩
    · refine (le_of_eq ?_).trans (h1.trans (le_of_eq ?_))
      · congr 1
        congr 1
        rw [ek, ej, eN]
        push_cast
        field_simp
      · rw [ek, ej, eN]
        push_cast
        rw [Nat.cast_natAbs, Int.cast_abs]
        field_simp
    · refine (le_of_eq ?_).trans (h2.trans (le_of_eq ?_))
      · congr 1
        congr 1
        rw [ek, ej, eN, ← vj, ← vN]
        push_cast
        field_simp
      · rw [ek, ej, eN, ← vj, ← vN]
        push_cast
        rw [Nat.cast_natAbs, Int.cast_abs]
        field_simp
    · rw [coefs_sound τ hc]
      simp only [sKeys, pairVal, keyVal, codesVal_sort, codesVal_cons, codesVal_append, codesVal_pm hb, codesVal_concs hb, codesVal_nil, mul_one,
        div_one, add_zero]
      ring
  · exact absurd h (by simp)

/-- The rows are those of the given species and columns, in this order. -/
def sRowsOk (n : Numbered) (nsp : Nat) (ws : List Nat) : List (Nat × Nat) → List JRow → Bool
  | [], rs => rs.isEmpty
  | p :: ps, rs => match rs with
    | [] => false
    | r :: rs => Nat.beq r.idx (nsp * (p.1 + 1) + (p.2 + 1)) && decide (p.1 < nsp) && decide (p.2 + 1 < nsp) &&
      decide (0 < ws.getD p.1 0) && sRowOk n (nsp - 1) (ws.getD p.2 0) (ws.getD p.1 0) (ws.getD (nsp - 1) 0) p.1 p.2 r.e && sRowsOk n nsp ws ps rs

theorem index_inj {nsp a b c d : Nat} (hb : b < nsp) (hd : d < nsp) (h : nsp * a + b = nsp * c + d) : a = c ∧ b = d := by
  have h1 : (nsp * a + b) % nsp = b := by rw [Nat.mul_add_mod, Nat.mod_eq_of_lt hb]
  have h2 : (nsp * c + d) % nsp = d := by rw [Nat.mul_add_mod, Nat.mod_eq_of_lt hd]
  have e : b = d := by rw [← h1, h, h2]
  refine ⟨?_, e⟩
  have : nsp * a = nsp * c := by omega
  exact Nat.eq_of_mul_eq_mul_left (by omega) this

theorem sRows_sound {n : Numbered} {nsp : Nat} {ws : List Nat} (ps : List (Nat × Nat)) {rs : List JRow} (h : sRowsOk n nsp ws ps rs = true)
    (hd : ps.Nodup) (hN : 0 < ws.getD (nsp - 1) 0) {W : Nat → ℝ} (hW : ∀ i, i < nsp → W i = (ws.getD i 0 : ℝ) / 10 ^ 5)
    {v : JacobVals ℝ} {τ : CLoc → ℝ} (hb : Base v τ) (j k : Nat) (hk : k + 1 < nsp) :
    ((j, k) ∈ ps → SRow n (nsp - 1) W v (τ (.var .jTemp)) (τ (.var .presModTemp)) (τ (.var .kf)) (τ (.var .kr)) j k
      (rowSum τ rs (nsp * (j + 1) + (k + 1)))) ∧
    ((j, k) ∉ ps → rowSum τ rs (nsp * (j + 1) + (k + 1)) = 0) ∧ ∀ l, rowSum τ rs (nsp * l) = 0 := by
  induction ps generalizing rs with
  | nil =>
    have : rs = [] := by simpa [sRowsOk] using h
    subst this
    simp [rowSum]
  | cons p ps ih =>
    unfold sRowsOk at h
    split at h
    · exact absurd h (by simp)
    rename_i r rs
    simp only [Bool.and_eq_true, decide_eq_true_eq] at h
    obtain ⟨⟨⟨⟨⟨h1, h2⟩, h3⟩, h4⟩, h5⟩, h6⟩ := h
    have h1 := Nat.eq_of_beq_eq_true h1
    obtain ⟨hp, hd⟩ := List.nodup_cons.1 hd
    obtain ⟨i1, i2, i3⟩ := ih h6 hd
    have z : ∀ l, r.idx ≠ nsp * l := fun l e => by
      rw [h1] at e
      have := (index_inj (c := l) (d := 0) h3 (by omega) e).2
      omega
    by_cases he : p = (j, k)
    · subst he
      have n1 := i2 hp
      refine ⟨fun _ => ?_, fun h => absurd (by simp) h, fun l => ?_⟩
      · rw [rowSum, if_pos h1, n1, add_zero]
        exact sRow_sound h5 h4 hN (hW k (by omega)) (hW j h2) (hW _ (by omega)) hb
      · rw [rowSum, if_neg (z l), i3, zero_add]
    · have ne : r.idx ≠ nsp * (j + 1) + (k + 1) := by
        intro e
        rw [h1] at e
        obtain ⟨a, b⟩ := index_inj h3 hk e
        exact he (Prod.ext (by omega) (by omega))
      refine ⟨fun hm => ?_, fun hm => ?_, fun l => ?_⟩
      · rw [rowSum, if_neg ne, zero_add]
        exact i1 ((List.mem_cons.1 hm).resolve_left (Ne.symm he))
      · rw [rowSum, if_neg ne, zero_add]
        exact i2 fun h => hm (by simp [h])
      · rw [rowSum, if_neg (z l), i3, zero_add]

/-- The columns and rows of a reaction that changes the species `ks`. -/
def sPairs (ks : List Nat) (nsp : Nat) : List (Nat × Nat) := (List.range (nsp - 1)).flatMap fun j => ks.map fun k => (j, k)

theorem sPairs_mem {ks : List Nat} {nsp j k : Nat} : (j, k) ∈ sPairs ks nsp ↔ j < nsp - 1 ∧ k ∈ ks := by
  simp [sPairs]

theorem sPairs_nodup {ks : List Nat} (h : ks.Nodup) (nsp : Nat) : (sPairs ks nsp).Nodup := by
  unfold sPairs
  rw [List.nodup_flatMap]
  refine ⟨fun j _ => h.map fun a b h => by simpa using h, ?_⟩
  refine List.nodup_range.imp fun {a b} hab => ?_
  intro x hx hy
  simp only [List.mem_map] at hx hy
  obtain ⟨_, _, rfl⟩ := hx
  obtain ⟨_, _, e⟩ := hy
  exact hab (by simpa using (congrArg Prod.fst e).symm)

/-- The species of the first rows. -/
def rowSpecies (m nsp : Nat) (rs : List JRow) : List Nat := (rs.take m).map fun r => r.idx - (nsp + 1)

/-- The second halves of the blocks. -/
def sBlocksOk (D : Package) (ws : List Nat) : List (List CStmt × List CStmt) → List Numbered → Bool
  | [], ns => ns.isEmpty
  | b :: bs, ns => match ns with
    | [] => false
    | n :: ns => n.r.reversible && sLocalsOk D n (splitJac b.2).1 && (match rowsOf (splitJac b.2).2 with
      | none => false
      | some rs => (rowSpecies (n.r.changed D.nsp).length D.nsp rs).isPerm (n.r.changed D.nsp) &&
        sRowsOk n D.nsp ws (sPairs (rowSpecies (n.r.changed D.nsp).length D.nsp rs) D.nsp) rs) && sBlocksOk D ws bs ns

theorem sBlocks_append {D : Package} {ws : List Nat} (bs : List (List CStmt × List CStmt)) {bs' : List (List CStmt × List CStmt)}
    {ns ns' : List Numbered} (h : sBlocksOk D ws bs ns = true) (h' : sBlocksOk D ws bs' ns' = true) :
    sBlocksOk D ws (bs ++ bs') (ns ++ ns') = true := by
  induction bs generalizing ns with
  | nil =>
    have : ns = [] := by simpa [sBlocksOk] using h
    subst this
    exact h'
  | cons b bs ih =>
    cases ns with
    | nil => exact absurd h (by simp [sBlocksOk])
    | cons n ns =>
      simp only [sBlocksOk, Bool.and_eq_true, List.cons_append] at h ⊢
      exact ⟨h.1, ih h.2⟩

theorem sBlocks_take {D : Package} {ws : List Nat} {bs : List (List CStmt × List CStmt)} {ns : List Numbered} (k : Nat)
    (h : sBlocksOk D ws (bs.take k) (ns.take k) = true) (h' : sBlocksOk D ws (bs.drop k) (ns.drop k) = true) : sBlocksOk D ws bs ns = true := by
  have := sBlocks_append _ h h'
  rwa [List.take_append_drop, List.take_append_drop] at this

/-- What a block adds to the columns of the species. -/
def SAdds (D : Package) (n : Numbered) (v : JacobVals ℝ) (c : Nat → ℝ) : Prop :=
  n.r.reversible = true ∧ ∃ jt pt kf kr, SMid D n v jt pt ∧ SRates D n v kf kr ∧
    (∀ j k, j < D.nsp - 1 → k + 1 < D.nsp → n.r.net k ≠ 0 →
      SRow n (D.nsp - 1) D.molWeight v jt pt kf kr j k (c (D.nsp * (j + 1) + (k + 1)))) ∧
    (∀ j k, k + 1 < D.nsp → n.r.net k = 0 → c (D.nsp * (j + 1) + (k + 1)) = 0) ∧ ∀ j, c (D.nsp * (j + 1)) = 0

theorem BlocksAdd.species {D : Package} {ws : List Nat} {v : JacobVals ℝ} {bs : List (List CStmt × List CStmt)} {ns : List Numbered}
    {cs : List (Nat → ℝ)} (h : BlocksAdd D ws v bs ns cs) (hs : sBlocksOk D ws bs ns = true)
    (hw : (List.range D.nsp).map D.weight5 = ws) (hN : 0 < ws.getD (D.nsp - 1) 0) (hT : 0 < v.T) : List.Forall₂ (SAdds D · v ·) ns cs := by
  have hlen : ws.length = D.nsp := by rw [← hw]; simp
  have hW : ∀ i, i < D.nsp → D.molWeight i = (ws.getD i 0 : ℝ) / 10 ^ 5 := by
    intro i hi
    have : ws.getD i 0 = D.weight5 i := by rw [← hw, List.getD_eq_getElem?_getD]; simp [hi]
    rw [this]
    rfl
  induction h with
  | nil => exact .nil
  | @cons n b c bs ns cs h1 _ ih =>
    unfold sBlocksOk at hs
    simp only [Bool.and_eq_true] at hs
    obtain ⟨⟨⟨hr, hl⟩, hrs⟩, hrest⟩ := hs
    refine .cons ⟨hr, ?_⟩ (ih hrest)
    obtain ⟨-, τ, rs', hb, hm, hrow, hc⟩ := h1
    rw [hrow] at hrs
    simp only [Bool.and_eq_true] at hrs
    obtain ⟨hperm, hrs⟩ := hrs
    have hperm := List.isPerm_iff.1 hperm
    generalize rowSpecies (n.r.changed D.nsp).length D.nsp rs' = ks at hperm hrs
    have hks : ks.Nodup := hperm.nodup_iff.2 (changed_nodup _ _)
    have hmem : ∀ k, k ∈ ks ↔ k < D.nsp ∧ n.r.net k ≠ 0 := fun k => by
      rw [hperm.mem_iff]
      simp [Reaction.changed]
    obtain ⟨b1, m1, r1⟩ := sLocals_sound hl hb hm hT
    have hidx : ∀ j k, ws.length ≤ D.nsp * (j + 1) + k := fun j k => by
      rw [hlen, Nat.mul_add]
      omega
    refine ⟨_, _, _, _, m1, r1, fun j k hj hk hne => ?_, fun j k hk hne => ?_, fun j => ?_⟩
    · rw [hc _ (hidx j _)]
      exact (sRows_sound _ hrs (sPairs_nodup hks _) hN hW b1 j k hk).1 (sPairs_mem.2 ⟨hj, (hmem k).2 ⟨by omega, hne⟩⟩)
    · rw [hc _ (hidx j _)]
      exact (sRows_sound _ hrs (sPairs_nodup hks _) hN hW b1 j k hk).2.1 fun h => ((hmem k).1 (sPairs_mem.1 h).2).2 hne
    · rw [hc (D.nsp * (j + 1)) (hidx j 0)]
      by_cases h0 : 1 < D.nsp
      · exact (sRows_sound _ hrs (sPairs_nodup hks _) hN hW b1 0 0 (by omega)).2.2 (j + 1)
      · have : sPairs ks D.nsp = [] := by
          unfold sPairs
          have : D.nsp - 1 = 0 := by omega
          rw [this]
          rfl
        rw [this] at hrs
        have : rs' = [] := by simpa [sRowsOk] using hrs
        rw [this]
        rfl

end DLB
