import Verif.Lemmas.Falloff
import Verif.Lemmas.Shipped
/-
The check of the rate coefficients, equilibrium constants and falloff factors of a mechanism, and what it means for the calls.
-/
set_option autoImplicit false
set_option linter.unusedSectionVars false

namespace DLB

/-- The block of reaction `n` in eval_rxn_rates is as chem.cti says. -/
def lawOk (D : Package) (n : Numbered) (b : List CStmt) : Bool := match rateBlock b with
  | some B => decide (B.k = n.k) && B.reacs.isPerm n.r.reactants && arrheniusOk (D.law n.k).high n.r.order B.kf &&
    (!n.r.reversible || match B.rev with
      | some R => decide (R.j = n.j) && R.prods.isPerm n.r.products && kcOk D.nsp D.fit n.r R
      | none => false)
  | none => false

/-- All blocks of eval_rxn_rates. -/
def lawsOk (D : Package) : List (List CStmt) → List Numbered → Bool
  | b :: bs, n :: ns => lawOk D n b && lawsOk D bs ns
  | _, _ => true

/-- The block of reaction `n` in get_rxn_pres_mod is as chem.cti says, if it is a falloff reaction. -/
def presLawOk (D : Package) (n : Numbered) (b : List CStmt) : Bool := match n.r.kind, D.law n.k with
  | .falloff eff, .falloff kInf k0 troe => falloffOk D.nsp n.r n.p eff kInf k0 troe b
  | .falloff _, .simple _ => false
  | _, .simple _ => true
  | _, .falloff _ _ _ => false

/-- All blocks of get_rxn_pres_mod. -/
def presLawsOk (D : Package) : List (List CStmt) → List Numbered → Bool
  | bs, n :: ns => if n.r.modified then
      match bs with
      | [] => false
      | b :: bs => presLawOk D n b && presLawsOk D bs ns
    else presLawsOk D bs ns
  | _, [] => true

/-- What is checked of the rate laws of a mechanism. -/
structure LawsChecked (D : Package) : Prop where
  rates : lawsOk D D.mech.rateBlocks (number D.reactions) = true
  pres : presLawsOk D D.mech.presModBlocks (number D.reactions) = true

section
variable {K : Type} [Field K] [LinearOrder K] [IsStrictOrderedRing K] [CMath K]

theorem execT_of_not_target (p : List CStmt) (τ : CLoc → K) (l : CLoc) (h : ∀ s ∈ p, s.target ≠ l) : execT p τ l = τ l := by
  have := congrFun (execF_of_not_target p (fun l (_ : Nat → K) => τ l) l h) (fun _ => 0)
  exact this

/-- The forward and the reverse rate of a reaction are computed by one block. -/
theorem rates_locate (D : Package) (rs : List Reaction) (bs : List (List CStmt)) (k j p : Nat)
    (h : ratesOk bs (numberFrom rs k j p) = true) (hl : lawsOk D bs (numberFrom rs k j p) = true) :
    ∀ n ∈ numberFrom rs k j p, ∃ b, lawOk D n b = true ∧ ∀ τ : CLoc → K, ∃ τ' : CLoc → K,
      τ' (.var .T) = τ (.var .T) ∧ τ' (.var .logT) = τ (.var .logT) ∧
      (∀ i, τ' (.arr .C i) = τ (.arr .C i)) ∧ execT bs.flatten τ (.arr .fwd n.k) = execT b τ' (.arr .fwd n.k) ∧
      (n.r.reversible = true → execT bs.flatten τ (.arr .rev n.j) = execT b τ' (.arr .rev n.j)) := by
  induction rs generalizing k j p bs with
  | nil => intro n hn; exact absurd hn (by simp [numberFrom])
  | cons r rs ih =>
    rw [numberFrom] at h hl ⊢
    cases bs with
    | nil => exact absurd h (by simp [ratesOk])
    | cons b bs =>
      simp only [ratesOk, lawsOk, Bool.and_eq_true] at h hl
      obtain ⟨hb, hbs⟩ := h
      obtain ⟨lb, lbs⟩ := hl
      have ht := rateBlock_targets hb
      have hnb : ∀ l, (l ≠ .var .kf ∧ l ≠ .var .Kc ∧ (∀ i, l ≠ .arr .fwd i) ∧ (∀ i, l ≠ .arr .rev i)) →
          ∀ τ : CLoc → K, execT b τ l = τ l := by
        intro l hl τ
        refine execT_of_not_target b τ l fun s hs e => ?_
        rcases ht s hs with h' | h' | h' | ⟨_, h'⟩ <;> rw [h'] at e
        · exact hl.1 e.symm
        · exact hl.2.1 e.symm
        · exact hl.2.2.1 _ e.symm
        · exact hl.2.2.2 _ e.symm
      intro n hn
      rw [List.mem_cons] at hn
      rcases hn with rfl | hn
      · have hge := numberFrom_ge rs (k + 1) (if r.reversible then j + 1 else j) (if r.modified then p + 1 else p)
        refine ⟨b, lb, fun τ => ⟨τ, rfl, rfl, fun _ => rfl, ?_, fun hr => ?_⟩⟩
        · rw [List.flatten_cons, execT_append]
          refine execT_of_not_target _ _ _ fun s hs e => ?_
          rcases ratesOk_targets bs _ hbs s hs with h' | h' | ⟨n', hn', h' | ⟨_, h'⟩⟩ <;> rw [h'] at e
          · simp at e
          · simp at e
          · have := (hge n' hn').1
            simp only [CLoc.arr.injEq, true_and] at e
            omega
          · simp at e
        · rw [List.flatten_cons, execT_append]
          refine execT_of_not_target _ _ _ fun s hs e => ?_
          rcases ratesOk_targets bs _ hbs s hs with h' | h' | ⟨n', hn', h' | ⟨_, h'⟩⟩ <;> rw [h'] at e
          · simp at e
          · simp at e
          · simp at e
          · have := (hge n' hn').2.1
            simp only [CLoc.arr.injEq, true_and] at e
            dsimp only at hr
            simp only [hr, if_true] at this
            omega
      · obtain ⟨b', e1, hb'⟩ := ih bs _ _ _ hbs lbs n hn
        refine ⟨b', e1, fun τ => ?_⟩
        obtain ⟨τ', e2, e3, e4, e5, e6⟩ := hb' (execT b τ)
        refine ⟨τ', ?_, ?_, fun i => ?_, ?_, fun hr => ?_⟩
        · rw [e2]; exact hnb _ (by simp) τ
        · rw [e3]; exact hnb _ (by simp) τ
        · rw [e4]; exact hnb _ (by simp) τ
        · rw [List.flatten_cons, execT_append]; exact e5
        · rw [List.flatten_cons, execT_append]; exact e6 hr

/-- The factor of a reaction is computed by one block. -/
theorem pres_locate (D : Package) (nsp : Nat) (rs : List Reaction) (bs : List (List CStmt)) (k j p : Nat)
    (h : presOk nsp bs (numberFrom rs k j p) = true) (hl : presLawsOk D bs (numberFrom rs k j p) = true) :
    ∀ n ∈ numberFrom rs k j p, n.r.modified = true → ∃ b, presLawOk D n b = true ∧ ∀ τ : CLoc → K, ∃ τ' : CLoc → K,
      τ' (.var .T) = τ (.var .T) ∧
      τ' (.var .logT) = τ (.var .logT) ∧ τ' (.var .m) = τ (.var .m) ∧
      (∀ i, τ' (.arr .C i) = τ (.arr .C i)) ∧ execT bs.flatten τ (.arr .presMod n.p) = execT b τ' (.arr .presMod n.p) := by
  induction rs generalizing k j p bs with
  | nil => intro n hn; exact absurd hn (by simp [numberFrom])
  | cons r rs ih =>
    rw [numberFrom] at h hl ⊢
    unfold presOk at h
    unfold presLawsOk at hl
    by_cases hm : r.modified = true
    · simp only [hm, if_true] at h hl ⊢
      cases bs with
      | nil => exact absurd h (by simp)
      | cons b bs =>
        simp only [Bool.and_eq_true] at h hl
        obtain ⟨hb, hbs⟩ := h
        obtain ⟨lb, lbs⟩ := hl
        have ht := presBlock_targets hb
        have hnb : ∀ l, ((∀ v ∈ [CVar.thd, .k0, .kinf, .Pr, .logFcent, .A, .B], l ≠ .var v) ∧
            (∀ i, l ≠ .arr .presMod i)) → ∀ τ : CLoc → K, execT b τ l = τ l := by
          intro l hl τ
          refine execT_of_not_target b τ l fun s hs e => ?_
          rcases ht s hs with ⟨v, hv, h'⟩ | h' <;> rw [h'] at e
          · exact hl.1 v hv e.symm
          · exact hl.2 _ e.symm
        intro n hn hm'
        rw [List.mem_cons] at hn
        rcases hn with rfl | hn
        · have hge := numberFrom_ge rs (k + 1) (if r.reversible then j + 1 else j) (p + 1)
          refine ⟨b, lb, fun τ => ⟨τ, rfl, rfl, rfl, fun _ => rfl, ?_⟩⟩
          rw [List.flatten_cons, execT_append]
          refine execT_of_not_target _ _ _ fun s hs e => ?_
          rcases presOk_targets nsp bs _ hbs s hs with ⟨v, _, h'⟩ | ⟨n', hn', hm', h'⟩ <;> rw [h'] at e
          · simp at e
          · have := (hge n' hn').2.2
            simp only [CLoc.arr.injEq, true_and] at e
            omega
        · obtain ⟨b', e1, hb'⟩ := ih bs _ _ _ hbs lbs n hn hm'
          refine ⟨b', e1, fun τ => ?_⟩
          obtain ⟨τ', e2, e3, e3', e4, e5⟩ := hb' (execT b τ)
          refine ⟨τ', ?_, ?_, ?_, fun i => ?_, ?_⟩
          · rw [e2]; exact hnb _ (by simp) τ
          · rw [e3]; exact hnb _ (by simp) τ
          · rw [e3']; exact hnb _ (by simp) τ
          · rw [e4]; exact hnb _ (by simp) τ
          · rw [List.flatten_cons, execT_append]; exact e5
    · simp only [hm] at h hl ⊢
      intro n hn hm'
      rw [List.mem_cons] at hn
      rcases hn with rfl | hn
      · exact absurd hm' hm
      · exact ih bs _ _ _ h hl n hn hm'

end

/-- The rate coefficients of a reaction. -/
theorem laws_rates {D : Package} (hc : Checked D) (hl : LawsChecked D) (T pres : ℝ) (hT : 0 < T) :
    ∀ n ∈ number D.reactions, ∃ kf : ℝ, (∃ η : ℝ, |η| ≤ (1 + |(D.law n.k).high.temperature| / T) / 10 ^ 14 ∧
        kf = (D.law n.k).high.coefficient n.r.order T * Real.exp η) ∧ 0 < kf ∧
      (∀ C : Nat → ℝ, execT (D.mech.rateStart ++ D.mech.rateBlocks.flatten) (inT T pres C) (.arr .fwd n.k) =
        kf * (n.r.reactants.map C).prod) ∧
      (n.r.reversible = true → ∃ Kc : ℝ, (∃ ε : ℝ, |ε| ≤ (1 + gibbsTerms D.nsp D.fit n.r T) / 10 ^ 14 ∧
          Kc = equilibriumConstant D.nsp D.fit n.r T * Real.exp ε) ∧
        ∀ C : Nat → ℝ, execT (D.mech.rateStart ++ D.mech.rateBlocks.flatten) (inT T pres C) (.arr .rev n.j) =
          kf / Kc * (n.r.products.map C).prod) := by
  intro n hn
  have hr : ratesOk D.mech.rateBlocks (number D.reactions) = true := by
    have := hc.rates
    simp only [checkRates, Bool.and_eq_true] at this
    exact this.2
  -- the state after the first statement
  have hstart : ∀ C : Nat → ℝ, execT D.mech.rateStart (inT T pres C) = setT (inT T pres C) (.var .logT) (Real.log T) := by
    intro C
    rw [rates_start hc.rates]
    rfl
  obtain ⟨b, hb, hloc⟩ := rates_locate (K := ℝ) D D.reactions D.mech.rateBlocks 0 0 0 hr hl.rates n hn
  unfold lawOk at hb
  split at hb
  · rename_i B hB
    simp only [Bool.and_eq_true, decide_eq_true_eq, Bool.or_eq_true, Bool.not_eq_true'] at hb
    obtain ⟨⟨⟨hk, hre⟩, ha⟩, hrev⟩ := hb
    obtain ⟨hpos, η, hη, hkf⟩ := arrheniusOk_sound ha T hT
    have hsound : ∀ C : Nat → ℝ,
        execT (D.mech.rateStart ++ D.mech.rateBlocks.flatten) (inT T pres C) (.arr .fwd n.k) =
          B.kf.eval T (Real.log T) * (n.r.reactants.map C).prod ∧
        ∀ R, B.rev = some R → R.j = n.j → n.r.reversible = true →
          execT (D.mech.rateStart ++ D.mech.rateBlocks.flatten) (inT T pres C) (.arr .rev n.j) =
          B.kf.eval T (Real.log T) * (R.prods.map C).prod / R.eval T (Real.log T) := by
      intro C
      obtain ⟨τ', e2, e3, e4, e5, e6⟩ := hloc (setT (inT T pres C) (.var .logT) (Real.log T))
      have e2 : τ' (.var .T) = T := by rw [e2]; simp [setT, inT]
      have e3 : τ' (.var .logT) = Real.log T := by rw [e3]; simp [setT]
      have e4 : (fun i => τ' (.arr .C i)) = C := by funext i; rw [e4]; simp [setT, inT]
      obtain ⟨s1, s2⟩ := rateBlock_sound b B τ' hB
      rw [e2, e3, e4] at s1
      refine ⟨?_, fun R hR hj hrv => ?_⟩
      · rw [execT_append, hstart, e5, ← hk, s1, (List.isPerm_iff.1 hre).map C |>.prod_eq]
      · have := s2 R hR
        rw [e2, e3, e4] at this
        rw [execT_append, hstart, e6 hrv, ← hj, this]
    refine ⟨B.kf.eval T (Real.log T), ⟨η, hη, hkf⟩, by rw [hkf]; exact mul_pos hpos (Real.exp_pos _), fun C => (hsound C).1, ?_⟩
    intro hrv
    rcases hrev with hrev | hrev
    · rw [hrv] at hrev; exact absurd hrev (by simp)
    · split at hrev
      · rename_i R hR
        simp only [Bool.and_eq_true, decide_eq_true_eq] at hrev
        obtain ⟨⟨hj, hp⟩, hK⟩ := hrev
        refine ⟨R.eval T (Real.log T), kcOk_sound hK T hT, fun C => ?_⟩
        rw [(hsound C).2 R hR hj hrv, (List.isPerm_iff.1 hp).map C |>.prod_eq]
        ring
      · exact absurd hrev (by simp)
  · exact absurd hb (by simp)

/-- The factor of a falloff reaction. -/
theorem laws_pres {D : Package} (hc : Checked D) (hl : LawsChecked D) (T pres : ℝ) (hT : 0 < T) (hT' : T ≤ 10 ^ 5) :
    ∀ n ∈ number D.reactions, ∀ eff, n.r.kind = .falloff eff → ∃ kInf k0 troe, D.law n.k = .falloff kInf k0 troe ∧
      ∃ η : ℝ, |η| ≤ (2 + (|k0.temperature| + |kInf.temperature|) / T) / 10 ^ 14 ∧ ∀ (C : Nat → ℝ) (Pr : ℝ),
        pres / (gasR * T) = ∑ i ∈ Finset.range D.nsp, C i →
        Pr = k0.coefficient (n.r.reactants.length + 1) T * thirdBody D.nsp eff C / kInf.coefficient n.r.reactants.length T *
          Real.exp η →
        execT (D.mech.presModStart ++ D.mech.presModBlocks.flatten) (inT T pres C) (.arr .presMod n.p) =
          broadening troe T Pr * Pr / (1 + Pr) := by
  intro n hn eff hk
  have hr : presOk D.nsp D.mech.presModBlocks (number D.reactions) = true := by
    have := hc.presMod
    simp only [checkPresMod, Bool.and_eq_true] at this
    exact this.2
  have hm : n.r.modified = true := by simp [Reaction.modified, hk]
  obtain ⟨b, hb, hloc⟩ := pres_locate (K := ℝ) D D.nsp D.reactions D.mech.presModBlocks 0 0 0 hr hl.pres n hn hm
  unfold presLawOk at hb
  rw [hk] at hb
  cases hlaw : D.law n.k with
  | simple k => rw [hlaw] at hb; exact absurd hb (by simp)
  | falloff kInf k0 troe =>
    rw [hlaw] at hb
    simp only at hb
    refine ⟨kInf, k0, troe, rfl, ?_⟩
    obtain ⟨η, hη, hs⟩ := falloffOk_sound hb T hT hT'
    refine ⟨η, hη, fun C Pr hC hPr => ?_⟩
    obtain ⟨τ', e2, e3, e3', e4, e5⟩ := hloc (execT D.mech.presModStart (inT T pres C))
    rw [execT_append, e5]
    rw [pres_start hc.presMod] at e2 e3 e3' e4
    have e2 : τ' (.var .T) = T := by rw [e2]; simp [execT, CStmt.execT, setT, inT]
    have e3 : τ' (.var .logT) = Real.log T := by rw [e3]; simp [execT, CStmt.execT, setT, inT, CExpr.evalT]; rfl
    have e4 : (fun i => τ' (.arr .C i)) = C := by funext i; rw [e4]; simp [execT, CStmt.execT, setT, inT]
    have e3' : τ' (.var .m) = ∑ i ∈ Finset.range D.nsp, τ' (.arr .C i) := by
      have e4' : ∀ i, τ' (.arr .C i) = C i := fun i => congrFun e4 i
      simp only [e4', ← hC]
      rw [e3']
      simp [execT, CStmt.execT, setT, inT, CExpr.evalT, gasConstant, sci_eq, gasR]
    exact hs τ' Pr e2 e3 e3' (by rw [e4]; exact hPr)

end DLB
