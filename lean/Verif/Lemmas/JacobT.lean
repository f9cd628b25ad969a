import Verif.Lemmas.JacobRows
import Verif.Lemmas.JacobCalls
import Verif.Lemmas.RateChecks
/-
The statements "partial wrt T" of the parts of `eval_jacob`: what they compute.
-/
set_option autoImplicit false
set_option linter.unusedSectionVars false

namespace DLB

/-- The inputs of the parts of `eval_jacob` and the variables set at their start have the values `v`. -/
structure Base (v : JacobVals ℝ) (τ : CLoc → ℝ) : Prop where
  T : τ (.var .T) = v.T
  m : τ (.var .m) = v.m
  mw : τ (.var .mwAvg) = v.mwAvg
  logT : τ (.var .logT) = Real.log v.T
  rhoInv : τ (.var .rhoInv) = 1 / v.rho
  C : ∀ i, τ (.arr .C i) = v.C i
  F : ∀ i, τ (.arr .fwd i) = v.F i
  R : ∀ i, τ (.arr .rev i) = v.R i
  P : ∀ i, τ (.arr .presMod i) = v.P i
  dB : ∀ i, τ (.arr .dBdT i) = v.dB i

/-- Locations that `Base` speaks about. -/
def CLoc.base : CLoc → Bool
  | .var .T | .var .m | .var .mwAvg | .var .logT | .var .rhoInv => true
  | .arr .C _ | .arr .fwd _ | .arr .rev _ | .arr .presMod _ | .arr .dBdT _ => true
  | _ => false

theorem Base.congr {v : JacobVals ℝ} {τ τ' : CLoc → ℝ} (h : Base v τ) (he : ∀ l, CLoc.base l = true → τ' l = τ l) : Base v τ' where
  T := (he _ rfl).trans h.T
  m := (he _ rfl).trans h.m
  mw := (he _ rfl).trans h.mw
  logT := (he _ rfl).trans h.logT
  rhoInv := (he _ rfl).trans h.rhoInv
  C := fun i => (he _ rfl).trans (h.C i)
  F := fun i => (he _ rfl).trans (h.F i)
  R := fun i => (he _ rfl).trans (h.R i)
  P := fun i => (he _ rfl).trans (h.P i)
  dB := fun i => (he _ rfl).trans (h.dB i)

/-- Sort. -/
def sortKey (l : List Nat) : List Nat := mergeN l []

theorem codesVal_sort (τ : CLoc → ℝ) (l : List Nat) : codesVal τ (sortKey l) = codesVal τ l := by
  rw [sortKey, codesVal_mergeN]
  simp [codesVal]

theorem codesVal_cons (τ : CLoc → ℝ) (l : CLoc) (c : List Nat) : codesVal τ (l.code :: c) = τ l * codesVal τ c := by
  simp [codesVal, CLoc.decode_code]

theorem codesVal_nil (τ : CLoc → ℝ) : codesVal τ [] = 1 := by simp [codesVal]

/-- The element of `pres_mod` of a reaction, if it has one. -/
def pmCodes (n : Numbered) : List Nat := if n.r.modified then [(CLoc.arr .presMod n.p).code] else []

/-- Its value. -/
noncomputable def JacobVals.pm (v : JacobVals ℝ) (n : Numbered) : ℝ := if n.r.modified then v.P n.p else 1

theorem codesVal_pm {v : JacobVals ℝ} {τ : CLoc → ℝ} (h : Base v τ) (n : Numbered) : codesVal τ (pmCodes n) = v.pm n := by
  unfold pmCodes JacobVals.pm
  split
  · rw [codesVal_cons, codesVal_nil, mul_one, h.P]
  · rw [codesVal_nil]

/-- The reverse rate of a reaction; zero if it has none. -/
noncomputable def JacobVals.Rv (v : JacobVals ℝ) (n : Numbered) : ℝ := if n.r.reversible then v.R n.j else 0

theorem JacobVals.Rv_pos (v : JacobVals ℝ) {n : Numbered} (h : n.r.reversible = true) : v.Rv n = v.R n.j := if_pos h

/-- The terms of the temperature derivative of an irreversible reaction. -/
def tKeysF (n : Numbered) : List NKey :=
  let f := (CLoc.arr .fwd n.k).code
  let ri := (CLoc.var .rhoInv).code
  let T := (CLoc.var .T).code
  [(sortKey (f :: ri :: pmCodes n), [T]), (sortKey (f :: ri :: pmCodes n), [T, T])]

/-- The terms of the temperature derivative of a reversible reaction. -/
def tKeys (n : Numbered) (dBs : List Nat) : List NKey :=
  let f := (CLoc.arr .fwd n.k).code
  let r := (CLoc.arr .rev n.j).code
  let ri := (CLoc.var .rhoInv).code
  let T := (CLoc.var .T).code
  (sortKey (f :: ri :: pmCodes n), [T]) :: (sortKey (r :: ri :: pmCodes n), [T]) ::
  (sortKey (f :: ri :: pmCodes n), [T, T]) :: (sortKey (r :: ri :: pmCodes n), [T, T]) ::
  dBs.map fun i => (sortKey (r :: (CLoc.arr .dBdT i).code :: T :: ri :: pmCodes n), [T])

/-- The coefficients of `dBdT` are the stoichiometric ones. -/
def netCoefs (r : Reaction) : List Nat → List SDec → Bool
  | [], cs => cs.isEmpty
  | s :: l, cs => match cs with
    | [] => false
    | c :: cs => sameDec c (r.net s, 0) && netCoefs r l cs

theorem netCoefs_sound (τ : CLoc → ℝ) (r : Reaction) (K : Nat → NKey) (l : List Nat) (cs : List SDec) (h : netCoefs r l cs = true) :
    pairVal τ (l.map K) cs = (l.map fun s => (r.net s : ℝ) * keyVal τ (K s)).sum := by
  induction l generalizing cs with
  | nil => simp [pairVal]
  | cons s l ih =>
    cases cs with
    | nil => exact absurd h (by simp [netCoefs])
    | cons c cs =>
      simp only [netCoefs, Bool.and_eq_true] at h
      rw [List.map_cons, pairVal, ih cs h.2, sameDec_sound h.1]
      simp [SDec.val]

/-- The decimal number is `b + q` up to `10^(-14)`. -/
def closeB (d b : SDec) (q : Int) : Bool := closeQ d (b.1 + q * 10 ^ b.2) (10 ^ b.2) (10 ^ b.2)

theorem closeB_sound {d b : SDec} {q : Int} (h : closeB d b q = true) :
    |(SDec.val d : ℝ) - (SDec.val b + q)| ≤ 1 / 10 ^ 14 := by
  have := closeQ_sound (by positivity) h
  have e1 : ((b.1 + q * 10 ^ b.2 : Int) : ℝ) / ((10 ^ b.2 : Nat) : ℝ) = SDec.val b + q := by
    unfold SDec.val
    push_cast
    field_simp
  have e2 : ((10 ^ b.2 : Nat) : ℝ) / ((10 ^ b.2 : Nat) : ℝ) = 1 := div_self (by positivity)
  rwa [e1, e2] at this

/-- The decimal number is the activation temperature times `s` up to `10^(-14)`. -/
def closeTa (d : SDec) (a : Arrhenius) (s : Int) : Bool :=
  closeQ d (s * a.E.1 * 41840000) (83144621 * 10 ^ a.E.2) (s * a.E.1 * 41840000).natAbs

theorem closeTa_sound {d : SDec} {a : Arrhenius} {s : Int} (h : closeTa d a s = true) :
    |(SDec.val d : ℝ) - s * a.temperature| ≤ |(s : ℝ)| * |a.temperature| / 10 ^ 14 := by
  have := closeQ_sound (by positivity) h
  have e1 : ((s * a.E.1 * 41840000 : Int) : ℝ) / ((83144621 * 10 ^ a.E.2 : Nat) : ℝ) = s * a.temperature := by
    unfold Arrhenius.temperature SDec.val gasR
    push_cast
    field_simp
    ring
  have e2 : (((s * a.E.1 * 41840000).natAbs : Nat) : ℝ) / ((83144621 * 10 ^ a.E.2 : Nat) : ℝ) = |(s : ℝ)| * |a.temperature| := by
    rw [← abs_mul, ← e1, abs_div, Nat.cast_natAbs, Int.cast_abs, abs_of_nonneg (Nat.cast_nonneg (α := ℝ) (83144621 * 10 ^ a.E.2))]
  rwa [e1, e2] at this

/-- The coefficients of the temperature derivative. -/
def tCoefsOk (a : Arrhenius) (r : Reaction) (φ : Int) (dBs : List Nat) : List SDec → Bool
  | c1 :: c2 :: c3 :: c4 :: cs => closeB c1 a.b (1 - (r.reactants.length : Int) + φ) &&
    closeB (-c2.1, c2.2) a.b (1 - (r.products.length : Int) + φ) && closeTa c3 a 1 && closeTa c4 a (-1) && netCoefs r dBs cs
  | _ => false

/-- The expression is the temperature derivative of a reaction as far as its rate coefficients and the concentrations are concerned,
`φ / T` being the logarithmic derivative of the factor for third bodies. -/
def tLinOk (a : Arrhenius) (n : Numbered) (nsp : Nat) (φ : Int) (e : CExpr) : Bool :=
  if n.r.reversible then
    match e.coefs (tKeys n (n.r.changed nsp)) with
    | some cs => tCoefsOk a n.r φ (n.r.changed nsp) cs
    | none => false
  else
    match e.coefs (tKeysF n) with
    | some [c1, c3] => closeB c1 a.b (1 - (n.r.reactants.length : Int) + φ) && closeTa c3 a 1
    | _ => false

/-- What such an expression computes. -/
def TLin (a : Arrhenius) (n : Numbered) (nsp : Nat) (φ : Int) (v : JacobVals ℝ) (x : ℝ) : Prop :=
  ∃ c1 c2 c3 c4 : ℝ, |c1 - (SDec.val a.b + (1 - n.r.reactants.length + φ))| ≤ 1 / 10 ^ 14 ∧
    |c2 - (SDec.val a.b + (1 - n.r.products.length + φ))| ≤ 1 / 10 ^ 14 ∧
    |c3 - a.temperature| ≤ |a.temperature| / 10 ^ 14 ∧ |c4 - a.temperature| ≤ |a.temperature| / 10 ^ 14 ∧
    x = 1 / v.rho * v.pm n * (1 / v.T) * (v.F n.k * (c1 + c3 / v.T) - v.Rv n * (c2 + c4 / v.T -
      v.T * ∑ s ∈ Finset.range nsp, (n.r.net s : ℝ) * v.dB s))

theorem tLin_sound {a : Arrhenius} {n : Numbered} {nsp : Nat} {φ : Int} {e : CExpr} (h : tLinOk a n nsp φ e = true)
    {v : JacobVals ℝ} {τ : CLoc → ℝ} (hb : Base v τ) (hT : v.T ≠ 0) : TLin a n nsp φ v (e.evalT τ) := by
  unfold tLinOk at h
  by_cases hrev : n.r.reversible = true
  swap
  · rw [if_neg hrev] at h
    split at h
    · rename_i c1 c3 hcs
      rw [coefs_sound τ hcs]
      simp only [Bool.and_eq_true] at h
      have h1 := closeB_sound h.1
      have h3 := closeTa_sound h.2
      refine ⟨SDec.val c1, SDec.val a.b + (1 - n.r.products.length + φ), SDec.val c3, a.temperature, ?_, by simp, ?_,
        by simp; positivity, ?_⟩
      · push_cast at h1; exact h1
      · simpa using h3
      · have e1 : ∀ x : CLoc, codesVal τ (sortKey (x.code :: (CLoc.var .rhoInv).code :: pmCodes n)) = τ x * (1 / v.rho * v.pm n) := by
          intro x
          rw [codesVal_sort, codesVal_cons, codesVal_cons, codesVal_pm hb, hb.rhoInv]
        have e2 : codesVal τ [(CLoc.var .T).code] = v.T := by rw [codesVal_cons, codesVal_nil, hb.T, mul_one]
        have e3 : codesVal τ [(CLoc.var .T).code, (CLoc.var .T).code] = v.T * v.T := by
          rw [codesVal_cons, codesVal_cons, codesVal_nil, hb.T, mul_one]
        have e4 : v.Rv n = 0 := if_neg hrev
        simp only [tKeysF, pairVal, keyVal, e1, e2, e3, hb.F, e4]
        field_simp
        ring
    · exact absurd h (by simp)
  rw [if_pos hrev] at h
  rw [TLin, v.Rv_pos hrev]
  split at h
  · rename_i cs hcs
    rw [coefs_sound τ hcs]
    unfold tCoefsOk at h
    split at h
    · rename_i c1 c2 c3 c4 cs
      simp only [Bool.and_eq_true] at h
      obtain ⟨⟨⟨⟨h1, h2⟩, h3⟩, h4⟩, h5⟩ := h
      have h1 := closeB_sound h1
      have h2 := closeB_sound h2
      have h3 := closeTa_sound h3
      have h4 := closeTa_sound h4
      refine ⟨SDec.val c1, SDec.val (-c2.1, c2.2), SDec.val c3, - SDec.val c4, ?_, ?_, ?_, ?_, ?_⟩
      · push_cast at h1; exact h1
      · push_cast at h2; exact h2
      · simpa using h3
      · rw [← abs_neg]
        have e : -(-SDec.val c4 - a.temperature) = SDec.val c4 - ((-1 : Int) : ℝ) * a.temperature := by push_cast; ring
        rw [e]
        simpa using h4
      · have hneg : (SDec.val (-c2.1, c2.2) : ℝ) = - SDec.val c2 := by simp [SDec.val, neg_div]
        have e1 : ∀ x : CLoc, codesVal τ (sortKey (x.code :: (CLoc.var .rhoInv).code :: pmCodes n)) = τ x * (1 / v.rho * v.pm n) := by
          intro x
          rw [codesVal_sort, codesVal_cons, codesVal_cons, codesVal_pm hb, hb.rhoInv]
        have e2 : codesVal τ [(CLoc.var .T).code] = v.T := by rw [codesVal_cons, codesVal_nil, hb.T, mul_one]
        have e3 : codesVal τ [(CLoc.var .T).code, (CLoc.var .T).code] = v.T * v.T := by
          rw [codesVal_cons, codesVal_cons, codesVal_nil, hb.T, mul_one]
        simp only [tKeys, pairVal]
        rw [netCoefs_sound τ n.r _ _ _ h5]
        simp only [keyVal, e1, e2, e3, hb.F, hb.R]
        have e4 : ∀ s, codesVal τ (sortKey ((CLoc.arr .rev n.j).code :: (CLoc.arr .dBdT s).code :: (CLoc.var .T).code ::
            (CLoc.var .rhoInv).code :: pmCodes n)) / v.T = v.R n.j * v.dB s * (1 / v.rho * v.pm n) := by
          intro s
          rw [codesVal_sort, codesVal_cons, codesVal_cons, codesVal_cons, codesVal_cons, codesVal_pm hb, hb.rhoInv, hb.R, hb.dB, hb.T]
          field_simp
        simp only [e4]
        have e5 : ((n.r.changed nsp).map fun s => (n.r.net s : ℝ) * (v.R n.j * v.dB s * (1 / v.rho * v.pm n))).sum =
            v.R n.j * (1 / v.rho * v.pm n) * ∑ s ∈ Finset.range nsp, (n.r.net s : ℝ) * v.dB s := by
          rw [← changed_sum n.r nsp (fun s => (n.r.net s : ℝ) * v.dB s) (fun s hs => by simp [hs]), Finset.mul_sum,
            List.sum_toFinset _ (changed_nodup n.r nsp)]
          congr 1
          refine List.map_congr_left fun s _ => ?_
          ring
        rw [e5, hneg]
        field_simp
        ring
    · exact absurd h (by simp)
  · exact absurd h (by simp)

end DLB
