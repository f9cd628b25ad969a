import Verif.Lemmas.JacobCentre
import Verif.Lemmas.RateBounds
import Verif.Lemmas.JacobBlocks
/-
The array `dBdT` of `eval_jacob`, and bounds of what enters the temperature derivatives.
-/
set_option autoImplicit false
set_option linter.unusedSectionVars false

namespace DLB

/-! ### `dBdT` -/

/-- The decimal number is `a / k` up to rounding. -/
def closeC (c a : SDec) (k : Nat) : Bool := closeQ c a.1 (k * 10 ^ a.2) a.1.natAbs

theorem closeC_sound {c a : SDec} {k : Nat} (hk : 0 < k) (h : closeC c a k = true) :
    |(SDec.val c : ℝ) - SDec.val a / k| ≤ |(SDec.val a : ℝ)| / k / 10 ^ 14 := by
  have := closeQ_sound (by positivity) h
  have e : (a.1 : ℝ) / ((k * 10 ^ a.2 : Nat) : ℝ) = SDec.val a / k := by
    unfold SDec.val
    push_cast
    rw [div_div, mul_comm]
  have e2 : ((a.1.natAbs : Nat) : ℝ) / ((k * 10 ^ a.2 : Nat) : ℝ) = |(SDec.val a : ℝ)| / k := by
    unfold SDec.val
    rw [abs_div, Nat.cast_natAbs, Int.cast_abs, abs_of_pos (show (0 : ℝ) < 10 ^ a.2 by positivity)]
    push_cast
    rw [div_div, mul_comm]
  rwa [e, e2] at this

/-- The decimal number is `a - 1` up to rounding. -/
def closePred (c a : SDec) : Bool := closeQ c (a.1 - 10 ^ a.2) (10 ^ a.2) (a.1.natAbs + 10 ^ a.2)

theorem closePred_sound {c a : SDec} (h : closePred c a = true) :
    |(SDec.val c : ℝ) - (SDec.val a - 1)| ≤ (|(SDec.val a : ℝ)| + 1) / 10 ^ 14 := by
  have := closeQ_sound (by positivity) h
  have e : ((a.1 - 10 ^ a.2 : Int) : ℝ) / ((10 ^ a.2 : Nat) : ℝ) = SDec.val a - 1 := by
    unfold SDec.val
    push_cast
    field_simp
  have e2 : ((a.1.natAbs + 10 ^ a.2 : Nat) : ℝ) / ((10 ^ a.2 : Nat) : ℝ) = |(SDec.val a : ℝ)| + 1 := by
    unfold SDec.val
    rw [abs_div, abs_of_pos (show (0 : ℝ) < 10 ^ a.2 by positivity)]
    push_cast
    rw [Nat.cast_natAbs, Int.cast_abs]
    field_simp
  rwa [e, e2] at this

/-- The expression is `(h / (R T) - 1) / T` up to rounding. -/
def dbExprOk (a : List SDec) (e : CExpr) : Bool :=
  let T := (CLoc.var .T).code
  match e.coefs [([], [T, T]), ([], [T]), ([], []), ([T], []), ([T, T], []), ([T, T, T], [])] with
  | some [c5, c0, c1, c2, c3, c4] => closeC c5 (a.getD 5 (0, 0)) 1 && closePred c0 (a.getD 0 (0, 0)) && closeC c1 (a.getD 1 (0, 0)) 2 &&
    closeC c2 (a.getD 2 (0, 0)) 3 && closeC c3 (a.getD 3 (0, 0)) 4 && closeC c4 (a.getD 4 (0, 0)) 5
  | _ => false

theorem dbExprOk_sound {a : List SDec} {e : CExpr} (h : dbExprOk a e = true) (τ : CLoc → ℝ) (hT : 0 < τ (.var .T)) :
    |e.evalT τ - (hOverR a (τ (.var .T)) / τ (.var .T) - 1) / τ (.var .T)| ≤
      (hTerms a (τ (.var .T)) / τ (.var .T) + 1) / τ (.var .T) / 10 ^ 14 := by
  simp only [dbExprOk] at h
  split at h
  · rename_i c5 c0 c1 c2 c3 c4 hc
    simp only [Bool.and_eq_true] at h
    obtain ⟨⟨⟨⟨⟨h5, h0⟩, h1⟩, h2⟩, h3⟩, h4⟩ := h
    have h5 := closeC_sound (by norm_num) h5
    have h0 := closePred_sound h0
    have h1 := closeC_sound (by norm_num) h1
    have h2 := closeC_sound (by norm_num) h2
    have h3 := closeC_sound (by norm_num) h3
    have h4 := closeC_sound (by norm_num) h4
    rw [coefs_sound τ hc]
    simp only [pairVal, keyVal, codesVal_nil, codesVal_cons, mul_one, div_one, add_zero, one_div]
    generalize τ (.var .T) = T at *
    unfold hOverR hTerms nasaCoeff
    push_cast at h5 h0 h1 h2 h3 h4
    generalize (SDec.val (a.getD 5 (0, 0)) : ℝ) = a5 at *
    generalize (SDec.val (a.getD 0 (0, 0)) : ℝ) = a0 at *
    generalize (SDec.val (a.getD 1 (0, 0)) : ℝ) = a1 at *
    generalize (SDec.val (a.getD 2 (0, 0)) : ℝ) = a2 at *
    generalize (SDec.val (a.getD 3 (0, 0)) : ℝ) = a3 at *
    generalize (SDec.val (a.getD 4 (0, 0)) : ℝ) = a4 at *
    have hT' := hT.ne'
    have e1 : SDec.val c5 * (T * T)⁻¹ + (SDec.val c0 * T⁻¹ + (SDec.val c1 + (SDec.val c2 * T + (SDec.val c3 * (T * T) +
        SDec.val c4 * (T * (T * T)))))) -
        ((a5 + a0 * T + a1 * T ^ 2 / 2 + a2 * T ^ 3 / 3 + a3 * T ^ 4 / 4 + a4 * T ^ 5 / 5) / T - 1) / T =
        (SDec.val c5 - a5 / 1) * (T * T)⁻¹ + ((SDec.val c0 - (a0 - 1)) * T⁻¹ + ((SDec.val c1 - a1 / 2) + ((SDec.val c2 - a2 / 3) * T +
          ((SDec.val c3 - a3 / 4) * (T * T) + (SDec.val c4 - a4 / 5) * (T * (T * T)))))) := by
      field_simp
      ring
    have e2 : ((|a5| + |a0 * T| + |a1 * T ^ 2 / 2| + |a2 * T ^ 3 / 3| + |a3 * T ^ 4 / 4| + |a4 * T ^ 5 / 5|) / T + 1) / T / 10 ^ 14 =
        |a5| / 1 / 10 ^ 14 * (T * T)⁻¹ + ((|a0| + 1) / 10 ^ 14 * T⁻¹ + (|a1| / 2 / 10 ^ 14 + (|a2| / 3 / 10 ^ 14 * T +
          (|a3| / 4 / 10 ^ 14 * (T * T) + |a4| / 5 / 10 ^ 14 * (T * (T * T)))))) := by
      have ab : ∀ (c : ℝ) (k : Nat), |c * T ^ k| = |c| * T ^ k := fun c k => by rw [abs_mul, abs_of_pos (pow_pos hT k)]
      rw [abs_div, abs_div, abs_div, abs_div, ab, ab, ab, ab, abs_mul, abs_of_pos hT, abs_of_pos (by norm_num : (0 : ℝ) < 2),
        abs_of_pos (by norm_num : (0 : ℝ) < 3), abs_of_pos (by norm_num : (0 : ℝ) < 4), abs_of_pos (by norm_num : (0 : ℝ) < 5)]
      field_simp
      ring
    rw [e1, e2]
    have m : ∀ {x b c : ℝ}, |x| ≤ b → 0 < c → |x * c| ≤ b * c := by
      intro x b c hx hc
      rw [abs_mul, abs_of_pos hc]
      exact mul_le_mul_of_nonneg_right hx hc.le
    refine (abs_add_le _ _).trans (add_le_add (m h5 (by positivity)) ?_)
    refine (abs_add_le _ _).trans (add_le_add (m h0 (by positivity)) ?_)
    refine (abs_add_le _ _).trans (add_le_add h1 ?_)
    refine (abs_add_le _ _).trans (add_le_add (m h2 hT) ?_)
    exact (abs_add_le _ _).trans (add_le_add (m h3 (by positivity)) (m h4 (by positivity)))
  · exact absurd h (by simp)

/-- The assignment to `dBdT[i]`. -/
def dbStmtOk (f : Nasa) (i : Nat) : CStmt → Bool
  | .ite (.rd (.var .T)) (.num m e) (.arr .dBdT i') e1 e2 => Nat.beq i i' && Nat.beq (m * 10 ^ f.tMid.2) (f.tMid.1 * 10 ^ e) &&
    dbExprOk f.low e1 && dbExprOk f.high e2
  | _ => false

/-- The species that an assignment is for. -/
def dbTarget : CStmt → Nat
  | .ite _ _ (.arr .dBdT i) _ _ => i
  | _ => 0

/-- All of them, in any order. -/
def dbListOk (fit : Nat → Nasa) (p : List CStmt) : Bool := p.all fun s => dbStmtOk (fit (dbTarget s)) (dbTarget s) s

/-- Every species of a reversible reaction has one. -/
def dbCover (rs : List Reaction) (p : List CStmt) : Bool :=
  rs.all fun r => !r.reversible || (r.reactants ++ r.products).all fun i => p.any fun s => Nat.beq (dbTarget s) i

/-- What `dBdT[i]` is. -/
def DBVal (f : Nasa) (T x : ℝ) : Prop :=
  |x - (hOverR (f.at T) T / T - 1) / T| ≤ (hTerms (f.at T) T / T + 1) / T / 10 ^ 14

theorem dbStmtOk_sound {f : Nasa} {i : Nat} {s : CStmt} (h : dbStmtOk f i s = true) (τ : CLoc → ℝ) (hT : 0 < τ (.var .T)) :
    ∃ x, DBVal f (τ (.var .T)) x ∧ CStmt.execT τ s = setT τ (.arr .dBdT i) x := by
  unfold dbStmtOk at h
  split at h
  · rename_i m e i' e1 e2
    simp only [Bool.and_eq_true] at h
    obtain ⟨⟨⟨h1, h2⟩, h3⟩, h4⟩ := h
    obtain rfl := Nat.eq_of_beq_eq_true h1
    have h2 := Nat.eq_of_beq_eq_true h2
    have hm : ((CExpr.num m e).evalT τ : ℝ) = (f.tMid.1 : ℝ) / 10 ^ f.tMid.2 := by
      rw [CExpr.evalT, sci_eq, div_eq_div_iff (by positivity) (by positivity)]
      exact_mod_cast h2
    have hcond : (((CExpr.rd (.var .T)).evalT τ : ℝ) ≤ (CExpr.num m e).evalT τ) ↔ τ (.var .T) ≤ (f.tMid.1 : ℝ) / 10 ^ f.tMid.2 := by
      rw [hm]
      rfl
    unfold DBVal Nasa.at
    by_cases hle : τ (.var .T) ≤ (f.tMid.1 : ℝ) / 10 ^ f.tMid.2
    · refine ⟨e1.evalT τ, ?_, ?_⟩
      · rw [if_pos hle]
        exact dbExprOk_sound h3 τ hT
      · rw [CStmt.execT, if_pos (hcond.2 hle)]
    · refine ⟨e2.evalT τ, ?_, ?_⟩
      · rw [if_neg hle]
        exact dbExprOk_sound h4 τ hT
      · rw [CStmt.execT, if_neg (fun hc => hle (hcond.1 hc))]
  · exact absurd h (by simp)

theorem dbListOk_sound (fit : Nat → Nasa) (p : List CStmt) (h : dbListOk fit p = true) (τ : CLoc → ℝ) (hT : 0 < τ (.var .T)) :
    (∀ l, (∀ k, l ≠ .arr .dBdT k) → execT p τ l = τ l) ∧
    (∀ k, DBVal (fit k) (τ (.var .T)) (τ (.arr .dBdT k)) → DBVal (fit k) (τ (.var .T)) (execT p τ (.arr .dBdT k))) ∧
    ∀ s ∈ p, DBVal (fit (dbTarget s)) (τ (.var .T)) (execT p τ (.arr .dBdT (dbTarget s))) := by
  induction p generalizing τ with
  | nil => exact ⟨fun _ _ => rfl, fun k h1 => h1, fun s hs => absurd hs (by simp)⟩
  | cons s p ih =>
    simp only [dbListOk, List.all_cons, Bool.and_eq_true] at h
    obtain ⟨x, hx, e⟩ := dbStmtOk_sound h.1 τ hT
    have hT' : CStmt.execT τ s (.var .T) = τ (.var .T) := by rw [e]; simp [setT]
    obtain ⟨i1, i2, i3⟩ := ih h.2 (CStmt.execT τ s) (by rw [hT']; exact hT)
    rw [hT'] at i2 i3
    have hs : DBVal (fit (dbTarget s)) (τ (.var .T)) (CStmt.execT τ s (.arr .dBdT (dbTarget s))) := by
      rw [e]
      simpa [setT] using hx
    refine ⟨fun l hl => ?_, fun k hk => ?_, fun s' hs' => ?_⟩
    · rw [execT, i1 l hl, e]
      unfold setT
      rw [if_neg (hl _)]
    · rw [execT]
      refine i2 k ?_
      by_cases hks : k = dbTarget s
      · subst hks
        exact hs
      · rw [e]
        unfold setT
        rw [if_neg (by simpa using hks)]
        exact hk
    · rw [execT]
      rcases List.mem_cons.1 hs' with rfl | hs'
      · exact i2 _ hs
      · exact i3 s' hs'

/-- The statements for `m` and `logT`. -/
def preStart : List CStmt := [
  .set (.var .m) (.div (.rd (.var .pres)) (.mul (.num 83144621 4) (.rd (.var .T)))), .set (.var .logT) (.log (.rd (.var .T)))]

/-- The statements before the reactions. -/
def dbOk (D : Package) (J : JacobSrc) : Bool :=
  (decide (J.pre = preStart) || decide (J.pre = preStart ++ [.set (.var .jN) (.num 0 0)])) &&
  dbListOk D.fit J.dBdT && dbCover D.reactions J.dBdT

theorem dbOk_sound {D : Package} {J : JacobSrc} (h : dbOk D J = true) (τ : CLoc → ℝ) (hT : 0 < τ (.var .T)) :
    execT (J.pre ++ J.dBdT) τ (.var .m) = τ (.var .pres) / (gasR * τ (.var .T)) ∧
    ∀ r ∈ D.reactions, r.reversible = true → ∀ i, r.net i ≠ 0 → DBVal (D.fit i) (τ (.var .T)) (execT (J.pre ++ J.dBdT) τ (.arr .dBdT i)) := by
  simp only [dbOk, Bool.and_eq_true, Bool.or_eq_true, decide_eq_true_eq] at h
  obtain ⟨⟨h1, h2⟩, h3⟩ := h
  rw [execT_append]
  obtain ⟨τ', hτ'⟩ : ∃ τ', τ' = execT J.pre τ := ⟨_, rfl⟩
  rw [← hτ']
  have e1 : τ' (.var .T) = τ (.var .T) := by rcases h1 with h1 | h1 <;> rw [hτ', h1] <;> simp [preStart, execT, CStmt.execT, setT]
  have e2 : τ' (.var .m) = τ (.var .pres) / (gasR * τ (.var .T)) := by
    rcases h1 with h1 | h1 <;> rw [hτ', h1] <;>
    simp only [preStart, List.cons_append, List.nil_append, execT, CStmt.execT, setT, CExpr.evalT, sci_eq] <;>
    simp [gasR]
  obtain ⟨i1, -, i2⟩ := dbListOk_sound D.fit J.dBdT h2 τ' (by rw [e1]; exact hT)
  rw [e1] at i2
  refine ⟨by rw [i1 _ (by simp), e2], fun r hr hrev i hi => ?_⟩
  have h4 := List.all_eq_true.1 h3 r hr
  rw [hrev, Bool.not_true, Bool.false_or, List.all_eq_true] at h4
  have hm : i ∈ r.reactants ++ r.products := by
    by_contra hne
    rw [List.mem_append, not_or] at hne
    apply hi
    unfold Reaction.net
    simp [List.count_eq_zero.2 hne.1, List.count_eq_zero.2 hne.2]
  obtain ⟨s, hs, hi'⟩ := List.any_eq_true.1 (h4 i hm)
  obtain rfl := Nat.eq_of_beq_eq_true hi'
  exact i2 s hs

/-! ### Bounds -/

/-- At most 130000 cal/mol, and an exponent of at most 17. -/
def Arrhenius.modest (a : Arrhenius) : Bool := Nat.ble a.E.1.natAbs (130000 * 10 ^ a.E.2) && Nat.ble a.b.1.natAbs (17 * 10 ^ a.b.2)

theorem val_le {d : SDec} {n : Nat} (h : Nat.ble d.1.natAbs (n * 10 ^ d.2) = true) : |(SDec.val d : ℝ)| ≤ n := by
  have h := Nat.le_of_ble_eq_true h
  have hp : (0 : ℝ) < 10 ^ d.2 := by positivity
  unfold SDec.val
  rw [abs_div, abs_of_pos hp, div_le_iff₀ hp]
  have : ((d.1.natAbs : Nat) : ℝ) ≤ ((n * 10 ^ d.2 : Nat) : ℝ) := Nat.cast_le.2 h
  rw [Nat.cast_natAbs, Int.cast_abs] at this
  push_cast at this
  exact this

theorem modest_sound {a : Arrhenius} (h : a.modest = true) {T : ℝ} (h1 : 200 ≤ T) :
    |a.temperature| / T ≤ 328 ∧ |(SDec.val a.b : ℝ)| ≤ 17 := by
  simp only [Arrhenius.modest, Bool.and_eq_true] at h
  have hE := val_le h.1
  have hb := val_le h.2
  push_cast at hE hb
  refine ⟨?_, hb⟩
  rw [div_le_iff₀ (by linarith)]
  have hR : (gasR : ℝ) = 83144621 / 10000 := by
    unfold gasR
    norm_num
  unfold Arrhenius.temperature
  rw [abs_div, abs_mul, hR, abs_of_pos (by norm_num : (0 : ℝ) < 4184), abs_of_pos (by norm_num : (0 : ℝ) < 83144621 / 10000),
    div_le_iff₀ (by norm_num)]
  linarith

/-- The activation temperatures differ by at most 10000 K, the exponents by at most 17. -/
def slopeSmall (k0 kInf : Arrhenius) : Bool :=
  Nat.ble (bDiff k0 kInf).natAbs (17 * 10 ^ (k0.b.2 + kInf.b.2)) && Nat.ble (eDiff k0 kInf).natAbs (10000 * eDen k0 kInf)

theorem slopeSmall_sound {k0 kInf : Arrhenius} (h : slopeSmall k0 kInf = true) {T : ℝ} (h1 : 200 ≤ T) : |prSlope k0 kInf T| ≤ 70 := by
  simp only [slopeSmall, Bool.and_eq_true] at h
  have a1 := Nat.le_of_ble_eq_true h.1
  have a2 := Nat.le_of_ble_eq_true h.2
  have b1 : |(SDec.val k0.b - SDec.val kInf.b : ℝ)| ≤ 17 := by
    rw [← bDiff_val, abs_div, abs_of_nonneg (Nat.cast_nonneg (α := ℝ) _), div_le_iff₀ (by positivity), ← Int.cast_abs, ← Nat.cast_natAbs]
    exact_mod_cast a1
  have hden : (0 : ℝ) < eDen k0 kInf := by unfold eDen; positivity
  have b2 : |k0.temperature - kInf.temperature| ≤ 10000 := by
    rw [← eDiff_val, abs_div, abs_of_nonneg (Nat.cast_nonneg (α := ℝ) _), div_le_iff₀ hden, ← Int.cast_abs, ← Nat.cast_natAbs]
    exact_mod_cast a2
  have hT : 0 < T := by linarith
  have b3 : |(k0.temperature - kInf.temperature) / T| ≤ 50 := by
    rw [abs_div, abs_of_pos hT, div_le_iff₀ hT]
    linarith
  unfold prSlope
  rw [abs_le] at *
  constructor <;> linarith [b1.1, b1.2, b3.1, b3.2]

/-- An upper bound of the terms of `h / (R T)` between `t1` and `t2`. -/
def hCeil (a : List SDec) (t1 t2 : Nat) : Nat :=
  (a.getD 5 (0, 0)).ceil 1 t1 + (a.getD 0 (0, 0)).ceil 1 1 + (a.getD 1 (0, 0)).ceil t2 2 + (a.getD 2 (0, 0)).ceil (t2 ^ 2) 3 +
    (a.getD 3 (0, 0)).ceil (t2 ^ 3) 4 + (a.getD 4 (0, 0)).ceil (t2 ^ 4) 5

theorem hCeil_ge (a : List SDec) (t1 t2 : Nat) (ht : 0 < t1) (T : ℝ) (hT : 0 < T) (h3 : (t1 : ℝ) ≤ T) (h4 : T ≤ t2) :
    hTerms a T / T ≤ hCeil a t1 t2 := by
  have c0 := ceil_ge (a.getD 0 (0, 0)) 1 1 (by norm_num)
  have c1 := ceil_ge (a.getD 1 (0, 0)) t2 2 (by norm_num)
  have c2 := ceil_ge (a.getD 2 (0, 0)) (t2 ^ 2) 3 (by norm_num)
  have c3 := ceil_ge (a.getD 3 (0, 0)) (t2 ^ 3) 4 (by norm_num)
  have c4 := ceil_ge (a.getD 4 (0, 0)) (t2 ^ 4) 5 (by norm_num)
  have c5 := ceil_ge (a.getD 5 (0, 0)) 1 t1 ht
  push_cast at c0 c1 c2 c3 c4 c5
  have p : ∀ (c : ℝ) (k : Nat) (d : ℝ), 0 < d → |c| * T ^ k / d ≤ |c| * (t2 : ℝ) ^ k / d := by
    intro c k d hd
    refine div_le_div_of_nonneg_right ?_ hd.le
    exact mul_le_mul_of_nonneg_left (pow_le_pow_left₀ hT.le h4 k) (abs_nonneg _)
  have p1 := p (SDec.val (a.getD 1 (0, 0))) 1 2 (by norm_num)
  have p2 := p (SDec.val (a.getD 2 (0, 0))) 2 3 (by norm_num)
  have p3 := p (SDec.val (a.getD 3 (0, 0))) 3 4 (by norm_num)
  have p4 := p (SDec.val (a.getD 4 (0, 0))) 4 5 (by norm_num)
  rw [pow_one, pow_one] at p1
  have p5 : |(SDec.val (a.getD 5 (0, 0)) : ℝ)| / T ≤ |(SDec.val (a.getD 5 (0, 0)) : ℝ)| * 1 / t1 := by
    rw [mul_one]
    exact div_le_div_of_nonneg_left (abs_nonneg _) (by exact_mod_cast ht) h3
  rw [mul_one, div_one] at c0
  unfold hTerms hCeil nasaCoeff
  push_cast
  have ab : ∀ (c : ℝ) (k : Nat), |c * T ^ k| = |c| * T ^ k := fun c k => by rw [abs_mul, abs_of_pos (pow_pos hT k)]
  rw [abs_div, abs_div, abs_div, abs_div, ab, ab, ab, ab, abs_mul, abs_of_pos hT, abs_of_pos (by norm_num : (0 : ℝ) < 2),
    abs_of_pos (by norm_num : (0 : ℝ) < 3), abs_of_pos (by norm_num : (0 : ℝ) < 4), abs_of_pos (by norm_num : (0 : ℝ) < 5)]
  generalize |(SDec.val (a.getD 5 (0, 0)) : ℝ)| = a5 at *
  generalize |(SDec.val (a.getD 0 (0, 0)) : ℝ)| = a0 at *
  generalize |(SDec.val (a.getD 1 (0, 0)) : ℝ)| = a1 at *
  generalize |(SDec.val (a.getD 2 (0, 0)) : ℝ)| = a2 at *
  generalize |(SDec.val (a.getD 3 (0, 0)) : ℝ)| = a3 at *
  generalize |(SDec.val (a.getD 4 (0, 0)) : ℝ)| = a4 at *
  have e : (a5 + a0 * T + a1 * T ^ 2 / 2 + a2 * T ^ 3 / 3 + a3 * T ^ 4 / 4 + a4 * T ^ 5 / 5) / T =
      a5 / T + a0 + a1 * T / 2 + a2 * T ^ 2 / 3 + a3 * T ^ 3 / 4 + a4 * T ^ 4 / 5 := by
    field_simp
  rw [e]
  linarith

/-- A bound of the terms of `h / (R T)` of species `s` between 200 K and 6000 K. -/
def Package.hBound (D : Package) (s : Nat) : Nat :=
  max (hCeil (D.fit s).low 200 ((D.fit s).mid + 1)) (hCeil (D.fit s).high (max 200 (D.fit s).mid) 6000)

theorem hBound_ge (D : Package) (s : Nat) (T : ℝ) (h1 : 200 ≤ T) (h2 : T ≤ 6000) : hTerms ((D.fit s).at T) T / T ≤ D.hBound s := by
  have hp : 0 < 10 ^ (D.fit s).tMid.2 := by positivity
  have hpr : (0 : ℝ) < 10 ^ (D.fit s).tMid.2 := by positivity
  unfold Nasa.at Package.hBound
  push_cast
  split
  · rename_i hle
    refine le_trans (hCeil_ge _ 200 ((D.fit s).mid + 1) (by norm_num) T (by linarith) (by exact_mod_cast h1) ?_) (le_max_left _ _)
    refine hle.trans ?_
    rw [div_le_iff₀ hpr]
    have := Nat.lt_div_mul_add (a := (D.fit s).tMid.1) hp
    have h3 : (D.fit s).tMid.1 ≤ ((D.fit s).mid + 1) * 10 ^ (D.fit s).tMid.2 := by
      unfold Nasa.mid
      rw [add_mul, one_mul]
      exact this.le
    exact_mod_cast h3
  · rename_i hle
    refine le_trans (hCeil_ge _ (max 200 (D.fit s).mid) 6000 (by simp) T (by linarith) ?_ (by exact_mod_cast h2)) (le_max_right _ _)
    push_cast
    refine max_le h1 (le_trans ?_ (not_le.1 hle).le)
    rw [le_div_iff₀ hpr]
    have := Nat.div_mul_le_self (D.fit s).tMid.1 (10 ^ (D.fit s).tMid.2)
    unfold Nasa.mid
    exact_mod_cast this

/-- The terms of `h / (R T)`, and one for each species, sum to at most 2000; `g` are bounds for the species. -/
def Reaction.smallHeats (r : Reaction) (nsp : Nat) (g : List Nat) : Bool :=
  Nat.ble ((List.range nsp).map fun s => (r.net s).natAbs * (g.getD s 0 + 1)).sum 2000

theorem smallHeats_sound {D : Package} {r : Reaction} (h : r.smallHeats D.nsp ((List.range D.nsp).map D.hBound) = true) (T : ℝ)
    (h1 : 200 ≤ T) (h2 : T ≤ 6000) : ∑ s ∈ Finset.range D.nsp, |(r.net s : ℝ)| * (hTerms ((D.fit s).at T) T / T + 1) ≤ 2000 := by
  have a1 := Nat.le_of_ble_eq_true h
  have e : ((List.range D.nsp).map fun s => (r.net s).natAbs * (((List.range D.nsp).map D.hBound).getD s 0 + 1)) =
      (List.range D.nsp).map fun s => (r.net s).natAbs * (D.hBound s + 1) := by
    refine List.map_congr_left fun s hs => ?_
    have hs' : s < D.nsp := List.mem_range.1 hs
    rw [map_range_getD _ _ _ hs']
  rw [e, list_range_sum] at a1
  have a3 : ∀ N : Nat, N ≤ 2000 → (N : ℝ) ≤ 2000 := fun N hN => by exact_mod_cast hN
  refine le_trans ?_ (a3 _ a1)
  rw [Nat.cast_sum]
  refine Finset.sum_le_sum fun s _ => ?_
  push_cast
  rw [Nat.cast_natAbs, Int.cast_abs]
  exact mul_le_mul_of_nonneg_left (add_le_add (hBound_ge D s T h1 h2) le_rfl) (abs_nonneg _)

/-- Bounds for all reactions. -/
def sizesOk (D : Package) : Bool :=
  let g := (List.range D.nsp).map D.hBound
  (number D.reactions).all fun n => Nat.ble n.r.reactants.length 5 &&
    (!n.r.reversible || (n.r.smallHeats D.nsp g && Nat.ble n.r.products.length 5)) &&
    (D.law n.k).high.modest && match D.law n.k with
      | .falloff kInf k0 (some t) => k0.modest && slopeSmall k0 kInf && t.modest
      | .falloff kInf k0 none => k0.modest && slopeSmall k0 kInf
      | _ => true

/-- The bounds of a reaction. -/
structure SizesAt (D : Package) (n : Numbered) : Prop where
  reactants : n.r.reactants.length ≤ 5
  products : n.r.reversible = true → n.r.products.length ≤ 5
  heats : n.r.reversible = true → ∀ T : ℝ, 200 ≤ T → T ≤ 6000 →
    ∑ s ∈ Finset.range D.nsp, |(n.r.net s : ℝ)| * (hTerms ((D.fit s).at T) T / T + 1) ≤ 2000
  high : (D.law n.k).high.modest = true
  low : ∀ kInf k0 troe, D.law n.k = .falloff kInf k0 troe → k0.modest = true ∧ slopeSmall k0 kInf = true ∧
    ∀ t, troe = some t → t.modest = true

theorem sizesOk_sound {D : Package} (h : sizesOk D = true) (n : Numbered) (hn : n ∈ number D.reactions) : SizesAt D n := by
  have h := List.all_eq_true.1 h n hn
  simp only [Bool.and_eq_true, Bool.or_eq_true, Bool.not_eq_true'] at h
  obtain ⟨⟨⟨h1, h2⟩, h3⟩, h4⟩ := h
  have h2' : n.r.reversible = true → _ := fun hr => h2.resolve_left (by simp [hr])
  refine ⟨Nat.le_of_ble_eq_true h1, fun hr => Nat.le_of_ble_eq_true (h2' hr).2, fun hr T => smallHeats_sound (h2' hr).1 T, h3, ?_⟩
  intro kInf k0 troe hl
  rw [hl] at h4
  cases troe with
  | none =>
    simp only [Bool.and_eq_true] at h4
    exact ⟨h4.1, h4.2, fun t ht => absurd ht (by simp)⟩
  | some t =>
    simp only [Bool.and_eq_true] at h4
    refine ⟨h4.1.1, h4.1.2, fun t' ht => ?_⟩
    obtain rfl := Option.some.inj ht
    exact h4.2

end DLB
