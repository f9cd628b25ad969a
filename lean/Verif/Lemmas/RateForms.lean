import Verif.Lemmas.LForm
import Verif.Lemmas.MassAction
/-
The blocks of eval_rxn_rates: rate coefficients, equilibrium constants and products of concentrations, read off the statements.
-/
set_option autoImplicit false
set_option linter.unusedSectionVars false

namespace DLB

/-- A rate coefficient: a literal or `exp(f)`. -/
inductive RateVal where
  | lit (m e : Nat)
  | ex (f : LForm)

/-- Recognise a rate coefficient. -/
def CExpr.rate : CExpr → Option RateVal
  | .num m e => some (.lit m e)
  | .exp a => do return .ex (← a.lform)
  | _ => none

/-- Recognise a product of concentrations. -/
def CExpr.concs : CExpr → Option (List Nat)
  | .rd (.arr .C i) => some [i]
  | .mul a (.rd (.arr .C i)) => do return (← a.concs) ++ [i]
  | _ => none

/-- A summand of the exponent of an equilibrium constant: `if (T <= tMid) low else high`. -/
structure KcPiece where
  tMid : Nat × Nat
  low : LForm
  high : LForm

/-- The part of a block that computes a reverse rate. -/
structure KcBlock where
  j : Nat
  pieces : List KcPiece
  c : Nat × Nat
  prods : List Nat

/-- Recognise `Kc += ...` and the reverse rate. -/
def kcTail : List CStmt → Option KcBlock
  | [.set (.var .Kc) (.mul (.num m e) (.exp (.rd (.var .Kc)))),
      .set (.arr .rev j) (.div (.mul x (.rd (.var .kf))) (.rd (.var .Kc)))] => do return ⟨j, [], (m, e), ← x.concs⟩
  | .ite (.rd (.var .T)) (.num m e) (.var .Kc) (.add (.rd (.var .Kc)) e1) (.add (.rd (.var .Kc)) e2) :: rest => do
    let p : KcPiece := ⟨(m, e), ← e1.lform, ← e2.lform⟩
    let r ← kcTail rest
    return ⟨r.j, p :: r.pieces, r.c, r.prods⟩
  | _ => none

/-- Recognise the equilibrium constant and the reverse rate. -/
def kcBlock : List CStmt → Option KcBlock
  | .ite (.rd (.var .T)) (.num m e) (.var .Kc) e1 e2 :: rest => do
    let p : KcPiece := ⟨(m, e), ← e1.lform, ← e2.lform⟩
    let r ← kcTail rest
    return ⟨r.j, p :: r.pieces, r.c, r.prods⟩
  | _ => none

/-- The block of a reaction. -/
structure RateBlock where
  k : Nat
  kf : RateVal
  reacs : List Nat
  rev : Option KcBlock

/-- Recognise the block of a reaction. -/
def rateBlock : List CStmt → Option RateBlock
  | [.set (.arr .fwd k) (.mul x e)] => do return ⟨k, ← e.rate, ← x.concs, none⟩
  | .set (.var .kf) e :: .set (.arr .fwd k) (.mul x (.rd (.var .kf))) :: rest => do
    return ⟨k, ← e.rate, ← x.concs, some (← kcBlock rest)⟩
  | _ => none

section
variable {K : Type} [Field K] [LinearOrder K] [IsStrictOrderedRing K] [CMath K]

/-- Value of a rate coefficient; `y` is the logarithm of the temperature. -/
def RateVal.eval (T y : K) : RateVal → K
  | .lit m e => (m : K) / 10 ^ e
  | .ex f => CMath.exp (f.eval T y)

/-- Value of a summand. -/
def KcPiece.eval (T y : K) (p : KcPiece) : K :=
  if T ≤ (p.tMid.1 : K) / 10 ^ p.tMid.2 then p.low.eval T y else p.high.eval T y

/-- Value of the equilibrium constant. -/
def KcBlock.eval (T y : K) (r : KcBlock) : K :=
  (r.c.1 : K) / 10 ^ r.c.2 * CMath.exp (r.pieces.map fun p => p.eval T y).sum

theorem rate_sound (τ : CLoc → K) {e : CExpr} {v : RateVal} (h : e.rate = some v) :
    e.evalT τ = v.eval (τ (.var .T)) (τ (.var .logT)) := by
  unfold CExpr.rate at h
  split at h
  · simp only [Option.some.injEq] at h
    subst h
    simp [CExpr.evalT, sci_eq, RateVal.eval]
  · rename_i a
    cases ha : a.lform with
    | none => simp [ha] at h
    | some f =>
      simp [ha] at h
      subst h
      rw [CExpr.evalT, lform_sound τ a f ha, RateVal.eval]
  · exact absurd h (by simp)

theorem concs_sound (τ : CLoc → K) (e : CExpr) : ∀ l, e.concs = some l →
    e.evalT τ = (l.map fun i => τ (.arr .C i)).prod := by
  induction e with
  | rd l =>
    intro c h
    unfold CExpr.concs at h
    split at h <;> simp_all
    subst h
    simp [CExpr.evalT]
  | mul a b iha ihb =>
    intro c h
    have hb : ∃ i, b = .rd (.arr .C i) := by
      unfold CExpr.concs at h
      split at h <;> simp_all
    obtain ⟨i, rfl⟩ := hb
    cases ha : a.concs with
    | none => simp [CExpr.concs, ha] at h
    | some l =>
      simp [CExpr.concs, ha] at h
      subst h
      rw [CExpr.evalT, iha l ha]
      simp [CExpr.evalT]
  | num | neg | add | sub | div | exp | log | log10 | pow | fmax => intro c h; simp [CExpr.concs] at h

theorem kcTail_sound (b : List CStmt) : ∀ (r : KcBlock) (τ : CLoc → K), kcTail b = some r →
    execT b τ (.arr .rev r.j) = (r.prods.map fun i => τ (.arr .C i)).prod * τ (.var .kf) /
      ((r.c.1 : K) / 10 ^ r.c.2 * CMath.exp (τ (.var .Kc) +
        (r.pieces.map fun p => p.eval (τ (.var .T)) (τ (.var .logT))).sum)) := by
  induction b with
  | nil => intro r τ h; simp [kcTail] at h
  | cons s b ih =>
    intro r τ h
    unfold kcTail at h
    split at h
    · rename_i m e j x heq
      cases hx : x.concs with
      | none => simp [hx] at h
      | some l =>
        simp [hx] at h
        subst h
        simp only [List.cons.injEq] at heq
        obtain ⟨rfl, rfl⟩ := heq
        simp only [execT, CStmt.execT, setT, CExpr.evalT, concs_sound _ x l hx, sci_eq, List.map_nil, List.sum_nil, add_zero]
        simp
    · rename_i m e e1 e2 rest heq
      simp only [List.cons.injEq] at heq
      obtain ⟨rfl, rfl⟩ := heq
      cases h1 : e1.lform with
      | none => simp [h1] at h
      | some f1 =>
        cases h2 : e2.lform with
        | none => simp [h1, h2] at h
        | some f2 =>
          cases h3 : kcTail b with
          | none => simp [h1, h2, h3] at h
          | some r' =>
            simp [h1, h2, h3] at h
            subst h
            rw [execT]
            have := ih r' (CStmt.execT τ (.ite (.rd (.var .T)) (.num m e) (.var .Kc) (.add (.rd (.var .Kc)) e1)
              (.add (.rd (.var .Kc)) e2))) h3
            rw [this]
            simp only [CStmt.execT, setT, CExpr.evalT, sci_eq, lform_sound τ e1 f1 h1, lform_sound τ e2 f2 h2, List.map_cons,
              List.sum_cons, KcPiece.eval]
            by_cases hT : τ (.var .T) ≤ (m : K) / 10 ^ e <;> simp [hT, add_assoc]
    · exact absurd h (by simp)

theorem kcBlock_sound (b : List CStmt) (r : KcBlock) (τ : CLoc → K) (h : kcBlock b = some r) :
    execT b τ (.arr .rev r.j) = (r.prods.map fun i => τ (.arr .C i)).prod * τ (.var .kf) /
      r.eval (τ (.var .T)) (τ (.var .logT)) := by
  unfold kcBlock at h
  split at h
  · rename_i m e e1 e2 rest
    cases h1 : e1.lform with
    | none => simp [h1] at h
    | some f1 =>
      cases h2 : e2.lform with
      | none => simp [h1, h2] at h
      | some f2 =>
        cases h3 : kcTail rest with
        | none => simp [h1, h2, h3] at h
        | some r' =>
          simp [h1, h2, h3] at h
          subst h
          rw [execT]
          have := kcTail_sound rest r' (CStmt.execT τ (.ite (.rd (.var .T)) (.num m e) (.var .Kc) e1 e2)) h3
          rw [this]
          simp only [CStmt.execT, setT, CExpr.evalT, sci_eq, lform_sound τ e1 f1 h1, lform_sound τ e2 f2 h2, List.map_cons,
            List.sum_cons, KcPiece.eval, KcBlock.eval]
          by_cases hT : τ (.var .T) ≤ (m : K) / 10 ^ e <;> simp [hT]
  · exact absurd h (by simp)

/-- Statements of the part that computes the reverse rate do not write forward rates. -/
theorem kcTail_fwd (b : List CStmt) : ∀ (r : KcBlock) (τ : CLoc → K) (k : Nat), kcTail b = some r →
    execT b τ (.arr .fwd k) = τ (.arr .fwd k) := by
  induction b with
  | nil => intro r τ k h; simp [kcTail] at h
  | cons s b ih =>
    intro r τ k h
    unfold kcTail at h
    split at h
    · rename_i heq
      simp only [List.cons.injEq] at heq
      obtain ⟨rfl, rfl⟩ := heq
      simp [execT, CStmt.execT, setT]
    · rename_i m e e1 e2 rest heq
      simp only [List.cons.injEq] at heq
      obtain ⟨rfl, rfl⟩ := heq
      cases h3 : kcTail b with
      | none => cases h1 : e1.lform <;> cases h2 : e2.lform <;> simp [h1, h2, h3] at h
      | some r' =>
        rw [execT, ih r' _ k h3]
        simp [CStmt.execT, setT]
    · exact absurd h (by simp)

theorem kcBlock_fwd (b : List CStmt) (r : KcBlock) (τ : CLoc → K) (k : Nat) (h : kcBlock b = some r) :
    execT b τ (.arr .fwd k) = τ (.arr .fwd k) := by
  unfold kcBlock at h
  split at h
  · rename_i m e e1 e2 rest
    cases h3 : kcTail rest with
    | none => cases h1 : e1.lform <;> cases h2 : e2.lform <;> simp [h1, h2, h3] at h
    | some r' =>
      rw [execT, kcTail_fwd rest r' _ k h3]
      simp [CStmt.execT, setT]
  · exact absurd h (by simp)

/-- What a block computes. -/
theorem rateBlock_sound (b : List CStmt) (B : RateBlock) (τ : CLoc → K) (h : rateBlock b = some B) :
    execT b τ (.arr .fwd B.k) = B.kf.eval (τ (.var .T)) (τ (.var .logT)) * (B.reacs.map fun i => τ (.arr .C i)).prod ∧
    ∀ r, B.rev = some r → execT b τ (.arr .rev r.j) = B.kf.eval (τ (.var .T)) (τ (.var .logT)) *
      (r.prods.map fun i => τ (.arr .C i)).prod / r.eval (τ (.var .T)) (τ (.var .logT)) := by
  unfold rateBlock at h
  split at h
  · rename_i k x e
    cases he : e.rate with
    | none => simp [he] at h
    | some v =>
      cases hx : x.concs with
      | none => simp [he, hx] at h
      | some l =>
        simp [he, hx] at h
        subst h
        simp only [execT, CStmt.execT, setT, CExpr.evalT, rate_sound τ he, concs_sound τ x l hx, if_true]
        exact ⟨mul_comm _ _, fun r hr => absurd hr (by simp)⟩
  · rename_i e k x rest
    cases he : e.rate with
    | none => simp [he] at h
    | some v =>
      cases hx : x.concs with
      | none => simp [he, hx] at h
      | some l =>
        cases hr : kcBlock rest with
        | none => simp [he, hx, hr] at h
        | some r =>
          simp [he, hx, hr] at h
          subst h
          constructor
          · rw [execT, execT, kcBlock_fwd rest r _ k hr]
            simp only [CStmt.execT, setT, CExpr.evalT, rate_sound τ he, concs_sound _ x l hx]
            simp [mul_comm]
          · intro r' hr'
            simp only [Option.some.injEq] at hr'
            subst hr'
            rw [execT, execT, kcBlock_sound rest r _ hr]
            simp only [CStmt.execT, setT, CExpr.evalT, rate_sound τ he]
            simp [mul_comm]
  · exact absurd h (by simp)

end
end DLB
