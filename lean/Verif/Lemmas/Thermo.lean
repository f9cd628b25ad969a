import Verif.Lemmas.Poly
import Verif.Lemmas.MechChecks
/-
eval_cp and eval_h of a mechanism library: pieces of polynomials, and checks of them against chem.cti and foam/thermo.foam.
-/
set_option autoImplicit false
set_option linter.unusedSectionVars false

namespace DLB

/-- `if (T <= m) l = e1; else l = e2;` with polynomials `e1`, `e2`. -/
structure Piece where
  tMid : Nat × Nat
  low : QPoly
  high : QPoly
  deriving Inhabited

/-- The polynomials of a statement. -/
def CStmt.piece : CStmt → Option Piece
  | .ite (.rd (.var .T)) (.num m e) _ e1 e2 => do return ⟨(m, e), ← e1.poly, ← e2.poly⟩
  | _ => none

/-- The statements assign to `a[0], a[1], ...` polynomials in the temperature. -/
def checkPieces (a : CArr) (n : Nat) (p : List CStmt) : Bool :=
  decide (p.map CStmt.target = (List.range n).map fun i => .arr a i) && p.all fun s => s.piece.isSome

/-- The polynomials of the `i`th statement. -/
def pieceAt (p : List CStmt) (i : Nat) : Piece := ((p[i]?).bind CStmt.piece).getD ⟨(0, 0), ([], 0), ([], 0)⟩

section
variable {K : Type} [Field K] [LinearOrder K] [IsStrictOrderedRing K]

/-- Value of a piece. -/
def Piece.eval (q : Piece) (T : K) : K :=
  if T ≤ (q.tMid.1 : K) / 10 ^ q.tMid.2 then q.low.eval T else q.high.eval T

variable [CMath K]

theorem piece_exec (s : CStmt) (q : Piece) (h : s.piece = some q) (τ : CLoc → K) :
    s.execT τ = setT τ s.target (q.eval (τ (.var .T))) := by
  unfold CStmt.piece at h
  split at h
  · rename_i m e l e1 e2
    cases h1 : e1.poly with
    | none => simp [h1] at h
    | some p1 =>
      cases h2 : e2.poly with
      | none => simp [h1, h2] at h
      | some p2 =>
        simp [h1, h2] at h
        subst h
        simp only [CStmt.execT, CStmt.target, Piece.eval, CExpr.evalT, poly_sound τ e1 p1 h1, poly_sound τ e2 p2 h2, sci_eq]
  · exact absurd h (by simp)

theorem pieces_exec (a : CArr) (p : List CStmt) : ∀ (k : Nat) (τ : CLoc → K),
    p.map CStmt.target = (List.range' k p.length).map (fun i => CLoc.arr a i) → (∀ s ∈ p, s.piece.isSome = true) →
    (∀ l, (∀ i, k ≤ i → i < k + p.length → l ≠ .arr a i) → execT p τ l = τ l) ∧
    ∀ i, i < p.length → execT p τ (.arr a (k + i)) = (pieceAt p i).eval (τ (.var .T)) := by
  induction p with
  | nil => intro k τ _ _; exact ⟨fun l _ => rfl, fun i hi => absurd hi (by simp)⟩
  | cons s p ih =>
    intro k τ ht hp
    simp only [List.map_cons, List.length_cons, List.range'_succ, List.cons.injEq] at ht
    obtain ⟨q, hq⟩ := Option.isSome_iff_exists.1 (hp s (by simp))
    have hs := piece_exec s q hq τ
    rw [ht.1] at hs
    obtain ⟨h1, h2⟩ := ih (k + 1) (s.execT τ) ht.2 (fun s' h' => hp s' (by simp [h']))
    have hT : s.execT τ (.var .T) = τ (.var .T) := by rw [hs]; simp [setT]
    refine ⟨fun l hl => ?_, fun i hi => ?_⟩
    · rw [execT, h1 l (fun i hi hi' => hl i (by omega) (by simp; omega)), hs]
      simp [setT, hl k (le_refl _) (by simp)]
    · rw [execT]
      cases i with
      | zero =>
        rw [Nat.add_zero, h1 _ (fun i hi _ => by simp; omega), hs]
        simp [setT, pieceAt, hq]
      | succ i =>
        have := h2 i (by simpa using hi)
        rw [show k + (i + 1) = k + 1 + i by omega, this, hT]
        rfl

/-- What eval_cp or eval_h computes. -/
theorem pieces_val {a : CArr} {n : Nat} {p : List CStmt} (h : checkPieces a n p = true) (τ : CLoc → K) (i : Nat) (hi : i < n) :
    execT p τ (.arr a i) = (pieceAt p i).eval (τ (.var .T)) := by
  simp only [checkPieces, Bool.and_eq_true, decide_eq_true_eq, List.all_eq_true] at h
  have hl : p.length = n := by simpa using congrArg List.length h.1
  have := (pieces_exec a p 0 τ (by rw [h.1, hl, List.range_eq_range']) h.2).2 i (by omega)
  simpa using this

end

/-- 10^5 times the gas constant. -/
def gas5 : Int := 831446210

/-- The polynomial of `cpOverR`. -/
def cpQ (a : List SDec) : QPoly :=
  .ofCoeffs [a.getD 0 (0, 0), a.getD 1 (0, 0), a.getD 2 (0, 0), a.getD 3 (0, 0), a.getD 4 (0, 0)]

/-- Integer multiple of a decimal number. -/
def SDec.times (n : Int) (d : SDec) : SDec := (n * d.1, d.2)

/-- The polynomial of `60 * hOverR`. -/
def hQ (a : List SDec) : QPoly :=
  .ofCoeffs [(a.getD 5 (0, 0)).times 60, (a.getD 0 (0, 0)).times 60, (a.getD 1 (0, 0)).times 30, (a.getD 2 (0, 0)).times 20,
    (a.getD 3 (0, 0)).times 15, (a.getD 4 (0, 0)).times 12]

/-- Derivative. -/
def IPoly.deriv : IPoly → IPoly
  | [] => []
  | [_] => []
  | _ :: p => IPoly.add p (0 :: IPoly.deriv p)

/-- Derivative. -/
def QPoly.deriv (p : QPoly) : QPoly := (IPoly.deriv p.1, p.2)

/-- The coefficients of `a p` and `b q` agree up to `3e-15` of the latter. -/
def QPoly.close (a b : Int) (p q : QPoly) : Bool :=
  IPoly.close (a * (10 ^ q.2 : Nat)) (b * (10 ^ p.2 : Nat)) 3 (10 ^ 15) p.1 q.1

namespace Package
variable (D : Package)

/-- The pieces of eval_cp. -/
def cpPiece (i : Nat) : Piece := pieceAt D.mech.evalCp i
/-- The pieces of eval_h. -/
def hPiece (i : Nat) : Piece := pieceAt D.mech.evalH i

/-- The functions are piecewise polynomials. -/
def checkThermoPieces : Bool :=
  checkPieces .cp D.nsp D.mech.evalCp && checkPieces .h D.nsp D.mech.evalH

/-- The coefficients are those of chem.cti. -/
def checkFit : Bool :=
  (List.range D.nsp).all fun i =>
    let c := D.cpPiece i
    let h := D.hPiece i
    let f := D.fit i
    let W : Int := D.weight5 i
    decide (c.tMid = f.tMid) && decide (h.tMid = f.tMid) && decide (f.tMid.2 = 0) && decide (200 ≤ f.tMid.1) &&
      decide (f.tMid.1 ≤ 5000) &&
      QPoly.close W gas5 c.low (cpQ f.low) && QPoly.close W gas5 c.high (cpQ f.high) &&
      QPoly.close (60 * W) gas5 h.low (hQ f.low) && QPoly.close (60 * W) gas5 h.high (hQ f.high) &&
      QPoly.close W gas5 h.low.deriv (cpQ f.low) && QPoly.close W gas5 h.high.deriv (cpQ f.high)

/-- `5 cp - 12 R / W`, multiplied with the molecular weight. -/
def cpExcess (i : Nat) (c : QPoly) : QPoly := (c.smul (5 * D.weight5 i)).add ([-12 * gas5], 0)

/-- The heat capacities are at least 12/5 R/W. -/
def checkPositive : Bool :=
  (List.range D.nsp).all fun i =>
    let c := D.cpPiece i
    (D.cpExcess i c.low).1.nonnegOn 200 c.tMid.1 8 && (D.cpExcess i c.high).1.nonnegOn c.tMid.1 5000 8

/-- `|p - q| * k <= l * r` on an interval. -/
def within (p q : QPoly) (k l : Int) (r : QPoly) (a b : Nat) : Bool :=
  ((r.smul l).add ((p.add q.neg).smul k)).1.nonnegOn a b 8 && ((r.smul l).add ((p.add q.neg).smul (-k))).1.nonnegOn a b 8

/-- The pieces agree at the middle temperature: heat capacities up to 0.2 %, enthalpies up to 0.1 K times the heat capacity. -/
def checkJump : Bool :=
  (List.range D.nsp).all fun i =>
    let c := D.cpPiece i
    let h := D.hPiece i
    within c.high c.low 1000 2 c.low c.tMid.1 c.tMid.1 && within h.high h.low 10 1 c.low c.tMid.1 c.tMid.1

/-- One piece of foam/thermo.foam and one of the library. -/
def foamClose (i : Nat) (c h : QPoly) (f : List SDec) (a b : Nat) : Bool :=
  within (c.smul (D.weight5 i)) ((cpQ f).smul gas5) 100 1 (c.smul (D.weight5 i)) a b &&
  within (h.smul (60 * D.weight5 i)) ((hQ f).smul gas5) 10 11 (c.smul (60 * D.weight5 i)) a b

/-- The polynomials of foam/thermo.foam agree with those of the library from 300 K to 3000 K: heat capacities up to 1 %,
enthalpies up to 1.1 K times the heat capacity. -/
def checkFoam : Bool :=
  (List.range D.nsp).all fun i =>
    let c := D.cpPiece i
    let h := D.hPiece i
    let f := D.foamFit i
    decide (f.tMid.2 = 0) && decide (f.tMid.1 ≤ c.tMid.1) &&
      D.foamClose i c.low h.low f.low 300 f.tMid.1 && D.foamClose i c.low h.low f.high f.tMid.1 c.tMid.1 &&
      D.foamClose i c.high h.high f.high c.tMid.1 3000

end Package

/-- The thermodynamics of a mechanism passes all checks. -/
structure ThermoChecked (D : Package) : Prop where
  pieces : D.checkThermoPieces = true
  fit : D.checkFit = true
  positive : D.checkPositive = true
  jump : D.checkJump = true
  foam : D.checkFoam = true

end DLB
