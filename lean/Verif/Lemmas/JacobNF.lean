import Verif.Lemmas.Falloff
import Mathlib.Algebra.BigOperators.Group.List.Basic
/-
Expressions that are polynomials in locations and inverses of locations: their terms, and the comparison of the coefficients with
expected ones.
-/
set_option autoImplicit false
set_option linter.unusedSectionVars false

namespace DLB

/-- A number for each variable. -/
def CVar.tag : CVar → Nat
  | .T => 0 | .pres => 1 | .logT => 2 | .kf => 3 | .Kc => 4 | .m => 5 | .thd => 6 | .k0 => 7 | .kinf => 8 | .Pr => 9 | .logFcent => 10
  | .A => 11 | .B => 12 | .dyN => 13 | .yN => 14 | .xN => 15 | .mwAvg => 16 | .rho => 17 | .cpAvg => 18 | .concTemp => 19 | .jTemp => 20
  | .presModTemp => 21 | .kr => 22 | .Fcent => 23 | .lnFAB => 24 | .rhoInv => 25 | .workTemp => 26 | .jN => 27

/-- The variable with a number. -/
def CVar.untag : Nat → CVar
  | 0 => .T | 1 => .pres | 2 => .logT | 3 => .kf | 4 => .Kc | 5 => .m | 6 => .thd | 7 => .k0 | 8 => .kinf | 9 => .Pr | 10 => .logFcent
  | 11 => .A | 12 => .B | 13 => .dyN | 14 => .yN | 15 => .xN | 16 => .mwAvg | 17 => .rho | 18 => .cpAvg | 19 => .concTemp | 20 => .jTemp
  | 21 => .presModTemp | 22 => .kr | 23 => .Fcent | 24 => .lnFAB | 25 => .rhoInv | 26 => .workTemp | _ => .jN

/-- A number for each array. -/
def CArr.tag : CArr → Nat
  | .C => 0 | .fwd => 1 | .rev => 2 | .presMod => 3 | .spRates => 4 | .X => 5 | .Y => 6 | .y => 7 | .dy => 8 | .cp => 9 | .h => 10
  | .temp => 11 | .dBdT => 12 | .jac => 13

/-- The array with a number. -/
def CArr.untag : Nat → CArr
  | 0 => .C | 1 => .fwd | 2 => .rev | 3 => .presMod | 4 => .spRates | 5 => .X | 6 => .Y | 7 => .y | 8 => .dy | 9 => .cp | 10 => .h
  | 11 => .temp | 12 => .dBdT | _ => .jac

/-- A number for each location. -/
def CLoc.code : CLoc → Nat
  | .var v => 32 * v.tag
  | .arr a i => 32 * i + (a.tag + 1)

/-- The location with a number. -/
def CLoc.decode (c : Nat) : CLoc := match c % 32 with
  | 0 => .var (CVar.untag (c / 32))
  | t + 1 => .arr (CArr.untag t) (c / 32)

theorem CVar.untag_tag (v : CVar) : CVar.untag v.tag = v := by cases v <;> rfl

theorem CArr.untag_tag (a : CArr) : CArr.untag a.tag = a := by cases a <;> rfl

theorem CLoc.decode_code (l : CLoc) : CLoc.decode l.code = l := by
  cases l with
  | var v =>
    have h1 : 32 * v.tag % 32 = 0 := by omega
    have h2 : 32 * v.tag / 32 = v.tag := by omega
    unfold CLoc.decode CLoc.code
    simp only [h1, h2, CVar.untag_tag]
  | arr a i =>
    have ht : a.tag < 14 := by cases a <;> decide
    have h1 : (32 * i + (a.tag + 1)) % 32 = a.tag + 1 := by omega
    have h2 : (32 * i + (a.tag + 1)) / 32 = i := by omega
    unfold CLoc.decode CLoc.code
    simp only [h1, h2, CArr.untag_tag]

/-- A term: `c * 10^(-e)` times the product of the locations `num` over the product of the locations `den`. -/
structure NTerm where
  c : Int
  e : Nat
  num : List Nat
  den : List Nat

/-- The value of a list of locations. -/
noncomputable def codesVal (τ : CLoc → ℝ) (l : List Nat) : ℝ := (l.map fun c => τ (.decode c)).prod

/-- Value of a term. -/
noncomputable def NTerm.val (τ : CLoc → ℝ) (t : NTerm) : ℝ :=
  SDec.val (t.c, t.e) * (codesVal τ t.num / codesVal τ t.den)

/-- Value of a sum of terms. -/
noncomputable def ntVal (τ : CLoc → ℝ) (l : List NTerm) : ℝ := (l.map (NTerm.val τ)).sum

/-- Insert into a sorted list. -/
def insN (x : Nat) : List Nat → List Nat
  | [] => [x]
  | y :: l => if Nat.ble x y then x :: y :: l else y :: insN x l

/-- Insert all. -/
def mergeN (a b : List Nat) : List Nat := a.foldr insN b

theorem codesVal_insN (τ : CLoc → ℝ) (x : Nat) (l : List Nat) : codesVal τ (insN x l) = τ (.decode x) * codesVal τ l := by
  induction l with
  | nil => simp [insN, codesVal]
  | cons y l ih =>
    unfold insN
    split
    · simp [codesVal]
    · simp only [codesVal, List.map_cons, List.prod_cons] at ih ⊢
      rw [ih]
      ring

theorem codesVal_mergeN (τ : CLoc → ℝ) (a b : List Nat) : codesVal τ (mergeN a b) = codesVal τ a * codesVal τ b := by
  induction a with
  | nil => simp [mergeN, codesVal]
  | cons x a ih =>
    unfold mergeN at ih ⊢
    rw [List.foldr_cons, codesVal_insN, ih]
    simp [codesVal, mul_assoc]

/-- Product of two terms. -/
def NTerm.mul (s t : NTerm) : NTerm := ⟨s.c * t.c, s.e + t.e, mergeN s.num t.num, mergeN s.den t.den⟩

theorem NTerm.mul_val (τ : CLoc → ℝ) (s t : NTerm) : (s.mul t).val τ = s.val τ * t.val τ := by
  unfold NTerm.mul NTerm.val SDec.val
  simp only [codesVal_mergeN]
  push_cast
  rw [pow_add, mul_div_mul_comm, mul_div_mul_comm]
  ring

/-- The terms of an expression. -/
def CExpr.nf : CExpr → Option (List NTerm)
  | .num m e => some [⟨m, e, [], []⟩]
  | .rd l => some [⟨1, 0, [l.code], []⟩]
  | .neg a => do return (← a.nf).map fun t => { t with c := -t.c }
  | .add a b => do return (← a.nf) ++ (← b.nf)
  | .sub a b => do return (← a.nf) ++ (← b.nf).map fun t => { t with c := -t.c }
  | .mul a b => do
    let y ← b.nf
    return (← a.nf).flatMap fun s => y.map fun t => s.mul t
  | .div a b => match b.nf with
    | some [⟨1, 0, n, d⟩] => do return (← a.nf).map fun s => s.mul ⟨1, 0, d, n⟩
    | _ => none
  | _ => none

theorem ntVal_neg (τ : CLoc → ℝ) (l : List NTerm) : ntVal τ (l.map fun t => { t with c := -t.c }) = - ntVal τ l := by
  unfold ntVal
  induction l with
  | nil => simp
  | cons t l ih =>
    simp only [List.map_cons, List.sum_cons, ih, NTerm.val, SDec.val]
    push_cast
    ring

theorem ntVal_append (τ : CLoc → ℝ) (a b : List NTerm) : ntVal τ (a ++ b) = ntVal τ a + ntVal τ b := by
  simp [ntVal]

theorem ntVal_mul_one (τ : CLoc → ℝ) (s : NTerm) (b : List NTerm) : ntVal τ (b.map fun t => s.mul t) = s.val τ * ntVal τ b := by
  unfold ntVal
  induction b with
  | nil => simp
  | cons t l ih =>
    simp only [List.map_cons, List.sum_cons, ih, NTerm.mul_val]
    ring

theorem ntVal_mul (τ : CLoc → ℝ) (a b : List NTerm) :
    ntVal τ (a.flatMap fun s => b.map fun t => s.mul t) = ntVal τ a * ntVal τ b := by
  induction a with
  | nil => simp [ntVal]
  | cons t l ih =>
    rw [List.flatMap_cons, ntVal_append, ih, ntVal_mul_one]
    simp only [ntVal, List.map_cons, List.sum_cons]
    ring

theorem ntVal_mul_right (τ : CLoc → ℝ) (s : NTerm) (b : List NTerm) : ntVal τ (b.map fun t => t.mul s) = ntVal τ b * s.val τ := by
  unfold ntVal
  induction b with
  | nil => simp
  | cons t l ih =>
    simp only [List.map_cons, List.sum_cons, ih, NTerm.mul_val]
    ring

theorem nf_sound (τ : CLoc → ℝ) (e : CExpr) (l : List NTerm) (h : e.nf = some l) : e.evalT τ = ntVal τ l := by
  induction e generalizing l with
  | num m e =>
    cases h
    simp [CExpr.evalT, sci_eq, ntVal, NTerm.val, SDec.val, codesVal]
  | rd x =>
    cases h
    simp [CExpr.evalT, ntVal, NTerm.val, SDec.val, codesVal, CLoc.decode_code]
  | neg a ih =>
    simp only [CExpr.nf, bind, Option.bind_eq_some_iff] at h
    obtain ⟨x, hx, h⟩ := h
    cases h
    rw [ntVal_neg, CExpr.evalT, ih x hx]
  | add a b iha ihb =>
    simp only [CExpr.nf, bind, Option.bind_eq_some_iff] at h
    obtain ⟨x, hx, y, hy, h⟩ := h
    cases h
    rw [ntVal_append, CExpr.evalT, iha x hx, ihb y hy]
  | sub a b iha ihb =>
    simp only [CExpr.nf, bind, Option.bind_eq_some_iff] at h
    obtain ⟨x, hx, y, hy, h⟩ := h
    cases h
    rw [ntVal_append, ntVal_neg, CExpr.evalT, iha x hx, ihb y hy]
    ring
  | mul a b iha ihb =>
    simp only [CExpr.nf, bind, Option.bind_eq_some_iff] at h
    obtain ⟨y, hy, x, hx, h⟩ := h
    cases h
    rw [ntVal_mul, CExpr.evalT, iha x hx, ihb y hy]
  | div a b iha ihb =>
    simp only [CExpr.nf] at h
    split at h
    · rename_i n d hb
      simp only [bind, Option.bind_eq_some_iff] at h
      obtain ⟨x, hx, h⟩ := h
      cases h
      rw [ntVal_mul_right, CExpr.evalT, iha x hx, ihb _ hb]
      simp [ntVal, NTerm.val, SDec.val, div_eq_mul_inv]
    · exact absurd h (by simp)
  | exp a => exact absurd h (by simp [CExpr.nf])
  | log a => exact absurd h (by simp [CExpr.nf])
  | log10 a => exact absurd h (by simp [CExpr.nf])
  | pow a b => exact absurd h (by simp [CExpr.nf])
  | fmax a b => exact absurd h (by simp [CExpr.nf])

/-- Equality of lists of numbers. -/
def eqCodes : List Nat → List Nat → Bool
  | [], l => l.isEmpty
  | x :: a, l => match l with
    | [] => false
    | y :: b => Nat.beq x y && eqCodes a b

theorem eqCodes_sound {a b : List Nat} (h : eqCodes a b = true) : a = b := by
  induction a generalizing b with
  | nil => simpa [eqCodes] using h
  | cons x a ih =>
    cases b with
    | nil => exact absurd h (by simp [eqCodes])
    | cons y b =>
      simp only [eqCodes, Bool.and_eq_true] at h
      rw [Nat.eq_of_beq_eq_true h.1, ih h.2]

/-- Which product of locations over locations a term has. -/
abbrev NKey := List Nat × List Nat

/-- The term has that product. -/
def NTerm.has (K : NKey) (t : NTerm) : Bool := eqCodes t.num K.1 && eqCodes t.den K.2

/-- Value of a product of locations over locations. -/
noncomputable def keyVal (τ : CLoc → ℝ) (K : NKey) : ℝ := codesVal τ K.1 / codesVal τ K.2

/-- Sum of decimal numbers. -/
def SDec.plus (a b : SDec) : SDec :=
  if Nat.ble a.2 b.2 then (a.1 * 10 ^ (b.2 - a.2) + b.1, b.2) else (a.1 + b.1 * 10 ^ (a.2 - b.2), a.2)

theorem SDec.plus_val (a b : SDec) : (SDec.val (a.plus b) : ℝ) = SDec.val a + SDec.val b := by
  unfold SDec.plus SDec.val
  split
  · rename_i h
    have h := Nat.le_of_ble_eq_true h
    obtain ⟨k, hk⟩ := Nat.exists_eq_add_of_le h
    rw [hk, Nat.add_sub_cancel_left, pow_add]
    push_cast
    field_simp
  · rename_i h
    have h : b.2 ≤ a.2 := by
      by_contra hc
      exact h (Nat.ble_eq_true_of_le (by omega))
    obtain ⟨k, hk⟩ := Nat.exists_eq_add_of_le h
    rw [hk, Nat.add_sub_cancel_left, pow_add]
    push_cast
    field_simp

/-- Sum of the coefficients of terms. -/
def coefSum : List NTerm → SDec
  | [] => (0, 0)
  | t :: l => SDec.plus (t.c, t.e) (coefSum l)

theorem coefSum_val (τ : CLoc → ℝ) (K : NKey) (l : List NTerm) (h : ∀ t ∈ l, t.has K = true) :
    ntVal τ l = SDec.val (coefSum l) * keyVal τ K := by
  induction l with
  | nil => simp [ntVal, coefSum, SDec.val]
  | cons t l ih =>
    have h1 := h t (by simp)
    simp only [NTerm.has, Bool.and_eq_true] at h1
    have ih := ih fun t ht => h t (by simp [ht])
    unfold ntVal at ih ⊢
    rw [List.map_cons, List.sum_cons, ih, coefSum, SDec.plus_val, NTerm.val, eqCodes_sound h1.1, eqCodes_sound h1.2]
    unfold keyVal
    ring

/-- The coefficients of the products `Ks`, if there are no others. -/
def collectNF : List NKey → List NTerm → Option (List SDec)
  | [], [] => some []
  | [], _ :: _ => none
  | K :: Ks, l => match collectNF Ks (l.filter fun t => !t.has K) with
    | none => none
    | some r => some (coefSum (l.filter fun t => t.has K) :: r)

theorem ntVal_filter (τ : CLoc → ℝ) (p : NTerm → Bool) (l : List NTerm) :
    ntVal τ l = ntVal τ (l.filter p) + ntVal τ (l.filter fun t => !p t) := by
  unfold ntVal
  induction l with
  | nil => simp
  | cons t l ih =>
    rw [List.map_cons, List.sum_cons, ih]
    by_cases h : p t = true
    · simp [h]
      ring
    · simp [h]
      ring

/-- The value of a list of coefficients and products. -/
noncomputable def pairVal (τ : CLoc → ℝ) : List NKey → List SDec → ℝ
  | K :: Ks, c :: cs => SDec.val c * keyVal τ K + pairVal τ Ks cs
  | _, _ => 0

theorem collectNF_sound (τ : CLoc → ℝ) (Ks : List NKey) (l : List NTerm) (cs : List SDec) (h : collectNF Ks l = some cs) :
    ntVal τ l = pairVal τ Ks cs := by
  induction Ks generalizing l cs with
  | nil =>
    cases l with
    | nil => simp [ntVal, pairVal]
    | cons t l => exact absurd h (by simp [collectNF])
  | cons K Ks ih =>
    unfold collectNF at h
    split at h
    · exact absurd h (by simp)
    · rename_i r hr
      cases h
      rw [ntVal_filter τ (NTerm.has K), pairVal, coefSum_val τ K _ (fun t ht => (List.mem_filter.1 ht).2), ih _ _ hr]

/-- The coefficients of an expression. -/
def CExpr.coefs (Ks : List NKey) (e : CExpr) : Option (List SDec) := match e.nf with
  | some l => collectNF Ks l
  | none => none

theorem coefs_sound (τ : CLoc → ℝ) {Ks : List NKey} {e : CExpr} {cs : List SDec} (h : e.coefs Ks = some cs) :
    e.evalT τ = pairVal τ Ks cs := by
  unfold CExpr.coefs at h
  split at h
  · rename_i l hl
    rw [nf_sound τ e l hl, collectNF_sound τ Ks l cs h]
  · exact absurd h (by simp)

/-- The decimal number is within `10^(-14) * b / y` of `x / y`. -/
def closeQ (d : SDec) (x : Int) (y b : Nat) : Bool :=
  Nat.ble ((d.1 * y - x * 10 ^ d.2).natAbs * 10 ^ 14) (b * 10 ^ d.2)

theorem closeQ_sound {d : SDec} {x : Int} {y b : Nat} (hy : 0 < y) (h : closeQ d x y b = true) :
    |(SDec.val d : ℝ) - (x : ℝ) / y| ≤ (b : ℝ) / y / 10 ^ 14 := by
  have h := Nat.le_of_ble_eq_true h
  have hy' : (0 : ℝ) < y := by exact_mod_cast hy
  have h' : |(d.1 : ℝ) * y - x * 10 ^ d.2| * 10 ^ 14 ≤ b * 10 ^ d.2 := by
    have : (((d.1 * y - x * 10 ^ d.2).natAbs * 10 ^ 14 : Nat) : ℝ) ≤ ((b * 10 ^ d.2 : Nat) : ℝ) := by exact_mod_cast h
    push_cast at this
    rw [Nat.cast_natAbs] at this
    push_cast at this
    rw [show (10 : ℝ) ^ 14 = 100000000000000 by norm_num]
    exact this
  unfold SDec.val
  have e : (d.1 : ℝ) / 10 ^ d.2 - (x : ℝ) / y = ((d.1 : ℝ) * y - x * 10 ^ d.2) / (10 ^ d.2 * y) := by
    field_simp
  rw [e, abs_div, abs_of_pos (show (0 : ℝ) < 10 ^ d.2 * y by positivity), div_le_iff₀ (by positivity)]
  have : (b : ℝ) / y / 10 ^ 14 * (10 ^ d.2 * y) = b * 10 ^ d.2 / 10 ^ 14 := by field_simp
  rw [this, le_div_iff₀ (by positivity)]
  exact h'

end DLB
