import Verif.Lemmas.CheckThermo
import Verif.Lemmas.Shipped
/-
What the checks of the thermodynamics mean.
-/
set_option autoImplicit false
set_option linter.unusedSectionVars false

namespace DLB

section
variable {K : Type} [Field K] [LinearOrder K] [IsStrictOrderedRing K]

/-- Sum of the absolute values of the terms. -/
def QPoly.absEval (x : K) (p : QPoly) : K := IPoly.absEval x p.1 / 10 ^ p.2

theorem QPoly.close_eval {a b : Int} {p q : QPoly} (h : QPoly.close a b p q = true) (ha : 0 < a) (hb : 0 < b) (x : K) :
    |p.eval x - b / a * q.eval x| ≤ 3 / 10 ^ 15 * (b / a * q.absEval x) := by
  have h10 : ∀ n : Nat, (0 : K) < 10 ^ n := fun n => pow_pos (by norm_num) _
  have h1 := IPoly.close_eval (K := K) _ _ _ _ _ _ h x
  have ha' : (0 : K) < a := by exact_mod_cast ha
  have hb' : (0 : K) < b := by exact_mod_cast hb
  have hp := h10 p.2
  have hq := h10 q.2
  push_cast at h1
  rw [abs_of_pos (mul_pos hb' hp)] at h1
  have e : ((a : K) * 10 ^ q.2 * IPoly.eval x p.1 - b * 10 ^ p.2 * IPoly.eval x q.1) =
      (a * 10 ^ p.2 * 10 ^ q.2) * (p.eval x - b / a * q.eval x) := by
    unfold QPoly.eval
    field_simp
  have hc : (0 : K) < a * 10 ^ p.2 * 10 ^ q.2 := by positivity
  rw [e, abs_mul, abs_of_pos hc] at h1
  have e2 : (3 : K) * (b * 10 ^ p.2 * IPoly.absEval x q.1) =
      (a * 10 ^ p.2 * 10 ^ q.2) * (3 * (b / a * q.absEval x)) := by
    unfold QPoly.absEval
    field_simp
  rw [e2, mul_assoc] at h1
  have h2 := le_of_mul_le_mul_left h1 hc
  have e3 : (3 : K) / 10 ^ 15 * (b / a * q.absEval x) = 3 * (b / a * q.absEval x) / 1000000000000000 := by ring
  rw [e3, le_div_iff₀ (by norm_num)]
  exact h2

theorem QPoly.absEval_nil (x : K) : QPoly.absEval x (.ofCoeffs []) = 0 := by
  simp [QPoly.ofCoeffs, QPoly.absEval, IPoly.absEval]

theorem IPoly.absEval_smul (x : K) (c : Int) (hc : 0 ≤ c) (p : IPoly) :
    IPoly.absEval x (IPoly.smul c p) = c * IPoly.absEval x p := by
  have hc' : (0 : K) ≤ c := by exact_mod_cast hc
  induction p with
  | nil => simp [IPoly.smul, IPoly.absEval]
  | cons a p ih =>
    have : IPoly.smul c (a :: p) = (c * a) :: IPoly.smul c p := rfl
    rw [this]
    simp only [IPoly.absEval, ih]
    push_cast
    rw [abs_mul, abs_of_nonneg hc']
    ring

theorem QPoly.absEval_cons (x : K) (d : SDec) (ds : List SDec) :
    QPoly.absEval x (.ofCoeffs (d :: ds)) = |SDec.val d| + |x| * QPoly.absEval x (.ofCoeffs ds) := by
  have h10 : ∀ n : Nat, (0 : K) < 10 ^ n := fun n => pow_pos (by norm_num) _
  have hv : |(SDec.val d : K)| = |(d.1 : K)| / 10 ^ d.2 := by
    unfold SDec.val
    rw [abs_div, abs_of_pos (h10 _)]
  rw [hv, QPoly.ofCoeffs]
  generalize QPoly.ofCoeffs ds = r
  unfold QPoly.add QPoly.absEval
  have hd := h10 d.2
  have hr := h10 r.2
  dsimp only
  split
  · rename_i h
    have e : (10 : K) ^ r.2 = 10 ^ (r.2 - d.2) * 10 ^ d.2 := by rw [← pow_add]; congr 1; omega
    have hk := h10 (r.2 - d.2)
    simp only [IPoly.smul, List.map_cons, List.map_nil, IPoly.add, IPoly.absEval]
    push_cast
    rw [add_zero, abs_mul, abs_of_pos hk, add_div]
    congr 1
    · rw [e, mul_div_mul_left _ _ hk.ne']
    · rw [mul_div_assoc]
  · rename_i h
    have e : (10 : K) ^ d.2 = 10 ^ (d.2 - r.2) * 10 ^ r.2 := by rw [← pow_add]; congr 1; omega
    have hk := h10 (d.2 - r.2)
    have e2 : IPoly.smul ((10 ^ (d.2 - r.2) : Nat) : Int) (0 :: r.1) = 0 :: IPoly.smul ((10 ^ (d.2 - r.2) : Nat) : Int) r.1 := by
      simp [IPoly.smul]
    rw [e2]
    simp only [IPoly.add, IPoly.absEval]
    rw [IPoly.absEval_smul _ _ (by positivity), add_zero, add_div]
    congr 1
    rw [e]
    push_cast
    have := hk.ne'
    have := hr.ne'
    field_simp

theorem times_val (n : Int) (d : SDec) : (SDec.val (d.times n) : K) = n * SDec.val d := by
  unfold SDec.val SDec.times
  push_cast
  rw [mul_div_assoc]

theorem cpQ_eval (a : List SDec) (T : K) : (cpQ a).eval T = cpOverR a T := by
  simp only [cpQ, QPoly.eval_ofCoeffs_cons, QPoly.eval_ofCoeffs_nil, cpOverR, nasaCoeff]
  ring

theorem hQ_eval (a : List SDec) (T : K) : (hQ a).eval T = 60 * hOverR a T := by
  simp only [hQ, QPoly.eval_ofCoeffs_cons, QPoly.eval_ofCoeffs_nil, hOverR, nasaCoeff, times_val]
  push_cast
  ring

theorem cpQ_abs (a : List SDec) (T : K) : (cpQ a).absEval T = cpTerms a T := by
  simp only [cpQ, QPoly.absEval_cons, QPoly.absEval_nil, cpTerms, nasaCoeff, abs_mul, abs_pow]
  ring

theorem hQ_abs (a : List SDec) (T : K) : (hQ a).absEval T = 60 * hTerms a T := by
  simp only [hQ, QPoly.absEval_cons, QPoly.absEval_nil, hTerms, nasaCoeff, times_val, abs_mul, abs_pow, abs_div]
  push_cast
  have : ∀ n : ℕ, |(OfNat.ofNat (n + 2) : K)| = OfNat.ofNat (n + 2) := fun n => by
    exact abs_of_nonneg (by exact Nat.ofNat_nonneg (n + 2))
  rw [this 58, this 28, this 18, this 13, this 10, this 0, this 1, this 2, this 3]
  field_simp
  ring

/-- Value of a check of distance. -/
theorem within_sound {p q r : QPoly} {k l : Int} {a b : Nat} (h : Package.within p q k l r a b = true) (hk : 0 ≤ k) (x : K)
    (ha : (a : K) ≤ x) (hb : x ≤ b) : k * |p.eval x - q.eval x| ≤ l * r.eval x := by
  have h10 : ∀ n : Nat, (0 : K) < 10 ^ n := fun n => pow_pos (by norm_num) _
  have key : ∀ s : QPoly, s.1.nonnegOn a b 8 = true → 0 ≤ s.eval x := fun s hs =>
    div_nonneg (IPoly.nonneg_of_check _ _ _ _ hs x ha hb) (h10 _).le
  simp only [Package.within, Bool.and_eq_true] at h
  have h1 := key _ h.1
  have h2 := key _ h.2
  simp only [QPoly.eval_add, QPoly.eval_smul, QPoly.eval_neg] at h1 h2
  push_cast at h2
  have hk' : (0 : K) ≤ k := by exact_mod_cast hk
  rcases abs_cases (p.eval x - q.eval x) with ⟨e, _⟩ | ⟨e, _⟩ <;> rw [e] <;> linarith

/-- `gas5 / weight5` is the gas constant divided by the molecular weight. -/
theorem gas_ratio (D : Package) (i : Nat) : ((gas5 : Int) : K) / ((D.weight5 i : Int) : K) = gasR / D.molWeight i := by
  unfold gas5 gasR Package.molWeight
  push_cast
  rw [div_div_eq_mul_div]
  norm_num

theorem weight5_pos {D : Package} (h : Checked D) (i : Nat) (hi : i < D.nsp) : 0 < (D.weight5 i : Int) := by
  have := List.all_eq_true.1 h.weights i (List.mem_range.2 hi)
  simp only [Bool.and_eq_true] at this
  exact_mod_cast (weightOk_sound (K := ℚ) this.1.1.1).1

variable [CMath K]

/-- What a call of eval_cp returns. -/
theorem cp_value {D : Package} (h : Checked D) (t : ThermoChecked D) (T : K) :
    ∃ σ, D.mech.callCp T = some σ ∧ ∀ i, i < D.nsp → σ (.arr .cp i) = some ((D.cpPiece i).eval T) := by
  obtain ⟨σ, e, hv⟩ := cp_call h.thermoSafe T
  have hp := t.pieces
  simp only [Package.checkThermoPieces, Bool.and_eq_true] at hp
  refine ⟨σ, e, fun i hi => ?_⟩
  rw [hv i hi, pieces_val hp.1 _ i hi]
  rfl

/-- What a call of eval_h returns. -/
theorem h_value {D : Package} (h : Checked D) (t : ThermoChecked D) (T : K) :
    ∃ σ, D.mech.callH T = some σ ∧ ∀ i, i < D.nsp → σ (.arr .h i) = some ((D.hPiece i).eval T) := by
  obtain ⟨σ, e, hv⟩ := h_call h.thermoSafe T
  have hp := t.pieces
  simp only [Package.checkThermoPieces, Bool.and_eq_true] at hp
  refine ⟨σ, e, fun i hi => ?_⟩
  rw [hv i hi, pieces_val hp.2 _ i hi]
  rfl

end
end DLB
