import Verif.Props.SeulexInvariants
import Verif.Lemmas.Stability
/-
C127: the integrator does not amplify what relaxes, however long the steps are.
-/
set_option autoImplicit false
set_option linter.unusedSectionVars false

namespace DLB
open Spec

section Exact
variable {K : Type} {n : Nat} [Field K] [LinearOrder K] [IsStrictOrderedRing K] [MathOps K]

/-! ### Specification -/

/-- The combination `ℓ` of the unknowns relaxes to `c` with the rate `lam`, and the Jacobian says so too. -/
structure Relaxes (E : SeulexEnv K n) (ℓ : Vec K (n + 1)) (c lam : K) : Prop where
  rate : ∀ x y, ∑ i, ℓ i * E.derivatives x y i = -lam * (∑ i, ℓ i * y i - c)
  jacobian : ∀ x y j, ∑ i, ℓ i * E.jacobian x y i j = -lam * ℓ j

/-- The distance of the combination from the value to which it relaxes. -/
def distance (ℓ : Vec K (n + 1)) (c : K) (y : Vec K (n + 1)) : K := ∑ i, ℓ i * y i - c

/-! ### Lemmas -/

theorem relax_increment {E : SeulexEnv K n} {ℓ : Vec K (n + 1)} {c lam : K} (hs : SolvesCombination E ℓ) (hr : Relaxes E ℓ c lam) (hl : 0 ≤ lam)
    {h : K} (hh : 0 < h) (xj : K) (zj : Vec K (n + 1)) (x : K) (z : Vec K (n + 1)) :
    distance ℓ c (fun i => z i + E.linearSolve (systemArray (E.jacobian xj zj) h) (E.derivatives x z) i) = distance ℓ c z / (1 + lam * h) := by
  have := hs xj zj h (E.derivatives x z) hh
  rw [show ℓ ⬝ᵥ E.derivatives x z = -lam * distance ℓ c z from hr.rate x z, Matrix.sub_mulVec, dotProduct_sub,
    Matrix.dotProduct_mulVec ℓ (Matrix.of (E.jacobian xj zj)),
    show Matrix.vecMul ℓ (Matrix.of (E.jacobian xj zj)) = (-lam) • ℓ from funext fun j => hr.jacobian xj zj j,
    smul_dotProduct, Matrix.smul_mulVec, Matrix.one_mulVec, dotProduct_smul, smul_eq_mul, smul_eq_mul] at this
  have e : distance ℓ c (fun i => z i + E.linearSolve (systemArray (E.jacobian xj zj) h) (E.derivatives x z) i) =
      distance ℓ c z + ℓ ⬝ᵥ E.linearSolve (systemArray (E.jacobian xj zj) h) (E.derivatives x z) := by
    unfold distance
    simp only [mul_add, Finset.sum_add_distrib]
    unfold dotProduct
    ring
  rw [e]
  generalize ℓ ⬝ᵥ E.linearSolve _ _ = s at *
  generalize distance ℓ c z = W at *
  have hp : (0 : K) < 1 + lam * h := by positivity
  rw [eq_div_iff hp.ne']
  have h1 : s + lam * h * s = -lam * h * W := by
    have := congrArg (fun t => h * t) this
    field_simp at this
    linarith
  linarith

theorem relax_row {E : SeulexEnv K n} {ℓ : Vec K (n + 1)} {c lam : K} (hs : SolvesCombination E ℓ) (hr : Relaxes E ℓ c lam) (hl : 0 ≤ lam)
    {J : Mat K (n + 1)} (hJ : ∃ x z, J = E.jacobian x z) {x dx : K} (hdx : 0 < dx) {y scale : Vec K (n + 1)} {l : Nat}
    (hok : (subSteps E J x y dx scale l).ok = true) :
    distance ℓ c (subSteps E J x y dx scale l).y = distance ℓ c y * Stability.g (nSeq l) (lam * dx) := by
  obtain ⟨xj, zj, rfl⟩ := hJ
  have hn := nSeq_cast_pos (K := K) l
  have hh : 0 < dx / ((nSeq l : Nat) : K) := div_pos hdx hn
  have hp : (0 : K) < 1 + lam * (dx / ((nSeq l : Nat) : K)) := by positivity
  have loop : ∀ (left nn : Nat) (xnew : K) (yT dy : Vec K (n + 1)) (θ : K),
      (seulLoop E (systemArray (E.jacobian xj zj) (dx / ((nSeq l : Nat) : K))) x (dx / ((nSeq l : Nat) : K)) l scale left nn xnew yT dy θ).ok = true →
      distance ℓ c (seulLoop E (systemArray (E.jacobian xj zj) (dx / ((nSeq l : Nat) : K))) x (dx / ((nSeq l : Nat) : K)) l scale
        left nn xnew yT dy θ).y = distance ℓ c (fun i => yT i + dy i) / (1 + lam * (dx / ((nSeq l : Nat) : K))) ^ left := by
    intro left
    induction left with
    | zero => intro nn xnew yT dy θ _; simp only [seulLoop, pow_zero, div_one]
    | succ left ih =>
      intro nn xnew yT dy θ h
      simp only [seulLoop] at h ⊢
      split at h
      · cases h
      rw [if_neg ‹_›]
      generalize (if nn = 1 ∧ l ≤ 1 then stabilityTheta E _ x _ scale _ _ else θ) = θ' at h ⊢
      split at h
      · cases h
      rw [if_neg ‹_›, ih _ _ _ _ _ h, relax_increment hs hr hl hh, div_div, pow_succ', ]
  have h1 := loop _ _ _ _ _ _ hok
  unfold subSteps
  rw [h1, relax_increment hs hr hl hh, div_div, ← pow_succ', Nat.sub_add_cancel (by have := nSeq_ge_two l; omega), Stability.g, mul_one_div, mul_div_assoc]

theorem extrapolant_affine (h : Nat → K) (hh : Function.Injective h) (c W : K) (v r : Nat → K) (k : Nat) (hr : ∀ l, l ≤ k → r l = c + W * v l) :
    extrapolant h r 0 k = c + W * extrapolant h v 0 k := by
  have e : Lagrange.interpolate (Finset.Icc 0 k) h r = Lagrange.interpolate (Finset.Icc 0 k) h ((fun _ => c) + W • v) := by
    rw [Lagrange.interpolate_eq_iff_values_eq_on _ _ hh.injOn]
    intro l hl
    rw [hr l (Finset.mem_Icc.1 hl).2]
    rfl
  unfold extrapolant
  rw [e, map_add, map_smul, Polynomial.eval_add, Polynomial.eval_smul, smul_eq_mul]
  congr 1
  rw [← Lagrange.eq_interpolate_of_eval_eq (f := Polynomial.C c) _ hh.injOn]
  · simp
  · refine lt_of_le_of_lt Polynomial.degree_C_le ?_
    have : 0 < (Finset.Icc 0 k).card := Finset.card_pos.2 ⟨0, by simp⟩
    exact_mod_cast this
  · intro i _; simp

/-- What an accepted step does to a relaxing combination. -/
theorem relax_step (hm : PowLaws K) (E : SeulexEnv K n) (ℓ : Vec K (n + 1)) (c lam : K) (hl : 0 ≤ lam)
    (hs : SolvesCombination E ℓ) (hr : Relaxes E ℓ c lam) (scr scr' : Scratch K n) (x x' : K) (y y' : Vec K (n + 1)) (step step' : StepState K)
    (hT : step.first = true ∨ (1 ≤ scr.kTarg ∧ scr.kTarg ≤ 11)) (hdx : 0 < step.dxTry) (hfw : step.forward = true)
    (hjac : ∃ x z, scr'.dfdy = E.jacobian x z) (h : seulexSolve E scr x y step = .ok (scr', x', y', step')) :
    x < x' ∧ ∃ k, 1 ≤ k ∧ k ≤ 12 ∧ distance ℓ c y' = distance ℓ c y *
      extrapolant (fun l => (x' - x) / (nSeq l : K)) (fun l => Stability.g (nSeq l) (lam * (x' - x))) 0 k := by
  obtain ⟨r, kopt, kT, d, hr', hk, hn, rfl, rfl, h1, h2, rfl⟩ := seulexSolve_inv h
  obtain ⟨t1, t2⟩ := startInner_kTarg (E := E) (y := y) hT
  obtain ⟨e, he, hre, hp⟩ := attempts_pos hm (by rw [absS_eq]; exact abs_pos.2 hdx.ne')
    (startInner_dxOpt hdx.ne') t1 t2 hr'
  have hrpos : 0 < r.dx := by
    rw [hre, if_pos hfw]
    exact he
  obtain ⟨k1, k2, hok, hy, -⟩ := attempts_tableau t1 t2 hrpos.ne' hr'
  rw [h1] at hjac
  refine ⟨by linarith, r.k, k1, k2, ?_⟩
  rw [add_sub_cancel_left]
  unfold distance
  simp only [hy]
  rw [extrapolant_sum, extrapolant_affine _ (stepSizes_injective hrpos.ne') c (distance ℓ c y)
    (fun l => Stability.g (nSeq l) (lam * r.dx)) _ _ (fun l hl' => by
      have := relax_row hs hr hl hjac hrpos (hok l hl')
      rw [← this]
      unfold distance
      ring)]
  unfold distance
  ring

theorem relaxes_of_linear (E : SeulexEnv K n) (A : Matrix (Fin (n + 1)) (Fin (n + 1)) K) (y0 : Vec K (n + 1))
    (hf : ∀ x y, E.derivatives x y = A.mulVec (y - y0)) (hJ : ∀ x y, E.jacobian x y = A) (ℓ : Vec K (n + 1)) (lam : K)
    (hev : Matrix.vecMul ℓ A = -lam • ℓ) :
    (∀ z : Vec K (n + 1), ∑ i, ℓ i * (z i - y0 i) = distance ℓ (∑ i, ℓ i * y0 i) z) ∧ Relaxes E ℓ (∑ i, ℓ i * y0 i) lam := by
  have e : ∀ z : Vec K (n + 1), ∑ i, ℓ i * (z i - y0 i) = distance ℓ (∑ i, ℓ i * y0 i) z := fun z => by
    unfold distance
    rw [← Finset.sum_sub_distrib]
    exact Finset.sum_congr rfl fun i _ => by ring
  refine ⟨e, fun x z => ?_, fun x z j => ?_⟩
  · rw [hf]
    change ℓ ⬝ᵥ A.mulVec (z - y0) = _
    rw [Matrix.dotProduct_mulVec, hev, smul_dotProduct, smul_eq_mul]
    congr 1
    exact e z
  · rw [hJ]
    exact congrFun hev j

/-! ### Properties -/

/-- **C127, one step.** A step of the integrator that is accepted brings a relaxing combination closer to its limit: by a factor of at least
`1 + lam dx / 2`, whatever the length `dx` of the step and the order. -/
theorem C127_step_does_not_amplify (hm : PowLaws K) (E : SeulexEnv K n) (ℓ : Vec K (n + 1)) (c lam : K) (hl : 0 ≤ lam)
    (hs : SolvesCombination E ℓ) (hr : Relaxes E ℓ c lam) (scr scr' : Scratch K n) (x x' : K) (y y' : Vec K (n + 1)) (step step' : StepState K)
    (hT : step.first = true ∨ (1 ≤ scr.kTarg ∧ scr.kTarg ≤ 11)) (hdx : 0 < step.dxTry) (hfw : step.forward = true)
    (hjac : ∃ x z, scr'.dfdy = E.jacobian x z) (h : seulexSolve E scr x y step = .ok (scr', x', y', step')) :
    x < x' ∧ |distance ℓ c y'| * (1 + lam * (x' - x) / 2) ≤ |distance ℓ c y| := by
  obtain ⟨hx, k, k1, k2, key⟩ := relax_step hm E ℓ c lam hl hs hr scr scr' x x' y y' step step' hT hdx hfw hjac h
  refine ⟨hx, ?_⟩
  have hd : 0 < x' - x := sub_pos.2 hx
  rw [key, abs_mul, mul_assoc]
  exact mul_le_of_le_one_right (abs_nonneg _) (Stability.amplification k1 k2 hd.ne' (by positivity))

/-- **C127.** If a combination of the unknowns relaxes to a limit with any rate, however large, an integration that returns has brought it closer to
the limit, whatever steps were taken or rejected: by a factor of at least `1 + lam t / 2` after the time `t`. -/
theorem C127_relaxing_combinations_decay (hm : PowLaws K) (E : SeulexEnv K n) (hj : E.jacRedo < 2 * E.jacRedo) (ℓ : Vec K (n + 1)) (c lam : K)
    (hl : 0 ≤ lam) (hs : SolvesCombination E ℓ) (hr : Relaxes E ℓ c lam) (maxSteps : Nat) (scr : Scratch K n)
    (xStart xEnd : K) (hlt : xStart < xEnd) (y : Vec K (n + 1)) (dxTry : K) (hpos : 0 < dxTry)
    (r : DriverResult K (n + 1) (Scratch K n)) (h : driverSolve (seulexSolve E) maxSteps scr xStart xEnd y dxTry = .ok r) :
    |distance ℓ c r.y| * (1 + lam * (xEnd - xStart) / 2) ≤ |distance ℓ c y| := by
  have hj' : E.jacRedo < ((2 : Nat) : K) * E.jacRedo := by exact_mod_cast hj
  obtain ⟨hch, hend, -⟩ := driverLoop_chain hlt
    (fun scr _ _ step => Running E scr step)
    (fun a b => a.1 < b.1 ∧ |distance ℓ c b.2| * (1 + lam * (b.1 - a.1) / 2) ≤ |distance ℓ c a.2|) (by
      intro scr x y step scr' x' y' step' hI hx hx' hst
      obtain ⟨a1, a2, a3⟩ := running_step hm hj' hI hx hx' hst
      obtain ⟨-, -, p1, -⟩ := driverPrepare_spec hx hx' step hI.dxTry
      have pf : (driverPrepare xStart xEnd x step).first = step.first := by
        unfold driverPrepare; dsimp only; split <;> rfl
      have pw : (driverPrepare xStart xEnd x step).forward = true := by
        rw [← hI.forward]; unfold driverPrepare; dsimp only; split <;> rfl
      exact ⟨a1, C127_step_does_not_amplify hm E ℓ c lam hl hs hr _ _ _ _ _ _ _ _ (by rw [pf]; exact hI.order) p1 pw a2 hst, a3⟩)
    maxSteps 0 scr xStart y _ r (running_start _ scr hpos) le_rfl hlt h
  have chain : ∀ a b : K × Vec K (n + 1), Chain (fun a b : K × Vec K (n + 1) => a.1 < b.1 ∧
      |distance ℓ c b.2| * (1 + lam * (b.1 - a.1) / 2) ≤ |distance ℓ c a.2|) a b →
      a.1 < b.1 ∧ |distance ℓ c b.2| * (1 + lam * (b.1 - a.1) / 2) ≤ |distance ℓ c a.2| := by
    intro a b hab
    induction hab with
    | one h => exact h
    | @cons a b d h t ih =>
      refine ⟨h.1.trans ih.1, le_trans ?_ h.2⟩
      have h1 : 0 ≤ lam * (b.1 - a.1) := mul_nonneg hl (by linarith [h.1])
      have h2 : 0 ≤ lam * (d.1 - b.1) := mul_nonneg hl (by linarith [ih.1])
      have h3 := mul_le_mul_of_nonneg_right ih.2 (by linarith : 0 ≤ 1 + lam * (b.1 - a.1) / 2)
      refine le_trans ?_ h3
      rw [mul_assoc]
      refine mul_le_mul_of_nonneg_left ?_ (abs_nonneg _)
      have := mul_nonneg h1 h2
      linarith
  refine le_trans (mul_le_mul_of_nonneg_left ?_ (abs_nonneg _)) (chain _ _ hch).2
  have := mul_le_mul_of_nonneg_left (sub_le_sub_right hend xStart) hl
  dsimp only
  linarith

/-- **C127, linear systems.** For `y' = A (y - y0)`, with the matrix `A` as the Jacobian and regular systems solved, every left eigenvector of `A` with
a real eigenvalue `-lam` that is not positive gives a combination that decays. -/
theorem C127_linear_systems (hm : PowLaws K) (E : SeulexEnv K n) (hj : E.jacRedo < 2 * E.jacRedo) (A : Matrix (Fin (n + 1)) (Fin (n + 1)) K)
    (y0 : Vec K (n + 1)) (hf : ∀ x y, E.derivatives x y = A.mulVec (y - y0)) (hJ : ∀ x y, E.jacobian x y = A)
    (hE : LapackContract (n + 1) E.linearSolve) (hreg : ∀ h, 0 < h → Regular A h) (ℓ : Vec K (n + 1)) (lam : K) (hl : 0 ≤ lam)
    (hev : Matrix.vecMul ℓ A = -lam • ℓ) (maxSteps : Nat) (scr : Scratch K n) (xStart xEnd : K) (hlt : xStart < xEnd) (y : Vec K (n + 1)) (dxTry : K)
    (hpos : 0 < dxTry) (r : DriverResult K (n + 1) (Scratch K n))
    (h : driverSolve (seulexSolve E) maxSteps scr xStart xEnd y dxTry = .ok r) :
    |∑ i, ℓ i * (r.y i - y0 i)| * (1 + lam * (xEnd - xStart) / 2) ≤ |∑ i, ℓ i * (y i - y0 i)| := by
  obtain ⟨e, hr⟩ := relaxes_of_linear E A y0 hf hJ ℓ lam hev
  rw [e, e]
  exact C127_relaxing_combinations_decay hm E hj ℓ _ lam hl
    (solvesCombination_of_regular hE (fun x z h hh => by rw [hJ]; exact hreg h hh) ℓ) hr
    maxSteps scr xStart xEnd hlt y dxTry hpos r h

end Exact

/-! ### Cases -/

/-- Two bodies that exchange heat, far longer than they take to come to the same temperature, with a first step of that length: the difference of the
temperatures, once 600, the bound of C127 on it, and the number of steps. -/
def exchangeLong : Option (Bool × Nat) :=
  letI := ratMath
  (driverSolve (seulexSolve exchange) 20 ⟨0, 0, fun _ _ => 0, fun _ _ => 5, fun _ => 0, fun _ => 0⟩ 0 50
    (fun i => if i = 0 then 1000 else 400) 50).toOption.map (fun r =>
      (decide (|r.y 0 - r.y 1| * (1 + 2 * 50 / 2) ≤ 600 ∧ r.y 0 ≠ r.y 1), r.steps))

theorem exchange_difference : SolvesCombination exchange (fun i => if i = 0 then 1 else -1) := by
  intro x z h b hh
  have hne : h ≠ 0 := hh.ne'
  have two : ∀ v : Fin (1 + 1) → ℚ, ∑ i, v i = v 0 + v 1 := fun v => Fin.sum_univ_two v
  simp only [dotProduct, Matrix.mulVec, two, Matrix.sub_apply, Matrix.smul_apply, Matrix.one_apply, Matrix.of_apply,
    exchange, systemArray]
  norm_num
  have h2 : (1 : ℚ) + 2 * h ≠ 0 := by positivity
  have h3 : (1 + h) ^ 2 - h ^ 2 ≠ 0 := by
    have : (1 + h) ^ 2 - h ^ 2 = 1 + 2 * h := by ring
    rw [this]; exact h2
  have h4 : (1 : ℚ) + h * 2 ≠ 0 := by positivity
  field_simp
  ring_nf
  field_simp
  ring

/-- A case of C127 (`ratMath_powLaws` and `exchange_difference` are the other hypotheses). -/
example : exchangeLong = some (true, 1) ∧ Relaxes exchange (fun i => if i = 0 then 1 else -1) 0 2 := by
  have two : ∀ v : Fin (1 + 1) → ℚ, ∑ i, v i = v 0 + v 1 := fun v => Fin.sum_univ_two v
  refine ⟨by decide +kernel, ⟨fun x y => ?_, fun x y j => ?_⟩⟩
  · rw [two, two]; simp [exchange]; ring
  · rw [two]
    have : j = 0 ∨ j = 1 := by revert j; decide
    rcases this with rfl | rfl <;> simp [exchange] <;> norm_num

end DLB
