import Verif.Props.SeulexNumerics
/-
C58: after a rejected attempt the Jacobian of the step is a new one.
-/
set_option autoImplicit false
set_option linter.unusedSectionVars false

namespace DLB

section AnyArithmetic
variable {S : Type} {n : Nat}
variable [Zero S] [Add S] [Sub S] [Mul S] [Div S] [Neg S] [NatCast S] [OfScientific S]
variable [LT S] [DecidableLT S] [LE S] [DecidableLE S] [BEq S] [Consts S] [MathOps S]

/-- **C58, any arithmetic.** A step that is accepted with another length than the one tried first, because an attempt was rejected, uses a
Jacobian evaluated in this step (at its `x`), not one of an earlier step or of another cell. -/
theorem C58_jacobian_after_rejection (E : SeulexEnv S n) (hE : E.jacRedo < (2.0 : S) * E.jacRedo)
    (scr scr' : Scratch S n) (x x' : S) (y y' : Vec S (n + 1)) (step step' : StepState S)
    (h : seulexSolve E scr x y step = .ok (scr', x', y', step'))
    (hrej : step'.dxDid ≠ if step.forward then absS step.dxTry else -absS step.dxTry) :
    ∃ z, scr'.dfdy = E.jacobian x z := by
  obtain ⟨r, kopt, kT, d, hr, -, -, -, -, h1, -, rfl⟩ := seulexSolve_inv h
  rw [h1]
  replace hrej : r.dx ≠ if step.forward then absS step.dxTry else -absS step.dxTry := hrej
  by_cases hθ : E.jacRedo < (startInner E scr y step).theta
  · rw [decide_eq_true hθ] at hr
    rw [attempts_keeps_jacobian _ _ _ _ _ _ hr]
    unfold startJacobian
    rw [if_pos (decide_eq_true hθ)]
    exact ⟨y, rfl⟩
  · rw [decide_eq_false hθ] at hr
    cases hf : E.fuel with
    | zero => rw [hf] at hr; cases hr
    | succ fuel =>
      rw [hf] at hr
      unfold attempts at hr
      simp only [bind, Except.bind] at hr
      split at hr
      · cases hr
      rename_i a ha
      split at hr
      · cases hr
        exact absurd rfl hrej
      · simp only [Bool.false_eq_true, if_false, Bool.not_false, Bool.true_and, decide_eq_true hE, if_true, Bool.or_true] at hr
        exact ⟨_, attempts_keeps_jacobian _ _ _ _ _ _ hr⟩

end AnyArithmetic

/-- The step and the Jacobian of a step of `relaxation` from 1000 with the Jacobian 7 of an earlier step, first tried with `dx`. -/
def laterStep (dx : ℚ) : Option (ℚ × ℚ) :=
  letI := ratMath
  (seulexSolve relaxation { leftover 7 with kTarg := 3 } 0 (fun _ => 1000) { StepState.init dx with first := false }).toOption.map
    (fun r => (r.2.2.2.dxDid, r.1.dfdy 0 0))

/-- A case of C58: a step of 1 is rejected and accepted with a half, with a new Jacobian; a step of 1/10 is accepted with the old one. -/
example : laterStep 1 = some (1 / 2, -1) ∧ laterStep (1 / 10) = some (1 / 10, 7) := by decide +kernel

end DLB
