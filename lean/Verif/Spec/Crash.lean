import Verif.Model.Mpi
/-
Crashes of ranks, at any point of a run.
-/
set_option autoImplicit false

namespace DLB

variable {S R : Type} {n : Nat}

/-- Some rank takes its next step, or some rank stops for good wherever it is (killed, out of memory).
What the rank has contributed to collective operations before may still reach the others; that it does
not, is the case in which the others take no further steps. -/
def StepOrCrash (c c' : Config S R n) : Prop :=
  Step c c' ∨ ∃ r, c' = Function.update c r { c r with prog := .fail }

end DLB
