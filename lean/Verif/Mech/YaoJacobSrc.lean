/- Generated by tools/gen_mechanisms.py. Do not edit. -/
import Verif.Model.Jacobian
import Verif.Mech.YaoJacob
import Verif.Mech.YaoJacob0
import Verif.Mech.YaoJacob1
import Verif.Mech.YaoJacob2
import Verif.Mech.YaoJacob3
import Verif.Mech.YaoJacob4
import Verif.Mech.YaoJacob5
import Verif.Mech.YaoJacob6
set_option autoImplicit false

namespace DLB.Mech.Yao
open DLB

/-- utilities/mechanisms/yao/lib/src/jacob.c and jacobs/jacob_<k>.c. Simplified: only the statements on which the entries 0 to 53 of `jac` depend, that is without the
statements under "partial of rxn <r> wrt species" and without eval_jacob_7 to eval_jacob_8; the generator checks that what is left out
assigns no such entry and nothing that the statements kept read. An assignment to `*J_nplusone` is moved behind the assignments to
entries of `jac` in its block, which neither read nor assign what it does. -/
def jacobSlice : JacobSrc where
  pre := jacobPre
  dBdT := jacobDBdT
  parts := [⟨true, jacob0Start, jacob0Blocks⟩, ⟨true, jacob1Start, jacob1Blocks⟩, ⟨true, jacob2Start, jacob2Blocks⟩, ⟨true, jacob3Start, jacob3Blocks⟩, ⟨true, jacob4Start, jacob4Blocks⟩, ⟨true, jacob5Start, jacob5Blocks⟩, ⟨false, jacob6Start, jacob6Blocks⟩]
  cpAvg := jacobCpAvg
  endStart := []
  endRows := []
  last := jacobLast

end DLB.Mech.Yao
